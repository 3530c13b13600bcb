import Verif.Lemmas.MinRun
import Verif.Lemmas.MinFast

set_option autoImplicit false

/-
Side, grid 4, steps to adjacent cells: no curve has less dilation.  This file is generated.
-/
namespace Peano
namespace MinCert

/-- Table of links and of their specs. -/
def side4aEnv : Env where
  N := 4
  G := 16
  m := 1
  S := 1
  W := 5
  B := 200
  L := 8
  links := [([0, 0], [0, 1]), ([0, 0], [1, 0]), ([0, 1], [0, 0]), ([0, 1], [1, 1]), ([1, 0], [0, 0]), ([1, 0], [1, 1]), ([1, 1], [0, 1]), ([1, 1], [1, 0])]
  doms := [
    [⟨[(1, false), (0, false)], false, 0⟩, ⟨[(1, false), (0, true)], true, 0⟩],
    [⟨[(0, false), (1, false)], false, 0⟩, ⟨[(0, true), (1, false)], true, 0⟩],
    [⟨[(1, false), (0, false)], true, 0⟩, ⟨[(1, false), (0, true)], false, 0⟩],
    [⟨[(0, false), (1, true)], false, 0⟩, ⟨[(0, true), (1, true)], true, 0⟩],
    [⟨[(0, false), (1, false)], true, 0⟩, ⟨[(0, true), (1, false)], false, 0⟩],
    [⟨[(1, true), (0, false)], false, 0⟩, ⟨[(1, true), (0, true)], true, 0⟩],
    [⟨[(0, false), (1, true)], true, 0⟩, ⟨[(0, true), (1, true)], false, 0⟩], [⟨[(1, true), (0, false)], true, 0⟩, ⟨[(1, true), (0, true)], false, 0⟩]]

/-- Data of the search of paths. -/
def side4aEnum : Enum where
  L := 8
  B := 200
  ones := 6
  offs := [1, 5]
  trans := [
    [(1, 6), (1, 7), (7, 0), (7, 1)], [(5, 6), (5, 7), (11, 0), (11, 1)], [(1, 4), (1, 5), (5, 2), (5, 3)], [(7, 4), (7, 5), (11, 2), (11, 3)],
    [(1, 4), (1, 5), (5, 2), (5, 3)], [(7, 4), (7, 5), (11, 2), (11, 3)], [(1, 6), (1, 7), (7, 0), (7, 1)], [(5, 6), (5, 7), (11, 0), (11, 1)]]
  U := 32472000
  F := 2097152
  starts := [(6, 0), (6, 1)]
  finals := [(21, 1), (21, 7)]

def side4aTab : Tab := ⟨side4aEnv, [([0, 0], [1, 0])], [side4aEnum]⟩

theorem side4a_ok : side4aTab.Ok 2 4 1 1 := Fast.ok_sound (by decide +kernel)

def side4aPaths0 : List ℕ := [
  1582091770133659380847150326351676775, 1582091770133680522162682468027825969, 1582091770138006504327137113029515575,
  1582091770138006507298734258427825969, 1582282734155440410500708406351676775, 1620128818470253342013054067061747169,
  1620319176751341756333550326351676775, 1620319177616538783543908406351676775]

def side4aTree : CT :=
  .node (.node (.node (.node .nil 1582091770133659380847150326351676775 .nil) 1582091770133680522162682468027825969 .nil)
  1582091770138006504327137113029515575 (.node .nil 1582091770138006507298734258427825969 .nil)) 1582282734155440410500708406351676775 (.node (.node
  .nil 1620128818470253342013054067061747169 .nil) 1620319176751341756333550326351676775 (.node .nil 1620319177616538783543908406351676775 .nil))

theorem side4a_paths : ∀ P ∈ side4aEnum.all 16, P ∈ side4aPaths0 := by
  have h : side4aTree.toList = side4aPaths0 := by decide +kernel
  rw [← h]
  exact side4aEnum.allF_sound 16 side4aTree (by decide +kernel)

def side4a_l1_0 : List ℕ := [
  12, 8, 73795984045996507149, 73795984045996507149, 48, 52, 110709739767202644021, 110709739767202644021, 8, 19809519872151838654858266165,
  19809519872151821053084042769, 32, 52, 48, 4722398254770033793573, 604466976610692100856333, 110700732567947640869, 12, 8, 73795984045996507149,
  73795984045996507149, 52, 1209075987887169733197861, 1813721923983340657508389, 24, 864814281273638917, 12, 576531128563793925,
  73796106646911451141, 24, 864814281273638917, 12, 576531128563793925, 73796106646911451141, 36, 1513976627241, 48, 110709739224970559525,
  73809723002139443237, 40, 4, 20, 73800487920501915657, 14170270088712129872921, 20, 73800487921575985161, 110705235068063514633, 20, 4,
  73800487920501915657, 9446462453824245204013, 4, 1813796287279650327691273, 1813796287279787808260105, 28, 8, 73804991795007324173, 4,
  4722373467242449863713, 9447038862625647625225, 48, 52, 110709739767202644021, 110709739767202644021, 8, 1813870650751881858318349,
  1813870650752019338887181, 36, 1513976627241, 48, 110709739224970559525, 73809723002139443237]

theorem side4a_l1_run0 : run .l1 2 9 1 side4aEnv [] side4a_l1_0 (side4aPaths0.map fun P => ⟨[P], []⟩) = true := Run.run_one (by decide +kernel)

def side4a_l2_0 : List ℕ := [
  28, 32, 36893646890484109325, 36893648264873644045, 32, 36893646890484109365, 36893648264873644085, 12, 0, 8, 9445885958163471009333, 52, 4,
  604463806076554431306761, 77371330284293228658236425, 4, 604463806182107547573261, 604463517951731395795981, 9445885958163471008293, 32, 52, 56,
  14169693786289484078097, 14169693787802310810637, 28, 1813720791240210923917369, 48, 4, 8, 1813720777729412041802809, 604463806182107547573261, 0,
  604463517951731395795981, 1813720775565573158339109, 1813720802499209992346169, 36, 604465823689059751432721, 1813721923912971913330725, 12, 8,
  9445885958163471009333, 9445885958163471009305, 24, 56, 60, 77371847369640827830607901, 1813647019991330392645181, 60,
  9903596463609028368023160841, 14169117343680120757773, 28, 56, 29714811075023382068798164497, 60, 9903596463609028368023160841,
  1813648137042230191259709, 36893629298298064397, 24, 4, 8, 14169117114981702173753, 52, 56, 14169117326087934712845, 14169117327050007387149,
  604463806217291919662093, 8, 0, 52, 56, 14169117326087934712845, 14169117327050007387149, 604463517986915767884813, 4722371233172252787229,
  4722373484972066472989, 12, 8, 9445885958163471009333, 9445885958163471009305, 28, 604465247228305300524561, 1813648136901492702904349, 48, 52,
  4722398166809137125941, 4722398061256020859445, 36, 4, 0, 1209294759035162326991401, 154789729154389842231099957, 0, 4722371215442652955177,
  9903530242398632535421688325, 32, 4, 19813146651340047203960885769, 0, 1813871227107081062252549, 9903530242398632535421688325,
  36893665857059689013, 20, 28, 32, 73800488332818776097, 40, 110705235479306305569, 9446462507839851462689, 32, 40, 73800488333892845601,
  9446462506600803340333, 40, 110705235480380375073, 1209147201003500987224109, 28, 32, 40, 1813794578163729220767769, 1209150351236255961514017, 40,
  14170270141488688009241, 1813796287332426885824545, 32, 40, 14170270141904134537249, 1209150351236393442082849, 40, 110705235480380375073,
  1813796287332564366393377, 48, 52, 4722398131624765037109, 4722398026071648770613, 28, 8, 12, 1209220976580059285423649, 60, 56,
  1209221003689617979874829, 52, 604467240141639046268433, 1209221001349857235967009, 604464098986452070899765, 4, 9447038863313916657673,
  4722373467242449863693, 24, 1813870650751881858318365, 1209224714657223768280585, 36, 8, 12, 1209294763556354140407337, 16,
  604464357802693156406801, 9447615358837201045513, 4, 4722373467242466640937, 4722373467242466640909, 48, 52, 4722398149216951081525,
  4722398026071648770613, 32, 1813871227247818550607909, 1209298501668702978576905]

theorem side4a_l2_run0 : run .l2 2 65 11 side4aEnv [] side4a_l2_0 (side4aPaths0.map fun P => ⟨[P], []⟩) = true := Run.run_one (by decide +kernel)

def side4a_linf_0 : List ℕ := [
  28, 32, 36893646890484109325, 36893648264873644045, 32, 36893646890484109365, 36893648264873644085, 12, 0, 8, 9445885958163471009333,
  1209073402645061761500677, 9445885958163471008293, 32, 52, 48, 56, 0, 16, 604464353263909156946445, 20, 4722380240371524307477,
  604464641494285308725281, 1813720804610272317676561, 14169693787802310810637, 604466976610692100856837, 0, 16, 604464353263909156946445, 20,
  4722380240371524307477, 604464641494285308725281, 4, 8, 1813720777588674553447481, 604463806111738803395597, 1813720775565573158339077, 36,
  604465823689059751432721, 0, 16, 604464353263909156946445, 20, 52, 48, 604464668515883072948769, 604466976610692100856837,
  604464670767682886633997, 604464641494285308725281, 29716020001387932255032185361, 12, 8, 9445885958163471009333, 9445885958163471009309, 24,
  110696228006247464977, 28, 604465249480105114209809, 36893629298298064397, 12, 8, 9445885958163471009333, 9445885958163471009309, 24,
  110696228006247464977, 28, 604465247228305300524561, 1813648136901492702904349, 48, 52, 4722398166809137125941, 4722398061256020859445, 36,
  73809496081829593129, 32, 1209298501668702978576901, 36893665857059689013, 40, 28, 20, 32, 73800488332818776097, 110705235479306305569, 32,
  9903563038682975758746782741, 14170270141488688009241, 32, 20, 73800488333892845601, 14170270141904134537249, 110705235480380375073, 28, 20, 32,
  73800488332818776097, 9446462507839851462689, 32, 9903563038682975758746782741, 1813796287332426885824545, 32, 20, 9446462506600803340333,
  1209150351236393442082849, 9903563224591568376601187861, 48, 60, 4722402617632206363189, 52, 1813868376574945004624437, 4722398026071648770613, 28,
  8, 60, 32, 1209220987839058353852481, 56, 1209221003830355468230157, 0, 4, 1209220972076459658052161, 1209220974293075099649037,
  9903596462760099838264607285, 12, 16, 604464387199236036631069, 9447038897260263901237, 604464098986452070899765, 4, 60, 1209220974504181332182081,
  604463803895123361800241, 4722373467242449863693, 24, 60, 19811937724943971820335271489, 20, 16, 12, 604464387199236036631069, 8,
  604464098986452070899765, 4, 604463803895123361800241, 44, 604466693059837436895285, 604463801643323548107805, 604464675447204374454325,
  1813870650752019338887193, 1209224714657223768280585, 48, 52, 4722398149216951081525, 4722398026071648770613, 36, 73809496081829593129, 32,
  1813871227247818550607909, 1209298501668702978576905]

theorem side4a_linf_run0 : run .linf 2 60 11 side4aEnv [] side4a_linf_0 (side4aPaths0.map fun P => ⟨[P], []⟩) = true := Run.run_one (by decide +kernel)

theorem side4a_l1 : side4aTab.Refuted .l1 2 9 1 16 :=
  Tab.refuted_one (T := side4aTab) rfl side4a_paths (part side4a_l1_run0)

theorem side4a_l2 : side4aTab.Refuted .l2 2 65 11 16 :=
  Tab.refuted_one (T := side4aTab) rfl side4a_paths (part side4a_l2_run0)

theorem side4a_linf : side4aTab.Refuted .linf 2 60 11 16 :=
  Tab.refuted_one (T := side4aTab) rfl side4a_paths (part side4a_linf_run0)

end MinCert
end Peano
