import Verif.Lemmas.MinRun
import Verif.Lemmas.MinFast

set_option autoImplicit false

/-
Side, grid 3: no curve has less dilation.  This file is generated.
-/
namespace Peano
namespace MinCert

/-- Table of links and of their specs. -/
def side3Env : Env where
  N := 3
  G := 9
  m := 1
  S := 1
  W := 4
  B := 128
  L := 8
  links := [([0, 0], [0, 1]), ([0, 0], [1, 0]), ([0, 1], [0, 0]), ([0, 1], [1, 1]), ([1, 0], [0, 0]), ([1, 0], [1, 1]), ([1, 1], [0, 1]), ([1, 1], [1, 0])]
  doms := [
    [⟨[(1, false), (0, false)], false, 0⟩, ⟨[(1, false), (0, true)], true, 0⟩],
    [⟨[(0, false), (1, false)], false, 0⟩, ⟨[(0, true), (1, false)], true, 0⟩],
    [⟨[(1, false), (0, false)], true, 0⟩, ⟨[(1, false), (0, true)], false, 0⟩],
    [⟨[(0, false), (1, true)], false, 0⟩, ⟨[(0, true), (1, true)], true, 0⟩],
    [⟨[(0, false), (1, false)], true, 0⟩, ⟨[(0, true), (1, false)], false, 0⟩],
    [⟨[(1, true), (0, false)], false, 0⟩, ⟨[(1, true), (0, true)], true, 0⟩],
    [⟨[(0, false), (1, true)], true, 0⟩, ⟨[(0, true), (1, true)], false, 0⟩], [⟨[(1, true), (0, false)], true, 0⟩, ⟨[(1, true), (0, true)], false, 0⟩]]

/-- Data of the search of paths. -/
def side3Enum : Enum where
  L := 8
  B := 128
  ones := 5
  offs := [1, 3, 4, 5]
  trans := [
    [(1, 6), (1, 7), (2, 4), (2, 5), (6, 0), (6, 1)], [(4, 6), (4, 7), (8, 2), (8, 3), (9, 0), (9, 1)],
    [(0, 6), (0, 7), (1, 4), (1, 5), (4, 2), (4, 3)], [(6, 4), (6, 5), (9, 2), (9, 3), (10, 0), (10, 1)],
    [(0, 6), (0, 7), (1, 4), (1, 5), (4, 2), (4, 3)], [(6, 4), (6, 5), (9, 2), (9, 3), (10, 0), (10, 1)],
    [(1, 6), (1, 7), (2, 4), (2, 5), (6, 0), (6, 1)], [(4, 6), (4, 7), (8, 2), (8, 3), (9, 0), (9, 1)]]
  U := 61152
  F := 8192
  starts := [(5, 0), (5, 1)]
  finals := [(13, 1), (13, 7)]

def side3Tab : Tab := ⟨side3Env, [([0, 0], [1, 0])], [side3Enum]⟩

theorem side3_ok : side3Tab.Ok 2 3 1 2 := Fast.ok_sound (by decide +kernel)

def side3Paths0 : List ℕ := [
  2909578925012985833, 2909578932204120041, 2909579137080748009, 2909579138678777833, 2910242273585047529, 2995128968945761263, 2995128969295427823,
  2995129889410939887, 2995247466837605359, 2995247671385422831]

def side3Tree : CT :=
  .node (.node (.node (.node .nil 2909578925012985833 .nil) 2909578932204120041 .nil) 2909579137080748009 (.node (.node .nil 2909579138678777833
  .nil) 2910242273585047529 .nil)) 2995128968945761263 (.node (.node (.node .nil 2995128969295427823 .nil) 2995129889410939887 .nil)
  2995247466837605359 (.node .nil 2995247671385422831 .nil))

theorem side3_paths : ∀ P ∈ side3Enum.all 9, P ∈ side3Paths0 := by
  have h : side3Tree.toList = side3Paths0 := by decide +kernel
  rw [← h]
  exact side3Enum.allF_sound 9 side3Tree (by decide +kernel)

def side3_l1_0 : List ℕ := [
  8, 12, 4722375578304733251085, 73793732246182756365, 12, 36893559204431791637, 20, 14168828901650128568333, 1209038229532109453852685, 12, 8,
  4722375578304733251085, 36893559204431791637, 16, 110691724131742056465, 1452428609452247557, 20, 24, 14168828954974294641685,
  110693976206433714201, 24, 604464943270644714704401, 604464940966068342885397, 16, 12, 28, 232137370650922127966081033, 1813573208210053215029281,
  0, 232137370641914928711336457, 1813573208210053215029253, 8, 4, 28, 1209036506922706706367521, 154756672886106458415042581,
  9445597709919206769685, 20, 24, 29713597426242809417009465869, 1209037941354509851885593, 1813574061659637332377621, 8, 12, 36893559204431791633,
  73795984045996507149, 12, 36893559204431791637, 1209073402645061761500685, 20, 24, 14169117185350446353425, 36893611843550972945, 24,
  110696228006247464985, 12, 1209075411303409591255065, 9445886010664111049757, 4, 8, 36893541612245746705, 36893541474806793233, 8,
  36893541612245746709, 36893541474806793237, 8, 12, 604464071859301190404129, 36893559066992838161, 12, 604464071859301190404105,
  1161946433486784525, 16, 4, 0, 1209110291576833003487765, 77371326546340726607774229, 0, 4722371109889494745621, 154766117330894732329550877, 24,
  4, 20, 232146815953593495055240213, 232146815672082929113433109, 0, 14169117096838745293333, 1813646988430948628955657, 12, 8,
  1209112304738780452290573, 19810096001137450728093124621, 1813648425079092304871441, 12, 8, 73795984045996507149, 1209073402645061761500685, 8,
  604464069607501376718873, 604464069554724818585105]

theorem side3_l1_run0 : run .l1 2 49 5 side3Env [] side3_l1_0 (side3Paths0.map fun P => ⟨[P], []⟩) = true := Run.run_one (by decide +kernel)

def side3_l2_0 : List ℕ := [
  8, 12, 9445597727649880344085, 28, 1209036509227283078186529, 20, 110693976343872667673, 4, 1209036506887522334278689, 9445597709919206769689, 12,
  604464069572317004629509, 20, 14168828901646957282829, 1209038229532109453852685, 12, 8, 9445597727649880344085, 604464069572317004629509, 16,
  110691724131742056465, 8, 20, 154756673753102434923710989, 73793732521060663317, 20, 29713597426240557617195780621, 1209037941336780210241557, 20,
  24, 1813610106236984641981465, 110693976206433714201, 16, 8, 154756673746293987243002905, 29714201889143609533415819801, 8, 73793732521060663317,
  1209038229567156362018837, 8, 4, 28, 1209036506887522334278689, 1209036506887522334278689, 16, 73793732109817675785, 9445597709919206769685, 16,
  28, 32, 14168540759231727407117, 9903563111598505525688600073, 12, 1813573208210053215029281, 1813573206011029959476757, 20, 24,
  29713597426242809417009465869, 1209037941354509851885593, 1209037941336780210241557, 8, 12, 20, 14168828901646957282833, 1813611243342976539557901,
  73795984045996507149, 12, 9903539315593636215917840405, 1209073402645061761500685, 24, 20, 4722382316249460771869, 4, 12, 16,
  110696227731369558033, 14169117149755905343505, 73795984045996507145, 1813646999637171139251209, 20, 604464943253052528659977, 12,
  1209075411303409591255065, 9445886011353420005401, 20, 24, 4722382316249452383257, 110693976206433714201, 24, 9903553630841246367045061649, 12,
  1813611243395753097691161, 9445886011215981051929, 20, 24, 4722382316249460771869, 604464943253052528659977, 16, 24, 12, 110696227731369558033,
  232146815388356152589027349, 12, 1813648425079229760471057, 19810096001137450728093124625, 73798236120688164885, 24, 28, 16, 73798236396639944733,
  14169117202669902430237, 4, 1813647001888970952936989, 1813647001888970952936989, 16, 4, 20, 1209110300601624444275221, 1209110302906200816094217,
  0, 9446174153768641560581, 9903530019297062394928434697, 12, 8, 1209112304738780452290573, 19810096001137450728093124621,
  1813648425079229760471057, 12, 8, 73795984045996507149, 1209073402645061761500685, 16, 24, 232146815381618750193141789,
  19809491538220888012990973981, 24, 110696227731369558033, 1813648136848853608693777]

theorem side3_l2_run0 : run .l2 2 17 3 side3Env [] side3_l2_0 (side3Paths0.map fun P => ⟨[P], []⟩) = true := Run.run_one (by decide +kernel)

def side3_linf_0 : List ℕ := [
  8, 12, 9445597727649880344085, 36893559204431791637, 12, 604464069537132632540677, 20, 14168828901646957282829, 1813610955112600379457549, 8, 12,
  9445597727649880344085, 36893559204431791637, 16, 14168540688866162835469, 1813574061642182601932813, 8, 0, 73793732108743802885,
  9445597710057694298645, 16, 20, 110693976068994760725, 29714201889143609533415819801, 20, 232142093307852264132577805, 1209038229567156362018837,
  8, 0, 73793732108743802885, 9445597710057694298645, 16, 110691724131742056461, 20, 1813574061659637332377621, 1209037941336780210241557, 12, 20,
  110693976068994760721, 1209075123055441245110289, 20, 110693976067920887825, 73795984320874414097, 24, 20, 4722382298657274727453,
  36893611843550972945, 12, 16, 1813648136848853608693777, 1209075411268225219166225, 16, 9445885976169047916561, 73795984183435460625, 12, 20,
  110693976068994760721, 1209075123055441245110289, 20, 110693976067920887825, 73795984320874414097, 24, 20, 4722382298657274727453,
  36893611843550972945, 16, 1209112304791419554824213, 9446174241040271149597, 24, 28, 4722384568049274457629, 4722384515272716324381, 16,
  73798236258127118357, 12, 1813648425079092304871441, 1813648425079229760471057, 24, 28, 4722384568049274457629, 4722384515272716324381, 12, 16,
  73795984183435460625, 154761395833553681064921117, 16, 19809491538220888012990973981, 1813648136848853608693777]

theorem side3_linf_run0 : run .linf 2 9 2 side3Env [] side3_linf_0 (side3Paths0.map fun P => ⟨[P], []⟩) = true := Run.run_one (by decide +kernel)

theorem side3_l1 : side3Tab.Refuted .l1 2 49 5 9 :=
  Tab.refuted_one (T := side3Tab) rfl side3_paths (part side3_l1_run0)

theorem side3_l2 : side3Tab.Refuted .l2 2 17 3 9 :=
  Tab.refuted_one (T := side3Tab) rfl side3_paths (part side3_l2_run0)

theorem side3_linf : side3Tab.Refuted .linf 2 9 2 9 :=
  Tab.refuted_one (T := side3Tab) rfl side3_paths (part side3_linf_run0)

end MinCert
end Peano
