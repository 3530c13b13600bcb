import Verif.Lemmas.MinRun
import Verif.Lemmas.MinPairs

set_option autoImplicit false

/-
Two patterns, grid 2: no curve has less dilation.  This file is generated.
-/
namespace Peano
namespace MinCert

/-- Table of links and of their specs. -/
def b5Env : Env where
  N := 2
  G := 4
  m := 2
  S := 1
  W := 3
  B := 108
  L := 12
  links := [([0, 0], [0, 1]), ([0, 0], [1, 0]), ([0, 0], [1, 1]), ([0, 1], [0, 0]), ([0, 1], [1, 0]), ([0, 1], [1, 1]), ([1, 0], [0, 0]), ([1, 0], [0, 1]), ([1, 0], [1, 1]), ([1, 1], [0, 0]), ([1, 1], [0, 1]), ([1, 1], [1, 0])]
  doms := [
    [⟨[(0, false), (1, false)], false, 0⟩, ⟨[(0, false), (1, true)], true, 0⟩],
    [⟨[(1, false), (0, false)], false, 0⟩, ⟨[(1, true), (0, false)], true, 0⟩],
    [⟨[(0, false), (1, false)], false, 1⟩, ⟨[(0, true), (1, true)], true, 1⟩, ⟨[(1, false), (0, false)], false, 1⟩, ⟨[(1, true), (0, true)], true, 1⟩],
    [⟨[(0, false), (1, false)], true, 0⟩, ⟨[(0, false), (1, true)], false, 0⟩],
    [⟨[(0, true), (1, false)], true, 1⟩, ⟨[(0, false), (1, true)], false, 1⟩, ⟨[(1, true), (0, false)], true, 1⟩, ⟨[(1, false), (0, true)], false, 1⟩],
    [⟨[(1, false), (0, true)], false, 0⟩, ⟨[(1, true), (0, true)], true, 0⟩],
    [⟨[(1, false), (0, false)], true, 0⟩, ⟨[(1, true), (0, false)], false, 0⟩],
    [⟨[(0, true), (1, false)], false, 1⟩, ⟨[(0, false), (1, true)], true, 1⟩, ⟨[(1, true), (0, false)], false, 1⟩, ⟨[(1, false), (0, true)], true, 1⟩],
    [⟨[(0, true), (1, false)], false, 0⟩, ⟨[(0, true), (1, true)], true, 0⟩],
    [⟨[(0, false), (1, false)], true, 1⟩, ⟨[(0, true), (1, true)], false, 1⟩, ⟨[(1, false), (0, false)], true, 1⟩, ⟨[(1, true), (0, true)], false, 1⟩],
    [⟨[(1, false), (0, true)], true, 0⟩, ⟨[(1, true), (0, true)], false, 0⟩], [⟨[(0, true), (1, false)], true, 0⟩, ⟨[(0, true), (1, true)], false, 0⟩]]

/-- Data of the search of paths. -/
def b5Enum0 : Enum where
  L := 12
  B := 108
  ones := 4
  offs := [1, 2, 3, 4]
  trans := [
    [(1, 9), (1, 10), (1, 11), (2, 6), (2, 7), (2, 8), (5, 0), (5, 1), (5, 2)],
    [(3, 9), (3, 10), (3, 11), (6, 3), (6, 4), (6, 5), (7, 0), (7, 1), (7, 2)],
    [(5, 6), (5, 7), (5, 8), (7, 3), (7, 4), (7, 5), (8, 0), (8, 1), (8, 2)],
    [(0, 9), (0, 10), (0, 11), (1, 6), (1, 7), (1, 8), (3, 3), (3, 4), (3, 5)],
    [(3, 9), (3, 10), (3, 11), (6, 3), (6, 4), (6, 5), (7, 0), (7, 1), (7, 2)],
    [(5, 6), (5, 7), (5, 8), (7, 3), (7, 4), (7, 5), (8, 0), (8, 1), (8, 2)],
    [(0, 9), (0, 10), (0, 11), (1, 6), (1, 7), (1, 8), (3, 3), (3, 4), (3, 5)],
    [(1, 9), (1, 10), (1, 11), (2, 6), (2, 7), (2, 8), (5, 0), (5, 1), (5, 2)],
    [(5, 6), (5, 7), (5, 8), (7, 3), (7, 4), (7, 5), (8, 0), (8, 1), (8, 2)],
    [(0, 9), (0, 10), (0, 11), (1, 6), (1, 7), (1, 8), (3, 3), (3, 4), (3, 5)],
    [(1, 9), (1, 10), (1, 11), (2, 6), (2, 7), (2, 8), (5, 0), (5, 1), (5, 2)],
    [(3, 9), (3, 10), (3, 11), (6, 3), (6, 4), (6, 5), (7, 0), (7, 1), (7, 2)]]
  U := 432
  F := 32
  starts := [(4, 0), (4, 1), (4, 2)]
  finals := [(5, 0), (5, 7), (5, 10)]

/-- Data of the search of paths. -/
def b5Enum1 : Enum where
  L := 12
  B := 108
  ones := 4
  offs := [1, 2, 3, 4]
  trans := [
    [(1, 9), (1, 10), (1, 11), (2, 6), (2, 7), (2, 8), (5, 0), (5, 1), (5, 2)],
    [(3, 9), (3, 10), (3, 11), (6, 3), (6, 4), (6, 5), (7, 0), (7, 1), (7, 2)],
    [(5, 6), (5, 7), (5, 8), (7, 3), (7, 4), (7, 5), (8, 0), (8, 1), (8, 2)],
    [(0, 9), (0, 10), (0, 11), (1, 6), (1, 7), (1, 8), (3, 3), (3, 4), (3, 5)],
    [(3, 9), (3, 10), (3, 11), (6, 3), (6, 4), (6, 5), (7, 0), (7, 1), (7, 2)],
    [(5, 6), (5, 7), (5, 8), (7, 3), (7, 4), (7, 5), (8, 0), (8, 1), (8, 2)],
    [(0, 9), (0, 10), (0, 11), (1, 6), (1, 7), (1, 8), (3, 3), (3, 4), (3, 5)],
    [(1, 9), (1, 10), (1, 11), (2, 6), (2, 7), (2, 8), (5, 0), (5, 1), (5, 2)],
    [(5, 6), (5, 7), (5, 8), (7, 3), (7, 4), (7, 5), (8, 0), (8, 1), (8, 2)],
    [(0, 9), (0, 10), (0, 11), (1, 6), (1, 7), (1, 8), (3, 3), (3, 4), (3, 5)],
    [(1, 9), (1, 10), (1, 11), (2, 6), (2, 7), (2, 8), (5, 0), (5, 1), (5, 2)],
    [(3, 9), (3, 10), (3, 11), (6, 3), (6, 4), (6, 5), (7, 0), (7, 1), (7, 2)]]
  U := 432
  F := 256
  starts := [(4, 0), (4, 1), (4, 2)]
  finals := [(8, 2), (8, 5), (8, 8)]

def b5Tab : Tab := ⟨b5Env, [([0, 0], [0, 1]), ([0, 0], [1, 1])], [b5Enum0, b5Enum1]⟩

theorem b5_ok : b5Tab.Ok 2 2 2 2 := Fast.ok_sound (by decide +kernel)

def b5Tree0 : CT :=
  .node (.node (.node .nil 62716102 .nil) 62740075 (.node .nil 62740186 .nil)) 64034779 (.node (.node .nil 64034890 .nil) 64127227 .nil)

def b5Tree1 : CT :=
  .node (.node .nil 61187396 .nil) 62713109 .nil

def b5Pairs0 : List (List ℕ) := [
  [62716102, 61187396], [62716102, 62713109], [62740075, 61187396], [62740075, 62713109], [62740186, 61187396], [62740186, 62713109]]

def b5Pairs1 : List (List ℕ) := [
  [64034779, 61187396], [64034779, 62713109], [64034890, 61187396], [64034890, 62713109], [64127227, 61187396], [64127227, 62713109]]

theorem b5_pairs : (b5Tree0.toList.all fun P => b5Tree1.toList.all fun Q => (b5Pairs0 ++ (b5Pairs1)).contains [P, Q]) = true := Fast.pairs_sound (by decide +kernel)

theorem b5_paths0 : ∀ P ∈ b5Enum0.all 4, P ∈ b5Tree0.toList :=
  b5Enum0.allF_sound 4 b5Tree0 (by decide +kernel)

theorem b5_paths1 : ∀ P ∈ b5Enum1.all 4, P ∈ b5Tree1.toList :=
  b5Enum1.allF_sound 4 b5Tree1 (by decide +kernel)

def b5_l1_0 : List ℕ := [
  20, 4, 24, 8, 110687220804844912665, 4722943067180641681433, 36897992710193020953, 8, 24, 14167964263295035116553, 1813499425684581429283849, 24,
  1813499986470421081030681, 604537561598020638933017, 8, 24, 110687220806992461849, 4, 36897992712340570137, 14167964263160792416281, 4, 24,
  604536712599122135223309, 4722943066904706681869, 24, 1813499986470695967260697, 604537561598295525163033, 20, 4, 24, 8, 110687220804844912665,
  4722943067180641681433, 36897992710193020953, 8, 24, 14167964263295035116553, 1813499425684581429283849, 24, 1813499986470421081030681,
  604537561598020638933017, 8, 24, 110687220806992461849, 4, 36897992712340570137, 14167964263160792416281, 4, 24, 604536712599122135223309,
  4722943066904706681869, 24, 1813499986470695967260697, 604537561598295525163033, 20, 4, 24, 8, 1813499425701764494918685,
  29712384034581711505653432345, 604538714519525246042137, 24, 8, 14167964263020149211161, 77380918565046403696295961, 604538426289149094264857, 24,
  8, 14167964263020149211161, 77380918565046403696295961, 604538426289149094264857, 24, 8, 1813499425701764494918685, 29712384034581711505653432345,
  604538714519525246042137, 8, 24, 110687220806992461849, 4, 4722958707185938530329, 1813499425684996942397465, 1813499425684996942397465,
  4722958707185938530329, 4, 24, 29712384034581746691057582105, 77380955458499231493393421, 24, 29712383997688258543638413337,
  9904757684997833866988617753, 24, 29712383997688258543638413337, 9904757684997833866988617753, 24, 29712384034581746691057582105,
  77380955458499231493393421, 20, 4, 24, 8, 14167964263020149211161, 77380918565046403696295961, 604538426289149094264857, 24, 8,
  1813499425701764494918685, 29712384034581711505653432345, 604538714519525246042137, 24, 8, 1813499425701764494918685,
  29712384034581711505653432345, 604538714519525246042137, 24, 8, 14167964263020149211161, 77380918565046403696295961, 604538426289149094264857, 8,
  24, 110687220806992461849, 4, 1813499425684996942397465, 4722958707185938530329, 4722958707185938530329, 1813499425684996942397465, 4, 24,
  29712383997688258543638413337, 9904757684997833866988617753, 24, 29712384034581746691057582105, 77380955458499231493393421, 24,
  29712384034581746691057582105, 77380955458499231493393421, 24, 29712383997688258543638413337, 9904757684997833866988617753, 20, 4, 24, 8,
  486808006518082076178366683545625, 232128182735654640836152329, 232128182735654640836152329, 486808006518082076178366683545625,
  604538714519525246042137, 24, 8, 154770912912361559781933081, 1813501427622301839786009, 1813501427622301839786009, 154770912912361559781933081,
  604538426289149094264857, 24, 8, 154770912912361559781933081, 1813501427622301839786009, 1813501427622301839786009, 154770912912361559781933081,
  604538426289149094264857, 24, 8, 486808006518082076178366683545625, 232128182735654640836152329, 232128182735654640836152329,
  486808006518082076178366683545625, 604538714519525246042137, 8, 24, 1813501139392200574369817, 4, 604538714519800132272153,
  154770949805832389901287449, 154770949805832389901287449, 604538714519800132272153, 24, 1813501427622576726147097, 4, 77380955458499236820159501,
  162279549943803980664063115264025, 162279549943803980664063115264025, 77380955458499236820159501, 24, 1813501427622576726147097, 4,
  77380955458499236820159501, 162279549943803980664063115264025, 162279549943803980664063115264025, 77380955458499236820159501, 24,
  1813501139392200574369817, 4, 604538714519800132272153, 154770949805832389901287449, 154770949805832389901287449, 604538714519800132272153, 20, 4,
  24, 8, 1813501427622301839786009, 77399660457025292600737817, 77399660457025292600737817, 1813501427622301839786009, 604538426289149094264857, 24,
  8, 232128182735672233022196745, 486808006518082076178366683545625, 486808006518082076178366683545625, 232128182735672233022196745,
  604538714519525246042137, 24, 8, 232128182735672233022196745, 486808006518082076178366683545625, 486808006518082076178366683545625,
  232128182735672233022196745, 604538714519525246042137, 24, 8, 1813501427622301839786009, 77399660457025292600737817, 77399660457025292600737817,
  1813501427622301839786009, 604538426289149094264857, 8, 24, 1813501427622576726147097, 4, 162279549943803980664063115264025,
  77380955458516829006203917, 77380955458516829006203917, 162279549943803980664063115264025, 24, 1813501139392200574369817, 4,
  77399697350496122720092185, 604538714519800132272153, 604538714519800132272153, 77399697350496122720092185, 24, 1813501139392200574369817, 4,
  77399697350496122720092185, 604538714519800132272153, 604538714519800132272153, 77399697350496122720092185, 24, 1813501427622576726147097, 4,
  162279549943803980664063115264025, 77380955458516829006203917, 77380955458516829006203917, 162279549943803980664063115264025]

theorem b5_l1_run0 : run .l1 2 12 1 b5Env [] b5_l1_0 (b5Pairs0.map fun ps => ⟨ps, []⟩) = true := Run.run_many (by decide +kernel)

def b5_l1_1 : List ℕ := [
  20, 4, 8, 24, 14167964263295035116553, 1813499425684581429283849, 24, 1813499986470421081030681, 604537561598020638933017, 24, 8,
  110687220804844912665, 4722943067180641681433, 36897992710193020953, 8, 24, 110687220806992461849, 4, 14167964263160792416281,
  36897992712340570137, 4, 24, 1813499986470695967260697, 604537561598295525163033, 24, 604536712599122135223309, 4722943066904706681869, 20, 4, 8,
  24, 14167964263295035116553, 1813499425684581429283849, 24, 1813499986470421081030681, 604537561598020638933017, 24, 8, 110687220804844912665,
  4722943067180641681433, 36897992710193020953, 8, 24, 110687220806992461849, 4, 14167964263160792416281, 36897992712340570137, 4, 24,
  1813499986470695967260697, 604537561598295525163033, 24, 604536712599122135223309, 4722943066904706681869, 20, 4, 8, 24,
  29712402739580202247105413145, 9904743628578814514872844313, 24, 232128182735689820946828297, 9904743665472302662292013081, 24,
  232128182735689820946828297, 9904743665472302662292013081, 24, 29712402739580202247105413145, 9904743628578814514872844313, 24, 8,
  604536712599810387083289, 14167979903299233120281, 14167979903299233120281, 604536712599810387083289, 36897992710193020953, 8, 24,
  1813501139392200574369817, 4, 232128145842184490404151321, 4722943067179593367577, 24, 1813501427622576726147097, 4, 9904743665472337847771070489,
  604536712563802455279133, 24, 1813501427622576726147097, 4, 9904743665472337847771070489, 604536712563802455279133, 24, 1813501139392200574369817,
  4, 232128145842184490404151321, 4722943067179593367577, 20, 4, 8, 24, 232128182735689820946828297, 9904743665472302662292013081, 24,
  29712402739580202247105413145, 9904743628578814514872844313, 24, 29712402739580202247105413145, 9904743628578814514872844313, 24,
  232128182735689820946828297, 9904743665472302662292013081, 24, 8, 14167979903299233120281, 604536712599810387083289, 604536712599810387083289,
  14167979903299233120281, 36897992710193020953, 8, 24, 1813501427622576726147097, 4, 9904743665472337847771070489, 604536712563802455279133, 24,
  1813501139392200574369817, 4, 232128145842184490404151321, 4722943067179593367577, 24, 1813501139392200574369817, 4, 232128145842184490404151321,
  4722943067179593367577, 24, 1813501427622576726147097, 4, 9904743665472337847771070489, 604536712563802455279133, 4, 864726314983096325, 8,
  36900278733379731461, 550829752333, 4, 864726314974707717, 8, 36900278733379731461, 288230926981464077]

theorem b5_l1_run1 : run .l1 2 12 1 b5Env [] b5_l1_1 (b5Pairs1.map fun ps => ⟨ps, []⟩) = true := Run.run_many (by decide +kernel)

def b5_l2_0 : List ℕ := [
  4, 8, 20, 24, 110687220804844912665, 36897992710193020953, 24, 36897992710193020953, 110687220804844912665, 12, 604536703609515066524689,
  9904729351942815769006573581, 8, 0, 29712374442551799739156922889, 1813499416659789988496389, 20, 24, 1813499986470421081030681,
  604537561598020638933017, 24, 604537561598020638933017, 1813499986470421081030681, 4, 8, 20, 24, 110687220804844912665, 110687220806992461849, 24,
  36897992710193020953, 110687220804844912665, 12, 604536703609515066524689, 9904729351942815769006573581, 8, 0, 29712374442551799739156922889,
  1813499416659789988496389, 20, 24, 1813499986470421081030681, 604537561598020638933017, 24, 604537561598020638933017, 1813499986470421081030681,
  20, 4, 24, 8, 1813499425701764494918685, 29712384034581711505653432345, 604538714519525246042137, 24, 8, 14167964263020149211161,
  77380918565046403696295961, 604538426289149094264857, 24, 8, 14167964263020149211161, 77380918565046403696295961, 604538426289149094264857, 24, 8,
  1813499425701764494918685, 29712384034581711505653432345, 604538714519525246042137, 8, 24, 110687220806992461849, 4, 4722958707185938530329,
  1813499425684996942397465, 1813499425684996942397465, 4722958707185938530329, 4, 24, 29712384034581746691057582105, 77380955458499231493393421, 24,
  29712383997688258543638413337, 9904757684997833866988617753, 24, 29712383997688258543638413337, 9904757684997833866988617753, 24,
  29712384034581746691057582105, 77380955458499231493393421, 20, 4, 24, 8, 14167964263020149211161, 77380918565046403696295961,
  604538426289149094264857, 24, 8, 1813499425701764494918685, 29712384034581711505653432345, 604538714519525246042137, 24, 8,
  1813499425701764494918685, 29712384034581711505653432345, 604538714519525246042137, 24, 8, 14167964263020149211161, 77380918565046403696295961,
  604538426289149094264857, 8, 24, 110687220806992461849, 4, 1813499425684996942397465, 4722958707185938530329, 4722958707185938530329,
  1813499425684996942397465, 4, 24, 29712383997688258543638413337, 9904757684997833866988617753, 24, 29712384034581746691057582105,
  77380955458499231493393421, 24, 29712384034581746691057582105, 77380955458499231493393421, 24, 29712383997688258543638413337,
  9904757684997833866988617753, 20, 4, 24, 8, 486808006518082076178366683545625, 232128182735654640836152329, 232128182735654640836152329,
  486808006518082076178366683545625, 604538714519525246042137, 24, 8, 154770912912361559781933081, 1813501427622301839786009,
  1813501427622301839786009, 154770912912361559781933081, 604538426289149094264857, 24, 8, 154770912912361559781933081, 1813501427622301839786009,
  1813501427622301839786009, 154770912912361559781933081, 604538426289149094264857, 24, 8, 486808006518082076178366683545625,
  232128182735654640836152329, 232128182735654640836152329, 486808006518082076178366683545625, 604538714519525246042137, 8, 24,
  1813501139392200574369817, 4, 604538714519800132272153, 154770949805832389901287449, 154770949805832389901287449, 604538714519800132272153, 24,
  1813501427622576726147097, 4, 77380955458499236820159501, 162279549943803980664063115264025, 162279549943803980664063115264025,
  77380955458499236820159501, 24, 1813501427622576726147097, 4, 77380955458499236820159501, 162279549943803980664063115264025,
  486808083884612165031763145850905, 77404382823508162246017049, 24, 1813501139392200574369817, 4, 604538714519800132272153,
  154770949805832389901287449, 232128145842184084529351689, 1813501139391925688139801, 20, 4, 24, 8, 1813501427622301839786009,
  77399660457025292600737817, 77399660457025292600737817, 1813501427622301839786009, 604538426289149094264857, 24, 8, 232128182735672233022196745,
  486808006518082076178366683545625, 486808006518082076178366683545625, 232128182735672233022196745, 604538714519525246042137, 24, 8,
  232128182735672233022196745, 486808006518082076178366683545625, 486808006518082076178366683545625, 232128182735672233022196745,
  604538714519525246042137, 24, 8, 1813501427622301839786009, 77399660457025292600737817, 77399660457025292600737817, 1813501427622301839786009,
  604538426289149094264857, 8, 24, 1813501427622576726147097, 4, 486808083884612165031763145850905, 154775635278844429427212313,
  77380955458516829006203917, 162279549943803980664063115264025, 24, 1813501139392200574369817, 4, 232128145842166492343307273,
  1813501139391925688139801, 604538714519800132272153, 77399697350496122720092185, 24, 1813501139392200574369817, 4, 77399697350496122720092185,
  604538714519800132272153, 604538714519800132272153, 77399697350496122720092185, 24, 1813501427622576726147097, 4,
  162279549943803980664063115264025, 77380955458516829006203917, 77380955458516829006203917, 162279549943803980664063115264025]

theorem b5_l2_run0 : run .l2 2 6 1 b5Env [] b5_l2_0 (b5Pairs0.map fun ps => ⟨ps, []⟩) = true := Run.run_many (by decide +kernel)

def b5_l2_1 : List ℕ := [
  20, 4, 8, 24, 14167964263295035116553, 1813499425684581429283849, 24, 1813499986470421081030681, 604537561598020638933017, 24, 8,
  110687220804844912665, 4722943067180641681433, 36897992710193020953, 8, 24, 110687220806992461849, 4, 14167964263160792416281,
  36897992712340570137, 4, 24, 1813499986470695967260697, 604537561598295525163033, 24, 604536712599122135223309, 4722943066904706681869, 20, 4, 8,
  24, 14167964263295035116553, 1813499425684581429283849, 24, 1813499986470421081030681, 604537561598020638933017, 24, 8, 110687220804844912665,
  4722943067180641681433, 36897992710193020953, 8, 24, 110687220806992461849, 4, 14167964263160792416281, 36897992712340570137, 4, 24,
  1813499986470695967260697, 604537561598295525163033, 24, 604536712599122135223309, 4722943066904706681869, 20, 4, 8, 24,
  29712402739580202247105413145, 9904743628578814514872844313, 24, 232128182735689820946828297, 9904743665472302662292013081, 24,
  232128182735689820946828297, 9904743665472302662292013081, 24, 29712402739580202247105413145, 9904743628578814514872844313, 24, 8,
  604536712599810387083289, 14167979903299233120281, 14167979903299233120281, 604536712599810387083289, 36897992710193020953, 8, 24,
  1813501139392200574369817, 4, 232128145842184490404151321, 4722943067179593367577, 24, 1813501427622576726147097, 4, 9904743665472337847771070489,
  604536712563802455279133, 24, 1813501427622576726147097, 4, 9904743665472337847771070489, 604536712563802455279133, 24, 1813501139392200574369817,
  4, 232128145842184490404151321, 4722943067179593367577, 20, 4, 8, 24, 232128182735689820946828297, 9904743665472302662292013081, 24,
  29712402739580202247105413145, 9904743628578814514872844313, 24, 29712402739580202247105413145, 9904743628578814514872844313, 24,
  232128182735689820946828297, 9904743665472302662292013081, 24, 8, 14167979903299233120281, 604536712599810387083289, 604536712599810387083289,
  14167979903299233120281, 36897992710193020953, 8, 24, 1813501427622576726147097, 4, 9904743665472337847771070489, 604536712563802455279133, 24,
  1813501139392200574369817, 4, 232128145842184490404151321, 4722943067179593367577, 24, 1813501139392200574369817, 4, 232128145842184490404151321,
  4722943067179593367577, 24, 1813501427622576726147097, 4, 9904743665472337847771070489, 604536712563802455279133, 4, 864726314974707717, 8,
  36900278733379731461, 550829752333, 4, 864726314983096325, 8, 36900278733379731461, 288230926981464077]

theorem b5_l2_run1 : run .l2 2 6 1 b5Env [] b5_l2_1 (b5Pairs1.map fun ps => ⟨ps, []⟩) = true := Run.run_many (by decide +kernel)

def b5_linf_0 : List ℕ := [
  4, 8, 20, 24, 36897992712340570137, 110687220806992461849, 24, 36897992710193020953, 110687220804844912665, 12, 604536703609515066524689,
  9904729351942815769006573581, 8, 0, 29712374442551799739156922889, 1813499416659789988496389, 20, 24, 604537561598295525163033,
  1813499986470695967260697, 24, 604537561598020638933017, 1813499986470421081030681, 4, 8, 20, 24, 36897992712340570137, 110687220806992461849, 24,
  36897992710193020953, 110687220804844912665, 12, 604536703609515066524689, 9904729351942815769006573581, 8, 0, 29712374442551799739156922889,
  1813499416659789988496389, 20, 24, 604537561598295525163033, 1813499986470695967260697, 24, 604537561598020638933017, 1813499986470421081030681, 4,
  24, 8, 14167964192926290936861, 9904762407355274357310095369, 8, 14167964192651446714377, 604538714449156543479817, 20, 8, 14167964192788877279241,
  604538426218917822332937, 8, 14167964192926290936857, 9904757684988809078777184265, 20, 24, 8, 4722956455386124845081, 77380918565011084065901581,
  12, 9903553520444508701311897097, 9903553520156278325160184841, 9903553520444508701311897097, 9903553520156278325160184841, 24,
  9903553446369302030321847305, 8, 1813499425701764494918681, 29712383997688223358225940505, 24, 20, 8, 1813499425685134381350937,
  9904762407364316736633896985, 9903553446657532406473559561, 20, 12, 9903553520444508701311897097, 9903553520156278325160184841,
  9903553520444508701311897097, 9903553520156278325160184841, 8, 14167964263020149276697, 77380955458534551115464729, 4, 20, 24, 8,
  4722956455386124845081, 77380918565011084065901581, 12, 9903553520444508701311897097, 9903553520156278325160184841, 9903553520444508701311897097,
  9903553520156278325160184841, 24, 9903553446369302030321847305, 8, 1813499425701764494918681, 29712383997688223358225940505, 24, 20, 8,
  1813499425685134381350937, 9904762407364316736633896985, 9903553446657532406473559561, 20, 12, 9903553520444508701311897097,
  9903553520156278325160184841, 9903553520444508701311897097, 9903553520156278325160184841, 8, 14167964263020149276697, 77380955458534551115464729,
  24, 8, 14167964192926290936861, 9904762407355291949496139785, 8, 14167964192788885667849, 604538714449293982433289, 20, 8, 14167964192651438325769,
  604538426218780383379465, 8, 14167964192926290936857, 9904757684988791486591139849, 4, 8, 20, 24, 324578133768225670752590201225225,
  77380955449580128460472329, 24, 154770949796842373761729565, 1209148045287556200398857, 24, 604722028968389032214537, 604721740738012880437257, 24,
  16, 1268194012496272350013214950429, 29712407389019931536219178013, 20, 9903553483551020553892728325, 77404382823508162246017049, 20, 24,
  162279627310334069517459577569305, 9903553483262790177741016069, 24, 28, 29712402666660204066006631453, 486808005290560510948853814395933,
  1813501139391925688139801, 8, 20, 1209147757057317479251977, 1209148045287693631029257, 20, 24, 604722028968526462713865,
  77380918556109710657978377, 24, 77404419707988976234136601, 162328759854863682847559179698185, 20, 24, 604538426289423980625945,
  9903553483551020553892728325, 24, 16, 486808082661702283568878932984857, 29712407389019931536219178009, 486808083884612165031763145850905, 20, 24,
  77380918565028680513358861, 9903553483262790177741016069, 28, 29712402666660204066006631449, 2535767241472911106371183707161, 20, 8, 28,
  1267808969623013269044166004749, 9904757575179773567960089633, 24, 604538426289423980625945, 0, 12, 9904757574891543191808377361, 28,
  9904757576609684046097681929, 9904757575182025367773774881, 162279548107023043654588454471197, 24, 604538426289423980625945,
  9903553483551020553892728325, 24, 77380918565028680513358861, 9903553483262790177741016069, 24, 9903553446369302030321847305, 8,
  232128145842184084529351689, 486808083884612165031763145850905, 486808083884612165031763145850905, 232128145842184084529351689, 24, 20, 8,
  162279627310334069517459577569305, 77404419716978992365371417, 77404419716978992365371417, 162279627310334069517459577569305,
  9903553446657532406473559561, 8, 20, 0, 12, 9904762297260277861275664913, 16, 9904762297546256437613691925, 9907761001118562591524784645,
  162279625478312392479140493723161, 1813501139391925688139801, 0, 12, 9904762297260277861275664913, 16, 9904762297548508237427377173, 20,
  9907761001118562591524784645, 77404382823508162246017049, 1267809574049315566925111165453, 20, 9903553483551020553892728325,
  77404382823508162246017049, 20, 9903553483262790177741016069, 1813501139391925688139801, 4, 20, 8, 24, 604538426289423980625945,
  9903553483551020553892728325, 24, 77380918565011088327314445, 9903553483262790177741016069, 0, 24, 77380918565011088327314445, 28,
  9904757576609666453911637513, 9904757575179773567960089633, 1267808969586117529096933147149, 24, 604538426289423980625945, 0, 28,
  9904757576609666453911637513, 9904757575182025367773774881, 162279548107023043654588454471197, 24, 9903553446369302030321847305, 8,
  486808083884612165031763145850905, 232128145842166492343307273, 232128145842166492343307273, 486808083884612165031763145850905, 24, 20, 8,
  154775672172315259546566681, 162279627310334069517459577569305, 162279627310334069517459577569305, 154775672172315259546566681,
  9903553446657532406473559561, 8, 20, 9903553483551020553892728325, 154775635278844429427212313, 20, 9903553483262790177741016069,
  1813501139391925688139801, 20, 0, 16, 9904762297546256437613691925, 19811281315401604790717778437, 162279625478312392479140493723161,
  1813501139391925688139801, 16, 9904762297548508237427377173, 1267809574086211306872344021517, 8, 24, 16, 2535844612724501751509918155805,
  29712407389019931536219178013, 20, 9903553483551020553892728325, 154775635278844429427212313, 20, 24, 162279627310334069517459577569305,
  9903553483262790177741016069, 24, 28, 29712402666660204066006631453, 486808005290560510948853814395933, 1813501139391925688139801, 20, 24,
  162318856939012309612812004622345, 77380955449580265899425801, 24, 77399697341506106580534301, 604685135480379051999241, 24,
  1209184938775841058521097, 1209184650545464906743817, 8, 24, 20, 604538426289423980625945, 16, 486808082661702283568878932984857,
  29712407389019931536219178009, 20, 9903553483551020553892728325, 486808083884612165031763145850905, 20, 24, 77380918565011088327314445,
  9903553483262790177741016069, 28, 29712402666660204066006631449, 1268116641244681704874480501785, 20, 604684847249865452945417,
  604685135480241604722697, 20, 24, 1209184938775703611113481, 77380918556109573219024905, 24, 154775672163325243415331865,
  324588036684077043987337376301065]

theorem b5_linf_run0 : run .linf 2 36 7 b5Env [] b5_linf_0 (b5Pairs0.map fun ps => ⟨ps, []⟩) = true := Run.run_many (by decide +kernel)

def b5_linf_1 : List ℕ := [
  20, 12, 24, 0, 9903553409475813882902875657, 9903553409764044259054587401, 16, 9903548687109331013249273353, 4, 8, 28,
  3803183923925128574870888122397, 130676404757542821523825878580489997061129, 3803185123516895688205168478237, 8, 232127925051048919681729053,
  9904729351084880039992492569, 16, 9903548687397561389400985097, 4, 8, 28, 3803183923925993265999343061021, 7975854782564869514947591087489286685,
  3803185123516895688205168478237, 8, 232127925051048644795433497, 162279085688212146741024900845069, 9903553520444508701311897097, 24, 0,
  9903553409475813882902875145, 9903553409764044259054586889, 16, 9903548687109331013249272841, 8, 4, 28, 486807542262416457583473679666185,
  20769227667823459049405655078471181, 77380697773875923488080413, 4, 28, 3803185123517755875597631031321, 1267807156271751543651630778393,
  9904729351084880039992492569, 4, 16, 9903548687397561389400984585, 8, 28, 486807542262527138047915911810057, 62311365568544310816017841306206749,
  28, 3803185123517755875597631031321, 1267807156271751543651630778393, 77380697773875648601784857, 9903553520156278325160184841, 24, 0, 28,
  9903558131842296752556477961, 4, 8, 29712374443427749866680485917, 1267807156195958231039058379297, 8, 77380698354751904294306329, 16,
  1267805361807375205016109516833, 43561460365958575406697487203636963708429, 28, 9903558132130527128708189705, 4, 8, 29712374443427749866680485917,
  16, 3803185123441964814784872317461, 3803185123441964849970309759509, 16, 8, 3803183933516291631261956637213, 162279086311344318993357227624481,
  340323907871342212188191486236913045001, 9903553409475813882902875657, 9903553409764044259054587401, 9903553520444508701311897097, 24, 0, 28,
  9903558131842296752556477449, 4, 8, 486807542881083078800202545761289, 1267807156195958231039058379297, 8, 232127925634159108115595801, 16,
  1267805361918055669458366826517, 2658780539914463793503022640053684249, 8, 232127925634194293561426461, 28, 9903558132130527128708189193, 4, 16,
  3803185123441964814784872317461, 3803185123441964849970309759509, 16, 162279086325511418441966163265557, 20771722892523884660828040948156441,
  9903553409475813882902875145, 9903553409764044259054586889, 9903553520156278325160184841, 0, 24, 9903553409475813882902678537, 12,
  9903553520444508701311699977, 9903553520156278325159988233, 8, 232127925631942493747741209, 16, 4, 28, 3803185123441962598170496074273,
  3803185123441962562985058632225, 28, 20771722892538052048507026035705885, 162279086311344030762981075912737, 9903548798078025831658097673, 16, 4,
  8, 29712374443425498066866800665, 28, 3803185123441962598170496074273, 3803185123441962562985058632225, 28,
  340323907871110098430825424658836491273, 8, 3803183933626969843904400261657, 162279086325511130211590011553813, 9903548797789795455506385929, 24,
  9903553409764044259054390793, 12, 9903553520444508701311700489, 9903553520156278325159988745, 16, 4, 8, 486807542881119972288349964865033,
  1267807156195960482838872064533, 8, 232127925631907308301910557, 28, 2658780539916277219125932731235043357, 1267805361807377456815923202081,
  9903548798078025831658098185, 16, 4, 8, 29712374443425498066866800665, 1267807156195960482838872064533, 8, 77380698357003704107991581, 28,
  43561460365988285363177426522919980502029, 1267805361918057921258180511765, 9903548797789795455506386441, 24, 9903553409475813882902678537, 12, 4,
  28, 8, 16, 62311365566730885193107750124847641, 486807542262416457583473679666697, 16, 1267807156270886852523175643165,
  3803185123516891184469175896093, 9903558242810991570965302281, 77380697773893240787829277, 28, 4, 8, 16, 7975854782563056089324680996307927577,
  3803183923925128574870888122393, 3803185123517760379333623613465, 8, 232127925051031052609389085, 162279085688175253252877481741325,
  9903558242522761194813590537, 9903553520444508701311699977, 9903553520156278325159988233, 24, 9903553409764044259054390793, 12, 28, 4, 8, 16,
  20769227435714424049879723180295693, 486807542262527138047915911810569, 16, 1267807156270886852523175643165, 3803185123516891184469175896093, 8,
  16, 20769227435714424049879723180295693, 1267805352327466857067794728989, 9904729351087131839806177821, 9903558242810991570965302793, 28, 4, 8, 16,
  130676404757513111567345939261206980267529, 3803183923925993265999343061017, 3803185123517760379333623613465, 8, 232127925051031327495684633,
  9904729351087131839806177821, 9903558242522761194813591049, 9903553520444508701311700489, 9903553520156278325159988745, 24, 0, 20, 12,
  9903553409475813882902875657, 9903553409475813882902875145, 16, 9903548687109331013249273353, 4, 8, 28, 3803183923925128574870888122397,
  130676404757542821523825878580489997061129, 3803185123516895688205168478237, 8, 232127925051048919681729053, 9904729351084880039992492569, 16,
  9903548687109331013249272841, 4, 8, 28, 486807542262416457583473679666185, 20769227667823459049405655078471181, 28,
  3803185123517755875597631031321, 1267807156271751543651630778393, 8, 28, 1267805352327178626691643213849, 20769227667823459049405655078471181,
  9904729351084880039992492569, 9903553409475813882902678537, 20, 12, 9903553409764044259054587401, 9903553409764044259054586889, 16,
  9903548687397561389400985097, 4, 8, 28, 3803183923925993265999343061021, 7975854782564869514947591087489286685, 3803185123516895688205168478237, 8,
  232127925051048644795433497, 162279085688212146741024900845069, 4, 16, 9903548687397561389400984585, 8, 28, 486807542262527138047915911810057,
  62311365568544310816017841306206749, 28, 3803185123517755875597631031321, 1267807156271751543651630778393, 77380697773875648601784857,
  9903553409764044259054390793, 20, 12, 28, 9903558131842296752556477961, 4, 8, 29712374443427749866680485917, 1267807156195958231039058379297, 8,
  77380698354751904294306329, 16, 1267805361807375205016109516833, 43561460365958575406697487203636963708429, 28, 9903558131842296752556477449, 4, 8,
  486807542881083078800202545761289, 1267807156195958231039058379297, 8, 232127925634159108115595801, 16, 1267805361918055669458366826517,
  2658780539914463793503022640053684249, 9903553409475813882902875657, 9903553409475813882902875145, 9903553409475813882902678537, 20, 12, 28,
  9903558132130527128708189705, 4, 8, 29712374443427749866680485917, 16, 3803185123441964814784872317461, 3803185123441964849970309759509, 16, 8,
  3803183933516291631261956637213, 162279086311344318993357227624481, 340323907871342212188191486236913045001, 8, 232127925634194293561426461, 28,
  9903558132130527128708189193, 4, 16, 3803185123441964814784872317461, 3803185123441964849970309759509, 16, 162279086325511418441966163265557,
  20771722892523884660828040948156441, 9903553409764044259054587401, 9903553409764044259054586889, 9903553409764044259054390793, 12, 20,
  9903553520444508701311897097, 0, 9903553520444508701311699977, 9903553520444508701311700489, 8, 232127925631942493747741209, 16, 4, 28,
  3803185123441962598170496074273, 3803185123441962562985058632225, 28, 20771722892538052048507026035705885, 162279086311344030762981075912737,
  9903548798078025831658097673, 16, 4, 8, 486807542881119972288349964865033, 1267807156195960482838872064533, 8, 232127925631907308301910557, 28,
  2658780539916277219125932731235043357, 1267805361807377456815923202081, 9903548798078025831658098185, 20, 9903553520156278325160184841, 0,
  9903553520156278325159988233, 9903553520156278325159988745, 16, 4, 8, 29712374443425498066866800665, 28, 3803185123441962598170496074273,
  3803185123441962562985058632225, 28, 340323907871110098430825424658836491273, 8, 3803183933626969843904400261657,
  162279086325511130211590011553813, 9903548797789795455506385929, 16, 4, 8, 29712374443425498066866800665, 1267807156195960482838872064533, 8,
  77380698357003704107991581, 28, 43561460365988285363177426522919980502029, 1267805361918057921258180511765, 9903548797789795455506386441, 20,
  9903553520444508701311897097, 0, 4, 28, 8, 16, 62311365566730885193107750124847641, 486807542262416457583473679666697, 16,
  1267807156270886852523175643165, 3803185123516891184469175896093, 9903558242810991570965302281, 77380697773893240787829277, 28, 4, 8, 16,
  20769227435714424049879723180295693, 486807542262527138047915911810569, 16, 1267807156270886852523175643165, 3803185123516891184469175896093, 8,
  16, 20769227435714424049879723180295693, 1267805352327466857067794728989, 9904729351087131839806177821, 9903558242810991570965302793,
  9903553520444508701311699977, 9903553520444508701311700489, 20, 9903553520156278325160184841, 0, 28, 4, 8, 16,
  7975854782563056089324680996307927577, 3803183923925128574870888122393, 3803185123517760379333623613465, 8, 232127925051031052609389085,
  162279085688175253252877481741325, 9903558242522761194813590537, 28, 4, 8, 16, 130676404757513111567345939261206980267529,
  3803183923925993265999343061017, 3803185123517760379333623613465, 8, 232127925051031327495684633, 9904729351087131839806177821,
  9903558242522761194813591049, 9903553520156278325159988233, 9903553520156278325159988745, 8, 20, 4, 19810676961445166646728720393,
  4722942997224214364169, 4, 1209148045287831045013513, 9446469103809032486921, 24, 4, 604722028968663876829193, 4724390851315538984969, 4,
  9907761110071931762131468297, 4722942997361653317641, 24, 20, 4, 232128182735672637823320089, 4722943067179593433113, 0,
  9903553409475813882902678537, 9903553409764044259054390793, 9903553409475813882902678537, 9903553409764044259054390793, 20,
  9903553483551020553892728325, 4, 29712407461946685116750692377, 604536712599947826036761, 20, 24, 4, 9904743628578849700343578649,
  604536712563802455279129, 9903553483262790177741016069, 24, 0, 9903553409475813882902678537, 9903553409764044259054390793,
  9903553409475813882902678537, 9903553409764044259054390793, 4, 232128145842201673519336457, 14167977651499419435033, 8, 24, 20, 4,
  232128182735672637823320089, 4722943067179593433113, 0, 9903553409475813882902678537, 9903553409764044259054390793, 9903553409475813882902678537,
  9903553409764044259054390793, 20, 9903553483551020553892728325, 4, 29712407461946685116750692377, 604536712599947826036761, 20, 24, 4,
  9904743628578849700343578649, 604536712563802455279129, 9903553483262790177741016069, 24, 0, 9903553409475813882902678537,
  9903553409764044259054390793, 9903553409475813882902678537, 9903553409764044259054390793, 4, 232128145842201673519336457, 14167977651499419435033,
  20, 4, 9907156647162124447535726601, 4722942997224214364169, 4, 604685135480516457660425, 4724102620939387273225, 24, 4, 1209184938775978464182281,
  9446757334185184198665, 4, 19811281424354973961324462089, 4722942997361653317641, 4, 8, 1813462523206826933093389, 110684968455275479049, 8,
  604574166785698040053769, 604573597062478121927689, 4, 8, 1813462523206826933093389, 110684968455275479049, 8, 604574166785698040053769,
  604573597062478121927689]

theorem b5_linf_run1 : run .linf 2 36 7 b5Env [] b5_linf_1 (b5Pairs1.map fun ps => ⟨ps, []⟩) = true := Run.run_many (by decide +kernel)

theorem b5_l1 : b5Tab.Refuted .l1 2 12 1 4 :=
  Tab.refuted_two (T := b5Tab) rfl b5_paths0 b5_paths1 b5_pairs (parts2 (part2 b5_l1_run0) (part2 b5_l1_run1))

theorem b5_l2 : b5Tab.Refuted .l2 2 6 1 4 :=
  Tab.refuted_two (T := b5Tab) rfl b5_paths0 b5_paths1 b5_pairs (parts2 (part2 b5_l2_run0) (part2 b5_l2_run1))

theorem b5_linf : b5Tab.Refuted .linf 2 36 7 4 :=
  Tab.refuted_two (T := b5Tab) rfl b5_paths0 b5_paths1 b5_pairs (parts2 (part2 b5_linf_run0) (part2 b5_linf_run1))

end MinCert
end Peano
