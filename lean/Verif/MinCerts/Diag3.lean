import Verif.Lemmas.MinRun
import Verif.Lemmas.MinFast

set_option autoImplicit false

/-
Diagonal, grid 3: no curve has less dilation.  This file is generated.
-/
namespace Peano
namespace MinCert

/-- Table of links and of their specs. -/
def diag3Env : Env where
  N := 3
  G := 9
  m := 1
  S := 1
  W := 4
  B := 64
  L := 4
  links := [([0, 0], [1, 1]), ([0, 1], [1, 0]), ([1, 0], [0, 1]), ([1, 1], [0, 0])]
  doms := [

    [⟨[(0, false), (1, false)], false, 0⟩, ⟨[(0, true), (1, true)], true, 0⟩, ⟨[(1, false), (0, false)], false, 0⟩, ⟨[(1, true), (0, true)], true, 0⟩],
    [⟨[(0, true), (1, false)], true, 0⟩, ⟨[(0, false), (1, true)], false, 0⟩, ⟨[(1, true), (0, false)], true, 0⟩, ⟨[(1, false), (0, true)], false, 0⟩],
    [⟨[(0, true), (1, false)], false, 0⟩, ⟨[(0, false), (1, true)], true, 0⟩, ⟨[(1, true), (0, false)], false, 0⟩, ⟨[(1, false), (0, true)], true, 0⟩],
    [⟨[(0, false), (1, false)], true, 0⟩, ⟨[(0, true), (1, true)], false, 0⟩, ⟨[(1, false), (0, false)], true, 0⟩, ⟨[(1, true), (0, true)], false, 0⟩]]

/-- Data of the search of paths. -/
def diag3Enum : Enum where
  L := 4
  B := 64
  ones := 5
  offs := [1, 3, 4, 5]
  trans := [
    [(6, 2), (9, 1), (10, 0)], [(4, 3), (8, 1), (9, 0)], [(1, 3), (2, 2), (6, 0)], [(0, 3), (1, 2), (4, 1)]]
  U := 61152
  F := 32768
  starts := [(5, 0)]
  finals := [(15, 0)]

def diag3Tab : Tab := ⟨diag3Env, [([0, 0], [1, 1])], [diag3Enum]⟩

theorem diag3_ok : diag3Tab.Ok 2 3 1 2 := Fast.ok_sound (by decide +kernel)

def diag3Paths0 : List ℕ := [
  5745821938568892]

def diag3Paths1 : List ℕ := [
  5745822178110012]

def diag3Paths2 : List ℕ := [
  5795863673293692]

def diag3Paths3 : List ℕ := [
  5795863724923452]

def diag3Paths4 : List ℕ := [
  5808616205930172, 5809398105099132]

def diag3Tree : CT :=
  .node (.node (.node .nil 5745821938568892 .nil) 5745822178110012 (.node .nil 5795863673293692 .nil)) 5795863724923452 (.node (.node .nil
  5808616205930172 .nil) 5809398105099132 .nil)

theorem diag3_paths : ∀ P ∈ diag3Enum.all 9, P ∈ diag3Paths0 ++ (diag3Paths1 ++ (diag3Paths2 ++ (diag3Paths3 ++ (diag3Paths4)))) := by
  have h : diag3Tree.toList = diag3Paths0 ++ (diag3Paths1 ++ (diag3Paths2 ++ (diag3Paths3 ++ (diag3Paths4)))) := by decide +kernel
  rw [← h]
  exact diag3Enum.allF_sound 9 diag3Tree (by decide +kernel)

def diag3_l1_0 : List ℕ := [
  24, 8, 28, 1209036518146383997308449, 1209036518234344927530525, 12, 4, 1209036506869792742835229, 1209036506905114520323085, 20,
  36909251572896301073, 1209036506887522334278681, 1209036506887522334278681, 154756672881620585191443481, 1209036506887522334278673,
  604721182309251272412701, 604721182309251272412701, 77371548760684150470938141, 20, 604721182344435644501533, 4, 1209036506887522334278681,
  1209036506887384928879625, 1209036506887522334278681, 12, 1209036506887522334278673, 73793732519987183633, 154756672881620585191442457,
  1209036506887522334278673, 77371549337144902774361629, 604721182344435644501533, 28, 604721182291659086368289, 77404311344626676476677661, 12, 4,
  20, 4724384201193321138189, 604721177788059458996237, 77404309901187681550994445, 604721171103028762117145, 604721171103028762117129, 20,
  4724384201193321138189, 604721177788059458996237, 77404309901187681550994445, 604721171103028762117145, 77404309901187681550993421,
  604721182309251272412701, 604721173354828575802897, 77404310180410858448029709, 20, 604721182344435644501533, 12, 604721177788059458996237,
  4724384201469214523409, 604721173354828575802897, 77404310180410858448029709, 77371549337144902774361629, 604721182344435644501533, 12, 28,
  77404311335619477221936669, 77404311344626676476677661, 77404311335619477221936669, 20, 604721182344435644501533, 77404310187201572242458141,
  77371549337144902774361629, 604721182344435644501533, 604721173302052017669661, 28, 604721182309251272412701, 77404311344626676476677661,
  604721182309251272412701, 20, 604721182344435644501533, 77404310189418057702771725, 77371549337144902774361629, 604721182344435644501533,
  77404310182697972615087645, 12, 28, 1209036518163976183352861, 1209036518234344927530525, 1209036518163976183352861, 20, 604721182344435644501533,
  73793732521060663313, 77371549337144902774361629, 604721182344435644501533, 28, 604721182309251272412701, 1209036518234344927530525,
  604721182309251272412701, 20, 36909251571822821393, 1209036518199160555441693, 77371549337144902774361629, 604721182344435644501533,
  604721173354828575802897, 1209036509156914334008845, 8, 20, 4, 1209036506869930148234269, 154756672881602858787669021, 154756672881602858787671069,
  12, 1209036506887522334278673, 1209036513713290519513117, 154756672881620585191442457, 1209036506887522334278673, 4, 1209036506887522334278681,
  154756672881602858787669021, 1209036506887522334278681, 12, 1209036506887522334278673, 9445597762695764903965, 154756672881620585191442457,
  1209036506887522334278673, 1209036515947498147154957, 154756674041367995447512093, 12, 20, 604722029021302996008977, 1209038517797532513796113,
  19808887075892027461336042509, 9907765723782300629836237853, 20, 604722029021165590347793, 1209038517797395108134929,
  19808887075892027461336042509, 9907765723782300629836237853, 19808887075029588132694590993, 9907765722910854101940045329, 12, 20,
  9907765722917609501381101085, 19808887075027353920805537309, 19808887075892027461336042509, 9907765723782300629836237853,
  9907765722913105901753730589, 20, 19808887075029588132694591001, 19808887075029605720619222553, 19808887075892027461336042509,
  9907765723782300629836237853, 19808887075022850321178166813, 20, 12, 9445597763385082183697, 1209036513713290519513117,
  154756673178840434194188317, 1209036509156914334008845, 12, 73793732521060663313, 9445597762695764903965, 154756673178840434194188317,
  1209036509156914334008845, 1209036515947498147154957, 154756674041367995447512093, 8, 4, 20, 154756672881602858787671069,
  1209036506887522334278681, 1209036506887522334278681, 154756674034524363394780189, 154756672881602858787669021, 20, 154756672881602858787671069,
  1209036506887522334278681, 1209036506887522334278681, 154756674034524363394780189, 12, 1209036506887522334278673, 154756672881602858787670045,
  154756672881620585191442457, 1209036506887522334278673, 20, 12, 9907765723775545230395182097, 9907765723775527642470550545,
  19808887075029588132694590993, 9907765722910854101940045329, 9907765723775545230395182105, 12, 19808887075887523861708672013,
  9907765723777779442284235789, 19808887075029588132694590993, 9907765722910854101940045329, 9907765723775527642470550553, 1209038517814987294179341,
  73793732658499616781, 8, 4, 20, 1209036506887384928879641, 1209036506887522334278681, 1209036506887522334278681, 604721180110228016860185,
  1209036506887384928879625, 20, 1209036506887384928879641, 1209036506887522334278681, 1209036506887522334278681, 604721180110228016860185, 12,
  1209036506887522334278673, 1209036506887384928879633, 154756672881620585191442457, 1209036506887522334278673, 12, 20, 4724384201193321138189,
  604721177788059458996237, 77404311051892700697594893, 604721180110228016860185, 20, 36909251571822821393, 4724384201469214523409,
  77404311051892700697594893, 604721180110228016860185, 604721173354828575802897, 77404310180410858448029709, 36909251709261774861,
  36909251710335254541]

theorem diag3_l1_run0 : run .l1 2 10 1 diag3Env [] diag3_l1_0 (diag3Paths0.map fun P => ⟨[P], []⟩) = true := Run.run_one (by decide +kernel)

def diag3_l1_1 : List ℕ := [
  8, 20, 288335935718817805, 73793732521060663309, 73793732521060663309, 36906999773082615821, 20, 288335935718817805, 1209038229567018948034573,
  1209038229567018948034573, 36906999772009070605, 20, 288335935718817805, 1209038229567018948034573, 1209038229567018948034573,
  36906999772009070605, 288231065494159373]

theorem diag3_l1_run1 : run .l1 2 10 1 diag3Env [] diag3_l1_1 (diag3Paths1.map fun P => ⟨[P], []⟩) = true := Run.run_one (by decide +kernel)

def diag3_l1_2 : List ℕ := [
  8, 24, 4, 604573597080207780480009, 604573597062615594435613, 12, 28, 604573608427167779130909, 1209184092116703298719261, 20,
  36900244373641822225, 73802739720315666449, 1209184089864903485033501, 77371549337162494960406045, 1209184092116703298719261,
  604573597080070307972113, 604573597080070307972113, 77385420426284318010247193, 20, 604573597080070307972121, 28, 604573608427167779130909,
  604573608339206848908833, 1209184092151887670808093, 12, 73802739720315666449, 73802739719241662481, 77371548760701742656982557,
  1209184092116703298719261, 77385420426284318010248217, 604573597080070307972121, 20, 4, 77385420426248999420429341, 604573597080070307972121, 12,
  4723231279688680736797, 36900244372567818257, 604573597080070307972113, 77385420426284318010247193, 604573597080070307972121, 4,
  77385420426248999420429341, 604573597062478121927709, 12, 604573603905838493206557, 604573597080070307972113, 604573597080070307972113,
  77385420426284318010247193, 77385420426248999420431389, 77385421586031590827363357, 604573606140046120848397, 4, 77385420426248999420429341, 20,
  604573597080070307972121, 77385420426248999420431389, 77385421579170504027540509, 604573597080070307972121, 12, 77385420426248999420430365,
  604573597080070307972113, 604573597080070307972113, 77385420426284318010247193, 20, 604573597080070307972121, 77385420426248999420431389,
  77385420426284318010248217, 604573597080070307972121, 4, 604573597080207780480009, 20, 604573597080070307972121, 604573597080207780480025,
  1209184089917680043166745, 604573597080070307972121, 12, 604573597080207780480017, 604573597080070307972113, 604573597080070307972113,
  77385420426284318010247193, 20, 604573597080070307972121, 604573597080207780480025, 77385420426284318010248217, 604573597080070307972121, 24, 12,
  20, 9446750684339933478929, 73802739720315666449, 1209184089864903485033501, 28, 154775563799963081096826397, 1209184092116703298719261,
  77371549337162494960406045, 1209184092116703298719261, 20, 1209184087595511485302797, 9446750684200405305357, 4, 1209184080910480788423689,
  1209184080910480788423705, 154775562356541540918233101, 1209184080910480788423705, 4, 1209184080910480788423689, 154775562356541540918234125,
  154775562356541540918233101, 154775562356541540918234125, 154775562635764717815269389, 1209184083162280602109457, 20, 12, 604575607990217959735313,
  604575607990080487489553, 19811286037193878708946994705, 9905366760746563525687641617, 12, 1209184938828617616654353, 1209184938828480144408593,
  19811286037193878708946994705, 9905366760746563525687641617, 19811286038065325236843187229, 9905366761609002854329093133, 20,
  19811286038058569837402131481, 12, 19811286038058587433849588753, 19811286038058569837402131473, 19811286037193878708946994705,
  9905366760746563525687641617, 19811286038058587433849588761, 12, 19811286038060839233663273997, 9905366761604499254701722637,
  19811286037193878708946994705, 9905366760746563525687641617, 12, 20, 9446750684339933478929, 73802739720315666449, 1209184089917680043166745,
  154775563507229105317743629, 20, 1209184087595511485302797, 9446750684200405305357, 1209184089917680043166745, 154775563507229105317743629,
  154775562635764717815269389, 1209184083162280602109457, 24, 12, 1209184083109504043976221, 28, 154775563799963081096826397,
  154775563790955881842085405, 20, 154775562642537976862606877, 1209184092151887670808093, 1209184092151887670808093, 77371549337162494960406045,
  154775563790955881842085405, 154775562638034377235236381, 28, 154775563799963081096826397, 1209184092116703298719261, 20,
  154775562644771917070011405, 1209184092151887670808093, 1209184092151887670808093, 77371549337162494960406045, 1209184092116703298719261, 12,
  19811286037196130508760679965, 20, 9905366760744294129426499101, 19811286037200634108388050461, 19811286038065325236843187229,
  9905366761609002854329093133, 9905366760739790529799128605, 20, 9905366760746545929240184345, 9905366760746563525687641625,
  19811286038065325236843187229, 9905366761609002854329093133, 604575608007810145779725, 73802739857754619917, 24, 12, 28, 604573608427167779130909,
  1209184092116703298719261, 20, 604573608391983407042077, 73802739720315666449, 1209184089864903485033501, 77371549337162494960406045,
  1209184092116703298719261, 28, 604573608427167779130909, 604573608356799034953245, 20, 36900244372567818257, 1209184092151887670808093,
  1209184092151887670808093, 77371549337162494960406045, 604573608356799034953245, 604573599349462307702285, 28, 604573608427167779130909,
  1209184092116703298719261, 20, 604573608391983407042077, 1209184092151887670808093, 1209184092151887670808093, 77371549337162494960406045,
  1209184092116703298719261, 20, 12, 4723231279688680736797, 36900244372567818257, 604573599349462307702285, 77385420723486574826948637, 12,
  604573603905838493206557, 4723231280514363228177, 604573599349462307702285, 77385420723486574826948637, 77385421586031590827363357,
  604573606140046120848397, 36900244510006771725, 73802739856680615949]

theorem diag3_l1_run2 : run .l1 2 10 1 diag3Env [] diag3_l1_2 (diag3Paths2.map fun P => ⟨[P], []⟩) = true := Run.run_one (by decide +kernel)

def diag3_l1_3 : List ℕ := [
  8, 20, 576566311870529549, 36900244372567818253, 36900244372567818253, 73800487919427977229, 20, 576566311870529549, 604575319759841799634957,
  604575319759841799634957, 73800487920501915661, 20, 576566311870529549, 604575319759841799634957, 604575319759841799634957, 73800487920501915661,
  288231064420417549]

theorem diag3_l1_run3 : run .l1 2 10 1 diag3Env [] diag3_l1_3 (diag3Paths3.map fun P => ⟨[P], []⟩) = true := Run.run_one (by decide +kernel)

def diag3_l1_4 : List ℕ := [
  24, 12, 288231202933178385, 36909251709261774865, 36909251709261774865, 36909251710335320081, 12, 288231202933178385, 1209075411303134713348113,
  1209075411303134713348113, 73795984458313367569, 12, 288231202933178385, 1209075411303134713348113, 1209075411303134713348113,
  73795984458313367569, 288353528978604049, 12, 288231201859436561, 24, 73802739857754619921, 604612501495957564948497, 604612501495957564948497,
  576583905130315793, 24, 73802739857754619921, 604612501495957564948497, 604612501495957564948497, 576583905130315793, 24, 73802739856680681489,
  36902496309820522513, 36902496309820522513, 576583905130315793]

theorem diag3_l1_run4 : run .l1 2 10 1 diag3Env [] diag3_l1_4 (diag3Paths4.map fun P => ⟨[P], []⟩) = true := Run.run_one (by decide +kernel)

def diag3_l2_0 : List ℕ := [
  8, 4, 9445597709920255345689, 73793732108743802889, 0, 9445597710057694298649, 73793732108743802885, 32, 24, 4722386801982024191517,
  73793732933377523741, 20, 1209036515894721589021701, 1209036506887522334278681, 36893611706112019469, 36893611706112019481, 20, 12,
  4722380099496546666509, 36909251571822821393, 604721180110228016860177, 28, 36893646890484109337, 36893646890484109325, 604465217955037612278285,
  1209036520398321216393221, 1209036506887522334278681, 36893612118428879885, 36909251709261774873, 24, 36909251984139681821, 9445597816161640316957,
  20, 1209036515894721589021701, 1209036506887522334278681, 36893611706112019469, 36893611706112019481, 20, 12, 4722380099496546666509,
  36909251571822821393, 604721180110228016860177, 28, 36893647302800969753, 36893647302800969741, 604465217955037612278285, 604465524199812273537549,
  1209036506887522334278681, 36893612118428879885, 36909251709261774873, 604463488572780701618713, 604463488572780701618701,
  604463488625557259747865, 0, 9445597710057694298649, 73793732108743802885, 1209036506887522334278661, 154756672881620585191440921, 24, 0,
  36909251159505960965, 4724384148416763003405, 28, 36893629298298064409, 36909251846700728349, 604465217955037612281369, 32, 4722386801982024191517,
  36909251984139681821, 604721182397212202634781, 604465524199812273537549, 28, 36893629298298064409, 36909251846700728349, 604721182256474714279453,
  32, 4722386801982024191517, 36909251984139681821, 604721182397212202634781, 4, 36893541749684700185, 36893541749684700173,
  604463488625557259747865, 604463506587179211096601, 0, 604722028968389032214533, 604722028968526437875717, 32, 1209038517850309071929373,
  604722029074079554142237, 4, 36893541749684700185, 36893541749684700173, 604463488572780701618713, 604463506639955769233945, 4,
  36893541749684700185, 36893541749684700173, 604463488572780701618701, 604463506587179211100685, 4, 36893541749684700185, 36893541749684700173,
  604463488625557259747865, 32, 1209038517850309071929373, 604722029074079554142237, 604463506639955769229849, 604463506587179211096601, 0,
  604722028968389032214533, 604722028968526437875717, 20, 9907765723775545230395182085, 12, 604464646050524055209477, 604610778745680930472461, 32,
  77371402636873042179064333, 604613084588690144166413, 4, 36893541749684700185, 36893541749684700173, 604463488572780701618713,
  604463506639955769233945, 4, 36893541749684700185, 36893541749684700173, 604463488572780701618701, 604463506587179211100685,
  9907765722910854101940045329, 36893611706112019469, 36893611706112019481, 20, 9907765723775527642470550533, 12, 604464646050524055209477,
  604464065086309563302425, 4, 36893541749684700185, 36893541749684700173, 604463488625557259747865, 32, 604463794870331921007129,
  9903530091359160032483676685, 604463506639955769229849, 604463506587179211096601, 9907765722910854101940045329, 36893611706112019469,
  36893611706112019481, 12, 20, 4724384202018969880589, 604464646050524055209477, 36893612118428879885, 36909251709261774873, 0,
  36909251159505960965, 4724384148416763003405, 604610778745680930472461, 604464065086309563302425, 604721173354828575802897,
  77404310180410858448029709, 12, 20, 1742910785417643549, 604464646068253680207385, 24, 32, 4722386801982024191517, 36909251984139681821,
  604721173390012947891741, 28, 36893629298298064409, 36909251846700728349, 604465524199812273541645, 77371549339396702588046877, 32,
  1209038517850309071929373, 604722029074079554142237, 9907765722924364900822156829, 19808887075034109320246593053, 36893611706112019469,
  36893612118428879885, 24, 28, 36893629298298064409, 36909251846700728349, 32, 4722386801982024191517, 36909251984139681821,
  604721173390012947891741, 604465524199812273541645, 604721182344435644501533, 9907765723782300629836237853, 36893611706112019481,
  36909251709261774873, 24, 604721173302052017669661, 20, 604464655004946751818757, 604464646068253680208933, 32, 1209038517850309071929373,
  604722029074079554142237, 16, 36893576934056790041, 36893576521739929625, 604464371331084224564749, 604464659561460376343065, 16,
  36893576934056790041, 36893576521739929625, 604464371278307666431501, 604464659508683818209805, 9907765723782300629836237853, 20,
  604464654987354565774341, 604464646068253680208933, 36893611706112019469, 36893611706112019481, 20, 36909251571822821393, 604464646068253680208933,
  36893612118428879885, 36909251709261774873, 36893559341870745113, 36893558929553884697, 12, 20, 4722380099496546666509, 73793732521060663313,
  1209036509192098706097677, 24, 28, 36893629298298064409, 36909251846700728349, 32, 4722386801982024191517, 36909251984139681821, 0, 4,
  36893523745181794841, 36893524157498655257, 604463794870331921011225, 604721168886413320520221, 4, 36893523745181794829, 36893524157498655245,
  604463794870331921011225, 604463506639955769229849, 604465217955037612281369, 604721182256474714279453, 604465524199812273541645,
  604721182344435644501533, 154756674041367995447512093, 36893611706112019481, 36909251709261774873, 20, 24, 36909251571822821393,
  604464655004946751818757, 604464654987354565774341, 36909251571822821393, 9445597762834252433433, 24, 28, 36893629298298064409,
  36909251846700728349, 32, 4722386801982024191517, 36909251984139681821, 0, 4, 36893523745181794841, 36893524157498655257, 604463794870331921011225,
  604721168886413320520221, 4, 36893523745181794829, 36893524157498655245, 604463794870331921011225, 604463506639955769229849,
  604465217955037612281369, 604721182256474714279453, 604465524199812273541645, 77371549339396702588046877, 32, 73793732933377523741,
  9445597816161640316957, 16, 36893576934056790041, 36893576521739929625, 604464371331084224564749, 604464659561460376343065, 16,
  36893576934056790041, 36893576521739929625, 604464371278307666431501, 604464659508683818209805, 36893611706112019469, 36893612118428879885, 24, 28,
  36893629298298064409, 36909251846700728349, 32, 4722386801982024191517, 36909251984139681821, 0, 4, 36893523745181794841, 36893524157498655257,
  604463794870331921011225, 604721168886413320520221, 4, 36893523745181794829, 36893524157498655245, 604463794870331921011225,
  604463506639955769229849, 604465217955037612281369, 604721182256474714279453, 604465524199812273541645, 604721182344435644501533,
  154756674041367995447512093, 36893611706112019481, 36909251709261774873, 4722375595896919295501, 73793732246182756365]

theorem diag3_l2_run0 : run .l2 2 17 3 diag3Env [] diag3_l2_0 (diag3Paths0.map fun P => ⟨[P], []⟩) = true := Run.run_one (by decide +kernel)

def diag3_l2_1 : List ℕ := [
  24, 32, 36893646890484108825, 36893647302800969241, 28, 36893629298298064409, 36893629710614924825, 36893646890484109337, 36893646890484109325,
  36893647440239922713, 32, 36893646890484108809, 36893647302800969225, 28, 36893629298298064397, 36893629710614924813, 36893646890484109337,
  36893646890484109325, 36893647440239922697, 20, 8, 36906999773082615821, 36906999772009070605, 36906999772009070605, 36906999773082615821, 8,
  73793732521060663309, 1209038229567018948034573, 1209038229567018948034573, 73793732521060663309, 36893611706112019469, 36893611706112019481, 20,
  8, 36906999773082615821, 36906999772009070605, 36906999772009070605, 36906999773082615821, 8, 73793732521060663309, 1209038229567018948034573,
  1209038229567018948034573, 73793732521060663309, 36893612118428879885, 36893612118428879897]

theorem diag3_l2_run1 : run .l2 2 17 3 diag3Env [] diag3_l2_1 (diag3Paths1.map fun P => ⟨[P], []⟩) = true := Run.run_one (by decide +kernel)

def diag3_l2_2 : List ℕ := [
  8, 4, 36900243960250957833, 4723231227050610131993, 0, 4723231227188049084953, 36900243960250957829, 604573597080070307972101,
  77385420426284318010245657, 0, 4723231227188049084953, 36900243960250957829, 32, 28, 36893646890484109325, 36893646890484109337,
  604573610590869190086661, 24, 4722386802119463144989, 36900244784884678685, 20, 604573597080070307972121, 604573606087269562715141,
  36893611706112019481, 36893611706112019469, 604465217955037612278285, 28, 36893647302800969741, 36893647302800969753, 604465524199812273537549, 24,
  73802740132632526877, 4723231333290921361437, 20, 604573597080070307972121, 604573606087269562715141, 36893611706112019481, 36893611706112019469,
  604465217955037612278285, 604463488572780701618713, 604573597080070307972133, 604463488625557259747865, 4, 36893541749684700173,
  36893541749684700185, 24, 32, 4722386802119463144989, 73802740132632526877, 0, 73802739307998806021, 9446750631423847170573,
  604463506639955769233945, 604463506639955769229849, 0, 73802739307998806021, 9446750631423847170573, 604463506587179211100685,
  604463506587179211096601, 32, 604575608042857045622813, 1209184938881256702541853, 0, 604463506639955769232909, 604463506639955769229849,
  604463506639955769233945, 604463506639955769229849, 0, 604463506587179211099661, 1209184938775703586275333, 604463506587179211100685,
  604463506587179211096601, 0, 1209184938775841058521093, 1209184938775703586275333, 32, 77371365743384894759895565, 9903530091352404633043141133,
  604463506639955769233945, 604463506587179211100685, 32, 604463794870331921007129, 9903530091359160032483676685, 604463506639955769229849,
  604463506587179211096601, 0, 73802739307998806021, 9446750631423847170573, 32, 77371365743384894759895565, 9903530091352404633043141133,
  604463506639955769233945, 604463506587179211100685, 32, 604463794870331921007129, 9903530091359160032483676685, 604463506639955769229849,
  604463506587179211096601, 0, 24, 73802739307998806021, 1209184938775841058521093, 1209184938775841058521093, 73802739307998806021, 24,
  9446750631423847170573, 1209184938775703586275333, 1209184938775703586275333, 9446750631423847170573, 32, 24, 4722386802119463144989,
  604575608042857045622813, 12, 604610778745680930472461, 20, 604464646050524055209477, 1742910785417643545, 36893611706112019481,
  36893611706112019469, 19811286037193878708946994705, 77371402636873042179064333, 12, 604610778745680930472461, 20, 604464646050524055209477,
  9446750684888615094285, 73802739857754619929, 36893612118428879885, 154775562635764717815269389, 1209184083162280602109457, 28,
  36893647302800969741, 36893647302800969753, 604465524199812273537549, 24, 73802740132632526877, 1209184938881256702541853, 12,
  604610778745680930472461, 20, 604464646050524055209477, 1742910785417643545, 36893611706112019481, 36893611706112019469,
  19811286037193878708946994705, 604613084588690144166413, 604465217955037612278285, 604463488572780701618713, 604463488572780701618701,
  604463488625557259747865, 12, 24, 1209184083109504043976221, 20, 604464646068253680208933, 604464655004946751818757, 19811286038065325236843187229,
  32, 604575608042857045622813, 1209184938881256702541853, 16, 36893576934056790041, 36893576521739929625, 604464371331084224564749,
  604464659561460376343065, 16, 36893576934056790041, 36893576521739929625, 604464371278307666431501, 604464659508683818209805, 20,
  604464646068253680208933, 604464654987354565774341, 36893611706112019481, 36893611706112019469, 20, 604464646068253680208933, 73802739720315666449,
  73802739857754619929, 36893612118428879885, 20, 604464646068253680207385, 1742910785417643549, 24, 28, 73802739995193573405, 36893629298298064409,
  1209184092151887670808093, 32, 4722386802119463144989, 73802740132632526877, 1209184083197464974198301, 604465524199812273541645,
  19811286038065325236843187229, 36893611706112019481, 73802739857754619929, 24, 32, 4722386802119463144989, 73802740132632526877,
  1209184083197464974198301, 28, 73802739995193573405, 36893629298298064409, 77371549339414294774091293, 604465524199812273541645, 32,
  604575608042857045622813, 1209184938881256702541853, 19811286037207389507829106205, 9905366760751049528867554845, 36893611706112019469,
  36893612118428879885, 36893558929553884697, 36893559341870745113, 12, 20, 4723231279964607219737, 24, 73802739720315666449,
  604464655004946751818757, 604464654987354565774341, 73802739720315666449, 24, 1209184089864903485033501, 77385421586031590827363357,
  36893611706112019481, 73802739857754619929, 24, 28, 73802739995193573405, 36893629298298064409, 77371549339414294774091293,
  1209184092116703298719261, 32, 36900244784884678685, 4723231333290921361437, 16, 36893576934056790041, 36893576521739929625,
  604464371331084224564749, 604464659561460376343065, 16, 36893576934056790041, 36893576521739929625, 604464371278307666431501,
  604464659508683818209805, 36893611706112019469, 36893612118428879885, 20, 36900244372567818257, 4722380099359107713037, 24, 28,
  73802739995193573405, 36893629298298064409, 1209184092151887670808093, 0, 4, 36893524157498655257, 36893523745181794841, 32,
  4722386802119463144989, 73802740132632526877, 1209184078693865346826781, 604465524199812273541645, 32, 4722386802119463144989,
  73802740132632526877, 604463794870331921011225, 604465524199812273541645, 4, 36893524157498655245, 36893523745181794829, 32,
  4722386802119463144989, 73802740132632526877, 604463506639955769229849, 604465524199812273541645, 32, 4722386802119463144989, 73802740132632526877,
  604463794870331921011225, 604465524199812273541645, 604464929724661460504089, 1209184089812126926900253, 77385421586031590827363357,
  36893611706112019481, 73802739857754619929, 604573599384646679791117, 36900244097689911309, 4722375595759480342029]

theorem diag3_l2_run2 : run .l2 2 17 3 diag3Env [] diag3_l2_2 (diag3Paths2.map fun P => ⟨[P], []⟩) = true := Run.run_one (by decide +kernel)

def diag3_l2_3 : List ℕ := [
  8, 24, 288231614176231453, 32, 36893646890484108825, 36893647302800969241, 28, 36893629298298064409, 36893629710614924825, 36893646890484109337,
  36893646890484109325, 36893647440239922713, 20, 73800487919427977229, 36900244372567818253, 36893612118428879885, 36893612118428879897, 20,
  73800487919427977229, 36900244372567818253, 36893611706112019469, 36893611706112019481, 24, 32, 36893646890484108809, 36893647302800969225, 28,
  36893629298298064397, 36893629710614924813, 36893646890484109337, 36893646890484109325, 36893647440239922697, 32, 36893646890484108825,
  36893647302800969241, 28, 36893629298298064409, 36893629710614924825, 36893646890484109337, 36893646890484109325, 36893647440239922713, 20,
  73800487920501915661, 604575319759841799634957, 36893612118428879885, 36893612118428879897, 20, 73800487920501915661, 604575319759841799634957,
  36893611706112019469, 36893611706112019481, 24, 32, 36893646890484108809, 36893647302800969225, 28, 36893629298298064397, 36893629710614924813,
  36893646890484109337, 36893646890484109325, 36893647440239922697, 32, 36893646890484108825, 36893647302800969241, 28, 36893629298298064409,
  36893629710614924825, 36893646890484109337, 36893646890484109325, 36893647440239922713, 20, 73800487920501915661, 604575319759841799634957,
  36893612118428879885, 36893612118428879897, 20, 73800487920501915661, 604575319759841799634957, 36893611706112019469, 36893611706112019481, 24, 32,
  36893646890484108809, 36893647302800969225, 28, 36893629298298064397, 36893629710614924813, 36893646890484109337, 36893646890484109325,
  36893647440239922697, 32, 36893646890484108825, 36893647302800969241, 28, 36893629298298064409, 36893629710614924825, 36893646890484109337,
  36893646890484109325, 36893647440239922713, 20, 73800487919427977229, 36900244372567818253, 36900244372567818253, 36893612118428879897, 20,
  73800487919427977229, 36900244372567818253, 36900244372567818253, 36893611706112019481]

theorem diag3_l2_run3 : run .l2 2 17 3 diag3Env [] diag3_l2_3 (diag3Paths3.map fun P => ⟨[P], []⟩) = true := Run.run_one (by decide +kernel)

def diag3_l2_4 : List ℕ := [
  0, 8, 36893541337367839257, 36893541749684699673, 12, 24, 36909251710335320081, 73795984458313367569, 73795984458313367569, 36909251710335320081,
  24, 36909251709261774865, 1209075411303134713348113, 1209075411303134713348113, 36909251709261774865, 36893559341870745113, 36893558929553884697,
  12, 24, 36909251710335320081, 73795984458313367569, 73795984458313367569, 36909251710335320081, 24, 36909251709261774865,
  1209075411303134713348113, 1209075411303134713348113, 36909251709261774865, 36893559341870745101, 1209073402627469575456269, 4,
  36893523607742841349, 36893524157498655241, 36893523607742841349, 36893524157498655241, 12, 24, 36909251710335320081, 73795984458313367569,
  73795984458313367569, 36909251710335320081, 24, 36909251709261774865, 1209075411303134713348113, 1209075411303134713348113, 36909251709261774865,
  4, 36893523607742841369, 8, 36893541337367839757, 36893541749684700173, 36893559341870745113, 36893559341870745101, 36893523607742841369,
  36893524157498655257, 4, 36893523607742841369, 8, 36893541337367839757, 36893541749684700173, 36893558929553884697, 1209073402627469575456269,
  36893523607742841369, 36893524157498655257, 12, 24, 36909251710335320081, 73795984458313367569, 73795984458313367569, 36909251710335320081, 24,
  36909251709261774865, 1209075411303134713348113, 1209075411303134713348113, 36909251709261774865, 4, 36893523607742841349, 8, 36893541337367839757,
  36893541749684700173, 36893559341870745113, 36893559341870745101, 36893523607742841349, 36893524157498655241, 4, 36893523607742841349, 8,
  36893541337367839757, 36893541749684700173, 36893558929553884697, 1209073402627469575456269, 36893523607742841349, 36893524157498655241, 0, 4,
  36893523607742841369, 36893524157498655257, 36893523607742841369, 8, 36893541749684699673, 36893541337367839257, 12, 24, 73802739856680681489,
  36902496309820522513, 36902496309820522513, 73802739856680681489, 24, 73802739857754619921, 604612501495957564948497, 604612501495957564948497,
  73802739857754619921, 36893559341870745101, 604610492820017549149709, 12, 24, 73802739856680681489, 36902496309820522513, 36902496309820522513,
  73802739856680681489, 24, 73802739857754619921, 604612501495957564948497, 604612501495957564948497, 73802739857754619921, 36893559341870745113,
  36893558929553884697, 4, 36893523607742841349, 36893524157498655241, 36893523607742841349, 36893524157498655241, 4, 36893523607742841369, 8,
  36893541749684700173, 36893541337367839757, 12, 24, 73802739856680681489, 36902496309820522513, 36902496309820522513, 73802739856680681489, 24,
  73802739857754619921, 604612501495957564948497, 604612501495957564948497, 73802739857754619921, 36893559341870745101, 604610492820017549149709, 12,
  24, 73802739856680681489, 36902496309820522513, 36902496309820522513, 73802739856680681489, 24, 73802739857754619921, 604612501495957564948497,
  604612501495957564948497, 73802739857754619921, 36893559341870745113, 36893558929553884697, 36893523607742841369, 36893524157498655257, 4,
  36893523607742841349, 36893524157498655241, 36893523607742841349, 36893524157498655241]

theorem diag3_l2_run4 : run .l2 2 17 3 diag3Env [] diag3_l2_4 (diag3Paths4.map fun P => ⟨[P], []⟩) = true := Run.run_one (by decide +kernel)

def diag3_linf_0 : List ℕ := [
  8, 0, 9445597710057694298649, 73793732108743802885, 4, 9445597709920255345689, 73793732108743802889, 32, 1209036506887522334278693,
  19808854091377503600172405253, 604463488572780701618713, 604463488572780701618701, 1209036506887522334278661, 4, 9445597709920255345689,
  73793732108743802889, 604463488625557259747865, 154756672881620585191440921, 0, 36893541749684699673, 36893541749684699661, 4,
  36893541749684700185, 36893541749684700173, 32, 24, 36893646890484108825, 36893646890484108813, 20, 9907765723775545230395182085, 12,
  36893594113925974029, 36893594113925974041, 19808887075029605720619222533, 77371400907490785268793869, 36893611706112019469, 36893611706112019481,
  12, 20, 36893594526242834445, 36893594113925974029, 36893612118428879885, 36909251709261774873, 20, 36893594526242834457, 36893594113925974041,
  36893612118428879885, 36909251709261774873, 77404310189418057702769165, 77371400907490785268793869, 24, 36909251984139681821, 36893647302800969229,
  20, 9907765723775545230395182085, 12, 36893594113925974029, 36893594113925974041, 19808887075029605720619222533, 77371400907490785268793869,
  36893611706112019469, 36893611706112019481, 28, 36893647302800969753, 36893647302800969741, 604465217955037612278285, 604465524199812273537549,
  604463488572780701618713, 604463488572780701618701, 32, 24, 36893646890484108825, 36893646890484108813, 20, 9907765723775545230395182085, 12,
  36893594113925974029, 36893594113925974041, 19808887075029605720619222533, 77371400907490785268793869, 36893611706112019469, 36893611706112019481,
  12, 20, 36893594526242834445, 36893594113925974029, 36893612118428879885, 36909251709261774873, 20, 36893594526242834457, 36893594113925974041,
  36893612118428879885, 36909251709261774873, 77404310189418057702769165, 77371400907490785268793869, 24, 36909251984139681821, 36893647302800969229,
  20, 9907765723775545230395182085, 12, 36893594113925974029, 36893594113925974041, 19808887075029605720619222533, 77371400907490785268793869,
  36893611706112019469, 36893611706112019481, 28, 36893647302800969753, 36893647302800969741, 604465217955037612278285, 604465524199812273537549,
  604463506639955769233945, 604463506587179211100685, 4, 36893541749684700185, 36893541749684700173, 604463488625557259747865, 32,
  604463794870331921007129, 9903530091359160032483676685, 604463506639955769229849, 604463506587179211096601, 12, 20, 36893594526242834445,
  36893594113925974029, 24, 32, 36893646890484108825, 36909251984139681821, 604721173390012947891741, 28, 36893629298298064409, 36909251846700728349,
  604465524199812273541645, 604465235969436121763353, 32, 36893646890484108813, 36893647302800969229, 9907765722924364900822156829,
  19808887075034109320246593053, 36893611706112019469, 36893612118428879885, 24, 32, 36893646890484108825, 36909251984139681821,
  604721173390012947891741, 28, 36893629298298064409, 36909251846700728349, 604465524199812273541645, 604465235969436121763353, 32,
  36893646890484108813, 36893647302800969229, 9907765722924364900822156829, 19808887075034109320246593053, 36893611706112019481,
  36909251709261774873, 20, 36893594526242834457, 36893594113925974041, 24, 32, 36893646890484108825, 36909251984139681821, 16, 36893576934056790041,
  36893576521739929625, 604721175641812761577501, 604464659561460376343065, 28, 36893629298298064409, 36909251846700728349, 604465524199812273541645,
  604465235969436121763353, 32, 36893646890484108813, 36893647302800969229, 9907765723789038441352662029, 16, 36893576934056790041,
  36893576521739929625, 604464371278307666431501, 604464659508683818209805, 36893611706112019469, 36893612118428879885, 24, 32, 36893646890484108825,
  36909251984139681821, 0, 604721180004674900593693, 4, 36893523745181794829, 36893524157498655245, 9907751628747183870319854109,
  604463506639955769229849, 4, 604463490824580515303961, 604463776803156853392409, 604463488572780701618713, 604463506639955769233945, 28,
  36893629298298064409, 36909251846700728349, 604721182256474714279453, 604721182397212202634781, 28, 36893629298298064409, 36909251846700728349,
  604465524199812273541645, 604465235969436121763353, 32, 36893646890484108813, 36893647302800969229, 232156260702339150291275277,
  604464947739059969986061, 36893611706112019481, 36909251709261774873, 36893559341870745113, 36893558929553884697, 12, 32, 24, 36893646890484108825,
  36893646890484108813, 20, 36893594526242834445, 36893594113925974029, 36893611706112019469, 36893611706112019481, 20, 36893594526242834445,
  36893594113925974029, 36893612118428879885, 36909251709261774873, 24, 36909251984139681821, 36893647302800969229, 20, 36893594526242834445,
  36893594113925974029, 36893611706112019469, 36893611706112019481, 20, 36893594526242834445, 36893594113925974029, 36893612118428879885,
  36909251709261774873, 4, 0, 36893523745181794841, 36893523745181794829, 604463490824580515303961, 604463490824580515299865,
  604463794870331921007641, 604463794870331921011225, 20, 36893594526242834445, 36893594113925974029, 24, 0, 28, 36893629298298064409,
  36909251846700728349, 604721182256474714279453, 604721182397212202634781, 604463506639955769229849, 604463506639955769233945,
  604463506639955769229849, 154756673183432266433431053, 36893611706112019469, 36893612118428879885, 24, 0, 604721180004674900593693,
  604463506639955769229849, 604463506639955769233945, 604463506639955769229849, 154756673183432266433431053, 36893611706112019481,
  36909251709261774873, 1209036509244875264230925, 20, 36893594526242834457, 36893594113925974041, 24, 32, 36893646890484108825,
  36909251984139681821, 4, 0, 36893523745181794841, 36893523745181794829, 604463490824580515303961, 604463490824580515299865,
  604463794870331921007641, 604463794870331921011225, 16, 36893576934056790041, 36893576521739929625, 604721175641812761577501,
  604464659561460376343065, 28, 36893629298298064409, 36909251846700728349, 604465524199812273541645, 604465235969436121763353, 32,
  36893646890484108813, 36893647302800969229, 154756674048123394888567821, 16, 36893576934056790041, 36893576521739929625, 604464371278307666431501,
  604464659508683818209805, 36893611706112019469, 36893612118428879885, 24, 32, 36893646890484108825, 36909251984139681821, 4, 0,
  36893523745181794841, 36893523745181794829, 604463490824580515303961, 604463490824580515299865, 604463794870331921007641, 604463794870331921011225,
  0, 604721180004674900593693, 604463506639955769229849, 604463506639955769233945, 604463506639955769229849, 28, 36893629298298064409,
  36909251846700728349, 604465524199812273541645, 604465235969436121763353, 32, 36893646890484108813, 36893647302800969229,
  232156260702339150291275277, 604464947739059969986061, 36893611706112019481, 36909251709261774873, 4722375595896919295501, 73793732246182756365]

theorem diag3_linf_run0 : run .linf 2 16 3 diag3Env [] diag3_linf_0 (diag3Paths0.map fun P => ⟨[P], []⟩) = true := Run.run_one (by decide +kernel)

def diag3_linf_1 : List ℕ := [
  20, 16, 36893594526242834957, 36893594526242834969, 12, 36893594526242834445, 36893594526242834457, 36893576934056790029, 36893576934056790041, 12,
  36893594526242834445, 36893594526242834457, 36893576521739929613, 36893576521739929625, 16, 36893594113925974541, 36893594113925974553, 12,
  36893594113925974029, 36893594113925974041, 36893576934056790029, 36893576934056790041, 12, 36893594113925974029, 36893594113925974041,
  36893576521739929613, 36893576521739929625, 24, 28, 36893629298298064409, 36893629710614924825, 32, 36893646890484108825, 36893647302800969241,
  36893646890484109337, 36893647302800969753, 32, 36893646890484108825, 36893647302800969241, 36893646890484109325, 36893647302800969741, 28,
  36893629298298064397, 36893629710614924813, 32, 36893646890484108813, 36893647302800969229, 36893646890484109337, 36893647302800969753, 32,
  36893646890484108813, 36893647302800969229, 36893646890484109325, 36893647302800969741, 36893611706112019469, 36893612118428879885, 24, 28,
  36893629298298064409, 36893629710614924825, 32, 36893646890484108825, 36893647302800969241, 36893646890484109337, 36893647302800969753, 32,
  36893646890484108825, 36893647302800969241, 36893646890484109325, 36893647302800969741, 28, 36893629298298064397, 36893629710614924813, 32,
  36893646890484108813, 36893647302800969229, 36893646890484109337, 36893647302800969753, 32, 36893646890484108813, 36893647302800969229,
  36893646890484109325, 36893647302800969741, 36893611706112019481, 36906999909448024089]

theorem diag3_linf_run1 : run .linf 2 16 3 diag3Env [] diag3_linf_1 (diag3Paths1.map fun P => ⟨[P], []⟩) = true := Run.run_one (by decide +kernel)

def diag3_linf_2 : List ℕ := [
  8, 4, 36900243960250957833, 4723231227050610131993, 0, 4723231227188049084953, 36900243960250957829, 604573597080070307972101,
  77385420426284318010245657, 0, 4723231227188049084953, 36900243960250957829, 32, 604573597080070307972133, 9905333777094443808793367045,
  604463488572780701618713, 604573597080070307972133, 604463488625557259747865, 0, 36893541749684699673, 36893541749684699661, 4,
  36893541749684700173, 36893541749684700185, 24, 32, 36893646890484108825, 73802740132632526877, 604463506639955769233945, 604463506587179211100685,
  32, 36893646890484108813, 36893647302800969229, 604463506639955769233945, 604463506587179211100685, 9905366760458315553088472069,
  154775562356541540918231565, 32, 24, 36893646890484108825, 36893646890484108813, 12, 20, 36893594113925974041, 36893594526242834457,
  36893611706112019481, 36893611706112019469, 20, 36893594113925974029, 36893594526242834445, 36893611706112019481, 36893611706112019469,
  77371400907490785268793869, 9905366760746545929240184325, 12, 20, 36893594113925974041, 36893594526242834457, 73802739857754619929,
  36893612118428879885, 20, 36893594113925974029, 36893594526242834445, 73802739857754619929, 36893612118428879885, 77371400907490785268793869,
  154775562644771917070008845, 24, 73802740132632526877, 36893647302800969229, 12, 20, 36893594113925974041, 36893594526242834457,
  36893611706112019481, 36893611706112019469, 20, 36893594113925974029, 36893594526242834445, 36893611706112019481, 36893611706112019469,
  77371400907490785268793869, 9905366760746545929240184325, 12, 20, 36893594113925974041, 36893594526242834457, 73802739857754619929,
  36893612118428879885, 20, 36893594113925974029, 36893594526242834445, 73802739857754619929, 36893612118428879885, 77371400907490785268793869,
  154775562644771917070008845, 604463488572780701618713, 604463488572780701618701, 4, 36893541749684700173, 36893541749684700185, 32,
  604463794870331921007129, 9903530091359160032483676685, 604463506639955769229849, 604463506587179211096601, 604463488625557259747865, 12, 20,
  36893594113925974041, 36893594526242834457, 24, 0, 1209184089812126926900253, 32, 36893646890484108825, 73802740132632526877, 4,
  36893524157498655245, 36893523745181794829, 604463506639955769229849, 19811271943030243661698892317, 28, 73802739995193573405,
  36893629298298064409, 604465235969436121763353, 604465524199812273541645, 32, 36893646890484108825, 73802740132632526877, 4,
  604463776803156853392409, 604463490824580515303961, 604463506639955769233945, 604463488572780701618713, 28, 73802739995193573405,
  36893629298298064409, 604465235969436121763353, 604465524199812273541645, 1209184089812126926900253, 32, 36893646890484108813,
  36893647302800969229, 232156260702339150291275277, 604464947739059969986061, 36893611706112019481, 73802739857754619929, 24, 32,
  36893646890484108825, 73802740132632526877, 28, 73802739995193573405, 36893629298298064409, 1209184092204664228941341, 16, 36893576934056790041,
  36893576521739929625, 1209184085449264787884061, 0, 1209184092063926740586013, 4, 36893524157498655245, 36893523745181794829,
  604463506639955769229849, 19811271943030243661698892317, 4, 604463776803156853392409, 604463490824580515303961, 604463506639955769233945,
  604463488572780701618713, 4, 1209184078658680974737925, 604463490824580515299865, 604463506639955769229849, 604463488625557259747865, 28,
  73802739995193573405, 36893629298298064409, 604465235969436121763353, 604465524199812273541645, 32, 36893646890484108813, 36893647302800969229,
  19811286038072098232731700237, 16, 36893576934056790041, 36893576521739929625, 604464371278307666431501, 604464659508683818209805,
  36893611706112019469, 36893612118428879885, 20, 36893594113925974029, 36893594526242834445, 24, 0, 1209184089812126926900253, 32,
  36893646890484108825, 73802740132632526877, 4, 36893524157498655245, 36893523745181794829, 604463506639955769229849, 19811271943030243661698892317,
  28, 73802739995193573405, 36893629298298064409, 604465235969436121763353, 604465524199812273541645, 32, 36893646890484108825, 73802740132632526877,
  4, 604463776803156853392409, 604463490824580515303961, 604463506639955769233945, 604463488572780701618713, 28, 73802739995193573405,
  36893629298298064409, 604465235969436121763353, 604465524199812273541645, 1209184089812126926900253, 32, 36893646890484108813,
  36893647302800969229, 232156260702339150291275277, 604464947739059969986061, 36893611706112019481, 73802739857754619929, 24, 32,
  36893646890484108825, 73802740132632526877, 28, 73802739995193573405, 36893629298298064409, 1209184092204664228941341, 0,
  1209184092063926740586013, 4, 36893524157498655245, 36893523745181794829, 604463506639955769229849, 19811271943030243661698892317, 4,
  604463776803156853392409, 604463490824580515303961, 604463506639955769233945, 604463488572780701618713, 4, 1209184078658680974737925,
  604463490824580515299865, 604463506639955769229849, 604463488625557259747865, 28, 73802739995193573405, 36893629298298064409,
  604465235969436121763353, 604465524199812273541645, 32, 36893646890484108813, 36893647302800969229, 19811286038072098232731700237,
  9905366760751049528867554845, 36893611706112019469, 36893612118428879885, 36893558929553884697, 36893559341870745113, 12, 20, 36893594113925974041,
  36893594526242834457, 24, 0, 1209184089812126926900253, 32, 36893646890484108825, 73802740132632526877, 4, 36893524157498655245,
  36893523745181794829, 604463506639955769229849, 19811271943030243661698892317, 4, 36893524157498655245, 36893523745181794829,
  604463506587179211096601, 604573597185623424238629, 604573599296685749569037, 1209184089812126926900253, 32, 36893646890484108813,
  36893647302800969229, 232156260702339150291275277, 604464947739059969986061, 36893611706112019481, 73802739857754619929, 24, 32,
  36893646890484108825, 73802740132632526877, 28, 73802739995193573405, 36893629298298064409, 1209184092204664228941341, 0,
  1209184092063926740586013, 4, 36893524157498655245, 36893523745181794829, 604463506639955769229849, 19811271943030243661698892317,
  604573599296685749569037, 4, 604463794870331921007641, 604463490824580515299865, 604463506639955769229849, 604463488625557259747865, 28,
  73802739995193573405, 36893629298298064409, 604465235969436121763353, 604465524199812273541645, 32, 36893646890484108813, 36893647302800969229,
  77385421592786990268419085, 16, 36893576934056790041, 36893576521739929625, 604464371278307666431501, 604464659508683818209805,
  36893611706112019469, 36893612118428879885, 20, 36893594113925974029, 36893594526242834445, 24, 32, 36893646890484108825, 73802740132632526877, 0,
  1209184089812126926900253, 4, 36893524157498655245, 36893523745181794829, 604463506639955769229849, 19811271943030243661698892317, 4,
  604463794870331921007641, 604463490824580515303961, 604463506639955769233945, 604463488572780701618713, 1209184089812126926900253, 28,
  73802739995193573405, 36893629298298064409, 604465235969436121763353, 604465524199812273541645, 32, 36893646890484108813, 36893647302800969229,
  232156260702339150291275277, 604464947739059969986061, 36893611706112019481, 73802739857754619929, 24, 32, 36893646890484108825,
  73802740132632526877, 28, 73802739995193573405, 36893629298298064409, 1209184092204664228941341, 4, 604463794870331921007641, 0,
  36893523745181794841, 36893523745181794829, 604463490824580515303961, 604463490824580515299865, 0, 1209184092063926740586013,
  604463506639955769229849, 604463506639955769233945, 604463506639955769229849, 0, 1209184092063926740586013, 19811271943030243661698892317,
  604463488572780701618713, 604463488625557259747865, 28, 73802739995193573405, 36893629298298064409, 604465235969436121763353,
  604465524199812273541645, 32, 36893646890484108813, 36893647302800969229, 77385421592786990268419085, 4, 604573597185623424238605, 0,
  36893523745181794841, 36893523745181794829, 604463490824580515303949, 604463490824580515299865, 0, 604463506587179211099661,
  604463506587179211096601, 604463506587179211100685, 604463506587179211096601, 604573597185623424238629, 36893611706112019469, 36893612118428879885,
  36900244097689911309, 4722375595759480342029]

theorem diag3_linf_run2 : run .linf 2 16 3 diag3Env [] diag3_linf_2 (diag3Paths2.map fun P => ⟨[P], []⟩) = true := Run.run_one (by decide +kernel)

def diag3_linf_3 : List ℕ := [
  12, 20, 36893594526242834457, 36893594113925974041, 24, 28, 36893629298298064397, 36893629710614924813, 32, 36893646890484108813,
  36893647302800969229, 36893646890484109337, 36893647302800969753, 32, 36893646890484108813, 36893647302800969229, 36893646890484109325,
  36893647302800969741, 28, 36893629298298064409, 36893629710614924825, 32, 36893646890484108825, 36893647302800969241, 36893646890484109337,
  36893647302800969753, 32, 36893646890484108825, 36893647302800969241, 36893646890484109325, 36893647302800969741, 36893612118428879885,
  36893611706112019469, 24, 28, 36893629298298064397, 36893629710614924813, 32, 36893646890484108813, 36893647302800969229, 36893646890484109337,
  36893647302800969753, 32, 36893646890484108813, 36893647302800969229, 36893646890484109325, 36893647302800969741, 28, 36893629298298064409,
  36893629710614924825, 32, 36893646890484108825, 36893647302800969241, 36893646890484109337, 36893647302800969753, 32, 36893646890484108825,
  36893647302800969241, 36893646890484109325, 36893647302800969741, 73800488057940869145, 36893611706112019481, 20, 36893594526242834445,
  36893594113925974029, 24, 28, 36893629298298064397, 36893629710614924813, 32, 36893646890484108813, 36893647302800969229, 36893646890484109337,
  36893647302800969753, 32, 36893646890484108813, 36893647302800969229, 36893646890484109325, 36893647302800969741, 28, 36893629298298064409,
  36893629710614924825, 32, 36893646890484108825, 36893647302800969241, 36893646890484109337, 36893647302800969753, 32, 36893646890484108825,
  36893647302800969241, 36893646890484109325, 36893647302800969741, 36893612118428879885, 36893611706112019469, 24, 28, 36893629298298064397,
  36893629710614924813, 32, 36893646890484108813, 36893647302800969229, 36893646890484109337, 36893647302800969753, 32, 36893646890484108813,
  36893647302800969229, 36893646890484109325, 36893647302800969741, 28, 36893629298298064409, 36893629710614924825, 32, 36893646890484108825,
  36893647302800969241, 36893646890484109337, 36893647302800969753, 32, 36893646890484108825, 36893647302800969241, 36893646890484109325,
  36893647302800969741, 73800488057940869145, 36893611706112019481, 8, 4723231244780235130397, 24, 0, 36893541749684699673, 36893541749684699661, 16,
  28, 36893629298298064397, 36893629710614924813, 32, 36893646890484108813, 36893647302800969229, 36893646890484109337, 36893647302800969753, 32,
  36893646890484108813, 36893647302800969229, 36893646890484109325, 36893647302800969741, 28, 36893629298298064397, 36893629710614924813, 32,
  36893646890484108813, 36893647302800969229, 36893646890484109337, 36893647302800969753, 32, 36893646890484108813, 36893647302800969229,
  36893646890484109325, 36893647302800969741, 36893576521739929625, 36893576934056790041, 16, 28, 36893629298298064397, 36893629710614924813, 32,
  36893646890484108813, 36893647302800969229, 36893646890484109337, 36893647302800969753, 32, 36893646890484108813, 36893647302800969229,
  36893646890484109325, 36893647302800969741, 28, 36893629298298064397, 36893629710614924813, 32, 36893646890484108813, 36893647302800969229,
  36893646890484109337, 36893647302800969753, 32, 36893646890484108813, 36893647302800969229, 36893646890484109325, 36893647302800969741,
  36893576521739929625, 36893576934056790041, 0, 36893541749684699673, 36893541749684699661, 16, 28, 36893629298298064409, 36893629710614924825, 32,
  36893646890484108825, 36893647302800969241, 36893646890484109337, 36893647302800969753, 32, 36893646890484108825, 36893647302800969241,
  36893646890484109325, 36893647302800969741, 28, 36893629298298064409, 36893629710614924825, 32, 36893646890484108825, 36893647302800969241,
  36893646890484109337, 36893647302800969753, 32, 36893646890484108825, 36893647302800969241, 36893646890484109325, 36893647302800969741,
  36893576521739929625, 36893576934056790041, 16, 28, 36893629298298064409, 36893629710614924825, 32, 36893646890484108825, 36893647302800969241,
  36893646890484109337, 36893647302800969753, 32, 36893646890484108825, 36893647302800969241, 36893646890484109325, 36893647302800969741, 28,
  36893629298298064409, 36893629710614924825, 32, 36893646890484108825, 36893647302800969241, 36893646890484109337, 36893647302800969753, 32,
  36893646890484108825, 36893647302800969241, 36893646890484109325, 36893647302800969741, 36893576521739929625, 36893576934056790041, 0,
  36893541749684699673, 36893541749684699661, 16, 20, 36893594526242834969, 36893594113925974553, 36893612118428879885, 73800488057940869145, 20,
  36893594526242834957, 36893594113925974541, 36893612118428879885, 73800488057940869145, 36893576521739929625, 36893576934056790041, 16, 20,
  36893594526242834969, 36893594113925974553, 36893612118428879885, 73800488057940869145, 20, 36893594526242834957, 36893594113925974541,
  36893612118428879885, 73800488057940869145, 36893576521739929625, 36893576934056790041, 0, 36893541749684699673, 36893541749684699661, 16, 20,
  36893594526242834969, 36893594113925974553, 36893611706112019469, 36893611706112019481, 20, 36893594526242834957, 36893594113925974541,
  36893611706112019469, 36893611706112019481, 36893576521739929625, 36893576934056790041, 16, 20, 36893594526242834969, 36893594113925974553,
  36893611706112019469, 36893611706112019481, 20, 36893594526242834957, 36893594113925974541, 36893611706112019469, 36893611706112019481,
  36893576521739929625, 36893576934056790041, 36893558929553884697, 36900244097689911309, 8, 24, 0, 4723231227188049084953, 36900243960250957829, 16,
  28, 36893629298298064397, 36893629710614924813, 32, 36893646890484108813, 36893647302800969229, 36893646890484109337, 36893647302800969753, 32,
  36893646890484108813, 36893647302800969229, 36893646890484109325, 36893647302800969741, 28, 36893629298298064397, 36893629710614924813, 32,
  36893646890484108813, 36893647302800969229, 36893646890484109337, 36893647302800969753, 32, 36893646890484108813, 36893647302800969229,
  36893646890484109325, 36893647302800969741, 36893576521739929613, 36893576934056790029, 16, 28, 36893629298298064397, 36893629710614924813, 32,
  36893646890484108813, 36893647302800969229, 36893646890484109337, 36893647302800969753, 32, 36893646890484108813, 36893647302800969229,
  36893646890484109325, 36893647302800969741, 28, 36893629298298064397, 36893629710614924813, 32, 36893646890484108813, 36893647302800969229,
  36893646890484109337, 36893647302800969753, 32, 36893646890484108813, 36893647302800969229, 36893646890484109325, 36893647302800969741,
  36893576521739929613, 36893576934056790029, 0, 4723231227188049084953, 36900243960250957829, 16, 28, 36893629298298064409, 36893629710614924825,
  32, 36893646890484108825, 36893647302800969241, 36893646890484109337, 36893647302800969753, 32, 36893646890484108825, 36893647302800969241,
  36893646890484109325, 36893647302800969741, 28, 36893629298298064409, 36893629710614924825, 32, 36893646890484108825, 36893647302800969241,
  36893646890484109337, 36893647302800969753, 32, 36893646890484108825, 36893647302800969241, 36893646890484109325, 36893647302800969741,
  36893576521739929613, 36893576934056790029, 16, 28, 36893629298298064409, 36893629710614924825, 32, 36893646890484108825, 36893647302800969241,
  36893646890484109337, 36893647302800969753, 32, 36893646890484108825, 36893647302800969241, 36893646890484109325, 36893647302800969741, 28,
  36893629298298064409, 36893629710614924825, 32, 36893646890484108825, 36893647302800969241, 36893646890484109337, 36893647302800969753, 32,
  36893646890484108825, 36893647302800969241, 36893646890484109325, 36893647302800969741, 36893576521739929613, 36893576934056790029, 0,
  4723231227188049084953, 36900243960250957829, 16, 20, 36893594526242834969, 36893594113925974553, 36893612118428879885, 73800488057940869145, 20,
  36893594526242834957, 36893594113925974541, 36893612118428879885, 73800488057940869145, 36893576521739929613, 36893576934056790029, 16, 20,
  36893594526242834969, 36893594113925974553, 36893612118428879885, 73800488057940869145, 20, 36893594526242834957, 36893594113925974541,
  36893612118428879885, 73800488057940869145, 36893576521739929613, 36893576934056790029, 0, 4723231227188049084953, 36900243960250957829, 16, 20,
  36893594526242834969, 36893594113925974553, 36893611706112019469, 36893611706112019481, 20, 36893594526242834957, 36893594113925974541,
  36893611706112019469, 36893611706112019481, 36893576521739929613, 36893576934056790029, 16, 20, 36893594526242834969, 36893594113925974553,
  36893611706112019469, 36893611706112019481, 20, 36893594526242834957, 36893594113925974541, 36893611706112019469, 36893611706112019481,
  36893576521739929613, 36893576934056790029, 24, 0, 36893541749684699673, 36893541749684699661, 16, 28, 36893629298298064397, 36893629710614924813,
  32, 36893646890484108813, 36893647302800969229, 36893646890484109337, 36893647302800969753, 32, 36893646890484108813, 36893647302800969229,
  36893646890484109325, 36893647302800969741, 28, 36893629298298064397, 36893629710614924813, 32, 36893646890484108813, 36893647302800969229,
  36893646890484109337, 36893647302800969753, 32, 36893646890484108813, 36893647302800969229, 36893646890484109325, 36893647302800969741,
  36893576521739929613, 36893576934056790029, 16, 28, 36893629298298064397, 36893629710614924813, 32, 36893646890484108813, 36893647302800969229,
  36893646890484109337, 36893647302800969753, 32, 36893646890484108813, 36893647302800969229, 36893646890484109325, 36893647302800969741, 28,
  36893629298298064397, 36893629710614924813, 32, 36893646890484108813, 36893647302800969229, 36893646890484109337, 36893647302800969753, 32,
  36893646890484108813, 36893647302800969229, 36893646890484109325, 36893647302800969741, 36893576521739929613, 36893576934056790029, 0,
  36893541749684699673, 36893541749684699661, 16, 28, 36893629298298064409, 36893629710614924825, 32, 36893646890484108825, 36893647302800969241,
  36893646890484109337, 36893647302800969753, 32, 36893646890484108825, 36893647302800969241, 36893646890484109325, 36893647302800969741, 28,
  36893629298298064409, 36893629710614924825, 32, 36893646890484108825, 36893647302800969241, 36893646890484109337, 36893647302800969753, 32,
  36893646890484108825, 36893647302800969241, 36893646890484109325, 36893647302800969741, 36893576521739929613, 36893576934056790029, 16, 28,
  36893629298298064409, 36893629710614924825, 32, 36893646890484108825, 36893647302800969241, 36893646890484109337, 36893647302800969753, 32,
  36893646890484108825, 36893647302800969241, 36893646890484109325, 36893647302800969741, 28, 36893629298298064409, 36893629710614924825, 32,
  36893646890484108825, 36893647302800969241, 36893646890484109337, 36893647302800969753, 32, 36893646890484108825, 36893647302800969241,
  36893646890484109325, 36893647302800969741, 36893576521739929613, 36893576934056790029, 0, 36893541749684699673, 36893541749684699661, 16, 20,
  36893594526242834969, 36893594113925974553, 36893612118428879885, 73800488057940869145, 20, 36893594526242834957, 36893594113925974541,
  36893612118428879885, 73800488057940869145, 36893576521739929613, 36893576934056790029, 16, 20, 36893594526242834969, 36893594113925974553,
  36893612118428879885, 73800488057940869145, 20, 36893594526242834957, 36893594113925974541, 36893612118428879885, 73800488057940869145,
  36893576521739929613, 36893576934056790029, 0, 36893541749684699673, 36893541749684699661, 16, 20, 36893594526242834969, 36893594113925974553,
  36893611706112019469, 36893611706112019481, 20, 36893594526242834957, 36893594113925974541, 36893611706112019469, 36893611706112019481,
  36893576521739929613, 36893576934056790029, 16, 20, 36893594526242834969, 36893594113925974553, 36893611706112019469, 36893611706112019481, 20,
  36893594526242834957, 36893594113925974541, 36893611706112019469, 36893611706112019481, 36893576521739929613, 36893576934056790029,
  36893559341870745113, 4722375595759480342029]

theorem diag3_linf_run3 : run .linf 2 16 3 diag3Env [] diag3_linf_3 (diag3Paths3.map fun P => ⟨[P], []⟩) = true := Run.run_one (by decide +kernel)

def diag3_linf_4 : List ℕ := [
  0, 8, 36893541337367839257, 36893541749684699673, 12, 16, 36893576934056790029, 36893576521739929613, 20, 36893594526242834445,
  36893594113925974029, 36893594526242834957, 36893594113925974541, 20, 36893594526242834445, 36893594113925974029, 36893594526242834969,
  36893594113925974553, 16, 36893576934056790041, 36893576521739929625, 20, 36893594526242834457, 36893594113925974041, 36893594526242834957,
  36893594113925974541, 20, 36893594526242834457, 36893594113925974041, 36893594526242834969, 36893594113925974553, 36893559341870745113,
  36893558929553884697, 12, 16, 36893576934056790029, 36893576521739929613, 20, 36893594526242834445, 36893594113925974029, 36893594526242834957,
  36893594113925974541, 20, 36893594526242834445, 36893594113925974029, 36893594526242834969, 36893594113925974553, 16, 36893576934056790041,
  36893576521739929625, 20, 36893594526242834457, 36893594113925974041, 36893594526242834957, 36893594113925974541, 20, 36893594526242834457,
  36893594113925974041, 36893594526242834969, 36893594113925974553, 36893559341870745101, 73795984045996507149, 8, 36893541337367839245,
  36893541749684699661, 12, 16, 36893576934056790029, 36893576521739929613, 20, 36893594526242834445, 36893594113925974029, 36893594526242834957,
  36893594113925974541, 20, 36893594526242834445, 36893594113925974029, 36893594526242834969, 36893594113925974553, 16, 36893576934056790041,
  36893576521739929625, 20, 36893594526242834457, 36893594113925974041, 36893594526242834957, 36893594113925974541, 20, 36893594526242834457,
  36893594113925974041, 36893594526242834969, 36893594113925974553, 36893559341870745113, 36893558929553884697, 12, 16, 36893576934056790029,
  36893576521739929613, 20, 36893594526242834445, 36893594113925974029, 36893594526242834957, 36893594113925974541, 20, 36893594526242834445,
  36893594113925974029, 36893594526242834969, 36893594113925974553, 16, 36893576934056790041, 36893576521739929625, 20, 36893594526242834457,
  36893594113925974041, 36893594526242834957, 36893594113925974541, 20, 36893594526242834457, 36893594113925974041, 36893594526242834969,
  36893594113925974553, 36893559341870745101, 73795984045996507149, 12, 4, 16, 36893576934056790029, 36893576521739929613, 20, 36893594526242834445,
  36893594113925974029, 36893594526242834957, 36893594113925974541, 20, 36893594526242834445, 36893594113925974029, 36893594526242834969,
  36893594113925974553, 16, 36893576934056790029, 36893576521739929613, 20, 36893594526242834445, 36893594113925974029, 36893594526242834957,
  36893594113925974541, 20, 36893594526242834445, 36893594113925974029, 36893594526242834969, 36893594113925974553, 36893523745181794841,
  36893524157498655257, 4, 16, 36893576934056790041, 36893576521739929625, 20, 36893594526242834457, 36893594113925974041, 36893594526242834957,
  36893594113925974541, 20, 36893594526242834457, 36893594113925974041, 36893594526242834969, 36893594113925974553, 16, 36893576934056790041,
  36893576521739929625, 20, 36893594526242834457, 36893594113925974041, 36893594526242834957, 36893594113925974541, 20, 36893594526242834457,
  36893594113925974041, 36893594526242834969, 36893594113925974553, 36893523745181794841, 36893524157498655257, 4, 8, 36893541337367839769,
  36893541749684700185, 36893559341870745113, 36893559341870745101, 8, 36893541337367839757, 36893541749684700173, 36893559341870745113,
  36893559341870745101, 36893523745181794841, 36893524157498655257, 4, 8, 36893541337367839769, 36893541749684700185, 36893558929553884697,
  73795984045996507149, 8, 36893541337367839757, 36893541749684700173, 36893558929553884697, 73795984045996507149, 36893523745181794841,
  36893524157498655257, 12, 4, 16, 36893576934056790029, 36893576521739929613, 20, 36893594526242834445, 36893594113925974029, 36893594526242834957,
  36893594113925974541, 20, 36893594526242834445, 36893594113925974029, 36893594526242834969, 36893594113925974553, 16, 36893576934056790029,
  36893576521739929613, 20, 36893594526242834445, 36893594113925974029, 36893594526242834957, 36893594113925974541, 20, 36893594526242834445,
  36893594113925974029, 36893594526242834969, 36893594113925974553, 36893523745181794829, 36893524157498655245, 4, 16, 36893576934056790041,
  36893576521739929625, 20, 36893594526242834457, 36893594113925974041, 36893594526242834957, 36893594113925974541, 20, 36893594526242834457,
  36893594113925974041, 36893594526242834969, 36893594113925974553, 16, 36893576934056790041, 36893576521739929625, 20, 36893594526242834457,
  36893594113925974041, 36893594526242834957, 36893594113925974541, 20, 36893594526242834457, 36893594113925974041, 36893594526242834969,
  36893594113925974553, 36893523745181794829, 36893524157498655245, 4, 8, 36893541337367839769, 36893541749684700185, 36893559341870745113,
  36893559341870745101, 8, 36893541337367839757, 36893541749684700173, 36893559341870745113, 36893559341870745101, 36893523745181794829,
  36893524157498655245, 4, 8, 36893541337367839769, 36893541749684700185, 36893558929553884697, 73795984045996507149, 8, 36893541337367839757,
  36893541749684700173, 36893558929553884697, 73795984045996507149, 36893523745181794829, 36893524157498655245, 0, 8, 36893541749684699673,
  36893541337367839257, 12, 16, 36893576521739929613, 36893576934056790029, 20, 36893594113925974029, 36893594526242834445, 36893594113925974553,
  36893594526242834969, 20, 36893594113925974029, 36893594526242834445, 36893594113925974541, 36893594526242834957, 16, 36893576521739929625,
  36893576934056790041, 20, 36893594113925974041, 36893594526242834457, 36893594113925974553, 36893594526242834969, 20, 36893594113925974041,
  36893594526242834457, 36893594113925974541, 36893594526242834957, 36893559341870745101, 36902495897503662093, 12, 16, 36893576521739929613,
  36893576934056790029, 20, 36893594113925974029, 36893594526242834445, 36893594113925974553, 36893594526242834969, 20, 36893594113925974029,
  36893594526242834445, 36893594113925974541, 36893594526242834957, 16, 36893576521739929625, 36893576934056790041, 20, 36893594113925974041,
  36893594526242834457, 36893594113925974553, 36893594526242834969, 20, 36893594113925974041, 36893594526242834457, 36893594113925974541,
  36893594526242834957, 36893559341870745113, 36893558929553884697, 8, 36893541749684699661, 36893541337367839245, 12, 16, 36893576521739929613,
  36893576934056790029, 20, 36893594113925974029, 36893594526242834445, 36893594113925974553, 36893594526242834969, 20, 36893594113925974029,
  36893594526242834445, 36893594113925974541, 36893594526242834957, 16, 36893576521739929625, 36893576934056790041, 20, 36893594113925974041,
  36893594526242834457, 36893594113925974553, 36893594526242834969, 20, 36893594113925974041, 36893594526242834457, 36893594113925974541,
  36893594526242834957, 36893559341870745101, 36902495897503662093, 12, 16, 36893576521739929613, 36893576934056790029, 20, 36893594113925974029,
  36893594526242834445, 36893594113925974553, 36893594526242834969, 20, 36893594113925974029, 36893594526242834445, 36893594113925974541,
  36893594526242834957, 16, 36893576521739929625, 36893576934056790041, 20, 36893594113925974041, 36893594526242834457, 36893594113925974553,
  36893594526242834969, 20, 36893594113925974041, 36893594526242834457, 36893594113925974541, 36893594526242834957, 36893559341870745113,
  36893558929553884697, 12, 16, 36893576521739929613, 36893576934056790029, 20, 36893594113925974029, 36893594526242834445, 36893594113925974553,
  36893594526242834969, 20, 36893594113925974029, 36893594526242834445, 36893594113925974541, 36893594526242834957, 16, 36893576521739929625,
  36893576934056790041, 20, 36893594113925974041, 36893594526242834457, 36893594113925974553, 36893594526242834969, 20, 36893594113925974041,
  36893594526242834457, 36893594113925974541, 36893594526242834957, 4, 8, 36893541749684700185, 36893541337367839769, 36893559341870745101,
  36893559341870745113, 8, 36893541749684700173, 36893541337367839757, 36893559341870745101, 36893559341870745113, 36893523745181794841,
  36893524157498655257, 4, 8, 36893541749684700185, 36893541337367839769, 36902495897503662093, 36893558929553884697, 8, 36893541749684700173,
  36893541337367839757, 36902495897503662093, 36893558929553884697, 36893523745181794841, 36893524157498655257, 12, 16, 36893576521739929613,
  36893576934056790029, 20, 36893594113925974029, 36893594526242834445, 36893594113925974553, 36893594526242834969, 20, 36893594113925974029,
  36893594526242834445, 36893594113925974541, 36893594526242834957, 16, 36893576521739929625, 36893576934056790041, 20, 36893594113925974041,
  36893594526242834457, 36893594113925974553, 36893594526242834969, 20, 36893594113925974041, 36893594526242834457, 36893594113925974541,
  36893594526242834957, 4, 8, 36893541749684700185, 36893541337367839769, 36893559341870745101, 36893559341870745113, 8, 36893541749684700173,
  36893541337367839757, 36893559341870745101, 36893559341870745113, 36893523745181794829, 36893524157498655245, 4, 8, 36893541749684700185,
  36893541337367839769, 36902495897503662093, 36893558929553884697, 8, 36893541749684700173, 36893541337367839757, 36902495897503662093,
  36893558929553884697, 36893523745181794829, 36893524157498655245]

theorem diag3_linf_run4 : run .linf 2 16 3 diag3Env [] diag3_linf_4 (diag3Paths4.map fun P => ⟨[P], []⟩) = true := Run.run_one (by decide +kernel)

theorem diag3_l1 : diag3Tab.Refuted .l1 2 10 1 9 :=
  Tab.refuted_one (T := diag3Tab) rfl diag3_paths (parts (part diag3_l1_run0) (parts (part diag3_l1_run1) (parts (part diag3_l1_run2) (parts (part diag3_l1_run3) (part diag3_l1_run4)))))

theorem diag3_l2 : diag3Tab.Refuted .l2 2 17 3 9 :=
  Tab.refuted_one (T := diag3Tab) rfl diag3_paths (parts (part diag3_l2_run0) (parts (part diag3_l2_run1) (parts (part diag3_l2_run2) (parts (part diag3_l2_run3) (part diag3_l2_run4)))))

theorem diag3_linf : diag3Tab.Refuted .linf 2 16 3 9 :=
  Tab.refuted_one (T := diag3Tab) rfl diag3_paths (parts (part diag3_linf_run0) (parts (part diag3_linf_run1) (parts (part diag3_linf_run2) (parts (part diag3_linf_run3) (part diag3_linf_run4)))))

end MinCert
end Peano
