import Verif.Lemmas.MinRun
import Verif.Lemmas.MinFast

set_option autoImplicit false

/-
Diagonal, grid 5, steps to adjacent cells: no curve has less dilation.  This file is generated.
-/
namespace Peano
namespace MinCert

/-- Table of links and of their specs. -/
def diag5aEnv : Env where
  N := 5
  G := 25
  m := 1
  S := 1
  W := 6
  B := 144
  L := 4
  links := [([0, 0], [1, 1]), ([0, 1], [1, 0]), ([1, 0], [0, 1]), ([1, 1], [0, 0])]
  doms := [

    [⟨[(0, false), (1, false)], false, 0⟩, ⟨[(0, true), (1, true)], true, 0⟩, ⟨[(1, false), (0, false)], false, 0⟩, ⟨[(1, true), (0, true)], true, 0⟩],
    [⟨[(0, true), (1, false)], true, 0⟩, ⟨[(0, false), (1, true)], false, 0⟩, ⟨[(1, true), (0, false)], true, 0⟩, ⟨[(1, false), (0, true)], false, 0⟩],
    [⟨[(0, true), (1, false)], false, 0⟩, ⟨[(0, false), (1, true)], true, 0⟩, ⟨[(1, true), (0, false)], false, 0⟩, ⟨[(1, false), (0, true)], true, 0⟩],
    [⟨[(0, false), (1, false)], true, 0⟩, ⟨[(0, true), (1, true)], false, 0⟩, ⟨[(1, false), (0, false)], true, 0⟩, ⟨[(1, true), (0, true)], false, 0⟩]]

/-- Data of the search of paths. -/
def diag5aEnum : Enum where
  L := 4
  B := 144
  ones := 7
  offs := [1, 6]
  trans := [
    [(8, 2), (13, 1)], [(6, 3), (13, 0)], [(1, 3), (8, 0)], [(1, 2), (6, 1)]]
  U := 67628691328
  F := 34359738368
  starts := [(7, 0)]
  finals := [(35, 0)]

def diag5aTab : Tab := ⟨diag5aEnv, [([0, 0], [1, 1])], [diag5aEnum]⟩

theorem diag5a_ok : diag5aTab.Ok 2 5 1 1 := Fast.ok_sound (by decide +kernel)

def diag5aPaths0 : List ℕ := [
  178456188250465579131692243306673886167159596033585708, 178456188250465579131692243317220135624195913205218908,
  178456188250465579131692464012060749163923016980324908, 178456188250465579131692464012060749188675412031766108,
  178456188250465579131692464012158089826335971016572508, 178456188250465579995056674881472323878089465177649708]

def diag5aPaths1 : List ℕ := [
  178456188250465579999591146396054975228067246582857308, 178456188250483576746710915582250887224707274942001708]

def diag5aPaths2 : List ℕ := [
  178456188250483576746710915582251400490371061626724908, 178456188250483576746710917600706349754058383887512108,
  178456188250483576751287245815669222800946051170251308, 178456228682254817888432171222533034347212527491428908,
  178456228682254817893008940848464314687700549688700508]

def diag5aPaths3 : List ℕ := [
  178456228682254912787750806307858884218011889427505708, 178456228682254912787750806318599814950369324568751708]

def diag5aPaths4 : List ℕ := [
  178456228682254912787792661011070823574964418672406108]

def diag5aPaths5 : List ℕ := [
  178456229053467628792109374634223089187256076720484908, 178456229055435460195385966885224878779198917395426908]

def diag5aPaths6 : List ℕ := [
  179302319732738578678472378792266984963400704842084908, 179302319732738578678472378802813234420437022013718108]

def diag5aPaths7 : List ℕ := [
  179302319732738578678514233484737993587995798945739308, 179302319732738673573214244262402485226069479722136108,
  179302319732738673577791013888333765566557501919407708, 179302320105919315875591270299163049317567847428862508]

def diag5aPaths8 : List ℕ := [
  179302320107887149014749382129687460425145760957410908]

def diag5aPaths9 : List ℕ := [
  179302360910889196939284773172132497632770234822910508, 179302360910889196939284773172132497657522629874351708,
  179302360910889196939284773172229838270430793807716908, 179302360910889196939284993866973111197249733649457708,
  179302360910889196939284993877714041929607168790703708]

def diag5aPaths10 : List ℕ := [
  179302360910889197807183896945807950801121067027096108, 179302360910889197811802081882438225734312372500246108,
  179302360910907194558879996386709378563393623927369308]

def diag5aPaths11 : List ℕ := [
  179302360910907194563456322583216275815266395579874908, 179302360910907194563456322583216789080930182264598108]

def diag5aPaths12 : List ℕ := [
  179302360910907194563456324601672251610281291210108508]

def diag5aTree : CT :=
  .node (.node (.node (.node (.node (.node .nil 178456188250465579131692243306673886167159596033585708 .nil)
  178456188250465579131692243317220135624195913205218908 .nil) 178456188250465579131692464012060749163923016980324908 (.node .nil
  178456188250465579131692464012060749188675412031766108 .nil)) 178456188250465579131692464012158089826335971016572508 (.node (.node (.node .nil
  178456188250465579995056674881472323878089465177649708 .nil) 178456188250465579999591146396054975228067246582857308 .nil)
  178456188250483576746710915582250887224707274942001708 (.node .nil 178456188250483576746710915582251400490371061626724908 .nil)))
  178456188250483576746710917600706349754058383887512108 (.node (.node (.node (.node .nil 178456188250483576751287245815669222800946051170251308
  .nil) 178456228682254817888432171222533034347212527491428908 .nil) 178456228682254817893008940848464314687700549688700508 (.node .nil
  178456228682254912787750806307858884218011889427505708 .nil)) 178456228682254912787750806318599814950369324568751708 (.node (.node .nil
  178456228682254912787792661011070823574964418672406108 .nil) 178456229053467628792109374634223089187256076720484908 (.node .nil
  178456229055435460195385966885224878779198917395426908 .nil)))) 179302319732738578678472378792266984963400704842084908 (.node (.node (.node (.node
  (.node .nil 179302319732738578678472378802813234420437022013718108 .nil) 179302319732738578678514233484737993587995798945739308 .nil)
  179302319732738673573214244262402485226069479722136108 (.node .nil 179302319732738673577791013888333765566557501919407708 .nil))
  179302320105919315875591270299163049317567847428862508 (.node (.node .nil 179302320107887149014749382129687460425145760957410908 .nil)
  179302360910889196939284773172132497632770234822910508 (.node .nil 179302360910889196939284773172132497657522629874351708 .nil)))
  179302360910889196939284773172229838270430793807716908 (.node (.node (.node (.node .nil 179302360910889196939284993866973111197249733649457708
  .nil) 179302360910889196939284993877714041929607168790703708 .nil) 179302360910889197807183896945807950801121067027096108 (.node .nil
  179302360910889197811802081882438225734312372500246108 .nil)) 179302360910907194558879996386709378563393623927369308 (.node (.node .nil
  179302360910907194563456322583216275815266395579874908 .nil) 179302360910907194563456322583216789080930182264598108 (.node .nil
  179302360910907194563456324601672251610281291210108508 .nil))))

theorem diag5a_paths : ∀ P ∈ diag5aEnum.all 25, P ∈ diag5aPaths0 ++ (diag5aPaths1 ++ (diag5aPaths2 ++ (diag5aPaths3 ++ (diag5aPaths4 ++ (diag5aPaths5 ++ (diag5aPaths6 ++ (diag5aPaths7 ++ (diag5aPaths8 ++ (diag5aPaths9 ++ (diag5aPaths10 ++ (diag5aPaths11 ++ (diag5aPaths12)))))))))))) := by
  have h : diag5aTree.toList = diag5aPaths0 ++ (diag5aPaths1 ++ (diag5aPaths2 ++ (diag5aPaths3 ++ (diag5aPaths4 ++ (diag5aPaths5 ++ (diag5aPaths6 ++ (diag5aPaths7 ++ (diag5aPaths8 ++ (diag5aPaths9 ++ (diag5aPaths10 ++ (diag5aPaths11 ++ (diag5aPaths12)))))))))))) := by decide +kernel
  rw [← h]
  exact diag5aEnum.allF_sound 25 diag5aTree (by decide +kernel)

def diag5a_l2_0 : List ℕ := [
  16, 576548718602354693, 0, 4, 36893523882620748365, 36893526081644003917, 36893523470303887953, 36893526631399817809, 4, 36893524020059701765,
  36893526081644003845, 36893523470303887893, 36893526631399817749, 36893578858202137097, 36893578858202137153, 20, 36893597000143997521,
  36893593839048067665, 36893596450388183629, 36893594251364928077, 20, 4722380328194982021653, 4722380011535633222165, 36893596450388183557,
  73798236120688164885, 16, 576548718602354693, 0, 36893578308446323241, 4, 36893524020059701765, 36893525531888189969, 36893523470303887893,
  36893526356521910797, 36893578308446323217, 36893578308446323269, 20, 24, 36893613492818414609, 36893611980989926405, 36893614317452135437,
  36893611431234112533, 36, 36893666269376547881, 36893664757548059685, 36893664620109106241, 36893666406815501377, 36, 36893666269376547909,
  36893664757548059705, 40, 36893681799978292245, 36893684686196315149, 36893682349734106117, 36893683861562594321, 64, 36931769569960329237, 68,
  36893805495036420613, 36893807006864908817, 36893804945280606741, 36893807831498629645, 60, 36893787902850375685, 56, 36893770310664330757, 52,
  36893752718478285829, 36893770310664330305, 36893752718478285829, 48, 44, 40, 36893717534106195521, 36893699941920151045, 36893682212295152705,
  36893699941920151045, 36893717534106195973, 36893717259228289113, 36893717534106195973, 36893735126292240901, 36893734988853287489,
  36893735126292240901, 36893770310664330757, 36893770035786423897, 36893787902850375685, 36893787765411422273, 36931770119716143129,
  36893594251364928065, 20, 24, 36893613492818414609, 36893611980989926405, 36893614317452135437, 36893611431234112533, 36, 36893666269376547881,
  36893664757548059685, 36893664620109106241, 36893666406815501377, 36893595900632369681, 73798236120688164885, 16, 576548718602354693, 48,
  36922763332778000405, 1209114034279092209385493, 1209114034279092209385493, 36922763332778000405, 48, 36922763332778000405,
  1209114034279092209385493, 1209114034279092209385493, 36922763332778000405, 48, 36922763333851217941, 73798237082760839189, 73798237082760839189,
  36922763333851217941, 16, 576548718602354693, 48, 36922763332778000405, 1209114034279092209385493, 1209114034279092209385493, 36922763332778000405,
  48, 36922763332778000405, 1209114034279092209385493, 1209114034279092209385493, 36922763332778000405, 48, 36922763333851217941,
  73798237082760839189, 73798237082760839189, 36922763333851217941, 16, 576548718602354693, 48, 36922763332778000405, 1209114034279092209385493,
  1209114034279092209385493, 36922763332778000405, 48, 36922763332778000405, 1209114034279092209385493, 1209114034279092209385493,
  36922763332778000405, 48, 36922763333851217941, 73798237082760839189, 73798237082760839189, 36922763333851217941, 16, 576548718602354693, 0, 4,
  36893523882620748357, 36893526081644003909, 36893523470303887953, 36893525669327143505, 4, 36893524020059701765, 36893526081644003845,
  36893523470303887893, 36893525669327143441, 36893578858202137097, 36893578583324230193, 20, 36893596038071323217, 36893593839048067665,
  36893596450388183621, 36893594251364928069, 20, 36893596038071323153, 4722380011535633222165, 36893596450388183557, 73798236120688164885]

theorem diag5a_l2_run0 : run .l2 2 6 1 diag5aEnv [] diag5a_l2_0 (diag5aPaths0.map fun P => ⟨[P], []⟩) = true := Run.run_one (by decide +kernel)

def diag5a_l2_1 : List ℕ := [
  16, 576548718602354693, 0, 36893578308446323253, 4, 36893524020059701765, 36893525257010283025, 36893523470303887893, 36893526356521910797,
  36893578308446323217, 36893578033568416297, 0, 36893577483812602425, 4, 36893524020059701765, 36893525257010283025, 36893523470303887893,
  36893526356521910797, 4, 36893523745181794905, 8, 36893541612245746693, 36893542849196327953, 36893541062489932821, 36893543948707955725, 96,
  604463488572780701626969, 9903529797350648104110064229, 92, 36893928640338735109, 36893928365460828249, 36893928640338735109, 88, 84,
  36893893318527691833, 36893893455966645253, 80, 36893875863780600325, 36893875588902693465, 36893875863780600325, 76, 72, 68, 64,
  36893805357597467193, 36893805495036420613, 60, 36893787902850375685, 36893787627972468825, 36893787902850375685, 56, 36893770035786423897,
  36893770310664330757, 52, 36893752718478285829, 48, 36893735126292240901, 36893734988853287481, 36893735126292240901, 44, 36893717259228289113,
  36893717534106195973, 40, 36893699941920151045, 36, 36893682349734106117, 36893682212295152697, 36893682349734106117, 32, 36893664482670154329,
  36893664757548061189, 28, 36893647165362016261, 24, 36893629573175971333, 20, 36893611980989926405, 36893629573175970881, 36893611980989926405,
  36893594251364928057, 36893629573175971333, 36893629298298064473, 36893647165362016261, 36893647027923062841, 36893664757548061189,
  36893699941920151045, 36893699804481197625, 36893717534106195973, 36893752718478285829, 36893752581039332409, 36893770310664330757,
  36893805495036420613, 36893823087222465541, 36893822812344558681, 36893823087222465541, 36893840679408510469, 36893840404530603609,
  36893840679408510469, 36893858271594555397, 36893875863780599873, 36893858271594555397, 36893893455966645253, 36893911048152690181,
  36893928640338734657, 36893911048152690181, 9903529797350648104110064229, 36893526356521910873, 64, 36931769432521375749, 68, 36893805495036420613,
  72, 36893823087222465541, 36893824324173046801, 36893822537466651669, 36893825423684674573, 36893804945280606741, 36893807831498629645, 60,
  36893787902850375685, 36893787627972468825, 36893787902850375685, 56, 36893770035786423897, 36893770310664330757, 52, 36893752718478285829, 48,
  36893735126292240901, 36893734988853287481, 36893735126292240901, 44, 36893717259228289113, 36893717534106195973, 40, 36893699941920151045, 36,
  36893682349734106117, 36893682212295152697, 36893682349734106117, 32, 36893664482670154329, 36893664757548061189, 28, 36893647165362016261, 24,
  36893629573175971333, 20, 36893611980989926405, 36893629573175970881, 36893611980989926405, 36893594251364928057, 36893629573175971333,
  36893629298298064473, 36893647165362016261, 36893647027923062841, 36893664757548061189, 36893699941920151045, 36893699804481197625,
  36893717534106195973, 36893752718478285829, 36893752581039332409, 36893770310664330757, 36931769432521375749, 20, 24, 36893613217940507665,
  36893611980989926405, 36893614317452135437, 36893611431234112533, 4722380011535633222165, 36893595625754462737, 73798236120688164885, 16,
  576548718602354693, 0, 4, 36893523882620748345, 36893526081644003897, 36893523470303887953, 36893526631399817809, 4, 36893524020059701765,
  36893526081644003845, 36893524294937608721, 36893526631399817749, 36893578858202137097, 36893578858202137117, 20, 36893597000143997521,
  36893593839048067665, 36893596450388183609, 36893594251364928057, 20, 4722380328194982021653, 36893594663681788433, 36893596450388183557,
  73798236120688164885]

theorem diag5a_l2_run1 : run .l2 2 6 1 diag5aEnv [] diag5a_l2_1 (diag5aPaths1.map fun P => ⟨[P], []⟩) = true := Run.run_one (by decide +kernel)

def diag5a_l2_2 : List ℕ := [
  16, 576548718602354693, 0, 36893578308446323253, 4, 36893524020059701765, 36893526356521910797, 36893524294937608721, 36893526081644003857,
  36893578308446323217, 36893578033568416289, 0, 36893577208934695481, 4, 36893524020059701765, 36893526356521910797, 36893524294937608721,
  36893526081644003857, 12, 8, 4, 36893523882620748369, 36893541612245746693, 36893541474806793297, 36893541612245746693, 36893559204431791621,
  36893559066992838225, 36893559204431791621, 36893577071495743505, 8, 4, 36893523882620748369, 36893541612245746693, 36893541474806793297,
  36893541612245746693, 36893559479309698577, 4, 36893523882620748369, 36893541887123653649, 96, 92, 88, 36893928640338734657, 36893911048152690181,
  84, 36893893455966645253, 36893893318527691857, 36893893455966645253, 80, 76, 36893858134155601977, 36893858271594555397, 72, 36893840679408510469,
  36893840541969557073, 36893840679408510469, 68, 64, 36893805357597467193, 36893805495036420613, 60, 36893787902850375685, 36893787765411422289,
  36893787902850375685, 56, 36893770173225377361, 36893770310664330757, 52, 36893752718478285829, 48, 36893735126292240901, 44, 36893717534106195973,
  40, 36893699941920151045, 36893735126292239929, 36893699941920151045, 36, 36893682212295152721, 36893682349734106117, 32, 36893664757548061189, 28,
  36893647165362016261, 36893647027923062841, 36893647165362016261, 36893629573175970361, 36893664757548061189, 36893664620109107769,
  36893682349734106117, 36893717534106195973, 36893717396667242577, 36893735126292240901, 36893734988853287505, 36893752718478285829,
  36893752581039332409, 36893770310664330757, 36893805495036420613, 36893823087222465541, 36893840679408510017, 36893823087222465541,
  36893858271594555397, 36893875863780600325, 36893875726341646905, 36893875863780600325, 36893911048152690181, 36893928640338735109,
  36893928502899781713, 36893928640338735109, 9903529797350648104110064229, 604463488590372887671353, 9903529797350648104110064229,
  604463776838341225480709, 604464065068717377257989, 604464353299093529035269, 4, 36893524020059701765, 8, 36893541612245746693,
  36893543948707955725, 36893541887123653649, 36893543673830048785, 604463488907032236458585, 64, 68, 36893805357597467193, 36931771219227770949, 28,
  32, 36893649501824225293, 36893647165362016261, 36893649226946318353, 36893647440239923217, 32, 36893649501824225369, 36893647027923062841, 36,
  36893665032425968145, 36893666819132363281, 36893664757548061189, 36893667094010270221, 605090119512894105194565, 605090139779092428366405,
  36893629573175970361, 72, 36893825148806767633, 36893823362100372497, 36893825423684674573, 36893823087222465541, 68, 36893805495036420613,
  36893807831498629645, 36893805769914327569, 36893807556620722705, 60, 36893787902850375685, 36893787765411422289, 36893787902850375685, 56,
  36893770173225377361, 36893770310664330757, 52, 36893752718478285829, 48, 36893735126292240901, 44, 36893717534106195973, 40, 36893699941920151045,
  36893735126292239929, 36893699941920151045, 36, 36893682212295152721, 36893682349734106117, 32, 36893664757548061189, 28, 36893647165362016261,
  36893647027923062841, 36893647165362016261, 36893629573175970361, 36893664757548061189, 36893664620109107769, 36893682349734106117,
  36893717534106195973, 36893717396667242577, 36893735126292240901, 36893734988853287505, 36893752718478285829, 36893752581039332409,
  36893770310664330757, 36931769432521375749, 20, 36893596450388183569, 36893594663681788433, 36893596725266090509, 73798236120688164885, 16,
  576548718602354693, 0, 4, 36893523882620748357, 36893526081644003909, 36893523470303887953, 36893525669327143505, 4, 36893524020059701765,
  36893526081644003845, 36893524294937608721, 36893525669327143441, 36893578858202137097, 36893578583324230173, 20, 36893596038071323217,
  36893593839048067665, 36893596450388183621, 36893594251364928069, 20, 36893596038071323153, 36893594663681788433, 36893596450388183557,
  73798236120688164885, 16, 576548718602354693, 0, 4, 36893523882620748357, 36893526081644003909, 36893523470303887953, 36893525669327143505, 4,
  36893524020059701765, 36893526081644003845, 36893524294937608721, 36893525669327143441, 36893578858202137097, 36893578583324230173, 20,
  36893596038071323217, 36893593839048067665, 36893596450388183621, 36893594251364928069, 20, 36893596038071323153, 36893594663681788433,
  36893596450388183557, 73798236120688164885, 80, 3024732094549, 48, 73816252580782473269, 1209411488168018331893813, 1209411488168018331893813,
  73816252580782473269, 48, 73816252580782473269, 1209411488168018331893813, 1209411488168018331893813, 73816252580782473269, 48,
  36940778831872852021, 36940778830799634485, 36940778830799634485, 36940778831872852021, 80, 3025805836373, 48, 36922764432289628213,
  604948578360841183494197, 604948578360841183494197, 36922764432289628213, 48, 36922764432289628213, 604948578360841183494197,
  604948578360841183494197, 36922764432289628213, 48, 73834266978218213429, 73834266979292479541, 73834266979292479541, 73834266978218213429]

theorem diag5a_l2_run2 : run .l2 2 6 1 diag5aEnv [] diag5a_l2_2 (diag5aPaths2.map fun P => ⟨[P], []⟩) = true := Run.run_one (by decide +kernel)

def diag5a_l2_3 : List ℕ := [
  32, 64, 73825259229207396389, 36913756683278811173, 36913756683278811173, 73825259229207396389, 64, 73825259230281662501, 604799851416378122240037,
  604799851416378122240037, 73825259230281662501, 64, 73825259230281662501, 604799851416378122240037, 604799851416378122240037, 73825259230281662501,
  64, 73825259229207396389, 36913756683278811173, 36913756683278811173, 73825259229207396389, 80, 3025805836373, 96, 36893929052655594017,
  36893930701923035677, 36893928365460826661, 36893928777777687077, 60, 64, 36893789964434677837, 36893787353094561873, 36893790514190491729,
  36893787353094561873, 76, 36893841091725369377, 36893842740992811037, 36893840404530602021, 36893840816847462437, 76, 36893841229164322841,
  36893842740992811033, 36893857721838741585, 32, 36913757095595671617, 28, 24, 36893631634760273485, 20, 36893631634760272933, 36893614042574228557,
  16, 36893596450388183557, 36893596450388183649, 12, 8, 36893561266016093773, 36893561266016093701, 36893561266016093793, 4, 36893543673830048865,
  36893543673830048773, 36893543673830048845, 0, 36893526081644003937, 36893526081644003845, 36893526081644003917, 36893526081644003845,
  36893578858202138721, 36893578858202138629, 36893578858202138701, 36893596450388183629, 36893614042574228577, 36893631634760273505,
  36893631634760273413, 36893649226946318413, 36893649226946318341, 36893649226946318433, 36, 36893664207792247377, 36893667368888177233,
  36893664207792247377, 36893666819132363341, 36913757095595671617, 56, 36893772372248632929, 52, 48, 36893737187876543053, 36893737187876542981,
  36893737187876543073, 44, 36893719595690498145, 40, 36, 36893684411318408269, 36893702003504452645, 36893684411318408289, 32, 36893666819132363361,
  28, 24, 36893631634760273485, 20, 36893631634760272933, 36893614042574228557, 16, 36893596450388183557, 36893596450388183649, 12, 8,
  36893561266016093773, 36893561266016093701, 36893561266016093793, 4, 36893543673830048865, 36893543673830048773, 36893543673830048845, 0,
  36893526081644003937, 36893526081644003845, 36893526081644003917, 36893526081644003845, 36893578858202138721, 36893578858202138629,
  36893578858202138701, 36893596450388183629, 36893614042574228577, 36893631634760273505, 36893631634760273413, 36893649226946318413,
  36893649226946318341, 36893649226946318433, 36893666819132363341, 36893666819132363269, 36893702003504453197, 36893702003504453125,
  36893702003504453217, 36893719595690498125, 36893719595690498053, 36893754780062587981, 36893754780062587909, 36893754780062588001,
  36893772372248632909, 36893772372248632837, 60, 64, 36893789964434677837, 36893787353094561873, 36893790514190491729, 36893787353094561873, 76,
  36893841091725369377, 36893842740992811037, 73834266979292479569, 36893840816847462437, 76, 36893841229164322841, 36893842740992811033,
  73834266979292479569, 32, 36913757095595671617, 28, 24, 36893631634760273485, 20, 36893631634760272933, 36893614042574228557, 16,
  36893596450388183557, 36893596450388183649, 12, 8, 36893561266016093773, 36893561266016093701, 36893561266016093793, 4, 36893543673830048865,
  36893543673830048773, 36893543673830048845, 0, 36893526081644003937, 36893526081644003845, 36893526081644003917, 36893526081644003845,
  36893578858202138721, 36893578858202138629, 36893578858202138701, 36893596450388183629, 36893614042574228577, 36893631634760273505,
  36893631634760273413, 36893649226946318413, 36893649226946318341, 36893649226946318433, 36, 36893664207792247377, 36893667368888177233,
  36893664207792247377, 36893666819132363341, 36913757095595671617, 56, 36893772372248632929, 52, 48, 36893737187876543053, 36893737187876542981,
  36893737187876543073, 44, 36893719595690498145, 40, 36, 36893684411318408269, 36893702003504452645, 36893684411318408289, 32, 36893666819132363361,
  28, 24, 36893631634760273485, 20, 36893631634760272933, 36893614042574228557, 16, 36893596450388183557, 36893596450388183649, 12, 8,
  36893561266016093773, 36893561266016093701, 36893561266016093793, 4, 36893543673830048865, 36893543673830048773, 36893543673830048845, 0,
  36893526081644003937, 36893526081644003845, 36893526081644003917, 36893526081644003845, 36893578858202138721, 36893578858202138629,
  36893578858202138701, 36893596450388183629, 36893614042574228577, 36893631634760273505, 36893631634760273413, 36893649226946318413,
  36893649226946318341, 36893649226946318433, 36893666819132363341, 36893666819132363269, 36893702003504453197, 36893702003504453125,
  36893702003504453217, 36893719595690498125, 36893719595690498053, 36893754780062587981, 36893754780062587909, 36893754780062588001,
  36893772372248632909, 36893772372248632837]

theorem diag5a_l2_run3 : run .l2 2 6 1 diag5aEnv [] diag5a_l2_3 (diag5aPaths3.map fun P => ⟨[P], []⟩) = true := Run.run_one (by decide +kernel)

def diag5a_l2_4 : List ℕ := [
  32, 80, 3025805836373, 96, 36893929052655594017, 36893930701923035677, 36893928365460826661, 36893928777777687077, 96, 36893929190094547481,
  36893930701923035673, 4, 0, 232231817106810824416113233, 36893523745181794829, 36893523470303887953, 604463488871847864369761, 0,
  604463542915043392827981, 604463542915043392815713, 36893526631399817809, 604463542915043392815713, 8, 36893541062489932881, 36913755583767183373,
  36893541062489932881, 36893543673830048845, 0, 36893526081644003937, 36893526081644003845, 36893526081644003917, 36893526081644003845,
  36913757782790438997, 76, 9450786175961675081805, 72, 68, 36893825148806767693, 36893825148806767621, 36893825148806767713, 64,
  36893807556620722785, 36893807556620722693, 36893807556620722765, 60, 36893789964434677857, 56, 36893772372248632837, 36893772372248632909, 52,
  36893754780062587909, 36893754780062588001, 48, 44, 36893719595690498125, 36893719595690498053, 36893719595690498145, 40, 36893702003504453217,
  36893702003504453125, 36893702003504453197, 36, 36893684411318408289, 36893684411318408197, 36893684411318408269, 36893666819132363361,
  36893737187876543073, 36893754780062587429, 36893737187876543053, 36893754780062587981, 36893772372248632929, 36893789964434677837,
  36893789964434677765, 36893842740992812621, 36893842740992812549, 36893842740992812641, 73834266979292479569, 36893860333178857477, 28, 24,
  36893631634760273485, 20, 36893614042574228485, 36893614042574228557, 16, 36893596450388183557, 36893596450388183649, 12, 8, 36893561266016093773,
  36893561266016093701, 36893561266016093793, 4, 36893543673830048865, 36893543673830048773, 36893543673830048845, 0, 36893526081644003937,
  36893526081644003845, 36893526081644003917, 36893526081644003845, 36893578858202138721, 36893596450388183077, 36893578858202138701,
  36893596450388183629, 36893614042574228577, 36893631634760273505, 36893631634760273413, 36893649226946318413, 36893649226946318341,
  36893649226946318433, 36, 36893664207792247377, 36893667368888177233, 36893664207792247377, 36893666819132363341, 80, 3025805836373, 96,
  36893929052655594017, 36893930701923035677, 36893928365460826661, 36893928777777687077, 96, 36893929190094547481, 36893930701923035673, 4, 0,
  232231817106810824416113233, 36893523745181794829, 36893523470303887953, 604463488871847864369761, 0, 604463542915043392827981,
  604463542915043392815713, 36893526631399817809, 604463542915043392815713, 8, 36893541062489932881, 36893544223585862737, 36893541062489932881,
  36893543673830048845, 0, 36893526081644003937, 36893526081644003845, 36893526081644003917, 36893526081644003845, 36913757782790438997, 76,
  9450786175961675081805, 72, 68, 36893825148806767693, 36893825148806767621, 36893825148806767713, 64, 36893807556620722785, 36893807556620722693,
  36893807556620722765, 60, 36893789964434677857, 56, 36893772372248632837, 36893772372248632909, 52, 36893754780062587909, 36893754780062588001, 48,
  44, 36893719595690498125, 36893719595690498053, 36893719595690498145, 4722393856448644780581, 36893737187876543073, 36893754780062587429,
  36893737187876543053, 36893754780062587981, 36893772372248632929, 36893789964434677837, 36893789964434677765, 36893842740992812621,
  36893842740992812549, 36893842740992812641, 73834266979292479569, 36893860333178857477]

theorem diag5a_l2_run4 : run .l2 2 6 1 diag5aEnv [] diag5a_l2_4 (diag5aPaths4.map fun P => ⟨[P], []⟩) = true := Run.run_one (by decide +kernel)

def diag5a_l2_5 : List ℕ := [
  32, 28, 36893646753045155913, 73807243732260028449, 68, 64, 36893807556620722693, 36893807556620722757, 60, 36893789964434677829,
  36893789964434677765, 36893789964434677829, 56, 52, 48, 44, 36893719595690498053, 36893719595690498117, 40, 36893702003504453189,
  36893702003504453125, 36893702003504453189, 36, 36893684411318408197, 36893684411318408261, 36893666819132363333, 36893684411318408261,
  36893719595690498117, 36893737187876543045, 36893737187876542981, 36893737187876543045, 36893754780062587973, 36893754780062587909,
  36893754780062587973, 36893772372248632901, 36893772372248632837, 36893772372248632901, 36893807556620722757, 1209257881432758897610825,
  1209257881432758897610825, 72, 36893822537466651729, 36893824736489907281, 36893822674905605193, 36893825148806767685, 24, 36893631634760273413,
  36893631634760273477, 20, 36893614042574228549, 16, 36893596450388183621, 36893596450388183557, 36893596450388183621, 12, 36893578858202138629,
  36893578858202138693, 8, 36893561266016093765, 4, 36893543673830048837, 0, 36893526081644003909, 36893543673830048293, 36893526081644003909,
  36893526081644003845, 36893543673830048837, 36893543673830048773, 36893561266016093765, 36893561266016093701, 36893578858202138693,
  36893614042574228549, 36893631634760272933, 36893631634760273477, 28, 36893649226946318405, 36893649226946318341, 36893649226946318405, 24,
  36893631634760273413, 36893631634760273477, 20, 36893614042574228549, 16, 36893596450388183621, 36893596450388183557, 36893596450388183621, 12,
  36893578858202138629, 36893578858202138693, 8, 36893561266016093765, 4, 36893543673830048837, 0, 36893526081644003909, 36893543673830048293,
  36893526081644003909, 36893526081644003845, 36893543673830048837, 36893543673830048773, 36893561266016093765, 36893561266016093701,
  36893578858202138693, 36893614042574228549, 36893631634760272933, 36893631634760273477, 36, 36893666406815502929, 36893664207792247377,
  36893666819132363333, 36893664345231200841, 44, 68, 64, 36893807556620722693, 36893807556620722757, 60, 36893789964434677829, 36893789964434677765,
  36893789964434677829, 56, 36893754505184679973, 36893772372248632901, 36893772372248632837, 36893772372248632901, 36893807556620722757, 64,
  36893805220158513677, 36893805082719560265, 60, 36893789964434677829, 36893789964434677765, 36893789964434677829, 56, 36893754505184679973,
  36893772372248632901, 36893772372248632837, 36893772372248632901, 1209257901698957220782665, 80, 3024732094549, 96, 36893929190094547469,
  36893930701923035657, 36893929602411407909, 36893929052655594021, 96, 36893929190094547489, 36893930701923035657, 4, 8, 36893541199928886345,
  36893543673830048837, 36893541062489932881, 36893543261513188433, 0, 36893526081644003909, 36893526081644003845, 36893526081644003909,
  36893526081644003845, 0, 36893523470303887953, 604463488819071306236497, 604463488660741631845409, 604463488871847864369733, 0,
  36893525669327143505, 604463526941338464485969, 604463542915043392827973, 604463526941338464485969, 73807245931283284053, 4728419693092029867033,
  72, 36893822537466651729, 36893824736489907281, 36893822674905605193, 36893825148806767685, 48, 36893719595690498117, 36893717121789335625,
  36893719183373637713, 36893716984350382161, 4722393821401711645221, 68, 64, 36893807556620722693, 36893807556620722757, 60, 36893789964434677829,
  36893789964434677765, 36893789964434677829, 56, 52, 48, 36893719595690498117, 36893737187876543045, 36893737187876542981, 36893737187876543045,
  36893754780062587973, 36893754780062587909, 36893754780062587973, 36893772372248632901, 36893772372248632837, 36893772372248632901,
  36893807556620722757, 64, 36893805220158513677, 36893805082719560265, 60, 36893789964434677829, 36893789964434677765, 36893789964434677829, 56, 52,
  48, 36893719595690498117, 36893737187876543045, 36893737187876542981, 36893737187876543045, 36893754780062587973, 36893754780062587909,
  36893754780062587973, 36893772372248632901, 36893772372248632837, 36893772372248632901, 1209257901698957220782665, 80, 3024732094549, 96,
  36893929190094547469, 36893930701923035657, 36893929602411407909, 36893929052655594021, 96, 36893929190094547489, 36893930701923035657, 4, 8,
  36893541199928886345, 36893543673830048837, 36893541062489932881, 36893543261513188433, 0, 36893526081644003909, 36893526081644003845,
  36893526081644003909, 36893526081644003845, 0, 36893523470303887953, 604463488819071306236497, 604463488660741631845409, 604463488871847864369733,
  0, 36893525669327143505, 604463526941338464485969, 604463542915043392827973, 604463526941338464485969, 73807245931283284053,
  4728419693092029867033, 72, 36893822537466651729, 36893824736489907281, 36893822674905605193, 36893825148806767685, 80, 3025805836373, 48,
  36922764432289628213, 604948578360841183494197, 604948578360841183494197, 36922764432289628213, 48, 36922764432289628213, 604948578360841183494197,
  604948578360841183494197, 36922764432289628213, 48, 73834266978218213429, 73834266979292479541, 73834266979292479541, 73834266978218213429]

theorem diag5a_l2_run5 : run .l2 2 6 1 diag5aEnv [] diag5a_l2_5 (diag5aPaths5.map fun P => ⟨[P], []⟩) = true := Run.run_one (by decide +kernel)

def diag5a_l2_6 : List ℕ := [
  80, 3024732094549, 96, 36893929052655594017, 36893930701923035677, 36893928365460826661, 36893928777777687077, 60, 76, 36893842740992811037,
  36893841091725369377, 36893840816847462437, 36893840404530602021, 64, 36893789964434677837, 36893787353094561873, 36893790514190491729,
  36893787353094561873, 56, 36893772372248632929, 52, 36893754780062587981, 48, 36893737187876543053, 36893754780062587429, 36893737187876543073, 44,
  40, 36, 36893702003504452645, 36893684411318408269, 32, 36893666819132363361, 28, 36893649226946318413, 24, 36893631634760273485, 20,
  36893614042574228557, 36893614042574228485, 36893614042574228577, 16, 36893596450388183557, 36893596450388183649, 12, 36893578858202138721, 8,
  36893561266016093773, 36893561266016093701, 36893561266016093793, 4, 36893543673830048773, 36893543673830048865, 0, 36893526081644003937,
  36893526081644003845, 36893526081644003917, 36893526081644003845, 36893543673830048845, 36893578858202138701, 36893578858202138629,
  36893596450388183629, 36893631634760273505, 36893631634760273413, 36893649226946318433, 36893649226946318341, 36893666819132363341,
  36893666819132363269, 36893684411318408289, 36893702003504453197, 36893702003504453125, 36893702003504453217, 36893719595690498145,
  36893719595690498053, 36893719595690498125, 36893754780062588001, 36893754780062587909, 36893772372248632909, 36893772372248632837, 76,
  36893842740992811033, 36893841229164322841, 32, 73807245244088516673, 28, 36893649226946318413, 24, 36893631634760273485, 20, 36893614042574228557,
  36893614042574228485, 36893614042574228577, 16, 36893596450388183557, 36893596450388183649, 12, 36893578858202138721, 8, 36893561266016093773,
  36893561266016093701, 36893561266016093793, 4, 36893543673830048773, 36893543673830048865, 0, 36893526081644003937, 36893526081644003845,
  36893526081644003917, 36893526081644003845, 36893543673830048845, 36893578858202138701, 36893578858202138629, 36893596450388183629,
  36893631634760273505, 36893631634760273413, 36893649226946318433, 36893649226946318341, 36, 36893667368888177233, 36893664207792247377,
  36893666819132363341, 36893664207792247377, 73807245244088516673, 36893857721838741585, 60, 76, 36893842740992811037, 36893841091725369377,
  36893840816847462437, 36893840404530602021, 64, 36893789964434677837, 36893787353094561873, 36893790514190491729, 36893787353094561873, 56,
  36893772372248632929, 52, 36893754780062587981, 48, 36893737187876543053, 36893754780062587429, 36893737187876543073, 44, 40, 36,
  36893702003504452645, 36893684411318408269, 32, 36893666819132363361, 28, 36893649226946318413, 24, 36893631634760273485, 20, 36893614042574228557,
  36893614042574228485, 36893614042574228577, 16, 36893596450388183557, 36893596450388183649, 12, 36893578858202138721, 8, 36893561266016093773,
  36893561266016093701, 36893561266016093793, 4, 36893543673830048773, 36893543673830048865, 0, 36893526081644003937, 36893526081644003845,
  36893526081644003917, 36893526081644003845, 36893543673830048845, 36893578858202138701, 36893578858202138629, 36893596450388183629,
  36893631634760273505, 36893631634760273413, 36893649226946318433, 36893649226946318341, 36893666819132363341, 36893666819132363269,
  36893684411318408289, 36893702003504453197, 36893702003504453125, 36893702003504453217, 36893719595690498145, 36893719595690498053,
  36893719595690498125, 36893754780062588001, 36893754780062587909, 36940778830799634493, 36893772372248632837, 76, 36893842740992811033,
  36893841229164322841, 32, 73807245244088516673, 28, 36893649226946318413, 24, 36893631634760273485, 20, 36893614042574228557, 36893614042574228485,
  36893614042574228577, 16, 36893596450388183557, 36893596450388183649, 12, 36893578858202138721, 8, 36893561266016093773, 36893561266016093701,
  36893561266016093793, 4, 36893543673830048773, 36893543673830048865, 0, 36893526081644003937, 36893526081644003845, 36893526081644003917,
  36893526081644003845, 36893543673830048845, 36893578858202138701, 36893578858202138629, 36893596450388183629, 36893631634760273505,
  36893631634760273413, 36893649226946318433, 36893649226946318341, 36, 36893667368888177233, 36893664207792247377, 36893666819132363341,
  36893664207792247377, 73807245244088516673, 36940778830799634513, 32, 64, 36931771082862034981, 73807244831771656229, 73807244831771656229,
  36931771082862034981, 64, 36931771081788817445, 1209262761223555270639653, 1209262761223555270639653, 36931771081788817445, 64,
  36931771081788817445, 1209262761223555270639653, 1209262761223555270639653, 36931771081788817445, 64, 36931771082862034981, 73807244831771656229,
  73807244831771656229, 36931771082862034981]

theorem diag5a_l2_run6 : run .l2 2 6 1 diag5aEnv [] diag5a_l2_6 (diag5aPaths6.map fun P => ⟨[P], []⟩) = true := Run.run_one (by decide +kernel)

def diag5a_l2_7 : List ℕ := [
  80, 3024732094549, 96, 36893929052655594017, 36893930701923035677, 36893928365460826661, 36893928777777687077, 32, 76, 72, 68,
  36893842740992812069, 36893825148806767693, 64, 36893807556620722785, 36893807556620722693, 36893807556620722765, 60, 56, 36893772372248632837,
  36893772372248632909, 52, 36893754780062588001, 36893754780062587909, 36893754780062587981, 48, 44, 36893719595690498053, 36893719595690498125, 40,
  36893702003504453217, 36893702003504453125, 36893702003504453197, 36, 36893684411318408197, 36893684411318408289, 36893666819132363361,
  36893684411318408269, 36893719595690498145, 36893737187876543073, 36893754780062587429, 36893737187876543053, 36893772372248632929,
  36893789964434677857, 36893807556620722213, 36893789964434677837, 36893825148806767713, 36893842740992812621, 36893842740992812549,
  36893842740992812641, 96, 36893929190094547481, 36893930701923035673, 4, 0, 604463542915043392827981, 604463542915043392815713,
  36893526631399817809, 604463542915043392815713, 0, 232231817106810824416113233, 36893523745181794829, 36893523470303887953,
  604463488871847864369761, 0, 36893526081644003937, 36893526081644003845, 36893526081644003917, 36893526081644003845, 8, 12, 36893558654675977809,
  36893561266016093773, 36893558654675977809, 36893561815771907665, 36893544223585862737, 36893541062489932881, 36893543673830048845,
  73807245931283284053, 73807245381527470161, 36893857721838741585, 28, 36893649226946318413, 24, 36893631634760273485, 20, 36893614042574228557,
  36893649226946317349, 36893614042574228577, 16, 36893596450388183557, 36893596450388183649, 12, 36893578858202138721, 8, 36893561266016093773,
  36893561266016093701, 36893561266016093793, 4, 36893543673830048773, 36893543673830048865, 0, 36893526081644003937, 36893526081644003845,
  36893526081644003917, 36893526081644003845, 36893543673830048845, 36893578858202138701, 36893578858202138629, 36893596450388183629,
  36893631634760273505, 36893631634760273413, 36893649226946318433, 36893649226946318341, 36, 36893667368888177233, 36893664207792247377,
  36893666819132363341, 36893664207792247377, 96, 36893929190094547481, 36893930701923035673, 4, 0, 604463542915043392827981,
  604463542915043392815713, 36893526631399817809, 604463542915043392815713, 0, 232231817106810824416113233, 36893523745181794829,
  36893523470303887953, 604463488871847864369761, 0, 36893526081644003937, 36893526081644003845, 36893526081644003917, 36893526081644003845, 8, 12,
  36893558654675977809, 36893561266016093773, 36893558654675977809, 36893561815771907665, 36893544223585862737, 36893541062489932881,
  36893543673830048845, 73807245931283284053, 76, 72, 68, 36893842740992812069, 36893825148806767693, 64, 36893807556620722785, 36893807556620722693,
  36893807556620722765, 60, 56, 36893772372248632837, 36893772372248632909, 52, 36893754780062588001, 36893754780062587909, 36893754780062587981, 48,
  44, 36893719595690498053, 36893719595690498125, 40, 36893702003504453217, 36893702003504453125, 36893702003504453197, 36, 36893684411318408197,
  36893684411318408289, 32, 36893666819132363361, 28, 36893649226946318413, 24, 36893631634760273485, 20, 36893614042574228557, 36893649226946317349,
  36893614042574228577, 16, 36893596450388183557, 36893596450388183649, 12, 36893578858202138721, 8, 36893561266016093773, 36893561266016093701,
  36893561266016093793, 4, 36893543673830048773, 36893543673830048865, 0, 36893526081644003937, 36893526081644003845, 36893526081644003917,
  36893526081644003845, 36893543673830048845, 36893578858202138701, 36893578858202138629, 36893596450388183629, 36893631634760273505,
  36893631634760273413, 36893649226946318433, 36893649226946318341, 36893666819132363341, 36893666819132363269, 36893684411318408269,
  36893719595690498145, 36893737187876543073, 36893754780062587429, 36893737187876543053, 36893772372248632929, 36893789964434677857,
  36893807556620722213, 36893789964434677837, 36893825148806767713, 36893842740992812621, 36893842740992812549, 36893842740992812641,
  4728419693092029868109, 36893860333178857477, 36940778830799634513, 80, 3024732094549, 48, 73816252580782473269, 1209411488168018331893813,
  1209411488168018331893813, 73816252580782473269, 48, 73816252580782473269, 1209411488168018331893813, 1209411488168018331893813,
  73816252580782473269, 48, 36940778831872852021, 36940778830799634485, 36940778830799634485, 36940778831872852021, 80, 3025805836373, 48,
  36922764432289628213, 604948578360841183494197, 604948578360841183494197, 36922764432289628213, 48, 36922764432289628213, 604948578360841183494197,
  604948578360841183494197, 36922764432289628213, 48, 73834266978218213429, 73834266979292479541, 73834266979292479541, 73834266978218213429, 80,
  3024732094549, 48, 73816252580782473269, 1209411488168018331893813, 1209411488168018331893813, 73816252580782473269, 48, 73816252580782473269,
  1209411488168018331893813, 1209411488168018331893813, 73816252580782473269, 48, 36940778831872852021, 36940778830799634485, 36940778830799634485,
  36940778831872852021]

theorem diag5a_l2_run7 : run .l2 2 6 1 diag5aEnv [] diag5a_l2_7 (diag5aPaths7.map fun P => ⟨[P], []⟩) = true := Run.run_one (by decide +kernel)

def diag5a_l2_8 : List ℕ := [
  80, 3025805836373, 96, 36893929190094547469, 36893930701923035657, 36893929602411407909, 36893929052655594021, 32, 28, 36913755583767183393,
  36893646753045155913, 24, 36893631634760273413, 36893631634760273477, 20, 16, 36893596450388183621, 36893596450388183557, 36893596450388183621, 12,
  36893578858202138693, 36893578858202138629, 36893578858202138693, 8, 36893561266016093765, 4, 0, 36893526081644003909, 36893526081644003845,
  36893526081644003909, 36893526081644003845, 36893543673830048837, 36893543673830048773, 36893543673830048837, 36893561266016093765,
  36893561266016093701, 36893614042574228549, 36893614042574228485, 36893614042574228549, 36893631634760273477, 68, 604794971625306871304265, 64,
  36893807556620722693, 36893807556620722757, 60, 36893789964434677765, 36893789964434677829, 56, 52, 36893754780062587973, 48, 44,
  36893719595690498117, 36893719595690498053, 36893719595690498117, 40, 36893702003504453189, 36893702003504453125, 36893702003504453189, 36,
  36893684411318408261, 36893684411318408197, 36893684411318408261, 36893666819132363333, 36893737187876543045, 36893737187876542981,
  36893737187876543045, 36893754780062587973, 36893754780062587909, 36893772372248632901, 36893772372248632837, 36893772372248632901,
  36893789964434677829, 36893807556620722757, 72, 36893822537466651729, 36893824736489907281, 36893822674905605193, 36893825148806767685,
  604794971625306871304265, 28, 36893649226946318341, 36893649226946318405, 24, 36893631634760273413, 36893631634760273477, 20, 16,
  36893596450388183621, 36893596450388183557, 36893596450388183621, 12, 36893578858202138693, 36893578858202138629, 36893578858202138693, 8,
  36893561266016093765, 4, 0, 36893526081644003909, 36893526081644003845, 36893526081644003909, 36893526081644003845, 36893543673830048837,
  36893543673830048773, 36893543673830048837, 36893561266016093765, 36893561266016093701, 36893614042574228549, 36893614042574228485,
  36893614042574228549, 36893631634760273477, 36893649226946318405, 36, 36893664207792247377, 36893666406815502929, 36893664345231200841,
  36893666819132363333, 96, 36893929190094547489, 36893930701923035657, 44, 48, 36893719595690498117, 36893717121789335625, 36893719183373637713,
  36893716984350382161, 4, 0, 36893526081644003909, 36893526081644003845, 36893526081644003909, 36893526081644003845, 8, 36893541199928886345,
  36893543673830048837, 12, 36893558654675977809, 36893560853699233361, 36893558792114931273, 36893561266016093765, 36893543261513188433, 8,
  4724960609444959355925, 36893543673830048773, 12, 36893558654675977809, 36893560853699233361, 36893558792114931273, 36893561266016093765, 68, 64,
  36893805220158513677, 36893805082719560265, 60, 36893789964434677765, 36893789964434677829, 56, 36893754505184679973, 36893772372248632901,
  36893772372248632837, 36893772372248632901, 36893789964434677829, 604794991891505194476105, 64, 36893807556620722693, 36893807556620722757, 60,
  36893789964434677765, 36893789964434677829, 56, 36893754505184679973, 36893772372248632901, 36893772372248632837, 36893772372248632901,
  36893789964434677829, 36893807556620722757, 72, 36893822537466651729, 36893824736489907281, 36893822674905605193, 36893825148806767685, 0,
  36893525669327143505, 604463526941338464485969, 604463542915043392827973, 604463526941338464485969, 0, 36893523470303887953,
  604463488819071306236497, 68, 64, 36893805220158513677, 36893805082719560265, 60, 36893789964434677765, 36893789964434677829, 56,
  36893754505184679973, 36893772372248632901, 36893772372248632837, 36893772372248632901, 36893789964434677829, 604794991891505194476105, 64,
  36893807556620722693, 36893807556620722757, 60, 36893789964434677765, 36893789964434677829, 56, 36893754505184679973, 36893772372248632901,
  36893772372248632837, 36893772372248632901, 36893789964434677829, 36893807556620722757, 72, 36893822537466651729, 36893824736489907281,
  36893822674905605193, 36893825148806767685, 604463488660741631845409, 604463488871847864369733, 4, 0, 36893526081644003909, 36893526081644003845,
  36893526081644003909, 36893526081644003845, 8, 36893541199928886345, 36893543673830048837, 12, 36893558654675977809, 36893560853699233361,
  36893558792114931273, 36893561266016093765, 36893543261513188433, 8, 4724960609444959355925, 36893543673830048773, 12, 36893558654675977809,
  36893560853699233361, 36893558792114931273, 36893561266016093765, 68, 64, 36893805220158513677, 36893805082719560265, 60, 36893789964434677765,
  36893789964434677829, 56, 52, 36893754780062587973, 48, 36893719595690498117, 36893737187876543045, 36893737187876542981, 36893737187876543045,
  36893754780062587973, 36893754780062587909, 36893772372248632901, 36893772372248632837, 36893772372248632901, 36893789964434677829,
  604794991891505194476105, 64, 36893807556620722693, 36893807556620722757, 60, 36893789964434677765, 36893789964434677829, 56, 52,
  36893754780062587973, 48, 36893719595690498117, 36893737187876543045, 36893737187876542981, 36893737187876543045, 36893754780062587973,
  36893754780062587909, 36893772372248632901, 36893772372248632837, 36893772372248632901, 36893789964434677829, 36893807556620722757, 72,
  36893822537466651729, 36893824736489907281, 36893822674905605193, 36893825148806767685, 0, 36893525669327143505, 604463526941338464485969,
  604463542915043392827973, 604463526941338464485969, 0, 36893523470303887953, 604463488819071306236497, 68, 64, 36893805220158513677,
  36893805082719560265, 60, 36893789964434677765, 36893789964434677829, 56, 52, 36893754780062587973, 48, 36893719595690498117, 36893737187876543045,
  36893737187876542981, 36893737187876543045, 36893754780062587973, 36893754780062587909, 36893772372248632901, 36893772372248632837,
  36893772372248632901, 36893789964434677829, 604794991891505194476105, 64, 36893807556620722693, 36893807556620722757, 60, 36893789964434677765,
  36893789964434677829, 56, 52, 36893754780062587973, 48, 36893719595690498117, 36893737187876543045, 36893737187876542981, 36893737187876543045,
  36893754780062587973, 36893754780062587909, 36893772372248632901, 36893772372248632837, 36893772372248632901, 36893789964434677829,
  36893807556620722757, 72, 36893822537466651729, 36893824736489907281, 36893822674905605193, 36893825148806767685, 604463488660741631845409,
  604463488871847864369733, 4722393821264272691749, 36913757782790438997, 68, 32, 28, 36913755583767183393, 36893646753045155913, 24,
  36893631634760273413, 36893631634760273477, 20, 16, 36893596450388183621, 36893596450388183557, 36893596450388183621, 12, 36893578858202138693,
  36893578858202138629, 36893578858202138693, 8, 36893561266016093765, 4, 0, 36893526081644003909, 36893526081644003845, 36893526081644003909,
  36893526081644003845, 36893543673830048837, 36893543673830048773, 36893543673830048837, 36893561266016093765, 36893561266016093701,
  36893614042574228549, 36893614042574228485, 36893614042574228549, 36893631634760273477, 604794971625306871304265, 28, 36893649226946318341,
  36893649226946318405, 24, 36893631634760273413, 36893631634760273477, 20, 16, 36893596450388183621, 36893596450388183557, 36893596450388183621, 12,
  36893578858202138693, 36893578858202138629, 36893578858202138693, 8, 36893561266016093765, 4, 0, 36893526081644003909, 36893526081644003845,
  36893526081644003909, 36893526081644003845, 36893543673830048837, 36893543673830048773, 36893543673830048837, 36893561266016093765,
  36893561266016093701, 36893614042574228549, 36893614042574228485, 36893614042574228549, 36893631634760273477, 36893649226946318405, 36,
  36893664207792247377, 36893666406815502929, 36893664345231200841, 36893666819132363333, 64, 36893805220158513677, 36893805082719560265, 60,
  36893789964434677765, 36893789964434677829, 56, 52, 36893754780062587973, 44, 48, 36893719595690498117, 36893717121789335625, 36893719183373637713,
  36893716984350382161, 36893737187876542501, 48, 36893719595690498117, 36893737187876543045, 36893737187876542981, 36893737187876543045,
  4722393821264272691749, 36893754780062587973, 36893754780062587909, 36893772372248632901, 36893772372248632837, 36893772372248632901,
  36893789964434677829, 604794991891505194476105, 64, 36893807556620722693, 36893807556620722757, 60, 36893789964434677765, 36893789964434677829, 56,
  52, 36893754780062587973, 48, 44, 36893719595690498117, 36893719595690498053, 36893719595690498117, 40, 36893702003504453189, 36893702003504453125,
  36893702003504453189, 32, 36, 36893684411318408261, 36893684411318408197, 36893684411318408261, 36893666819132363333, 28, 36893649226946318341,
  36893649226946318405, 24, 36893631634760273413, 36893631634760273477, 20, 16, 36893596450388183621, 36893596450388183557, 36893596450388183621, 12,
  36893578858202138693, 36893578858202138629, 36893578858202138693, 8, 36893561266016093765, 4, 0, 36893526081644003909, 36893526081644003845,
  36893526081644003909, 36893526081644003845, 36893543673830048837, 36893543673830048773, 36893543673830048837, 36893561266016093765,
  36893561266016093701, 36893614042574228549, 36893614042574228485, 36893614042574228549, 36893631634760273477, 36893649226946318405, 36,
  36893664207792247377, 36893666406815502929, 36893664345231200841, 36893666819132363333, 4722391604648831095333, 36893737187876543045,
  36893737187876542981, 36893737187876543045, 36893754780062587973, 36893754780062587909, 36893772372248632901, 36893772372248632837,
  36893772372248632901, 36893789964434677829, 36893807556620722757, 72, 36893822537466651729, 36893824736489907281, 36893822674905605193,
  36893825148806767685, 9450786175961675080729]

theorem diag5a_l2_run8 : run .l2 2 6 1 diag5aEnv [] diag5a_l2_8 (diag5aPaths8.map fun P => ⟨[P], []⟩) = true := Run.run_one (by decide +kernel)

def diag5a_l2_9 : List ℕ := [
  16, 288318342450642949, 48, 73816251481270845461, 604651124471915060985877, 604651124471915060985877, 73816251481270845461, 48,
  73816251481270845461, 604651124471915060985877, 604651124471915060985877, 73816251481270845461, 48, 73816251480196579349, 36904748934267994133,
  36904748934267994133, 73816251480196579349, 16, 288318342450642949, 48, 73816251481270845461, 604651124471915060985877, 604651124471915060985877,
  73816251481270845461, 48, 73816251481270845461, 604651124471915060985877, 604651124471915060985877, 73816251481270845461, 48, 73816251480196579349,
  36904748934267994133, 36904748934267994133, 73816251480196579349, 16, 288318342450642949, 48, 73816251481270845461, 604651124471915060985877,
  604651124471915060985877, 73816251481270845461, 48, 73816251481270845461, 604651124471915060985877, 604651124471915060985877, 73816251481270845461,
  48, 73816251480196579349, 36904748934267994133, 36904748934267994133, 73816251480196579349, 16, 288318342450642949, 0, 36893578308446323241, 4,
  36893525531888189969, 36893524020059701765, 36893526356521910797, 36893523470303887893, 36893578308446323217, 36893578308446323269, 20, 36,
  36893664757548059685, 36893666269376547881, 36893666406815501377, 36893664620109106241, 24, 36893613492818414609, 36893611980989926405,
  36893614317452135437, 36893611431234112533, 36893594251364928065, 36, 36893664757548059705, 36893666269376547909, 64, 73825257718453174293, 68,
  36893807006864908817, 36893805495036420613, 36893807831498629645, 36893804945280606741, 60, 56, 36893770310664330757, 52, 36893770310664330305,
  36893752718478285829, 48, 44, 36893717534106195973, 40, 36893717534106195521, 36893699941920151045, 36893682212295152705, 36893699941920151045,
  36893717534106195973, 36893717259228289113, 36893735126292240901, 36893734988853287489, 36893735126292240901, 36893752718478285829,
  36893770310664330757, 36893770035786423897, 36893787902850375685, 36893787765411422273, 36893787902850375685, 73825258268208988185, 40,
  36893681799978292245, 44, 36893701453748639249, 36893699941920151045, 36893702278382360077, 36893699392164337173, 36893682349734106117,
  36893683861562594321, 20, 36, 36893664757548059685, 36893666269376547881, 36893666406815501377, 36893664620109106241, 24, 36893613492818414609,
  36893611980989926405, 36893614317452135437, 36893611431234112533, 36904747972195319829, 36893595900632369681, 16, 288318342450642949, 0, 4,
  36893526081644003917, 36893523882620748365, 36893526631399817809, 36893523470303887953, 4, 36893526081644003845, 36893524020059701765,
  36893526631399817749, 36893523470303887893, 36893578858202137097, 36893578858202137153, 20, 36893593839048067665, 36893597000143997521,
  36893594251364928077, 36893596450388183629, 20, 4722380011398194268693, 4722380328057543068181, 36904747972195319829, 36893596450388183557]

theorem diag5a_l2_run9 : run .l2 2 6 1 diag5aEnv [] diag5a_l2_9 (diag5aPaths9.map fun P => ⟨[P], []⟩) = true := Run.run_one (by decide +kernel)

def diag5a_l2_10 : List ℕ := [
  16, 288318342450642949, 0, 36893578308446323253, 4, 36893525257010283025, 36893524020059701765, 36893526356521910797, 36893523470303887893,
  36893578308446323217, 36893578033568416297, 0, 36893577483812602425, 4, 36893525257010283025, 36893524020059701765, 36893526356521910797,
  36893523470303887893, 4, 8, 36893541612245746693, 36893542849196327953, 36893541062489932821, 36893543948707955725, 36893523745181794905,
  36893526356521910873, 96, 604463488572780701626969, 9903529797350648104110064229, 92, 36893928365460828249, 36893928640338735109, 88, 84,
  36893893455966645253, 36893893318527691833, 36893893455966645253, 80, 36893875863780600325, 36893875588902693465, 36893875863780600325, 76,
  36893858271594555397, 72, 68, 36893823087222465541, 64, 36893805357597467193, 36893805495036420613, 60, 36893787627972468825, 36893787902850375685,
  56, 36893770035786423897, 36893770310664330757, 52, 48, 36893735126292240901, 36893734988853287481, 36893735126292240901, 44, 36893717534106195973,
  36893717259228289113, 36893717534106195973, 40, 36893699941920151045, 36, 36893682212295152697, 36893682349734106117, 32, 36893664482670154329,
  36893664757548061189, 28, 24, 36893629573175971333, 20, 36893611843550972985, 36893611980989926405, 36893594251364928057, 36893611980989926405,
  36893629573175971333, 36893629298298064473, 36893647165362016261, 36893647027923062841, 36893647165362016261, 36893664757548061189,
  36893682349734106117, 36893699941920151045, 36893699804481197625, 36893752718478285829, 36893752581039332409, 36893752718478285829,
  36893770310664330757, 36893787902850375685, 36893805495036420613, 36893823087222465541, 36893822812344558681, 36893840679408510469,
  36893840404530603609, 36893840679408510469, 36893858271594555397, 36893858134155601977, 36893911048152690181, 36893910910713736761,
  36893911048152690181, 36893928640338735109, 9903529797350648104110064229, 64, 73825257581014220805, 68, 72, 36893823087222465541,
  36893824324173046801, 36893822537466651669, 36893825423684674573, 36893805495036420613, 36893807831498629645, 36893804945280606741, 60,
  36893787627972468825, 36893787902850375685, 56, 36893770035786423897, 36893770310664330757, 52, 48, 36893735126292240901, 36893734988853287481,
  36893735126292240901, 44, 36893717534106195973, 36893717259228289113, 36893717534106195973, 40, 36893699941920151045, 36, 36893682212295152697,
  36893682349734106117, 32, 36893664482670154329, 36893664757548061189, 28, 24, 36893629573175971333, 20, 36893611843550972985, 36893611980989926405,
  36893594251364928057, 36893611980989926405, 36893629573175971333, 36893629298298064473, 36893647165362016261, 36893647027923062841,
  36893647165362016261, 36893664757548061189, 36893682349734106117, 36893699941920151045, 36893699804481197625, 36893752718478285829,
  36893752581039332409, 36893752718478285829, 36893770310664330757, 36893787902850375685, 73825257581014220805, 20, 4722380011398194268693, 24,
  36893613217940507665, 36893611980989926405, 36893614317452135437, 36893611431234112533, 36904747972195319829, 36893595625754462737, 16,
  288318342450642949, 0, 4, 36893526081644003909, 36893523882620748357, 36893525669327143505, 36893523470303887953, 4, 36893526081644003845,
  36893524020059701765, 36893525669327143441, 36893523470303887893, 36893578858202137097, 36893578583324230193, 20, 36893593839048067665,
  36893596038071323217, 36893594251364928069, 36893596450388183621, 20, 4722380011398194268693, 36893596038071323153, 36904747972195319829,
  36893596450388183557, 16, 288318342450642949, 0, 4, 36893526081644003909, 36893523882620748357, 36893525669327143505, 36893523470303887953, 4,
  36893526081644003845, 36893524020059701765, 36893525669327143441, 36893524294937608721, 36893578858202137097, 36893578583324230173, 20,
  36893593839048067665, 36893596038071323217, 36893594251364928069, 36893596450388183621, 20, 36893594663681788433, 36893596038071323153,
  36904747972195319829, 36893596450388183557]

theorem diag5a_l2_run10 : run .l2 2 6 1 diag5aEnv [] diag5a_l2_10 (diag5aPaths10.map fun P => ⟨[P], []⟩) = true := Run.run_one (by decide +kernel)

def diag5a_l2_11 : List ℕ := [
  16, 288318342450642949, 0, 36893578308446323253, 4, 36893526356521910797, 36893524020059701765, 36893526081644003857, 36893524294937608721,
  36893578308446323217, 36893578033568416289, 0, 36893577208934695481, 4, 36893526356521910797, 36893524020059701765, 36893526081644003857,
  36893524294937608721, 12, 36893577071495743505, 8, 4, 36893541612245746693, 36893523882620748369, 36893541612245746693, 36893541474806793297,
  36893559204431791621, 36893559066992838225, 36893559204431791621, 604464353299093529035269, 8, 4, 36893541612245746693, 36893523882620748369,
  36893541612245746693, 36893541474806793297, 36893559479309698577, 4, 36893541887123653649, 36893523882620748369, 604463776838341225480709, 96, 92,
  36893928640338735109, 88, 36893928640338734657, 36893911048152690181, 84, 36893893318527691857, 36893893455966645253, 80, 76, 36893858271594555397,
  36893858134155601977, 36893858271594555397, 68, 64, 73825259367720616005, 36893807831498629645, 60, 36893787765411422289, 36893787902850375685, 56,
  36893770173225377361, 36893770310664330757, 52, 48, 36893735126292240901, 44, 40, 36893699941920151045, 36893699804481197625, 36893699941920151045,
  36, 36893682349734106117, 36893682212295152721, 36893682349734106117, 32, 36893664757548061189, 28, 36893647027923062841, 36893647165362016261,
  36893629573175970361, 36893647165362016261, 36893664757548061189, 36893664620109107769, 36893717534106195973, 36893717396667242577,
  36893717534106195973, 36893735126292240901, 36893734988853287505, 36893752718478285829, 36893752581039332409, 36893752718478285829,
  36893770310664330757, 36893787902850375685, 28, 32, 36893649501824225369, 36893647027923062841, 36, 36893666819132363281, 36893665032425968145,
  36893667094010270221, 36893664757548061189, 1209553029320346131501125, 32, 36893649501824225293, 36893647165362016261, 36, 36893666819132363281,
  36893665032425968145, 36893667094010270221, 36893664757548061189, 36893647440239923217, 36893629573175970361, 1209553049744874129072673, 64,
  36893805357597467193, 36893805495036420613, 60, 36893787765411422289, 36893787902850375685, 56, 36893770173225377361, 36893770310664330757, 52, 48,
  36893735126292240901, 44, 40, 36893699941920151045, 36893699804481197625, 36893699941920151045, 36, 36893682349734106117, 36893682212295152721,
  36893682349734106117, 32, 36893664757548061189, 28, 36893647027923062841, 36893647165362016261, 36893629573175970361, 36893647165362016261,
  36893664757548061189, 36893664620109107769, 36893717534106195973, 36893717396667242577, 36893717534106195973, 36893735126292240901,
  36893734988853287505, 36893752718478285829, 36893752581039332409, 36893752718478285829, 36893770310664330757, 36893787902850375685,
  36893805495036420613, 72, 36893825148806767633, 36893823362100372497, 36893825423684674573, 36893823087222465541, 36893840679408510017,
  36893875863780600325, 36893875726341646905, 36893875863780600325, 36893893455966645253, 36893911048152690181, 36893928640338735109,
  36893928502899781713, 9903529797350648104110064229, 604463488590372887671353, 9903529797350648104110064229, 604464065068717377257989, 64, 68,
  73825259367720616005, 36893805357597467193, 72, 36893825148806767633, 36893823362100372497, 36893825423684674573, 36893823087222465541, 28, 32,
  36893649501824225369, 36893647027923062841, 36, 36893666819132363281, 36893665032425968145, 36893667094010270221, 36893664757548061189,
  1209553029320346131501125, 32, 36893649501824225293, 36893647165362016261, 36, 36893666819132363281, 36893665032425968145, 36893667094010270221,
  36893664757548061189, 36893647440239923217, 36893629573175970361, 1209553049586544454672965, 68, 36893807831498629645, 36893805495036420613, 72,
  36893825148806767633, 36893823362100372497, 36893825423684674573, 36893823087222465541, 36893805769914327569, 60, 36893787765411422289,
  36893787902850375685, 56, 36893770173225377361, 36893770310664330757, 52, 48, 36893735126292240901, 44, 40, 36893699941920151045,
  36893699804481197625, 36893699941920151045, 36, 36893682349734106117, 36893682212295152721, 36893682349734106117, 32, 36893664757548061189, 28,
  36893647027923062841, 36893647165362016261, 36893629573175970361, 36893647165362016261, 36893664757548061189, 36893664620109107769,
  36893717534106195973, 36893717396667242577, 36893717534106195973, 36893735126292240901, 36893734988853287505, 36893752718478285829,
  36893752581039332409, 36893752718478285829, 36893770310664330757, 36893787902850375685, 73825257581014220805, 20, 36893594663681788433,
  36893596450388183569, 36904747972195319829, 36893596725266090509, 16, 288318342450642949, 0, 4, 36893526081644003897, 36893523882620748345,
  36893526631399817809, 36893523470303887953, 4, 36893526081644003845, 36893524020059701765, 36893526631399817749, 36893524294937608721,
  36893578858202137097, 36893578858202137117, 20, 36893593839048067665, 36893597000143997521, 36893594251364928057, 36893596450388183609, 20,
  36893594663681788433, 4722380328057543068181, 36904747972195319829, 36893596450388183557]

theorem diag5a_l2_run11 : run .l2 2 6 1 diag5aEnv [] diag5a_l2_11 (diag5aPaths11.map fun P => ⟨[P], []⟩) = true := Run.run_one (by decide +kernel)

def diag5a_l2_12 : List ℕ := [
  16, 288318342450642949, 0, 4, 36893526081644003909, 36893523882620748357, 36893525669327143505, 36893523470303887953, 4, 36893526081644003845,
  36893524020059701765, 36893525669327143441, 36893524294937608721, 36893578858202137097, 36893578583324230173, 20, 36893593839048067665,
  36893596038071323217, 36893594251364928069, 36893596450388183621, 20, 36893594663681788433, 36893596038071323153, 36904747972195319829,
  36893596450388183557]

theorem diag5a_l2_run12 : run .l2 2 6 1 diag5aEnv [] diag5a_l2_12 (diag5aPaths12.map fun P => ⟨[P], []⟩) = true := Run.run_one (by decide +kernel)

theorem diag5a_l2 : diag5aTab.Refuted .l2 2 6 1 25 :=
  Tab.refuted_one (T := diag5aTab) rfl diag5a_paths (parts (part diag5a_l2_run0) (parts (part diag5a_l2_run1) (parts (part diag5a_l2_run2) (parts (part diag5a_l2_run3) (parts (part diag5a_l2_run4) (parts (part diag5a_l2_run5) (parts (part diag5a_l2_run6) (parts (part diag5a_l2_run7) (parts (part diag5a_l2_run8) (parts (part diag5a_l2_run9) (parts (part diag5a_l2_run10) (parts (part diag5a_l2_run11) (part diag5a_l2_run12)))))))))))))

end MinCert
end Peano
