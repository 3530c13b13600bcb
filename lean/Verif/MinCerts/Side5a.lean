import Verif.Lemmas.MinRun
import Verif.Lemmas.MinFast

set_option autoImplicit false

/-
Side, grid 5, steps to adjacent cells: no curve has less dilation.  This file is generated.
-/
namespace Peano
namespace MinCert

/-- Table of links and of their specs. -/
def side5aEnv : Env where
  N := 5
  G := 25
  m := 1
  S := 1
  W := 6
  B := 288
  L := 8
  links := [([0, 0], [0, 1]), ([0, 0], [1, 0]), ([0, 1], [0, 0]), ([0, 1], [1, 1]), ([1, 0], [0, 0]), ([1, 0], [1, 1]), ([1, 1], [0, 1]), ([1, 1], [1, 0])]
  doms := [
    [⟨[(1, false), (0, false)], false, 0⟩, ⟨[(1, false), (0, true)], true, 0⟩],
    [⟨[(0, false), (1, false)], false, 0⟩, ⟨[(0, true), (1, false)], true, 0⟩],
    [⟨[(1, false), (0, false)], true, 0⟩, ⟨[(1, false), (0, true)], false, 0⟩],
    [⟨[(0, false), (1, true)], false, 0⟩, ⟨[(0, true), (1, true)], true, 0⟩],
    [⟨[(0, false), (1, false)], true, 0⟩, ⟨[(0, true), (1, false)], false, 0⟩],
    [⟨[(1, true), (0, false)], false, 0⟩, ⟨[(1, true), (0, true)], true, 0⟩],
    [⟨[(0, false), (1, true)], true, 0⟩, ⟨[(0, true), (1, true)], false, 0⟩], [⟨[(1, true), (0, false)], true, 0⟩, ⟨[(1, true), (0, true)], false, 0⟩]]

/-- Data of the search of paths. -/
def side5aEnum : Enum where
  L := 8
  B := 288
  ones := 7
  offs := [1, 6]
  trans := [
    [(1, 6), (1, 7), (8, 0), (8, 1)], [(6, 6), (6, 7), (13, 0), (13, 1)], [(1, 4), (1, 5), (6, 2), (6, 3)], [(8, 4), (8, 5), (13, 2), (13, 3)],
    [(1, 4), (1, 5), (6, 2), (6, 3)], [(8, 4), (8, 5), (13, 2), (13, 3)], [(1, 6), (1, 7), (8, 0), (8, 1)], [(6, 6), (6, 7), (13, 0), (13, 1)]]
  U := 67628691328
  F := 2147483648
  starts := [(7, 0), (7, 1)]
  finals := [(31, 1), (31, 7)]

def side5aTab : Tab := ⟨side5aEnv, [([0, 0], [1, 0])], [side5aEnum]⟩

theorem side5a_ok : side5aTab.Ok 2 5 1 1 := Fast.ok_sound (by decide +kernel)

def side5aPaths0 : List ℕ := [
  5961210324092449310563700530644861124953870193032452798940633, 5961210324092449310563700530645232121318390486198802025547225,
  5961210324092449310563700561417155868271462053072684072570079, 5961210324092449310563700561417155872744315599083163026433247,
  5961210324092449310673975054932746712764141639774168613259033, 5961210324092449310676135641392225477896242521877993902023903,
  5961210324092449310676527401269167030877486449127620660299545, 5961210324092449342325697475306547939869831171432125315286809,
  5961210324092458636491799493164773976220939403855837216376281, 5961210324092458636491799493165144972601035929147612716311775,
  5961210324092458636491800848719253468328335696785088541336799, 5961210324092458636491800853442496752304170743579765651670809,
  5961210324092458669723569070884546259087879375319525034296793, 5961210324092458669723569070884546259087933301505216711560415,
  5961210324092458669723569070884546456124534089700061720677599, 5961210324092458669723569070884546456826657652707556113385241,
  5961210324092458669723569101780089398351479691320496884680473, 5961210324092458669723577933337750316965077710951787479803423,
  5961210324092458669723577964093757524456039916352974148732697, 5961210324092458669723577964093814270997066916468336774481689,
  5961211780538942749244294213184590543826457867014937613149407, 5961211780538942749244294217907833827802292913809614723483417,
  5961211780538942749244295542920001705812370310834759575381535, 5961211780538942749244295542920001710285240542276527578810137,
  5961211780538942749244686003940359547740905393720635861568735, 5961211780538942749244686003940359548443028956728130254276377,
  5961211780538942749244686004047206894844873760110023515416095, 5961211780538942749244686004047577699998542086264815890597657,
  5961211784840148753418517142194777941257334438060360848901593, 5961211784840148753421070879778136364716365253674345664611801,
  5961211784840148965122894270139041080472843526726859228450015, 5961211784840148965122894300927736867490873270057487290574047,
  5961211785598795613594005331366563229691578499255310617544473, 5961211785613669387164111365588150882392992308771651588695263,
  5961211785616364580269707672083367335515010057292473503188761, 5961631025240410209291645014117287269193434233055980651546073,
  5961631025240410241678052749024486381159530920548222878090713]

def side5aPaths1 : List ℕ := [
  5961631025240410453492711898494978246950690824855059081987545, 5961631025257969849531611532248516763252067630506284824136927,
  5961631025257969849532001993375721952284571079781548764171487, 5961631025257969849534555700203816455706949927677771599291615,
  6082015282774296951257019778696192265919400432964780371844889, 6082015282774296951257019804851833381662827617710510851990751,
  6082015282774296951257019809468114724690596822635032029011737, 6082015282774296951369454889443128673744647570767348964500703,
  6082015282774296951369454889443184329842523745429862904602393, 6082015282774296951369855542512935511961831180595340658674911,
  6082015282774296951369855542512935511961839458283223338032921, 6082015282774296951369855542619784147232143982061261357426207,
  6082015282774296951369855542620154952401342863101700392197913, 6082015282791856346673669208662897015482151165025767051994335,
  6082015282791856346673669208662952671580027339688280992096025, 6082015282791856346673669208678927451767599799149898063783455,
  6082015282791856346673669208678927451767653725534496112090905, 6082015282791856346673669213386453256621982805442273777093855,
  6082015282791856346673669213386453256621991083130156456451865, 6082015282791856346673669213386454544808555534386313901745695,
  6082015282791856346673669213386454549279103779806583162248985, 6082015282791917349915185770573560536276712926175374039162649,
  6082015282791917529973733578506540998638279853373064013653215, 6082015282791917561732395884654635922128683212531928306655001,
  6082434967227897939972474747496322874994385997298052560061913]

def side5aPaths2 : List ℕ := [
  6082434967227897939972474747496693871358906290464401786668505, 6082434967227897939972476103050802367086206058101877611693529,
  6082434967227897939972476107881206853862610853092628640826841, 6082434967227898151674290631097667960358073070828467339920857,
  6082434967227898151674290631097724908426469120738568635680217, 6082434967227898152409765668671957970580207241902764300436953,
  6082434967227898152412319406255316394039238057516749116147161, 6082434968001540303218435877600932048255345717936399365965273,
  6082434968004165623570436246608861037147313594171303662454233, 6082434968021734377924243257014587382446158347709004368315865,
  6082436424468270101864715469688674236698307386496378544065759, 6082436424468270101864715469688674241171160932506857497928927,
  6082436424468270101864715469705017244986936965731293713638623, 6082436424468270101864715469705075481923747059346202456296671,
  6082436424468270101867267816041437563100281775084745760679135, 6082436424468270101867267816041437563786866318825702431460575,
  6082436424468270101867276683169108935230999152281059831581919, 6082436424468270101867276713957804722249028895611687893705951,
  6082436424468279429150151980601218900678501987187454913023199, 6082436424468279460801873045420482595810023157710654118563039,
  6082436424468279672616523337268119624725258724415340867462367, 6082436424470956392454296240421377605815055502935757746054367,
  6082436424470965507415277563187079395610335526633098382386399, 6082436424470965508150353308076131012253640620427287930053855]

def side5aTree : CT :=
  .node (.node (.node (.node (.node (.node (.node .nil 5961210324092449310563700530644861124953870193032452798940633 .nil)
  5961210324092449310563700530645232121318390486198802025547225 .nil) 5961210324092449310563700561417155868271462053072684072570079 (.node (.node
  .nil 5961210324092449310563700561417155872744315599083163026433247 .nil) 5961210324092449310673975054932746712764141639774168613259033 .nil))
  5961210324092449310676135641392225477896242521877993902023903 (.node (.node (.node .nil
  5961210324092449310676527401269167030877486449127620660299545 .nil) 5961210324092449342325697475306547939869831171432125315286809 .nil)
  5961210324092458636491799493164773976220939403855837216376281 (.node .nil 5961210324092458636491799493165144972601035929147612716311775 .nil)))
  5961210324092458636491800848719253468328335696785088541336799 (.node (.node (.node (.node .nil
  5961210324092458636491800853442496752304170743579765651670809 .nil) 5961210324092458669723569070884546259087879375319525034296793 .nil)
  5961210324092458669723569070884546259087933301505216711560415 (.node (.node .nil 5961210324092458669723569070884546456124534089700061720677599
  .nil) 5961210324092458669723569070884546456826657652707556113385241 .nil)) 5961210324092458669723569101780089398351479691320496884680473 (.node
  (.node (.node .nil 5961210324092458669723577933337750316965077710951787479803423 .nil)
  5961210324092458669723577964093757524456039916352974148732697 .nil) 5961210324092458669723577964093814270997066916468336774481689 (.node .nil
  5961211780538942749244294213184590543826457867014937613149407 .nil)))) 5961211780538942749244294217907833827802292913809614723483417 (.node (.node
  (.node (.node (.node .nil 5961211780538942749244295542920001705812370310834759575381535 .nil)
  5961211780538942749244295542920001710285240542276527578810137 .nil) 5961211780538942749244686003940359547740905393720635861568735 (.node (.node
  .nil 5961211780538942749244686003940359548443028956728130254276377 .nil) 5961211780538942749244686004047206894844873760110023515416095 .nil))
  5961211780538942749244686004047577699998542086264815890597657 (.node (.node (.node .nil
  5961211784840148753418517142194777941257334438060360848901593 .nil) 5961211784840148753421070879778136364716365253674345664611801 .nil)
  5961211784840148965122894270139041080472843526726859228450015 (.node .nil 5961211784840148965122894300927736867490873270057487290574047 .nil)))
  5961211785598795613594005331366563229691578499255310617544473 (.node (.node (.node (.node .nil
  5961211785613669387164111365588150882392992308771651588695263 .nil) 5961211785616364580269707672083367335515010057292473503188761 .nil)
  5961631025240410209291645014117287269193434233055980651546073 (.node (.node .nil 5961631025240410241678052749024486381159530920548222878090713
  .nil) 5961631025240410453492711898494978246950690824855059081987545 .nil)) 5961631025257969849531611532248516763252067630506284824136927 (.node
  (.node (.node .nil 5961631025257969849532001993375721952284571079781548764171487 .nil)
  5961631025257969849534555700203816455706949927677771599291615 .nil) 6082015282774296951257019778696192265919400432964780371844889 (.node .nil
  6082015282774296951257019804851833381662827617710510851990751 .nil))))) 6082015282774296951257019809468114724690596822635032029011737 (.node (.node
  (.node (.node (.node (.node .nil 6082015282774296951369454889443128673744647570767348964500703 .nil)
  6082015282774296951369454889443184329842523745429862904602393 .nil) 6082015282774296951369855542512935511961831180595340658674911 (.node (.node
  .nil 6082015282774296951369855542512935511961839458283223338032921 .nil) 6082015282774296951369855542619784147232143982061261357426207 .nil))
  6082015282774296951369855542620154952401342863101700392197913 (.node (.node (.node .nil
  6082015282791856346673669208662897015482151165025767051994335 .nil) 6082015282791856346673669208662952671580027339688280992096025 .nil)
  6082015282791856346673669208678927451767599799149898063783455 (.node .nil 6082015282791856346673669208678927451767653725534496112090905 .nil)))
  6082015282791856346673669213386453256621982805442273777093855 (.node (.node (.node (.node .nil
  6082015282791856346673669213386453256621991083130156456451865 .nil) 6082015282791856346673669213386454544808555534386313901745695 .nil)
  6082015282791856346673669213386454549279103779806583162248985 (.node (.node .nil 6082015282791917349915185770573560536276712926175374039162649
  .nil) 6082015282791917529973733578506540998638279853373064013653215 .nil)) 6082015282791917561732395884654635922128683212531928306655001 (.node
  (.node (.node .nil 6082434967227897939972474747496322874994385997298052560061913 .nil)
  6082434967227897939972474747496693871358906290464401786668505 .nil) 6082434967227897939972476103050802367086206058101877611693529 (.node .nil
  6082434967227897939972476107881206853862610853092628640826841 .nil)))) 6082434967227898151674290631097667960358073070828467339920857 (.node (.node
  (.node (.node (.node .nil 6082434967227898151674290631097724908426469120738568635680217 .nil)
  6082434967227898152409765668671957970580207241902764300436953 .nil) 6082434967227898152412319406255316394039238057516749116147161 (.node (.node
  .nil 6082434968001540303218435877600932048255345717936399365965273 .nil) 6082434968004165623570436246608861037147313594171303662454233 .nil))
  6082434968021734377924243257014587382446158347709004368315865 (.node (.node (.node .nil
  6082436424468270101864715469688674236698307386496378544065759 .nil) 6082436424468270101864715469688674241171160932506857497928927 .nil)
  6082436424468270101864715469705017244986936965731293713638623 (.node .nil 6082436424468270101864715469705075481923747059346202456296671 .nil)))
  6082436424468270101867267816041437563100281775084745760679135 (.node (.node (.node (.node .nil
  6082436424468270101867267816041437563786866318825702431460575 .nil) 6082436424468270101867276683169108935230999152281059831581919 .nil)
  6082436424468270101867276713957804722249028895611687893705951 (.node .nil 6082436424468279429150151980601218900678501987187454913023199 .nil))
  6082436424468279460801873045420482595810023157710654118563039 (.node (.node (.node .nil
  6082436424468279672616523337268119624725258724415340867462367 .nil) 6082436424470956392454296240421377605815055502935757746054367 .nil)
  6082436424470965507415277563187079395610335526633098382386399 (.node .nil 6082436424470965508150353308076131012253640620427287930053855 .nil)))))

theorem side5a_paths : ∀ P ∈ side5aEnum.all 25, P ∈ side5aPaths0 ++ (side5aPaths1 ++ (side5aPaths2)) := by
  have h : side5aTree.toList = side5aPaths0 ++ (side5aPaths1 ++ (side5aPaths2)) := by decide +kernel
  rw [← h]
  exact side5aEnum.allF_sound 25 side5aTree (by decide +kernel)

def side5a_l1_0 : List ℕ := [
  36, 64, 14171999666408213451781, 36893787765411419149, 64, 110718747378774507561, 36893787765411419205, 16, 12, 9446174206269247719489,
  73798235983249211409, 72, 40, 14172576019960281890837, 110723250153768288277, 76, 29722069355775324439460193813, 36893840816847463953, 16, 12,
  9446174206269247719489, 73798235983249211409, 44, 36893699804481194521, 36893701866065496649, 16, 12, 36893576521739929673, 73798235983249211409,
  12, 36893578995641092169, 36893578995641092121, 48, 44, 14170846673985106614361, 40, 36, 14170846638800734524505, 36893682212295152665,
  4722393891907928331829, 52, 16, 12, 9446174206269247719505, 73798235983249211409, 604466990121367543749141, 36893735263731194385, 12, 16,
  36893576521739929673, 36893578995641092169, 16, 73798235983249211409, 36893578995641092121, 56, 84, 4722416075654547119677, 110714244466341773373,
  84, 36893875726341643789, 36893877238170131977, 28, 24, 36893630397809692173, 36893629435737017933, 32, 36893647027923062809, 36, 40,
  14170270177636114240601, 44, 36893701866065499665, 36893700766553871885, 36893667094010270253, 44, 72, 14172576162619766872073,
  36893822949783509005, 72, 110723251253279916081, 36893822949783509069, 12, 16, 36893576659178883149, 36893578995641092173, 16,
  73798235983249211409, 36893578995641092121, 12, 16, 36893576659178883149, 36893578995641092173, 16, 73798235983249211409, 36893578995641092121, 56,
  84, 4722416075654547119677, 110714244466341773373, 52, 48, 36893735401170147929, 44, 40, 36893700216798058073, 36893699804481197593,
  36893719870568405021, 36893755054940494877, 32, 864849467793211397, 16, 576548722897321989, 73798393633244708869, 32, 864849467793211397, 16,
  576548722897321989, 73798393633244708869, 32, 864849467793211397, 16, 576548722897321989, 73798393633244708869, 32, 864849467793211397, 16,
  576548722897321989, 73798393633244708869, 32, 864849467793211397, 16, 576548722897321989, 73798393633244708869, 32, 864849467793211397, 16,
  576548722897321989, 73798393633244708869, 32, 864849467793211397, 16, 576548722897321989, 73798393633244708869, 32, 864849467793211397, 16,
  576548722897321989, 73798393633244708869, 52, 80, 14173152658831320292361, 36893858409033505813, 80, 110727755127785324601, 36893858409033505873,
  56, 84, 4722416110838919208509, 110714244466341773373, 84, 36893876001219550741, 36893877238170131977, 48, 76, 4722411607239275059765,
  110709740591836364853, 76, 36893840816847460885, 36893841778920135177, 48, 84, 80, 4722416409906065189429, 604469300520876382693897, 88, 92,
  14170846867499153108569, 24, 20, 4722382474441696218141, 1209184089917680043166809, 28, 32, 14170846603616362434649, 36, 4722389388308300960309,
  14170846621208548479513, 4722384884708673588789, 604469588874397836782617, 24, 20, 4722382474441696218141, 52, 4722398395370066418229,
  9446750826451811369013, 52, 604466994607368609733173, 1813870362627058814484533, 40, 68, 4722407103639630911021, 110705236717330956333, 68,
  36893805632475371029, 36893806319670138377, 84, 80, 36893878200242809389, 604469300520876382693897, 4, 8, 36893542436879467609,
  604463824143729498926125, 0, 604463536001314277370905, 36893526356521910829, 40, 36, 14170270177773553194065, 0, 4, 14170270019443878789713, 8,
  4722373344234611672109, 12, 1813794566851953594205741, 16, 32, 28, 14170270142589181104209, 24, 20, 4722382421665138084893, 44, 68, 72, 76,
  4722411871122048951853, 84, 80, 14170270371287599688273, 4722416128431071701549, 88, 4722418380230885387309, 92, 96, 77372182011862943704560173,
  1813794614280487169962081, 4722420878321303694893, 4722409373031630644269, 64, 4722407121231816958509, 14170270300918855508561,
  14170270195365739239009, 4722384849524284722733, 4722389353123912094253, 4722378094124843665453, 1813794582755289778361349, 24, 44,
  4722393856586066957869, 9446750790992561373229, 44, 604466413643016662160941, 1813796575615579604058157, 24, 52, 36893735950925958681,
  73802740819827294237, 52, 36893735950925958697, 36893735263731191333, 48, 24, 73816251481270845469, 64, 73816251482344849437,
  9448480189602668219973, 64, 24, 14171999594114392788533, 110718746829018693661, 24, 1814019665944313265717277, 1814019665944450737963037, 56, 84,
  36893877787925945909, 73820756317848928317, 84, 36893877787925945901, 36893877100731178573, 28, 56, 73820755355776253985, 36893754642623631413, 56,
  9449056687327014817865, 36893754642623631433, 64, 2476049760325, 80, 110727754593068908609, 73825626345839788097, 84, 80, 4, 8,
  604463781394717410994737, 604463824266874801237001, 0, 77371332612654236008786953, 16, 8, 604463781394717410986545, 12, 604464360195230458457097,
  604464112409290022783005, 8, 604463781394717410986525, 12, 604464400727627104791561, 604464112409290022783005, 604469300556060754782729, 88, 12,
  16, 604464360195230458457137, 604464400639666174569525, 8, 4, 80, 604463781394717410994737, 604463781394717410994717, 16, 604463781394717410986545,
  604463781394717410986525, 604464112497250953005089, 604469588874397836782625, 64, 2476049760325, 80, 110727754593068908609, 73825626345839788097,
  40, 68, 36893806869425952293, 73811748568838111277, 68, 36893806869425952285, 36893806182231184925, 16, 40, 73811747606765436949, 64,
  14171999558930020698669, 1814019089448376573427733, 40, 64, 73811747607839571989, 9447903693665975929413, 64, 110718746554140786709,
  1814019089448514062319637, 40, 48, 64, 110718747377700503597, 73816252031026659373, 64, 14171999664483136968245, 1209410335176282352975917, 64,
  110718747378774507565, 48, 9448480259971412399685, 1209410335176419825221677]

theorem side5a_l1_run0 : run .l1 2 10 1 side5aEnv [] side5a_l1_0 (side5aPaths0.map fun P => ⟨[P], []⟩) = true := Run.run_one (by decide +kernel)

def side5a_l1_1 : List ℕ := [
  56, 84, 36893877787925945909, 73820756317848928317, 84, 36893877787925945893, 36893877100731178573, 48, 20, 73816251481270845465,
  9448480191115461397577, 20, 36893719458251541549, 36893719458251541577, 72, 56, 0, 4, 1209479226475899464450621, 14172575863552604111417, 4,
  154813340986892151387390541, 9449056458628596236821, 52, 14172576090051085081661, 14172576091701266881557, 56, 0, 4, 1209479226475899464450621,
  4722371320995811164733, 4, 154813340986892151387390541, 9449056458628596236821, 52, 1814094029416544796344377, 1814094029418332449414165, 64,
  2476049760325, 80, 110727754593068908609, 73825626345839788097, 24, 56, 20, 84, 1209184089917817549229145, 1209184089917680043166809,
  73802739858828886041, 20, 84, 154775563509463045525351485, 1209184089917680043166809, 9446750701792591350845, 56, 88, 84,
  232184599544465451170933821, 9903629779313782814311583261, 84, 0, 60, 4, 8, 12, 1813942141156387025061465, 16, 20, 1813942147894194280074333,
  1813942145659986652432985, 1813942143408186838747225, 1813942138904587211375705, 1813942136635195211645533, 1813942167896509812579929,
  29719628735386538271560827481, 28, 1813942183676700694424669, 20, 232184594930527632929852509, 16, 232184594644478291511421981, 12, 8,
  232184594068017539207867421, 4, 232184593779787163056090141, 0, 232184593489375752171291229, 96, 3804112478129476898759787490333, 92,
  232184600120855438395190301, 232184599832625062243413021, 232184594356247915359644701, 60, 84, 29719660947722894810957225501, 88,
  9903629779313782814311583261, 20, 19811342706499183666861706333, 16, 29719660944842825248544918105, 12, 8, 29719660944266364496241493593, 4,
  29719660943978134120089781337, 0, 19811342705058031786103145053, 96, 486926924999779479558970750153305, 92, 29719660950319202395427450969,
  29719660950030972019275738713, 29719660944554594872393205849, 1813944149638538024910909, 24, 52, 73802740819827294237, 36893737325315493397, 52,
  36893735263731191377, 36893737325315493457, 88, 24, 64, 73802742057852272709, 73802742056777875525, 64, 14171999770589088776261,
  1209188974352950904291397, 64, 110718748203408228421, 24, 9446750985331241582661, 1814017936737978165559365, 80, 56, 14173152658831320292889,
  110727755127785324605, 24, 56, 73802741781899968573, 9446750948083195977301, 20, 36893614180013182029, 19811371040695811484260764701, 64, 88, 24,
  73802742057852272709, 14171999770589088776261, 110718748203408228421, 24, 88, 73802742056777875525, 9446750985331241582661, 88,
  1209188974352950904291397, 1814017936737978165559365, 12, 40, 14170270177773553190925, 36893682487173056533, 40, 110705235755258282001,
  36893682487173056557, 12, 40, 14170270177773553190925, 36893682487173056533, 40, 110705235755258282001, 36893682487173056557, 12, 40,
  14170270177773553190925, 36893682487173056533, 40, 110705235755258282001, 36893682487173056557, 12, 40, 14170270177773553190925,
  36893682487173056533, 40, 110705235755258282001, 36893682487173056557, 32, 60, 73807244694332702757, 36893772509687583261, 60,
  36893770722981188181, 36893772509687583277, 64, 88, 4722418415415307805253, 110718748203408228421, 32, 88, 73807245656405377093,
  9447327446083545137221, 88, 1209262761329245759275077, 1814018513198730485760069, 56, 80, 32, 73807245382601605181, 14171423274927291039805,
  110714244328902819901, 32, 80, 73807245381527470141, 9447327410624295141437, 80, 1209262184833309083631677, 1813944726187251275333693, 80, 88, 4,
  8, 56, 77371363730328652915812925, 32, 154785007078371556365314621, 19812551631120840795172635733, 604463826430713684699705, 0,
  604463533819883207863837, 56, 1813942136617603025601033, 9903530538120729075078274565, 4, 8, 32, 154785007078371556365314621, 56,
  77371363730328652915812925, 19812551631120840795172635733, 604463826553858987010617, 0, 604463533819883207863865, 56, 1813942136617603025601033,
  9903530538120729075078274565, 88, 84, 604469302807860568467997, 604469591038236720245277, 4, 8, 32, 1209257867798814713185365,
  9903534557797335077741728285, 604463826553858987010593, 0, 604463533696737905552957, 32, 154785006832925376673547325, 56,
  232184593487159136729694729, 19812551630875394615480943113, 48, 72, 32, 73807245107723567157, 14170846778990615396405, 110709740454397411381, 32,
  72, 73807245106649563189, 9447327375165045145653, 72, 1209261608337372407988277, 1813870939175772064907317, 48, 44, 88,
  232175151904531430526168609, 1813868374270368632805469, 4, 232175151906783230339843105, 1813868374270368632805385, 32, 88, 84,
  604469591038236720241181, 1209257913204246893833305, 4, 0, 604463515682339396070961, 9447327074583981326901, 8, 154785007103018081238254645,
  604463826518674614917661, 88, 84, 604469591038236720241181, 9903629779885739966987637277, 36, 4, 19812542188430239888299790857,
  19812542188430257484747248137, 29718461464909097865398194741, 32, 56, 48, 110709739903567593509, 9447327304796300967973, 73807244556893749285, 48,
  56, 110709739904641597477, 14170846708621871218725, 56, 1813870939105540792975397, 1209261608267141136056357, 32, 60, 36893771410175955489,
  73807244694332702757, 60, 36893771410175955505, 36893770722981188145, 88, 84, 56, 40, 44, 28, 1813942158906765271373405, 1209331675146861007607389,
  154794454452733661481217085, 28, 24, 232184595187162046609698349, 20, 232184594930668095414873641, 32, 77371591148599036244143165, 44, 48, 52,
  232184597204774679672139309, 77371775616039773339987005, 77371738722551625920818237, 232184596374001682246276641, 24, 77371554255110888824974397,
  29719628188298262737846734893, 40, 44, 28, 48, 52, 154794455317266334634355773, 19813690243736902568338336825, 154794454740964037632994365,
  1209331675146861007607389, 154794454452733661481217085, 52, 19813760560446507734272056409, 28, 19813760560446507734272056353,
  19813760560446490137824599073, 40, 1209331700180541748816985, 9903629780466704318918432285, 84, 56, 28, 0, 4, 1813942136388904607023709,
  1813942136635195211645533, 29719628735386538271560827481, 24, 1813942150163586279804505, 40, 1813942150163448807296545,
  232184595220939043814969389, 40, 44, 28, 19813690165635477830479064637, 154794454418798208973745725, 19813690169958933472754740285, 52,
  9903592002676486275041992197, 28, 29719679836902847713233607713, 29719679836902830116786150433, 40, 56, 28, 1813942183676700694424669, 24,
  77371554266352291412388909, 1813942150163448807296545, 44, 28, 19813690165635477830479064637, 154794454418798208973745725,
  77371701840304881089063981, 56, 28, 1813942183676700694424669, 24, 232184595221150271380335657, 232184595220939043814969389, 52,
  29719679836902830116786150489, 28, 29719679836902847713233607713, 29719679836902830116786150433, 64, 2476049760325, 80, 110727754593068908609,
  73825626345839788097, 48, 76, 36893842328675949101, 73816252443343519797, 76, 36893842328675949093, 36893841641481181765, 8, 32,
  73807243732260028429, 64, 14171999523745648608805, 1814018512952439881138189, 32, 9447327198692354557509, 64, 110718746279262879757,
  1814018512952577386676237]

theorem side5a_l1_run1 : run .l1 2 10 1 side5aEnv [] side5a_l1_1 (side5aPaths1.map fun P => ⟨[P], []⟩) = true := Run.run_one (by decide +kernel)

def side5a_l1_2 : List ℕ := [
  8, 32, 73807243732260028429, 72, 14172575984497968809509, 1814092299928734719475725, 72, 32, 73807243733334425613, 110723249878890381325, 32,
  9447327197729283638861, 1814092299928872241659917, 8, 32, 73807243732260028429, 72, 14172575984497968809509, 1814092299928734719475725, 32, 72,
  73807243733334425613, 9447327197729283638861, 72, 110723249878890381325, 1814092299928872241659917, 20, 48, 14170846673985106611221,
  36893717946423053341, 48, 110709739629763690521, 36893717946423053365, 72, 40, 76, 73811748844790284365, 12, 1814089750803522219157069,
  1209331693091028278978125, 36, 12, 76, 14172576179114590011469, 1814089750803522219157069, 232203485542554455891380269, 14172576019682340901933,
  40, 60, 8, 12, 68, 1209331657044501567899209, 4, 0, 96, 76, 80, 84, 88, 92, 154794458154534099878414413, 154794457868854853860601357,
  154794457580624477708889101, 154794457292394101557176845, 154794457004163725405464589, 154794456713382219119528013,
  2536152303161022662455649841677, 154794451527786578522931725, 154794451816016954674643981, 36, 96, 0, 16, 20, 76, 80, 84, 88, 92,
  1209331704332297655300113, 1209331702098090027658765, 1209331699846290213973005, 1209331697594490400287245, 1209331695342690586601485,
  1209331693073298586871313, 1209331661565693381315085, 1209331659296301381584913, 154794454115104564447286277, 19813689875362719247754277389,
  1209331672824692449743949, 4, 9447903555267005710345, 154794451831480223048795725, 9447903783965424287789, 36, 12, 8, 4, 0, 96, 44,
  29722097687634584050253960717, 48, 29722097687922814426405672973, 52, 56, 68, 19813779446696851482496468553, 76, 80, 84, 88, 92,
  19813779452749706982391296017, 29722097691093348564074507789, 29722097690805118187922795533, 29722097690516887811771083277,
  29722097690228657435619371021, 19813779451308555101632734737, 29722097688499275178709097485, 19813779449579172844722461201,
  486966848476315993521720154862093, 29722097684752280288736838157, 29722097685040510664888550413, 9903539356821821412495009285,
  19813779448750492912577418257, 1814092876424671411765289, 8, 40, 12, 4, 0, 68, 56, 44, 1209331675059037549893193, 48, 232184596619517955679192617,
  52, 232184596907748331830969897, 232184597195978707982747177, 44, 154794454407539209905316925, 48, 77371733257415881625699885, 52,
  77371770150904029044868653, 154794455306236297142606861, 1209331652540901940527689, 77371327429046260014843437, 77371364322534407434012205, 68, 4,
  16, 56, 44, 1209331675059037549893193, 48, 1209331677328292077115405, 52, 1209331679580091890801165, 1209331681831891704486925, 44,
  154794454407539209905316925, 48, 1209331677328292077115405, 52, 1209331679580091890801165, 154794455306236297142606861, 1209331659296301381584913,
  1209331654810293940257805, 4, 0, 1209331652540901940527689, 1209331652558494126572045, 1209331654810293940257805, 12, 56, 44,
  232184596331076351962056237, 68, 232184596362601549353649709, 29719628334431063446764848685, 44, 29719679835995354791870993933, 68,
  29719679836026879989262587405, 19813760559570540010301036045, 44, 9903577133459117951764600357, 56, 68, 232184596362601549353649709,
  29719628334431063446764848685, 68, 29719679836026879989262587405, 19813760559570540010301036045, 12, 56, 1813942140822135490217485,
  9903539355668899907888160261, 40, 56, 68, 1813942141068426094839309, 1209331657308521831073293, 68, 19813689873369876412642821693,
  154794452135473197896369725, 56, 16, 44, 232184596331217485786256909, 48, 29719628367291578127873738301, 52, 77371770139662626457454141,
  77371807033150773876622909, 232184594311423146651289641, 68, 29719679833721054576496346637, 19813760557264714597534795277, 48, 8, 52,
  1209405466538794559740469, 92, 1209405466908230466673205, 77371775920015153853962805, 12, 64, 1814015927798430345201165,
  9903539356249864259818955269, 154803896857373577792652861, 8, 52, 56, 604467240229599976495681, 60, 64, 232194042503118490410426421, 92,
  19814978931577800657018560565, 29720898208034140635980111925, 604467551065935195342381, 604466974605182891787821, 12, 64,
  1814015927798430345201165, 9903539356249864259818955269, 604464092301421374015041, 56, 60, 4722402529533853965885, 4722402934154132987453, 84,
  36893877787925945901, 36893877100731178573, 16, 8, 12, 92, 64, 232194039048927669941186601, 40, 154794452394694322419664993,
  29720888759799608587814176865, 64, 1814015930067822344931425, 9903544115505331677265666565, 604464362517399016310309, 12, 604464074287022864533057,
  604464362517399016310337, 8, 92, 40, 36, 1209331672842284635788385, 1209331672842284635788301, 12, 96, 604470122498177122175525,
  9903544849916347704013293093, 9903544814768004412198950421, 40, 36, 154794454123970888683106373, 1209331672842284635788301, 64, 12, 60,
  77371881108357447014166597, 232194042505440383948817961, 232194039091711866401196585, 44, 604466380006886776440357, 29720888761860005417336182293,
  92, 12, 604464074163877562222145, 40, 1209331659665737288517653, 9903544814768004412198950421, 12, 604464074163877562222145, 64,
  232194039091711866401196585, 40, 77371443878621824933956141, 29720888759842392784274196501, 36, 64, 14171999666408213451801, 36893788864923046957,
  64, 110718747378774507561, 36893788864923046977, 44, 72, 14172576162619766872117, 36893824324173043765, 72, 110723251253279916081,
  36893824324173043785, 12, 40, 73811747606765436945, 36893684273879451685, 40, 9447903694903907977289, 36893684273879451721, 12, 40,
  73811747606765436945, 36893684548757358629, 8, 36893561403455047241, 36893560991138186765, 40, 12, 73811747606765436945, 9447903694903907977269,
  12, 36893684548757358629, 36893684548757358645, 12, 40, 73811747606765436945, 36893683724123637797, 8, 4, 36893541337367839817, 16, 40,
  73811747606765436949, 36893683724123637817, 36893578583324231693, 36893560991138186765, 48, 52, 4722398061118581905973, 56, 60,
  36893772234809679445, 4722402564718209277493, 9448480226299833490445, 44, 80, 84, 110727755265224278101, 4722416110838969543253,
  1209411488030030519343125, 36893719733129451597, 12, 8, 4, 48, 4722373291320631362613, 0, 76, 604463490824580515309637, 604463490824580515309613,
  604463495574470747293745, 16, 604463786056646712755725, 604463785968685782533641, 604464072035223050848305, 16, 604464360265599202625581, 48,
  9448480050377973041165, 64, 4722378076532707952657, 44, 52, 60, 4, 0, 76, 604463490824580515309637, 604463490824580515309613,
  604463495574470747293741, 8, 604463785968685782533641, 76, 604463819833506479080453, 604463819745545548858373, 1814019666016194801967117,
  1814019665963418243832333, 1814019665944313265717297, 12, 8, 4, 36893541337367839801, 16, 36893576521739929657, 604463786003870154622473,
  604464072070407422937145, 8, 4, 36893541337367839801, 16, 604464360300783574714421, 604463786003870154622473, 36893560441382372877, 64,
  2476049760325, 80, 110727754593068908609, 73825626345839788097, 48, 12, 8, 4, 4722373291320631362613, 72, 76, 14172576180211952920113,
  1814089750803522219157069, 68, 64, 4722407068317836649013, 60, 4722405097992999673909, 9448480261484205580301, 9448480296668577670157,
  604464072070407422937137, 16, 604464360300783574714413, 9448480050377973041165, 72, 44, 14172576054866712991797, 14172576056242016884749, 44,
  1814093452920608104054833, 1814093452922120895993869, 44, 72, 14172576162619766872117, 36893824324173043765, 72, 110723251253279916081,
  36893824324173043785, 64, 2476049760325, 80, 110727754593068908609, 73825626345839788097, 4, 12, 16, 36893576521739929657, 20, 24,
  36893614180013182009, 36893612118428879957, 36893595625754462733, 8, 36893561403455047225, 36893560441382372877, 8, 12, 16, 36893576521739929657,
  20, 24, 36893614180013182009, 36893612118428879957, 36893595625754462733, 36893561403455047225, 36893542849196327949, 64, 2476049760325, 80,
  110727754593068908609, 73825626345839788097, 64, 2476049760325, 80, 110727754593068908609, 73825626345839788097]

theorem side5a_l1_run2 : run .l1 2 10 1 side5aEnv [] side5a_l1_2 (side5aPaths2.map fun P => ⟨[P], []⟩) = true := Run.run_one (by decide +kernel)

def side5a_l2_0 : List ℕ := [
  16, 576548718602354693, 64, 864990200986599429, 110718833005388890117, 16, 576548718602354693, 72, 865025385358688261, 110723336605016260613, 16,
  576548718602354693, 72, 865025385358688261, 110723336605016260613, 16, 576548718602354693, 80, 3026879578197, 110727840204643631109, 16,
  576548718602354693, 0, 48, 14170846531872264028693, 52, 604466990121367543749141, 36893734988853287433, 36893577483812602421, 16,
  576548718602354693, 80, 3026879578197, 110727840204643631109, 16, 576548718602354693, 56, 864955016614510597, 110714329405761519621, 16,
  576548718602354693, 0, 4, 36893524844693422681, 36893526356521910873, 36893577208934695469, 16, 576548718602354693, 72, 865025385358688261,
  110723336605016260613, 16, 576548718602354693, 80, 3026879578197, 110727840204643631109, 16, 576548718602354693, 80, 3026879578197,
  110727840204643631109, 16, 576548718602354693, 56, 864955016614510597, 110714329405761519621, 16, 576548718602354693, 32, 864849467793211397,
  1209112881287493702713365, 16, 576548718602354693, 32, 864849467793211397, 1209112881287493702713365, 16, 576548718602354693, 32,
  864849467793211397, 1209112881287493702713365, 16, 576548718602354693, 32, 864849467793211397, 1209112881287493702713365, 16, 576548718602354693,
  32, 864849467793211397, 1209112881287493702713365, 16, 576548718602354693, 32, 864849467793211397, 1209112881287493702713365, 16,
  576548718602354693, 32, 864849467793211397, 1209112881287493702713365, 16, 576548718602354693, 32, 864849467793211397, 1209112881287493702713365,
  80, 3026879578197, 24, 141012424986197, 110727875391171592217, 56, 68, 110714243916585959485, 110714243916585959485, 60, 36893772647126539797, 64,
  36893790239312584793, 68, 24, 20, 73802739857754619929, 9446750701792591350845, 1813944149673722396999741, 36893805495036420697, 48, 76, 80,
  14170846814722594973721, 14170846815684667648021, 110709740591836364853, 24, 20, 73802739857754619929, 92, 1209184089917680043166817,
  1209184089917680043166817, 76, 1209187821378669739049013, 1813870362732611930751029, 48, 28, 32, 14170846603616362434649, 36893649501824225369, 24,
  36893631909638180441, 4722384884708673588789, 52, 36893737462754449941, 24, 9446750826451811369013, 1813870362627058814484533, 40,
  864884654321172505, 24, 20, 73802739857754619929, 9446750702480801139805, 1209187244759725233340445, 40, 864884654321172505, 24, 28,
  36893630397809692249, 36893631909638180441, 1209187244759725233340445, 40, 864884654321172505, 24, 4722391604786253270557,
  1209187244759725233340445, 40, 864884654321172505, 24, 20, 73802739857754619929, 9446750702480801139781, 1209187244759725233340445, 48,
  288232714762256437, 64, 110718747378774507573, 1209410335176419825221685, 56, 288232989640294461, 72, 84, 110723251665596776525,
  110723251665596776525, 1209484698648651355848765, 56, 288232989640294461, 72, 76, 110723251390718869581, 4722411554462767261261,
  1209484698648651355848765, 64, 2476049760325, 80, 3026879578197, 1209559062120882886475845, 48, 864919840840744993, 32, 73807244282015842341,
  1209261608231956763967525, 64, 2476049760325, 80, 3026879578197, 1209559062120882886475845, 40, 288232439884218413, 56, 864955027360317481,
  1209335971704188294594605, 64, 16, 40, 73811747606765436949, 14171999558930020698669, 40, 73811747607839571989, 110718746554140786709, 40, 16,
  73811747606765436949, 9447903693665975929413, 16, 1814019089448376573427733, 1814019089448514062319637, 48, 288232714762256437, 64,
  110718747378774507573, 1209410335176419825221685]

theorem side5a_l2_run0 : run .l2 2 408 73 side5aEnv [] side5a_l2_0 (side5aPaths0.map fun P => ⟨[P], []⟩) = true := Run.run_one (by decide +kernel)

def side5a_l2_1 : List ℕ := [
  56, 288232989640294461, 72, 84, 110723251665596776525, 110723251665596776525, 1209484698648651355848765, 48, 20, 73816251481270845465, 16,
  4722380328195049130549, 4722380345787235174937, 72, 76, 110723251390718869581, 4, 1814089750768337847068237, 1814089750768337847068237, 20,
  1814093452920608104054809, 1814093452920745592946713, 56, 288232989640294461, 72, 14172576162619766873621, 1209484698648651355848765, 64,
  2476049760325, 80, 3026879578197, 1209559062120882886475845, 24, 12, 73802739857754619921, 73802739857754619921, 56, 12, 14171423027808956319773,
  110714242404757471249, 60, 1813944149638538024910909, 1209188397769053298425917, 80, 3026879578197, 24, 141012424986197, 110727875391171592217, 24,
  12, 73802739857754619921, 73802739857754619921, 64, 76, 110718747791091368005, 110718747791091368005, 76, 1814017936685201607426117,
  1209188974300174346158149, 80, 3026879578197, 24, 141012424986197, 110727875391171592217, 24, 12, 73802739857754619921, 73802739857754619921, 64,
  76, 110718747791091368005, 110718747791091368005, 76, 1814017936685201607426117, 1209188974300174346158149, 40, 864884654321172505, 24, 12,
  73802739857754619921, 73802739857754619921, 1209187244759725233340445, 40, 864884654321172505, 24, 12, 73802739857754619921, 73802739857754619921,
  1209187244759725233340445, 40, 864884654321172505, 24, 12, 73802739857754619921, 73802739857754619921, 1209187244759725233340445, 40,
  864884654321172505, 24, 12, 73802739857754619921, 73802739857754619921, 1209187244759725233340445, 80, 3026879578197, 32, 176196813853269,
  110727910577691164705, 64, 76, 110718747791091368005, 110718747791091368005, 28, 32, 73807243732260028449, 1814018512952439881138209, 32,
  9447327197729283641413, 1814018512952577386676257, 32, 80, 56, 73807245382601605181, 73807245381527470141, 56, 110714244328902819901,
  9447327410624295141437, 56, 80, 14171423274927291039805, 110714244328902819901, 80, 1209262184833309083631677, 1813944726187251275333693, 56, 68,
  110714243916585959485, 110714243916585959485, 32, 68, 9447327357847737008189, 73807244969210609725, 68, 1813944726134474717200445,
  1209262184780532525498429, 48, 864919840840744993, 32, 73807244282015842341, 1209261608231956763967525, 48, 864919840840744993, 32,
  73807244282015842341, 1209261608231956763967525, 48, 864919840840744993, 32, 73807244282015842341, 1209261608231956763967525, 48,
  864919840840744993, 32, 73807244282015842341, 1209261608231956763967525, 40, 288232439884218413, 56, 864955027360317481, 1209335971704188294594605,
  64, 2476049760325, 80, 3026879578197, 1209559062120882886475845, 48, 288232714762256437, 64, 110718747378774507573, 1209410335176419825221685, 20,
  32, 73807243732260028441, 64, 14171999523745648610341, 1814018512952439881138201, 32, 73807243732260028441, 64, 110718746279262879769,
  1814018512952577386676249]

theorem side5a_l2_run1 : run .l2 2 408 73 side5aEnv [] side5a_l2_1 (side5aPaths1.map fun P => ⟨[P], []⟩) = true := Run.run_one (by decide +kernel)

def side5a_l2_2 : List ℕ := [
  72, 84, 110723251665596776525, 110723251665596776525, 20, 32, 73807243732260028441, 1814092299928734719475737, 32, 73807243732260028441,
  1814092299928872241659929, 72, 84, 110723251665596776525, 110723251665596776525, 20, 32, 73807243732260028441, 1814092299928734719475737, 32,
  73807243732260028441, 1814092299928872241659929, 48, 864919840840744993, 32, 73807244282015842341, 1209261608231956763967525, 72, 84,
  110723251665596776525, 110723251665596776525, 40, 84, 9447903889518540554317, 73811749118593925197, 36, 1814092876424671411765289,
  1814092876424808917303337, 40, 288232439884218413, 56, 864955027360317481, 1209335971704188294594605, 48, 288232714762256437, 64,
  110718747378774507573, 1209410335176419825221685, 56, 288232989640294461, 72, 84, 110723251665596776525, 110723251665596776525,
  1209484698648651355848765, 28, 40, 73811747606765436961, 64, 14171999558930020700205, 1814019089448376573427745, 40, 73811747606765436961, 64,
  110718746554140786721, 1814019089448514062319649, 48, 288232714762256437, 64, 110718747378774507573, 1209410335176419825221685, 56,
  288232989640294461, 72, 84, 110723251665596776525, 110723251665596776525, 1209484698648651355848765, 40, 28, 73811747606765436961,
  73811747606765436961, 36, 32, 28, 72, 76, 110723251390718869581, 14172576179114590011469, 1814092876424671411765281, 36893646890484109393,
  36893664482670154253, 36893684411318408205, 80, 3026879578197, 40, 211381202720341, 110727945764210737193, 80, 3026879578197, 40, 211381202720341,
  110727945764210737193, 40, 288232439884218413, 56, 864955027360317481, 1209335971704188294594605, 80, 3026879578197, 96, 36893929052655594029, 48,
  9448480403322280149077, 44, 1209411488030030519343125, 36893719595690498125, 48, 288232714762256437, 64, 110718747378774507573,
  1209410335176419825221685, 4, 0, 36893523745181794873, 36893523745181794829, 8, 36893541337367839757, 36893542849196327949, 64, 2476049760325, 80,
  3026879578197, 1209559062120882886475845, 48, 4, 0, 4722371039520817676853, 36893523745181794829, 8, 36893541337367839757, 9448480015193600951309,
  44, 72, 14172576054866712991797, 1814093452920608104054833, 36893719595690498061, 4, 0, 36893523745181794873, 36893523745181794829, 8,
  36893541337367839757, 36893542849196327949, 64, 2476049760325, 80, 3026879578197, 1209559062120882886475845, 4, 0, 36893523745181794873,
  36893523745181794829, 8, 36893541337367839757, 36893542849196327949, 64, 2476049760325, 80, 3026879578197, 1209559062120882886475845, 64,
  2476049760325, 80, 3026879578197, 1209559062120882886475845]

theorem side5a_l2_run2 : run .l2 2 408 73 side5aEnv [] side5a_l2_2 (side5aPaths2.map fun P => ⟨[P], []⟩) = true := Run.run_one (by decide +kernel)

def side5a_linf_0 : List ℕ := [
  16, 576548718602354693, 64, 864990200986599429, 110718833005388890117, 16, 576548718602354693, 72, 865025385358688261, 110723336605016260613, 16,
  576548718602354693, 72, 865025385358688261, 110723336605016260613, 16, 576548718602354693, 80, 3026879578197, 110727840204643631109, 16,
  576548718602354693, 48, 864919832242421765, 110709825806134149125, 16, 576548718602354693, 80, 3026879578197, 110727840204643631109, 16,
  576548718602354693, 56, 864955016614510597, 110714329405761519621, 16, 576548718602354693, 40, 864884647870332933, 110705322206506778629, 16,
  576548718602354693, 72, 865025385358688261, 110723336605016260613, 16, 576548718602354693, 80, 3026879578197, 110727840204643631109, 16,
  576548718602354693, 80, 3026879578197, 110727840204643631109, 16, 576548718602354693, 56, 864955016614510597, 110714329405761519621, 16,
  576548718602354693, 32, 864849467801600017, 1209112881287493702713365, 16, 576548718602354693, 32, 864849467801600017, 1209112881287493702713365,
  16, 576548718602354693, 32, 864849467801600017, 1209112881287493702713365, 16, 576548718602354693, 32, 864849467801600017,
  1209112881287493702713365, 16, 576548718602354693, 32, 864849467801600017, 1209112881287493702713365, 16, 576548718602354693, 32,
  864849467801600017, 1209112881287493702713365, 16, 576548718602354693, 32, 864849467801600017, 1209112881287493702713365, 16, 576548718602354693,
  32, 864849467801600017, 1209112881287493702713365, 80, 3026879578197, 24, 141012424986197, 110727875391171592217, 56, 68, 110714243916585959485,
  110714243916585959485, 24, 20, 73802739857754619929, 9446750701792591350845, 68, 1813944149673722396999741, 36893805495036419605, 24, 20,
  73802739857754619929, 92, 1209184089917680043166817, 1209184089917680043166817, 20, 92, 604464981691979035708961, 604464981551241547353189, 92, 48,
  1813868360953083797179489, 29718452019313710393896995937, 604464981551241547362325, 48, 60, 110709740042080550965, 110709740042080550965, 60, 24,
  9446750861636183457845, 1813870362662243186573365, 36893770310664329749, 40, 864884654321172505, 24, 73802740407510433821,
  1209187244759725233340445, 40, 864884654321172505, 24, 73802740407510433821, 1209187244759725233340445, 40, 864884654321172505, 24,
  73802740407510433821, 1209187244759725233340445, 40, 864884654321172505, 24, 73802740407510433821, 1209187244759725233340445, 48,
  288232714762256437, 64, 864990213879889969, 1209410335176419825221685, 56, 288232989640294461, 72, 110723251253279916093,
  1209484698648651355848765, 56, 288232989640294461, 72, 110723251253279916093, 1209484698648651355848765, 64, 288233264518332485, 80, 3026879578197,
  1209559062120882886475845, 32, 288232165006180389, 48, 864919840840744993, 1209261608231956763967525, 64, 288233264518332485, 80, 3026879578197,
  1209559062120882886475845, 40, 288232439884218413, 56, 864955027360317481, 1209335971704188294594605, 64, 68, 110718747516213461061, 40,
  73811748569912246341, 14171999683177914368069, 40, 92, 60, 1209331686687335052746849, 56, 1209331684435535239061089, 44, 88, 4, 0,
  1209331652523309754483297, 96, 48, 52, 1209331679544907518712329, 9903592077039940914368291369, 9903581746863259637004182057,
  1209331704701733562232841, 96, 68, 19813690391900826709200536645, 9903605395589162132689789445, 154794458201980351267996745,
  1209331702449933748547169, 1209331675428335984318049, 44, 0, 4, 154794451523142103876055113, 60, 9903601484604698928988299289, 68, 56,
  9903596761936474884300873257, 8, 324627494200073627549961440789573, 12, 9903540093538680448456203817, 16, 20, 36, 19813690127017111025776996421,
  32, 9903568427737577666377817641, 88, 324627506893794733503567951365189, 84, 24, 28, 324627497826851086393849015239749, 96,
  19813690391900826709200536645, 324627497222388176586534421070917, 9903554260638129057418452521, 9903629006845115728655818281,
  9903549538271646187764850217, 604464389415851478229545, 9903605395589162132689789445, 19813690163622368797044453445, 19813690170251667448533823557,
  68, 1814019089571521875738693, 4, 19813770005996859209499550217, 9903605395589162132689789445, 48, 288232714762256437, 64, 864990213879889969,
  1209410335176419825221685]

theorem side5a_linf_run0 : run .linf 2 16 3 side5aEnv [] side5a_linf_0 (side5aPaths0.map fun P => ⟨[P], []⟩) = true := Run.run_one (by decide +kernel)

def side5a_linf_1 : List ℕ := [
  56, 288232989640294461, 72, 110723251253279916093, 1209484698648651355848765, 72, 76, 110723251390718869581, 4, 1814089750768337847068237,
  1814089750768337847068237, 48, 20, 4, 56, 60, 1209405471024802001067529, 4722402863785372032521, 60, 9448480242380191047249, 36893772372248632905,
  76, 604468717410277754340401, 604468679270418410046545, 16, 4, 56, 60, 1209405471024802001067529, 4722402863785372032521, 60,
  9448480242380191047249, 36893772372248632905, 76, 604468717410277754340401, 604468679270418410046545, 4722380345787235174937, 76,
  1814093453043753406365773, 4, 19814988377125900332432369161, 604468679270418410046545, 56, 288232989640294461, 72, 110723251253279916093,
  1209484698648651355848765, 64, 288233264518332485, 80, 3026879578197, 1209559062120882886475845, 24, 12, 73802739857754619921,
  73802739857754619921, 56, 12, 14171423027808956319773, 110714242404757471249, 60, 1813944149638538024910909, 36893770448103284249, 80,
  3026879578197, 24, 141012424986197, 110727875391171592217, 24, 12, 73802739857754619921, 73802739857754619921, 64, 76, 110718747791091368005,
  110718747791091368005, 76, 1814017936685201607426117, 1209188974300174346158149, 80, 3026879578197, 24, 141012424986197, 110727875391171592217, 24,
  12, 73802739857754619921, 73802739857754619921, 64, 76, 110718747791091368005, 110718747791091368005, 76, 1814017936685201607426117,
  1209188974300174346158149, 40, 864884654321172505, 24, 73802740407510433821, 1209187244759725233340445, 40, 864884654321172505, 24,
  73802740407510433821, 1209187244759725233340445, 40, 864884654321172505, 24, 73802740407510433821, 1209187244759725233340445, 40,
  864884654321172505, 24, 73802740407510433821, 1209187244759725233340445, 80, 3026879578197, 32, 176196813853269, 110727910577691164705, 64, 76,
  110718747791091368005, 110718747791091368005, 32, 28, 73807243732260028449, 9447327197729283641413, 28, 1814018512952439881138209,
  1814018512952577386676257, 32, 28, 73807243732260028449, 56, 73807243733334163489, 9447327197729283641405, 56, 4, 92, 96, 8,
  29719627997773480501937582629, 9903535406338555269126623773, 77372175384816096323842109, 28, 0, 29719628225475477661790241317, 36,
  9903567614344700766806217225, 60, 64, 9903601482566820097601704457, 96, 8, 29719627997773480501937582629, 9903535406338555269126623773, 40,
  9903572336999414012611531801, 44, 486926390664857036574374949367853, 48, 52, 486926391760445484139380353871909, 29719628440495338270967596069,
  9903582593100888618988737033, 29719628477388826418386776101, 9903563703634939548188282885, 92, 60, 64, 1813942170447376789020681, 96, 0, 8,
  1813942138535151304442889, 12, 9903540128705038138778653213, 16, 20, 9903548687994288340028953117, 24, 1813942147542350559185929, 28,
  1267655554325881859356470874653, 1813942152432978279534689, 1813942143425779024791649, 1813942136670379583734281, 1813942188074747205529697,
  1813942167808548882357857, 0, 28, 29719628225475477661790241317, 9903563703634939548188282885, 77371333175656981020607549, 28,
  1813944725976145042800673, 92, 29719670390442751516829814881, 9903563703634939548188282885, 56, 68, 110714243916585959485, 110714243916585959485,
  32, 68, 9447327357847737008189, 73807244969210609725, 68, 1813944726134474717200445, 1209262184780532525498429, 32, 288232165006180389, 48,
  864919840840744993, 1209261608231956763967525, 32, 288232165006180389, 48, 864919840840744993, 1209261608231956763967525, 32, 288232165006180389,
  48, 864919840840744993, 1209261608231956763967525, 32, 288232165006180389, 48, 864919840840744993, 1209261608231956763967525, 40,
  288232439884218413, 56, 864955027360317481, 1209335971704188294594605, 64, 288233264518332485, 80, 3026879578197, 1209559062120882886475845, 48,
  288232714762256437, 64, 864990213879889969, 1209410335176419825221685, 20, 32, 73807243732260028441, 64, 14171999523745648610341,
  1814018512952439881138201, 32, 73807243732260028441, 64, 110718746279262879769, 1814018512952577386676249]

theorem side5a_linf_run1 : run .linf 2 16 3 side5aEnv [] side5a_linf_1 (side5aPaths1.map fun P => ⟨[P], []⟩) = true := Run.run_one (by decide +kernel)

def side5a_linf_2 : List ℕ := [
  20, 32, 73807243732260028441, 72, 84, 110723251665596776525, 110723251665596776525, 1814092299928734719475737, 32, 73807243732260028441, 72, 84,
  110723251665596776525, 110723251665596776525, 1814092299928872241659929, 20, 32, 73807243732260028441, 72, 84, 110723251665596776525,
  110723251665596776525, 1814092299928734719475737, 32, 73807243732260028441, 72, 84, 110723251665596776525, 110723251665596776525,
  1814092299928872241659929, 32, 288232165006180389, 48, 864919840840744993, 1209261608231956763967525, 72, 84, 110723251665596776525,
  110723251665596776525, 40, 84, 9447903889518540554317, 73811749118593925197, 36, 1814092876424671411765289, 36893684273879454797, 40,
  288232439884218413, 56, 864955027360317481, 1209335971704188294594605, 48, 288232714762256437, 64, 864990213879889969, 1209410335176419825221685,
  56, 288232989640294461, 72, 110723251253279916093, 1209484698648651355848765, 28, 40, 73811747606765436961, 64, 14171999558930020700205,
  1814019089448376573427745, 40, 73811747606765436961, 64, 110718746554140786721, 1814019089448514062319649, 48, 288232714762256437, 64,
  864990213879889969, 1209410335176419825221685, 56, 288232989640294461, 72, 110723251253279916093, 1209484698648651355848765, 40, 28,
  73811747606765436961, 73811747606765436961, 36, 32, 28, 72, 76, 110723251390718869581, 14172576179114590011469, 1814092876424671411765281,
  36893646890484109389, 36893664482670154253, 36893684273879454733, 80, 3026879578197, 40, 211381202720341, 110727945764210737193, 80, 3026879578197,
  40, 211381202720341, 110727945764210737193, 40, 288232439884218413, 56, 864955027360317481, 1209335971704188294594605, 80, 3026879578197, 48,
  246565591587413, 110727980950730309681, 48, 288232714762256437, 64, 864990213879889969, 1209410335176419825221685, 56, 288232989640294461, 72,
  110723251253279916093, 1209484698648651355848765, 64, 288233264518332485, 80, 3026879578197, 1209559062120882886475845, 48, 36,
  73816251481270845481, 73816251481270845481, 36, 72, 14172576054866712990773, 1814093452920608104054825, 36893719595690497105, 56,
  288232989640294461, 72, 110723251253279916093, 1209484698648651355848765, 64, 288233264518332485, 80, 3026879578197, 1209559062120882886475845, 80,
  3026879578197, 56, 281749980454485, 110728016137249882169, 64, 288233264518332485, 80, 3026879578197, 1209559062120882886475845, 64,
  288233264518332485, 80, 3026879578197, 1209559062120882886475845]

theorem side5a_linf_run2 : run .linf 2 16 3 side5aEnv [] side5a_linf_2 (side5aPaths2.map fun P => ⟨[P], []⟩) = true := Run.run_one (by decide +kernel)

theorem side5a_l1 : side5aTab.Refuted .l1 2 10 1 25 :=
  Tab.refuted_one (T := side5aTab) rfl side5a_paths (parts (part side5a_l1_run0) (parts (part side5a_l1_run1) (part side5a_l1_run2)))

theorem side5a_l2 : side5aTab.Refuted .l2 2 408 73 25 :=
  Tab.refuted_one (T := side5aTab) rfl side5a_paths (parts (part side5a_l2_run0) (parts (part side5a_l2_run1) (part side5a_l2_run2)))

theorem side5a_linf : side5aTab.Refuted .linf 2 16 3 25 :=
  Tab.refuted_one (T := side5aTab) rfl side5a_paths (parts (part side5a_linf_run0) (parts (part side5a_linf_run1) (part side5a_linf_run2)))

end MinCert
end Peano
