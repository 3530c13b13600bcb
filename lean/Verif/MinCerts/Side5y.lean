import Verif.MinCerts.Side5a

set_option autoImplicit false

/-
Side, grid 5, steps to adjacent cells: all curves except for two have the dilation at least 96/17, and at least 75/13 if the order of cells is not the one of these two.
This file is generated.
-/
namespace Peano
namespace MinCert

/-- The two curves: the numbers of paths and the specs. -/
def side5aAllow : List (List ℕ × List Sp) := [
  ([5961631025240410209291645014117287269193434233055980651546073], [
    ⟨[(1, false), (0, true)], true, 0⟩, ⟨[(0, false), (1, false)], false, 0⟩, ⟨[(0, false), (1, false)], false, 0⟩,
    ⟨[(1, true), (0, false)], true, 0⟩, ⟨[(1, false), (0, true)], true, 0⟩, ⟨[(1, false), (0, true)], true, 0⟩, ⟨[(1, false), (0, true)], true, 0⟩,
    ⟨[(0, true), (1, true)], false, 0⟩, ⟨[(0, true), (1, true)], false, 0⟩, ⟨[(1, false), (0, true)], true, 0⟩, ⟨[(0, false), (1, false)], false, 0⟩,
    ⟨[(0, false), (1, false)], false, 0⟩, ⟨[(1, true), (0, false)], true, 0⟩, ⟨[(1, false), (0, true)], true, 0⟩,
    ⟨[(0, false), (1, false)], false, 0⟩, ⟨[(0, false), (1, false)], false, 0⟩, ⟨[(0, false), (1, false)], false, 0⟩,
    ⟨[(0, true), (1, true)], false, 0⟩, ⟨[(1, true), (0, false)], true, 0⟩, ⟨[(1, true), (0, false)], true, 0⟩, ⟨[(0, false), (1, false)], false, 0⟩,
    ⟨[(0, true), (1, true)], false, 0⟩, ⟨[(1, true), (0, false)], true, 0⟩, ⟨[(1, true), (0, false)], true, 0⟩, ⟨[(0, false), (1, false)], false, 0⟩]),
  ([6082015282791856346673669208678927451767599799149898063783455], [
    ⟨[(0, false), (1, false)], false, 0⟩, ⟨[(1, false), (0, true)], true, 0⟩, ⟨[(1, false), (0, true)], true, 0⟩, ⟨[(0, true), (1, true)], false, 0⟩,
    ⟨[(0, false), (1, false)], false, 0⟩, ⟨[(1, false), (0, true)], true, 0⟩, ⟨[(1, false), (0, true)], true, 0⟩, ⟨[(0, true), (1, true)], false, 0⟩,
    ⟨[(0, false), (1, false)], false, 0⟩, ⟨[(0, false), (1, false)], false, 0⟩, ⟨[(0, false), (1, false)], false, 0⟩,
    ⟨[(1, true), (0, false)], true, 0⟩, ⟨[(1, false), (0, true)], true, 0⟩, ⟨[(0, false), (1, false)], false, 0⟩,
    ⟨[(0, false), (1, false)], false, 0⟩, ⟨[(1, true), (0, false)], true, 0⟩, ⟨[(0, true), (1, true)], false, 0⟩, ⟨[(0, true), (1, true)], false, 0⟩,
    ⟨[(1, true), (0, false)], true, 0⟩, ⟨[(1, true), (0, false)], true, 0⟩, ⟨[(1, true), (0, false)], true, 0⟩, ⟨[(1, false), (0, true)], true, 0⟩,
    ⟨[(0, false), (1, false)], false, 0⟩, ⟨[(0, false), (1, false)], false, 0⟩, ⟨[(1, true), (0, false)], true, 0⟩])]

/-- The paths of the two curves. -/
def side5aYe : List ℕ := [
  5961631025240410209291645014117287269193434233055980651546073, 6082015282791856346673669208678927451767599799149898063783455]

/-- The other paths. -/
def side5aOther : List ℕ := [
  5961210324092449310563700530644861124953870193032452798940633, 5961210324092449310563700530645232121318390486198802025547225,
  5961210324092449310563700561417155868271462053072684072570079, 5961210324092449310563700561417155872744315599083163026433247,
  5961210324092449310673975054932746712764141639774168613259033, 5961210324092449310676135641392225477896242521877993902023903,
  5961210324092449310676527401269167030877486449127620660299545, 5961210324092449342325697475306547939869831171432125315286809,
  5961210324092458636491799493164773976220939403855837216376281, 5961210324092458636491799493165144972601035929147612716311775,
  5961210324092458636491800848719253468328335696785088541336799, 5961210324092458636491800853442496752304170743579765651670809,
  5961210324092458669723569070884546259087879375319525034296793, 5961210324092458669723569070884546259087933301505216711560415,
  5961210324092458669723569070884546456124534089700061720677599, 5961210324092458669723569070884546456826657652707556113385241,
  5961210324092458669723569101780089398351479691320496884680473, 5961210324092458669723577933337750316965077710951787479803423,
  5961210324092458669723577964093757524456039916352974148732697, 5961210324092458669723577964093814270997066916468336774481689,
  5961211780538942749244294213184590543826457867014937613149407, 5961211780538942749244294217907833827802292913809614723483417,
  5961211780538942749244295542920001705812370310834759575381535, 5961211780538942749244295542920001710285240542276527578810137,
  5961211780538942749244686003940359547740905393720635861568735, 5961211780538942749244686003940359548443028956728130254276377,
  5961211780538942749244686004047206894844873760110023515416095, 5961211780538942749244686004047577699998542086264815890597657,
  5961211784840148753418517142194777941257334438060360848901593, 5961211784840148753421070879778136364716365253674345664611801,
  5961211784840148965122894270139041080472843526726859228450015, 5961211784840148965122894300927736867490873270057487290574047,
  5961211785598795613594005331366563229691578499255310617544473, 5961211785613669387164111365588150882392992308771651588695263,
  5961211785616364580269707672083367335515010057292473503188761, 5961631025240410241678052749024486381159530920548222878090713,
  5961631025240410453492711898494978246950690824855059081987545, 5961631025257969849531611532248516763252067630506284824136927,
  5961631025257969849532001993375721952284571079781548764171487, 5961631025257969849534555700203816455706949927677771599291615,
  6082015282774296951257019778696192265919400432964780371844889, 6082015282774296951257019804851833381662827617710510851990751,
  6082015282774296951257019809468114724690596822635032029011737, 6082015282774296951369454889443128673744647570767348964500703,
  6082015282774296951369454889443184329842523745429862904602393, 6082015282774296951369855542512935511961831180595340658674911,
  6082015282774296951369855542512935511961839458283223338032921, 6082015282774296951369855542619784147232143982061261357426207,
  6082015282774296951369855542620154952401342863101700392197913, 6082015282791856346673669208662897015482151165025767051994335,
  6082015282791856346673669208662952671580027339688280992096025, 6082015282791856346673669208678927451767653725534496112090905,
  6082015282791856346673669213386453256621982805442273777093855, 6082015282791856346673669213386453256621991083130156456451865,
  6082015282791856346673669213386454544808555534386313901745695, 6082015282791856346673669213386454549279103779806583162248985,
  6082015282791917349915185770573560536276712926175374039162649, 6082015282791917529973733578506540998638279853373064013653215,
  6082015282791917561732395884654635922128683212531928306655001, 6082434967227897939972474747496322874994385997298052560061913,
  6082434967227897939972474747496693871358906290464401786668505, 6082434967227897939972476103050802367086206058101877611693529,
  6082434967227897939972476107881206853862610853092628640826841, 6082434967227898151674290631097667960358073070828467339920857,
  6082434967227898151674290631097724908426469120738568635680217, 6082434967227898152409765668671957970580207241902764300436953,
  6082434967227898152412319406255316394039238057516749116147161, 6082434968001540303218435877600932048255345717936399365965273,
  6082434968004165623570436246608861037147313594171303662454233, 6082434968021734377924243257014587382446158347709004368315865,
  6082436424468270101864715469688674236698307386496378544065759, 6082436424468270101864715469688674241171160932506857497928927,
  6082436424468270101864715469705017244986936965731293713638623, 6082436424468270101864715469705075481923747059346202456296671,
  6082436424468270101867267816041437563100281775084745760679135, 6082436424468270101867267816041437563786866318825702431460575,
  6082436424468270101867276683169108935230999152281059831581919, 6082436424468270101867276713957804722249028895611687893705951,
  6082436424468279429150151980601218900678501987187454913023199, 6082436424468279460801873045420482595810023157710654118563039,
  6082436424468279672616523337268119624725258724415340867462367, 6082436424470956392454296240421377605815055502935757746054367,
  6082436424470965507415277563187079395610335526633098382386399, 6082436424470965508150353308076131012253640620427287930053855]

def side5a_ye : List ℕ := [
  64, 68, 110718747516213461061, 16, 40, 73811747606765436949, 14171999558930020698669, 40, 12, 92, 44, 88, 4, 0, 1209331652523309754483297, 96, 48,
  60, 84, 1814015970952062712163333, 20, 1814015932249253414439429, 24, 1814015934501053228125189, 28, 1209331666421136729574921, 80, 76, 8, 32,
  1209331668672936543260769, 36, 1209331672789508077655137, 52, 1209331679544907518712329, 56, 72, 2, 1209331693442734493804129,
  1814015954767251551297029, 1209331655162137661146209, 1814015966026250619725925, 1209331697559306028198409, 1814015957019051364982789,
  1814015948011852110239845, 1209331704701733562232841, 8, 0, 29720836923289102158412251657, 1814015925493853973382149, 1209331657413937474831881,
  1209331702449933748547169, 1209331675428335984318049, 44, 4, 0, 1209331652523309754483297, 96, 1814015975033449874468965, 8,
  5318696864987834215049034005089432073, 1814015925898474252403809, 8, 0, 29720836923289102158412251657, 1814015925493853973382149,
  1814015928150274066089481, 1814015946164672575575649, 110718745729507065873, 110718746554140786709, 16, 40, 73811747606765436949,
  1814019089448376573427733, 40, 12, 92, 60, 1209331686687335052746849, 56, 1209331684435535239061089, 44, 88, 4, 0, 1209331652523309754483297, 96,
  48, 52, 1209331679544907518712329, 162260452590409455705022039924253, 2658472482253767134345893609491661317, 1209331704701733562232841, 8, 0,
  162259509557508446027503043224105, 162259509628343943270547722412585, 1209331657413937474831881, 1209331702449933748547169,
  1209331675428335984318049, 60, 9903601484879418506257899561, 56, 162260529352476634751106255101469, 44, 4, 0, 1209331652523309754483297, 96,
  162261211795897960668449532355113, 8, 5318696864987834215049034005089432073, 9903535371748658331107467817, 8, 0, 162259509557508446027503043224105,
  162259509628343943270547722412585, 9903540094115141200759628329, 19813690170251667448533823557, 9903544558227207038480491049,
  1814019089448514062319637, 32, 28, 73807243732260028449, 80, 56, 84, 73807245518966423637, 4, 96, 36, 76, 0, 1209257865529422713455205, 8, 92,
  7977801893664982814598515182587163145, 88, 1209257915491231079607909, 1209257913221839079877641, 1209257868203434992206949,
  1209257908735831638550629, 1209257883966033688007269, 92, 1813942188074747205529697, 88, 19812481687457903561089167969, 1209257913221839079877641,
  8, 1813942138535151304442889, 52, 92, 96, 0, 12, 1209257870455234805892613, 48, 1209257892551020477684325, 76, 16, 20, 1209257874536621968198245,
  36, 60, 64, 1813942170447376789020681, 24, 1813942147542350559185929, 40, 44, 68, 1209257901980432197493349, 72, 88, 6, 1813942185822947391843849,
  1209257906484031824864869, 1813942161440177534277729, 1209257886217833501693029, 1813942167808548882357857, 1209257883966033688007269,
  1813942143425779024791649, 1209257908735831638550629, 1813942136670379583734281, 1813942188074747205529697, 88, 96, 1209257915491231079607909,
  19812481687457903561089167969, 1813942183958175671135241, 1813942165556749068672009, 73807245381527470141, 56, 110714244328902819901,
  9447327410624295141437, 80, 56, 84, 9903624540996912234583626269, 4, 36, 9903567614344700766806217245, 40, 162260129169510811279760451834889, 52,
  92, 96, 0, 162259432219016543475014698603037, 8, 7977801893664982814598515182587163145, 162259524097378834186833050014237,
  1813942188074747205529697, 88, 96, 162261148893680396248466403693085, 162261148964515893491511082881565, 9903629816765717315523318301,
  29719628440495338270967596069, 8, 1813942138535151304442889, 52, 92, 60, 64, 1813942170447376789020681, 96, 0, 12,
  162259601468631289523101103624733, 16, 20, 162259741704026364820087718351389, 24, 1813942147542350559185929, 28, 162340444755964752182140822163997,
  1813942152432978279534689, 1813942143425779024791649, 1813942136670379583734281, 1813942188074747205529697, 1813942167808548882357857, 88, 96,
  162261148893680396248466403693085, 162261148964515893491511082881565, 1813942183958175671135241, 1813942165556749068672009,
  1209262184833309083631677, 56, 110714244328902819901, 1813944726187251275333693]

def side5a_other : List ℕ := [
  16, 576548718602354693, 64, 864990200986599429, 110718833005388890117, 16, 576548718602354693, 72, 865025385358688261, 110723336605016260613, 16,
  576548718602354693, 72, 865025385358688261, 110723336605016260613, 16, 576548718602354693, 80, 3026879578197, 110727840204643631109, 16,
  576548718602354693, 0, 48, 14170846531872264028693, 52, 604466990121367543749141, 36893734988853287433, 36893577758690509365, 16,
  576548718602354693, 80, 3026879578197, 110727840204643631109, 16, 576548718602354693, 0, 56, 14171422992624584229397, 60, 36893772647126539789,
  19810133783235361826202983957, 36893578033568416317, 16, 576548718602354693, 0, 4, 40, 14170270019443878789721, 44, 36893701866065499665,
  36893699804481197577, 36893526356521910873, 36893577483812602413, 16, 576548718602354693, 72, 865025385358688261, 110723336605016260613, 16,
  576548718602354693, 80, 3026879578197, 110727840204643631109, 16, 576548718602354693, 80, 3026879578197, 110727840204643631109, 16,
  576548718602354693, 0, 4, 8, 40, 56, 84, 88, 36893893730844552209, 36893895792428854285, 110714244466341773373, 60, 36893772647126539789,
  36893770585542237713, 56, 84, 88, 36893893730844552209, 36893895792428854285, 110714244466341773373, 60, 36893772647126539789,
  36893770585542237713, 36893543948707955801, 36893526356521910873, 36893578033568416317, 16, 576548718602354693, 32, 864849467793211397,
  1209112881287493702713365, 16, 576548718602354693, 32, 864849467793211397, 1209112881287493702713365, 16, 576548718602354693, 32,
  864849467793211397, 1209112881287493702713365, 16, 576548718602354693, 32, 864849467793211397, 1209112881287493702713365, 16, 576548718602354693,
  32, 864849467793211397, 1209112881287493702713365, 16, 576548718602354693, 32, 864849467793211397, 1209112881287493702713365, 16,
  576548718602354693, 32, 864849467793211397, 1209112881287493702713365, 16, 576548718602354693, 32, 864849467793211397, 1209112881287493702713365,
  80, 3026879578197, 24, 141012424986197, 110727875391171592217, 84, 80, 0, 4, 604463488607965073714197, 36893526356521910873,
  604469300503284196639289, 36893878200242809433, 56, 110714244466341773373, 60, 36893772647126539797, 64, 36893790239312584793, 68, 24, 20,
  73802739857754619929, 9446750701792591350845, 1813944149673722396999741, 36893805495036420697, 48, 76, 72, 77371996103270327997635125,
  1813868390156112630916689, 110709740591836364853, 24, 20, 73802739857754619929, 92, 1209184089917680043166817, 1209184089917680043166817, 76,
  1209187821378669739049013, 1813870362732611930751029, 48, 84, 80, 1813868394694896630377013, 36893878200242809433, 28, 32,
  604465524375734133992501, 36893649501824225369, 24, 36893631909638180441, 1813868363169699238776373, 52, 36893737462754449941, 24,
  9446750826451811369013, 1813870362627058814484533, 40, 864884654321172505, 24, 20, 73802739857754619929, 9446750702480801139805,
  1209187244759725233340445, 40, 864884654321172505, 24, 28, 32, 36, 36893684686196315225, 36893667094010270297, 36893649501824225369,
  36893631909638180441, 1209187244759725233340445, 40, 864884654321172505, 24, 20, 73802739857754619929, 92, 1209184089917680043166817,
  1209184089917680043166817, 1209187244759725233340445, 40, 864884654321172505, 24, 20, 73802739857754619929, 9446750702480801139781,
  1209187244759725233340445, 48, 288232714762256437, 64, 110718747378774507573, 1209410335176419825221685, 56, 288232989640294461, 72, 92,
  4722420772768254535245, 110723251940474683469, 1209484698648651355848765, 56, 288232989640294461, 72, 76, 110723251390718869581,
  4722411554462767261261, 1209484698648651355848765, 64, 2476049760325, 80, 3026879578197, 1209559062120882886475845, 48, 864919840840744993, 32,
  73807244282015842341, 1209261608231956763967525, 64, 2476049760325, 80, 3026879578197, 1209559062120882886475845, 40, 56, 110714243503195095085,
  73811748156521250861, 56, 110714243504269099053, 1209335971704188294594605, 48, 288232714762256437, 64, 110718747378774507573,
  1209410335176419825221685, 56, 288232989640294461, 72, 92, 4722420755176068490829, 110723251940474683469, 1209484698648651355848765, 72, 76,
  110723251390718869581, 4, 1814089750768337847068237, 1814089750768337847068237, 48, 20, 73816251481270845465, 24, 1209405450828972422073369,
  154803897722064706247986253, 20, 1814093452920608104054809, 1814093452920745592946713, 56, 288232989640294461, 72, 76, 110723251390718869581, 4,
  1814089750768337847068237, 1814089750768337847068237, 1209484698648651355848765, 64, 2476049760325, 80, 3026879578197, 1209559062120882886475845,
  24, 4, 88, 8, 604463779107733225221657, 604463826395529312611849, 8, 604463779107733225221693, 604463826553858987011605, 9446750702480801137725,
  56, 4, 88, 8, 604463779107733225221657, 604463826395529312611849, 8, 604463779107733225221693, 604463826553858987011605, 110714242404757471241, 60,
  1813944149638538024910909, 1209188397769053298425917, 80, 3026879578197, 24, 141012424986197, 110727875391171592217, 24, 4, 73802739857754619913,
  20, 9446750702480801139805, 1209184089917680043166729, 64, 76, 110718747791091368005, 14171999717812530643013, 76, 1814017936685201607426117,
  1209188974300174346158149, 80, 3026879578197, 24, 141012424986197, 110727875391171592217, 24, 4, 73802739857754619913, 20, 9446750702480801139805,
  1209184089917680043166729, 64, 76, 110718747791091368005, 14171999717812530643013, 76, 1814017936685201607426117, 1209188974300174346158149, 40,
  864884654321172505, 24, 4, 73802739857754619913, 9446750702480801137709, 1209187244759725233340445, 40, 864884654321172505, 24, 4,
  73802739857754619913, 9446750702480801137709, 1209187244759725233340445, 40, 864884654321172505, 24, 4, 73802739857754619913,
  9446750702480801137709, 1209187244759725233340445, 40, 864884654321172505, 24, 4, 73802739857754619913, 9446750702480801137709,
  1209187244759725233340445, 80, 3026879578197, 32, 176196813853269, 110727910577691164705, 32, 28, 73807243732260028449, 64, 73807243733334294561,
  9447327197729283641413, 64, 28, 14171999523745648611365, 110718746279262879777, 28, 1814018512952439881138209, 1814018512952577386676257, 32, 28,
  73807243732260028449, 56, 68, 88, 84, 80, 4, 8, 604463779125325411266077, 604463826413121498656269, 1813942181671191485360649,
  604469302790268382424093, 604469591020644534201377, 4, 8, 1813942138535151304442973, 604463826553858987011609, 84, 80, 1813942181671191485360649,
  604469302931005870779421, 1813942183571147578158173, 73807244970284744765, 68, 9447327357847737008189, 73807244969210609725, 56, 68, 88, 84, 80, 4,
  8, 604463779125325411266077, 604463826413121498656269, 1813942181671191485360649, 604469302790268382424093, 604469591020644534201377, 4, 8,
  1813942138535151304442973, 604463826553858987011609, 84, 80, 1813942181671191485360649, 604469302931005870779421, 1813942183571147578158173,
  14171423222150732906557, 68, 1813944726134474717200445, 1209262184780532525498429, 48, 864919840840744993, 32, 73807244282015842341,
  1209261608231956763967525, 48, 864919840840744993, 32, 73807244282015842341, 1209261608231956763967525, 48, 864919840840744993, 32,
  73807244282015842341, 1209261608231956763967525, 48, 864919840840744993, 32, 73807244282015842341, 1209261608231956763967525, 40, 56,
  110714243503195095085, 73811748156521250861, 56, 110714243504269099053, 1209335971704188294594605, 64, 2476049760325, 80, 3026879578197,
  1209559062120882886475845, 48, 288232714762256437, 64, 110718747378774507573, 1209410335176419825221685, 64, 20, 32, 73807243732260028441,
  14171999523745648610341, 32, 73807243733334294553, 110718746279262879769, 20, 32, 73807243732260028441, 1814018512952439881138201, 32,
  9447327197729283640389, 1814018512952577386676249, 72, 76, 92, 1814089751155365940045389, 110723251940474683469, 4722411554462767261261, 32, 20,
  73807243732260028441, 9447327197729283640397, 20, 1814092299928734719475737, 1814092299928872241659929, 72, 76, 92, 1814089751155365940045389,
  110723251940474683469, 4722411554462767261261, 20, 32, 73807243732260028441, 1814092299928734719475737, 32, 9447327197729283640397,
  1814092299928872241659929, 48, 864919840840744993, 32, 73807244282015842341, 1209261608231956763967525, 72, 92, 4722420702399510357581,
  110723251940474683469, 40, 92, 73811749393471832141, 36, 84, 9447903889518540554317, 8, 88, 604469834250208784352785, 604469834250208784363593, 12,
  604464069783423237162529, 604464117106403696641577, 9447903693665975931981, 36, 1814092876424671411765289, 1814092876424808917303337, 40, 56,
  110714243503195095085, 73811748156521250861, 56, 110714243504269099053, 1209335971704188294594605, 48, 288232714762256437, 64,
  110718747378774507573, 1209410335176419825221685, 56, 288232989640294461, 72, 76, 4722411765568999794253, 4722411554462767261261,
  1209484698648651355848765, 8, 64, 16, 12, 40, 92, 1209331657044501567899233, 88, 604469834267800970397201, 1209331702080497841614433, 28,
  14171999558930020700205, 110718746554140786721, 604464357890654086628881, 40, 92, 12, 1209331657044501567899233, 1209331659665737288517649, 88,
  604469834267800970397201, 1209331702080497841614433, 28, 14171999558930020700205, 110718746554140786721, 40, 92, 12, 1209331657044501567899233, 16,
  604464357890654086628881, 1209331659665737288517649, 88, 604469834267800970397201, 1209331702080497841614433, 28, 1814019089448376573427745,
  1814019089448514062319649, 64, 12, 604464069801015423206933, 92, 40, 1209331657413937474831885, 28, 14171999558930020700205, 110718746554140786721,
  604464117088811510597185, 12, 604464069801015423206933, 40, 92, 1209331657413937474831885, 604464117088811510597185, 28, 1814019089448376573427745,
  1814019089448514062319649, 48, 288232714762256437, 64, 110718747378774507573, 1209410335176419825221685, 56, 288232989640294461, 72, 76,
  4722411747976813749837, 4722411554462767261261, 1209484698648651355848765, 12, 40, 73811747606765436945, 36, 32, 28, 72, 76, 110723251390718869581,
  14172576179114590011469, 1814092876424671411765281, 36893646890484109393, 36893664482670154253, 36893684411318408205, 16, 36893576521739929613, 64,
  604464389415851478222925, 604464389574181152622669, 8, 4, 12, 40, 73811747606765436945, 36, 36893684548757361737, 36893684548757361673,
  36893561403455047241, 36893541337367839757, 12, 40, 73811747606765436945, 36, 36893684548757361737, 36893684548757361673, 36893561403455047177, 80,
  3026879578197, 96, 36893929190094547497, 40, 9447903942569976594517, 36, 19813788893487979854351570005, 36893684548757361673, 40, 56,
  110714243503195095085, 73811748156521250861, 56, 110714243504269099053, 1209335971704188294594605, 80, 3026879578197, 96, 36893929602411407917, 48,
  9448480403322280149077, 44, 1209411488030030519343125, 36893719595690498125, 48, 288232714762256437, 64, 110718747378774507573,
  1209410335176419825221685, 56, 288232989640294461, 72, 60, 36893770035786423821, 64, 36893787627972468749, 68, 36893805220158513677,
  36893822812344558605, 1209484698648651355848765, 64, 2476049760325, 80, 3026879578197, 1209559062120882886475845, 48, 12, 16,
  1209405446290188422613045, 8, 4, 0, 1209405439534788981555765, 36893523745181794829, 36893541337367839757, 604464074181469748267057, 16,
  36893576521739929613, 1209405446448518097012753, 44, 72, 14172576054866712991797, 1814093452920608104054833, 36893719595690498061, 56,
  288232989640294461, 72, 52, 60, 36893770035786423821, 64, 36893787627972468749, 68, 36893805220158513677, 36893822812344558605,
  36893754780062587917, 1209484698648651355848765, 64, 2476049760325, 80, 3026879578197, 1209559062120882886475845, 56, 4, 0, 4722371039520834454077,
  36893523745181794829, 8, 36893541337367839757, 9449056476220782281741, 52, 36893754917501541401, 36893754917501541433, 64, 2476049760325, 80,
  3026879578197, 1209559062120882886475845, 64, 2476049760325, 80, 3026879578197, 1209559062120882886475845]

theorem side5a_split : ∀ P ∈ side5aPaths0 ++ (side5aPaths1 ++ side5aPaths2), P ∈ side5aYe ∨ P ∈ side5aOther := by decide +kernel

theorem side5a_ye_run : run .l2 2 96 17 side5aEnv side5aAllow side5a_ye (side5aYe.map fun P => ⟨[P], []⟩) = true := by
  decide +kernel

theorem side5a_other_run : run .l2 2 75 13 side5aEnv [] side5a_other (side5aOther.map fun P => ⟨[P], []⟩) = true := Run.run_one (by decide +kernel)

end MinCert
end Peano
