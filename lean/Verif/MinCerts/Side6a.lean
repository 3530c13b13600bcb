import Verif.Lemmas.MinRun
import Verif.MinCerts.Side6aE0
import Verif.MinCerts.Side6aE1

set_option autoImplicit false

/-
Side, grid 6, steps to adjacent cells: no curve has less dilation.  This file is generated.
-/
namespace Peano
namespace MinCert

def side6aPaths0 : List ℕ := [
  373628888621966929548804519753934406736499408872654278411613835696963025734205831126100601047,
  373628888621966929548804519753934406736499408872654278411908964693878260352492189336429514145,
  373628888621966929548804519753934406736499408872654278527305168228690334799844957787502358567,
  373628888621966929548804519753934406736499408872654278527305168228690335425844245467168759201,
  373628888621966929548804519753934406736499408872654323764887568501364572050841765927874108247,
  373628888621966929548804519753934406736499408872654323764887568501364572133780618737233546657,
  373628888621966929548804519753934406736499408872654323764887568539072445431515979891880439847,
  373628888621966929548804519753934406736499408872654323764887568539168607182754787031856143777,
  373628888621966929548804519753934406736499408872672405806643051875451396215979838527595494615,
  373628888621966929548804519753934406736499408872672405806643051875463895623076556681175223713,
  373628888621966929548804519753934406736499408872672405806643051880447356643708802575632642087,
  373628888621966929548804519753934406736499408872672405806643051880447357269708090255299042721,
  373628888621966929548804519753934406736499408872672405808914434196277253605797148460637395799,
  373628888621966929548804519753934406736499408872672405808914434196277253688736001269996834209,
  373628888621966929548804519753934406736499408872672405808920226623219458749664158187060932647,
  373628888621966929548804519753934406736499408872672405808920241399806334214662701693478591905,
  373628888621966929548804519753934406736507650365713821630228746464994178061368613407778091047,
  373628888621966929548804519753934406736507650365713821630228746464994178687367901087444491681,
  373628888621966929548804519753934406736507668665397834299588207410401235204334556442488596695,
  373628888621966929548804519753934406736507668672366604479436205392017805369382796914348379553,
  373628888621966929548804519753934406736507671397155395888272428800781191941532360184558727207,
  373628888621966929548804519753934406736507671397155395888272428800781192567531647864225127841,
  373628888621966929548804519753934406739730095169142734209076475601135474475995704181593066913,
  373628888621966929548804519753934406739737268652363559187549160985471361465197270328920369367,
  373628888621966929548804519753934406739737268652363559187849346216454812751449862038346131671,
  373628888621966929548804519753934406739738339494376663003805017237262581448724941991464258977,
  373628888621966929548804519753934406739738339501464824262336369643033750991234894834672979361,
  373628888621966929548804519753934408005741531660270674803225671582674608576702054155594361047,
  373628888621966929548804519753934408005741531660270674803225671587670537200916238383177383127,
  373628888621966929548804519753934408005741531660270674805497050001629394199201604323625802967,
  373628888621966929548804519753934408005741531660270674805502846325446710682657409767022651607,
  373628888621966929548804519753934408005741531660288756847258329666821621894850232450774853847,
  373628888621966929548804519753934408005741531660288802084840729977203732526521254555152935127,
  373628888621966929548804519753934903176686732213717109343959963161258726998781941554592101585,
  373628888621966929548804519753934903176686732213717109344255106972455933151893804374962525393,
  373628888621966929548804519753934903176686732213717109461927702736482472219752829884762764497,
  373628888621966929548804519753934903176686732213717109461927717517968837362909754469861348561,
  373628888621966929548804519753934903176686732267469450245707070663606044129307093122998351057,
  373628888621966929548804519753934903176686753238070871373165223778650616167449446653475673297,
  373628888621966929548804519753934903176686753291722508932572727999168343983378829783146968273,
  373628888621966929548804519753934903176686753291722555060236061840226794701631266983485650129,
  373628888621966929548804519753934904443542725013903413610221981707783254520439970582195988695,
  373628888621966929548804519753934904443542725013903413610221983628492146630538322257688103767,
  373628888621966929548804519753934904443542725013903413610222749407046421063971448162425126103,
  373628888621966929548804519753934904443542725013903413610222749407142614618513456420212149079,
  373628888621966929548804519753934904443542725013903763414606234018718166714038539701518461143,
  373628888621966929548804519753934904443542725014040233904904075140601724636336788753694185303,
  373628888621966929548804519753934904443542725014040583053940670618424900641958248102553577687,
  373628888621966929548804519753934904443542725014040583054240855849408351928210839811979339991,
  373628888621966929548804519753934904443543814209115394374065139696942644857476882914899257559,
  373628888621966929548804519753934904443543814209115394374065139701938573481691067142482279639,
  373628888621966929548804519753934904443543814209115394376336518115897430479976433082930699479,
  373628888621966929548804519753934904443543814209115394376342314439714746963432238526327548119,
  373628888621966929548804519753934904443543816934059436262898398292234174229403362842185951447,
  373628888621966929548804519753934904443543816941010475213127956472230229807886737660281743575,
  373628888621966929548804523639414479827716813429581379502676821470536837708962767412285532375,
  373628888621966929548804523639414479827716813436687364599761419372826328729294596013597786145,
  373628888621966929548804523639414479827716816161494633089748211149793504252766131072476368935,
  373628888621966929548804523639414479827716816161494633089748225931280115494777524707148300321,
  373628888621966929548804523639414479827717884339559052619733094122674803215706920798371879767]

def side6aPaths1 : List ℕ := [
  373628888621966929548804523639414479827717884339559052619733096118895603755458256523642404897,
  373628888621966929548804523639414479827717884339559053510114963924214966876370323701315915815,
  373628888621966929548804523639414479827717884339559053512385595285559629289957656203532304417,
  373628888621966929548804523639414479828144848808885090883203908630146719644631062216457469143,
  373628888621966929548804523639414479828144848808885090883504863519002457562246552548139991073,
  373628888621966929548804523639414479828144848808885091001177459283028750531251109008366882855,
  373628888621966929548804523639414479828144848808885091001177474064515361773262502643038814241,
  373628888621966929548804523639414479828144848862518389620276619153334260978036860123533974359,
  373628888621966929548804523639414479828144848862518389620276621149555061517788195848804499489,
  373628888621966929548804523639414479828144848862655164024900393524364210306196064804144664615,
  373628888621966929548804523639414479828144848862655512938903527036040641408427290623213699105,
  373628888621966929548804523639609083111914794843973006937700111567328813845019214214360191015,
  373628888621966929548804523639609083111914794843973006937700126348815425087030607849032122401,
  373628888621966929548804523639609515212249099802106787145689323244434736763782693598530234583,
  373628888621966929548804523639609515380040057576850865466835660920770229732227857214611783713,
  373628888621966929548804523639609579719455709938887988715219987267580861543069418336694030375,
  373628888621966929548804523639609579719455709938887988715220002049067472785080811971365961761,
  373628888621966929548804523705592921093475484181370216983774775949442441955488970951631295697,
  373628888621966929548804523705592921093475484235021854543182280169960169771418354081302590673,
  373628888621966929548804523705592921093475484235021900670845614011018620489670791281641272529,
  373628888621966929548804523705592921093483725728200136786842034489127900879292376400094943063,
  373628888621966929548804523705592921093483725728200485935878629966951076884913835748954335447,
  373628888621966929548804523705592921093483725728200485936178815197934528171166427458380097751,
  373628888621966929548804523715699463503346162169480458930814660661068242105709087295084298273,
  373628888621966929548804523715868350400241906256099105237252870603401116504661310038528878807,
  373628888621966929548804523715868350400241906256099105237553055834384567790913901747954641111,
  373628888621966929548804523715894133662615550251778894729802159785789835882178111578688323617,
  373628888621966929548804523715894133829985643251838998942863971804297278715514327042229403681,
  373628888621966929548806042872204315348238673363781686229193307443414149483577710168649623767,
  373628888621966929548806042872204315348246914870998773524557848678748373834653863479670859991,
  373628888621966929548806042872204315348248006798141740117692384491355113527858807022589181985,
  373628888621966929548806042872204315348666711582246985448063985593940853926788670604912898087,
  373628888621966929548806042872204315348666711582246985448064000375427219069945595190011482151,
  373628888621966929548806042872204315348666711582246985450335382733948451142071564511012499873,
  373628888621966929548806042872204315348666711582246985450335382734044644696613572768799522849,
  373628888621966929548806042872204315512807225673209641042849764802237920483406361614012554071,
  373628888621966929548806042872204315512807225673209641045121147123051278549065806202834164567,
  373628888621966929548806042872204315512807225673209641045427892480432733940587422518885089313,
  373628888621966929548806042872204315512807225673346460684762314293573447441444788605044666407,
  373628888621966929548806042872204315512807225673346460684762329075059812584601713190143250471,
  373628888621966929548806042872204315512807225673346809599059838741156273701797824862617907617,
  373628888621966929548806042872204315512807225673346809599059838741252467256339833120404930593,
  373628888621966929548806042872204381121875440189553009994963051982084737929555422442567908567,
  373628888621966929548806042872204381121875440189553359024655997445938539422448719126523165911,
  373628888621966929548806042872204381121875440189553405270293662500016100257307730915967238177,
  373628888621966929548806042872204381121875440189571487312049131054824991042438211284843900967,
  373628888621966929548806042872204381121875440189571487312049145836311356185595135869942485031,
  373628888621966929548806042872204381121875440189571487314320528194832588257721105190943502753,
  373628888621966929548806042872204381121875440189571487314320528194928781812263113448730525729,
  373628888621966929548806042872204381121883681696770492563080076057155511151202823322115939159,
  373628888621966929548806042872204381121883681696770492565351458377968869216862267910937549655,
  373628888621966929548806042872204381121883681696770492565658203735350324608383884226988474401,
  373628888621966929548806042872204381121883702714072604673016391626915848184125613681900269607,
  373628888621966929548806042872204381121883702714072604673016406408402213327282538266998853671,
  373628888621966929548806042872204381121883702767688126050524344655402446219701290784451244449,
  373628888621966929548806042872204381121883702767688126050524344655498639774243299042238267425,
  373628888621966929548806068813958686804860416255493061425145856847105577883366477346214386903,
  373628888621966929548806068813958686804860416255493061425151653170922894366822282789611235543,
  373628888621966929548806072775723378346862975939085957128889745739754037904556585040548999207,
  373628888621966929548806072775723378346862975939085957128889760521240403047713509625647583271]

def side6aPaths2 : List ℕ := [
  373628888621966929548806072775723378346862975939085957131161142879761635119839478946648600993,
  373628888621966929548806072775723378346862975939085957131161142879857828674381487204435623969,
  373628888621966929548806072841927040663136465832526410568313926282112511889522495621794752727,
  373628888621966929548806072842121644281631224979656482337385427075182733953255369269314185431,
  373628888621966929548806072842147427547235560882338978213945607742958828264507999637511471137,
  373628888621966929548806072852034079514040120954845817943069349270411511091122839347640414247,
  373628888621966929548806072852034079514040120954845817943069364051897876234279763932738998311,
  373628888621966929548806072852034079514040120954845817945340746410419108306405733253740016033,
  373628888621966929548806072852034079514040120954845817945340746410515301860947741511527039009,
  373628888621966929549401612019283296158989912754092669575582614720711195160065598654897580247,
  373628888621966929549401612019283296158989912754092669575877743717626429778351956865226493345,
  373628888621966929549401612019283296158989912754229488980183759808655047093274765179797386449,
  373628888621966929549401612019283296158989912754229838129214560981530928475818009256417421527,
  373628888621966929549401612019283296158991001842174614719160231915878148752265090426886436049,
  373628888621966929549401612019283296158991001842174614721431610367641253053013431018781796567,
  373628888621966929549401612019283296158991004674111522784540342394520468747510713394529954007,
  373628888621966929549401612019283296158991004681217507881624940296809959767842541995842207777,
  373628888621966929549401612019283792596792198027863348991222683346123747494618729046308677847,
  373628888621966929549401612019283793862796461035788546650931852027474007924271691168163162327,
  373628888621966929549401612019283794030586350807800241633699941604478283127787089094662029345,
  373628888621966929549401612019283858370438295556218687855412520304046908818770825188398870567,
  373628888621966929549401612019283858370438295556218687857683151665391325133503688641041911847,
  373628888621966929549401612019283858370438295556219036887381891471996456300050357533911855521,
  373628888621966929549401612019283858370438295556219036887381906248595798660110714760480555041,
  373628888621966929549401612019309080858395569241591185493148847072080478331841339888324483927,
  373628888621966929549401612019309080858395569241591185493148847072080478414780192697683922337,
  373628888621966929549401612019309080858395569241591185493148847109788286936428422387490936017,
  373628888621966929549401612019309080858395569241591185493148847109884513380815508182947081047,
  373628888621966929549401612019309080858395569241591185493449002777824432509097378209777374417,
  373628888621966929549401612019309080858395569241591185493449002777824433135095589153043557207,
  373628888621966929549401612019309080858395569241591185493449783267516087706659088350245722967,
  373628888621966929549401612019309080858395569241591185493449785263736888246410424075516248097,
  373628888621966929549401612019309080858395569241728005132784219899947233911681912011470314327,
  373628888621966929549401612019309080858395569241728354047081729528335821022411498951765564247,
  373628888621966929549401612019309080858395569241728401182799575227941384657758711908965679137,
  373628888621966929549401612019309080858395569295380037851825196866553086223779537793600323617,
  373628888621966929549401612019309080858395569295380037851825962569787872309424101456412278817,
  373628888621966929549401612019309080858395590265981458977011950883173115024760443996654481447,
  373628888621966929549401612019309080858395590265981458977011952841577135716720661209199136807,
  373628888621966929549401612019309080858395590265981459867393820646896744936487197436445995047,
  373628888621966929549401612019309080858395590265981459869664452008241161251220060889089036327,
  373628888621966929549401612019309080858395590319596980239130262413962644441681731188580286497,
  373628888621966929549401612019309080858395590319596980359063430392370729175222370062179631137,
  373628888621966929549401612019309080858395590319597026482183988712187106153706461558348447137,
  373628888621966929549401612019309080858395590319597026482183988712199850869584558967092281377,
  373628888621966929549401612019309080858395590319597026482189783054842274076121026627287429537,
  373628888621966929549401612019309080858395590319597026482189797831441616436181383853856129057,
  373628888621966929549401612029390832716510987604939289863267423453169051154626345879414389975,
  373628888621966929549401612029390832716510987604939289863267423453181550561723064032994119073,
  373628888621966929549401612029390832716510987604939289863273217785870466422475110942205097169,
  373628888621966929549401612029390832716510987604939289863273232572410816721223170766178237655,
  373628888621966929549401612029390832716510987604939335986393790892143745024902586765475394769,
  373628888621966929549401612029390832716510987604939335986393790892239938415585359671090887895,
  373628888621966929549401612029390832716510987604939336106326958870648023149125998544690232535,
  373628888621966929549401612029390832716510987604939336106627913759503761066741488876372754465,
  373628888621966929549401612029390832716511008629192394793197644770298471776301076960296975575,
  373628888621966929549401612029390832716511008682807961405717181474148254927548670489580682455,
  373628888621966929549401612029390832716511008689914250956483864486343077167228241140288716833,
  373628888621966929549401612029390832716511011468473115268804621604092647989789866106025422887,
  373628888621966929549401612029390832716511011468473115271075252965437064304522729558668464167]

def side6aPaths3 : List ℕ := [
  373628888621966929549401612029390832716511011468473464300773992772042195471069398451538407841,
  373628888621966929549401612029390832716511011468473464300774007548641537831129755678107107361,
  373628888621966929549401612029390833982933973696279190163697522728732854607333253886890646359,
  373628888621966929549401612029390833982933973696279190163697522728732854690272106696250084769,
  373628888621966929549401612029390833982933973696279190163697522766440663211920336386057098449,
  373628888621966929549401612029390833982933973696279190163697522766536889656307422181513243479,
  373628888621966929549401612029390833982933973696279190163997678434476808784589292208343536849,
  373628888621966929549401612029390833982933973696279190163997678434476809410587503151609719639,
  373628888621966929549401612029390833982933973696279190163998458924168463982151002348811885399,
  373628888621966929549401612029390833982933973696279190163998460920389264521902338074082410529,
  373628888621966929549401612029390833982933973696416009803332895556599610187173826010036476759,
  373628888621966929549401612029390833982933973696416358717630405184988197297903412950331726679,
  373628888621966929549401612029390833982933973696416405853348250884593760933250625907531841569,
  373628888621966929549401612029390833986163576408171270051551301609840838331065053936064606247,
  373628888621966929549401612029390833986163576408171270051551303568244859023025271148609261607,
  373628888621966929549401612029390833986163576408171270941933171373564468242791807375856119847,
  373628888621966929549401612029390833986163576408171270944203802734908884557524670828499161127,
  373628888621966929549401612029390833986171815176542285588264429373726381485296797311408930849,
  373628888621966929549401612029390833986171815176560714998888848671809042578492116657844125729,
  373628888621966929549401612029390833986171815183648224324020795436040897271893874156219399585,
  373628888621966929549401612029390833986171815183648224324020795436053641987771971564963233825,
  373628888621966929549401612029390833986171815183648224324026589778696065194308439225158381985,
  373628888621966929549401612029390833986171815183648224324026604555295407554368796451727081505,
  373628888621966929786839283210361616356512187461545657478337751897622101560691493007291265063,
  373628888621966929786839283210361616356512187461545657478337751897622102186690780686957665697,
  373628888621966929786839283210361616356512187461664699409654797361812375748743602575753472215,
  373628888621966929786839283210361616356512187461664744760356198821912073858796343092861324705,
  373628888621966929786839283210361616356512187461682476882638741312630318077617160686569467943,
  373628888621966929786839283210361616356512187461682476882638741312630318703616448366235868577,
  373628888621966929786839283210361616356520447261377025477182038022244112243770876706473254103,
  373628888621966929786839283210361616356520447261377025477182038059951920765634210153672337623,
  373628888621966929786839283210361616359742873758153155206822293449804646764872475673698776273,
  373628888621966929786839283210361616359751118083387084001550849905196696844976355230788217047,
  373628888621966929786839283210361616359751118090475245260082202273260057865622974626797853911,
  373628888621966929786839283210361616359751118090475245260082202310967866387486308073996937431,
  373628888621966929786839283210386903181510534509482634205346737163678710395542210562306330663,
  373628888621966929786839283210386903181510534509482634205346751945165321637553604196978262049,
  373628888621966929786839283210386903184321405895592858958754430985275477278715225390057122007,
  373628888621966929786839283210386903184322497829668387181090764173059873243276000266773725217,
  373628888621966929786839283210386903184741199781736066343602226535796136420689247196733231143,
  373628888621966929786839283210386903184741199781736066343602241317282747662700640831405162529,
  373628888621966929786839283220442442212145701835542706589131614037490659751213636005157543127,
  373628888621966929786839283220442442212145701835542706589131614075198468273076969452356626647,
  373628888621966929786839283220468224379118066991498169969000587345968213645563284980254650407,
  373628888621966929786839283220468224379118066991498169969000602127454578788720209565353234471,
  373628888621966929786839283220468224379118066991498169971271984485975810860846178886354252193,
  373628888621966929786839283220468224379118066991498169971271984486072004415388187144141275169,
  373628888621966929786839283220468655042436845343778708732438720243677169788184754621380159703,
  373628888621966929786839283220468656308859810350280863629303106641927853554207139388623284439,
  373628888621966929786839283220468656476649700015043434699166971674449946141657856194193522721,
  373628888621966929786839283220468720816066462542894262860519464398120941839800677555490009127,
  373628888621966929786839283220468720816066462542894262860519479179607306982957602140588593191,
  373628888621966929786839283220468720816066462542894262862790861538128539055083571461589610913,
  373628888621966929786839283220468720816066462542894262862790861538224732609625579719376633889,
  373628888621966929787458236939514181150645484200057236043806016123079770015720200817150126295,
  373628888621966929787458236939514181150645484200057236044101145119995004634006559027479039393,
  373628888621966929787458236939514181150645484200057236159497348654807079081359327478551883815,
  373628888621966929787458236939514181150645484200057236159497348654807079707358615158218284449,
  373628888621966929787458236939514181150645484253809576945553123625427087146245352385556375767,
  373628888621966929787458236939514181150645505224410998073011276740375252833090016514442802385]

def side6aPaths4 : List ℕ := [
  373628888621966929787458236939514181150645505278062635632418780960989387000317089045704992983,
  373628888621966929787458236939514181150645505278062681760082114802047837718569526246043674839,
  373628888621966929787458236939514181315204703075125136971541524112157390428448816313446033623,
  373628888621966929787458236939514181315204703082231122068626122014446881448780644914758287393,
  373628888621966929787458236939514181315204705807038390558612913791414056972252179973636870183,
  373628888621966929787458236939514181315204705807038390558612928572900668214263573608308801569,
  373628888621966929787458236939514246753687547620991051888813171193992367540791293157365639383,
  373628888621966929787458236939514246924272917591468901196407294131740756745169124710528182487,
  373628888621966929787458236939514246924281159098685988491771835367074981096245278021549418711,
  373628888621966929787458236939514246924282251025828955084906371179681720789450221564467740705,
  373628888621966929787458236939514246924700955809934200415277972282267461188380085146791456807,
  373628888621966929787458236939514246924700955809934200415277987063753826331537009731890040871,
  373628888621966929787458236939514246924700955809934200417549369422275058403662979052891058593,
  373628888621966929787458236939514246924700955809934200417549369422371251958204987310678081569,
  373628888621966929787458266843084613693873195750454606365681662780951318289299873999920687319,
  373628888621966929787458266843084613693873195750454606365976791777866552907586232210249600417,
  373628888621966929787458266843084613693873195750591425770282807868895170222509040524820493521,
  373628888621966929787458266843084613693873195750591774919313609041771051605052284601440528599,
  373628888621966929787458266843084613693874284838536551509259279976118271881499365771909543121,
  373628888621966929787458266843084613693874284838536551511530658427881376182247706363804903639,
  373628888621966929787458266843084613693874287670473459574639390454760591876744988739553061079,
  373628888621966929787458266843084613693874287677579444671723988357050082897076817340865314849,
  373628888621966929787458266919344011089646326964067733691412657808211413909503293453255698647,
  373628888621966929787458266919538550204585990614565799467742077248769785026583379537040107735,
  373628888621966929787458266919564333470206848895351552914920906890077833878379608039894679585,
  373628888621966929787458266929451052479444669867471766156908575435801378087502112885631889447,
  373628888621966929787458266929451052479444669867472115070911708947477563090878869655127576615,
  373628888621966929787458266929451052479444669921105414698065351118353139319804550214635008417,
  373628888621966929787458266929451052479444669921105414700335980563984592855993920377827229729,
  373628888621966929787458270805239441945948258953899809329107739451622068397194278377952811863,
  373628888621966929787458270805239441945948258953899809329107739451622068480133131187312250273,
  373628888621966929787458270805239441945948258953899809329107739489329877001781360877119263953,
  373628888621966929787458270805239441945948258953899809329107739489426103446168446672575408983,
  373628888621966929787458270805239441945948258953899809329407895157366022574450316699405702353,
  373628888621966929787458270805239441945948258953899809329407895157366023200448527642671885143,
  373628888621966929787458270805239441945948258953899809329408675647057677772012026839874050903,
  373628888621966929787458270805239441945948258953899809329408677643278478311763362565144576033,
  373628888621966929787458270805239441945948279971201921436766878357913634051919213869850860375,
  373628888621966929787458270805239441945948280024817442814274816567205992937871441655123843927,
  373628888621966929787458270805239441945948280032060505761022022724111335437827745195936317473,
  373628888621966929787458270805239441945956524357157614914145498352620776462016481693945692193,
  373628888621966929787458270805239441945956524357157615031806522138490092147555185872051765281,
  373628888621966929787458270805239441949178950853933440846820684779805155276904681581509816359,
  373628888621966929787458270805239441949178950853933440846820686738209175968864898794054471719,
  373628888621966929787458270805239441949178950854070215251444459113018570856127236798967984167,
  373628888621966929787458270805239441949178950854070564165447592624694755859503993568463671335,
  373628888621966929787458270805239441949187189629392617759737775494974772184662327894961684513,
  373628888621966929787458270805239441949187189629411047170062011510607518172702222506478665761,
  373628888621966929787458270805239441949187189636498510367830043891084654262917513532474391969,
  373628888621966929787458270805239441949187189636498510367830043891097398978795610941218226209,
  373628888621966929787458270805239441949187189636498511257917537538095881443100114678840603041,
  373628888621966929787458270805239441949187189636498511260188166983727334979289484842032824353,
  373628888621966929787459820007556966127173747580899551935656002700333497920179949806621179095,
  373628888621966929787459820007556966127173747580899551935656002700345997327276667960200908193,
  373628888621966929787459820007556966127173747580899551935656002705329458347908913854658326567,
  373628888621966929787459820007556966127173747580899551935656002705329458973908201534324727201,
  373628888621966929787459820007556966127173747580899551937932426483733064083446515811470195927,
  373628888621966929787459820007556966127173747580899552826042135314956524904184764836935185617,
  373628888621966929787459820007556966127173747580899552828314294289052460342387633573004459223,
  373628888621966929787459820007556966127173747580899552828314296242569425821948794629541510359,
  373628888621966929787459820007556966127173747587868672039831476276947057825395394957473103063,
  373628888621966929787459820007556966127173747587868672040132431165802795743010885289155624993,
  373628888621966929787459820007556966127173747587868672157805026929829088712015441749382516775,
  373628888621966929787459820007556966127173747587868672157805041711315699954026835384054448161,
  373628888621966929787459820007556966127173750359203207389656309022101578027105500381592337623,
  373628888621966929787459820007556966127173750366427536354428673875391716996403612811336236247,
  373628888621966929787459820007556966127173750366427885384121619339245518489296909495291493591,
  373628888621966929787459820007556966127173750366427931629759284393323079324155921284735565857,
  373628888621966929787459820007556966127173750366446013671514752948131970109286401653612228647,
  373628888621966929787459820007556966127173750366446013671514767729618335252443326238710812711,
  373628888621966929787459820007556966127173750366446013673786150088139567324569295559711830433,
  373628888621966929787459820007556966127173750366446013673786150088235760879111303817498853409,
  373628888621966929787459820007556967393596712594370780693636327257718769596918127059440385239,
  373628888621966929787459820007556967393596712594370780693636327257731269004014845213020114337,
  373628888621966929787459820007556967393596712594370780693642121590420184864766892122231092433,
  373628888621966929787459820007556967393596712594370780693642136376960535163514951946204232919,
  373628888621966929787459820007556967393596712594370826816762694696693463467194367945501390033,
  373628888621966929787459820007556967393596712594370826816762694696789656857877140851116883159,
  373628888621966929787459820007556967393596712594370826936695862675197741591417779724716227799,
  373628888621966929787459820007556967393596712594370826936996817564053479509033270056398749729,
  373628888621966929787459820007556967396826315306125692027557223644863537249405554081166933207,
  373628888621966929787459820007556967396834554081602645407374216345899388212535950268911467735,
  373628888621966929787459820007556967396835646062480129183646625761789110563567547219200835617,
  373628888621966929787459820007556967397262610531805817640762745664265353557405679052167589927,
  373628888621966929787459820007556967397262610531806166554765879175941538560782435821663277095,
  373628888621966929787459820007556967397262610585439466181919521346817114789708116381170708897,
  373628888621966929787459820007556967397262610585439466184190150792448568325897486544362930209,
  373628888621966929787459820007557464004803525626720799418282621364517401255455883174501429287,
  373628888621966929787459820007557464004803525633808262618028423741600564671100790181511835687,
  373628888621966929787459820007557464004803525680335971651002346803316895251533136299446226983,
  373628888621966929787459820007557464004811767187689878588272892227862536888907559041929359777,
  373628888621966929787459820007557464004811767187689924711393465334135815491335034865199657377]

def side6aPaths5 : List ℕ := [
  373628888621966929787459820007557464004811767187690227500003894412664694840633376912433348641,
  373628888621966929787459820007751571015322142624232371872761634434985138829120119798832733015,
  373628888621966929787459820007751571015322142624232371872761634434985138912058972608192171425,
  373628888621966929787459820007751571015322142624232371872767428805381683387552710393909531857,
  373628888621966929787459820007751571015322142624232371872767443591922279076428677481072986967,
  373628888621966929787459820007751571015322142624232417225740238242471450610408549199636765527,
  373628888621966929787459820007751571015322142624232417225740240238692251150159884924907290657,
  373628888621966929787459820007751571015322142624250499267495721616570774099704487143578442583,
  373628888621966929787459820007751571015322142624250499269767103937384132165363931732400053079,
  373628888621966929787459820007751571015322142624250499270073849294765587556885548048450977825,
  373628888621966929787459820007751571015330384131449504520803843282370065586666954048736762711,
  373628888621966929787459820007751571015330384131449504520803843282370065669605806858096201121,
  373628888621966929787459820007751571015330384131449504520803843320077874191254036547903214801,
  373628888621966929787459820007751571015330384131449504520803843320174100635641122343359359831,
  373628888621966929787459820007751571015330384131449504521103998988114019763922992370189653201,
  373628888621966929787459820007751571015330384131449504521103998988114020389921203313455835991,
  373628888621966929787459820007751571015330384131449504521104779477805674961484702510658001751,
  373628888621966929787459820007751571015330384131449504521104781474026475501236038235928526881,
  373628888621966929787459820007751571015330405148751616628462982188661631241391889540634811223,
  373628888621966929787459820007751571015330405202367138005970920397953990127344117325907794775,
  373628888621966929787459820007751571015330405209610200952718126554859332627300420866720268321,
  373628888621966929787459820007752067288573471661808715354805273648817464569223988380494737447,
  373628888621966929787459820007752067288574581781076676093428228185470016812158679673772453927,
  373628888621966929787459820007752067288581710383497818351340370834573085594930803148390387751,
  373628888621966929787459820007752067289001504255429100124543847965493505851793122190436806695,
  373628888621966929787459820007752067289001504255429100124838991776690712004904985010807230503,
  373628888621966929787459820007752067289001504255429100242511587540717251072764010520607469607,
  373628888621966929787459820007752067289001504255429100242511602322203616215920935105706053671,
  373628888621966929787459820007752067289001504309062398861610747448839295268486411098927083559,
  373628888621966929787459820007752067289001504309062398861610749407243315960446628311471738919,
  373628888621966929787459820007752067289001504309199173266234521782052710847708966316385251367,
  373628888621966929787459820007752067289001504309199522180237655293728895851085723085880938535,
  373628888621966929787459820007752068555003607272656967472734858799173657036010726125306511393,
  373628888621966929787459820007752068555003607272793787112369480629863842250183026235767390241,
  373628888621966929787459820007752068555003610104730741303136503119598318215043098695375650849,
  373628888621966929787459820007752068555004696414253427092432488216049651099824030668990755233,
  373628888621966929787459820007752068555004696421477755939532255389587608282718156389337051553,
  373628888621966929787459820007752068555004696467868598434470939220170237285404424950115598369,
  373628888621966929787459820007752068555004699199763329349205510775493090526373401823807823265,
  373628888621966929787459820007752068555004699199763329349205512696201982636471753499299938337,
  373628888621966929787459820007752068555004699199763329349206278474756257069904879404036960673,
  373628888621966929787459820007752068555004699199763329349206278474852450624446887661823983649,
  373628888621966929787459820007752068555004699199763678378898458160043039413486952774511361441,
  373628888621966929787459820007752068555004699199763678378898458160055784129365050183255195681,
  373628888621966929787459820007752068555004699199763679268985951807054266593669553920877572513,
  373628888621966929787459820007752068555004699199763679271256581252685720129858924084069793825,
  373628888730469168874925289188497390379106497784329973121302326345178449729967344285764426967,
  373628888730469168874925289188497390379106497784329973121302326382886258251830677732963510487,
  373628888730469168874925289188523172546078862940285436501171299653656003624316993260861534247,
  373628888730469168874925289188523172546078862940285436501171314435142368767473917845960118311,
  373628888730469168874925289188523172546078862940285436503442696793663600839599887166961136033,
  373628888730469168874925289188523172546078862940285436503442696793759794394141895424748159009,
  373628888730469168874925289188523603209397641292565975264609432551364959766938462901987043543,
  373628888730469168874925289188523604475820606299068130161473818949615643532960847669230168279,
  373628888730469168874925289188523604643610495963830701231337683982137736120411564474800406561,
  373628888730469168874925289188523668983027258491681529392690176705808731818554385836096892967,
  373628888730469168874925289188523668983027258491681529392690191487295096961711310421195477031,
  373628888730469168874925289188523668983027258491681529394961573845816329033837279742196494753,
  373628888730469168874925289188523668983027258491681529394961573845912522588379287999983517729,
  373628888730469168874925289198410387992692023023384290261146027871690096986010647968840429607,
  373628888730469168874925289198410387992692023023384639292815979582335912352224209586394280353,
  373628888730469168874925293140181686728802581246037726476834927788325463959005118144826697943,
  373628888730469168874925293140181686899387951216515575784429050726073853163382949697989241047,
  373628888730469168874925293140181686899396192723732663079793591961408077514459103009010477271,
  373628888730469168874925293140181686899397284650875629672928127774014817207664046551928799265,
  373628888730469168874925293140181686899815989434980875003299728876600557606593910134252515367,
  373628888730469168874925293140181686899815989434980875003299743658086922749750834719351099431,
  373628888730469168874925293140181686899815989434980875005571126016608154821876804040352117153,
  373628888730469168874925293140181686899815989434980875005571126016704348376418812298139140129,
  373628888730469168874925293150483330303295430821975097212968970585045639478079915209043393751,
  373628888730469168874925293150483330303295430829199426177741335438335778447378027638787292375,
  373628888730469168874925293150483330303295430829199775207434280902189579940271324322742549719,
  373628888730469168874925293150483330303295430829199821453071945956267140775130336112186621985,
  373628888730469168874925293150483330303295430829217903494827414511076031560260816481063284775,
  373628888730469168874925293150483330303295430829217903494827429292562396703417741066161868839,
  373628888730469168874925293150483330303295430829217903497098811651083628775543710387162886561,
  373628888730469168874925293150483330303295430829217903497098811651179822330085718644949909537,
  373628888730469168874925293150483330306535450599606478666218320709997360089763011097156661287]

def side6aPaths6 : List ℕ := [
  373628888730469168874925293150483330306535450653240081082276753332360660347010164048993235361,
  373628888730469168874925293150483331569726637335849332449863282490480241790870955421203340119,
  373628888730469168874925293150483331569726637335849332452134664811293599856530400010024950615,
  373628888730469168874925293150483331569726637335849332452441410168675055248052016326075875361,
  373628888730469168874925293150483331572956237322951876862370154580028361947401371792501649447,
  373628888730469168874925293150483331572956240101237451162724686396628420880204918540580958247,
  373628888730469168874925293150483331572956240101237451162724701178114786023361843125679542311,
  373628888730469168874925293150483331572964478876696673308375437076048547241746676069515440545,
  373628888730469168874925293150483331572964478876714753571640094735173759393317198791472099745,
  373628888730469168874925293150483331572964478876714753571640094735269952947859207049259122721,
  373628888730710090838941978927400689427942188090341604625669213761676967398572055611252009175,
  373628888730710090838941978927400689427942188090341604625964342758592202016858413821580922273,
  373628888730710090838941978927400689427942188090341604741360546293404276464211182272653766695,
  373628888730710090838941978927400689427942188090341604741360546293404277090210469952320167329,
  373628888730710090838941978927400689427942188090341649978942946566078513715207990413025516375,
  373628888730710090838941978927400689427942188090341649978942946566078513798146843222384954785,
  373628888730710090838941978927400689427942188090341649978942946603786387095882204377031847975,
  373628888730710090838941978927400689427942188090341649978942946603882548847121011517007551905,
  373628888730710090838941978927400689427942188090359732020698429940165337880346063012746902743,
  373628888730710090838941978927400689427942188090359732020698429940177837287442781166326631841,
  373628888730710090838941978927400689427942188090359732020698429945161298308075027060784050215,
  373628888730710090838941978927400689427942188090359732020698429945161298934074314740450450849,
  373628888730710090838941978927400689427942188090359732022969812260991195270163372945788803927,
  373628888730710090838941978927400689427942188090359732022969812260991195353102225755148242337,
  373628888730710090838941978927400689427942188090359732022975604687933400414030382672212340775,
  373628888730710090838941978927400689427942188090359732022975619464520275879028926178630000033,
  373628888730710090838941978927595359754573427672452177444553971621634076180332559527147941927,
  373628888730710090838941978927595359754573427672452177444553971621634076806331847206814342561,
  373628888730710090838941978927595791858584032173339179901966302074901178174589740284027463895,
  373628888730710090838941978927595792023134988416501937219081741928382110244454059818425896353,
  373628888730710090838941978927595856362550637939258735264913278213638448264853353883689496615,
  373628888730710090838941978927595856362550637939258735264913278213638448890852641563355897249,
  373628888730710090838941979003685740146004797776518494525280176568301024764085044282835455393,
  373628888730710090838941979003855124914932183161492802844323972793034784633523540698390456535,
  373628888730710090838941979003855124914932183168580964223098722773782656069983485127515826391,
  373628888730710090838941979003880410305710478252167723323527343032347793293798313879049981345,
  373628888730710090838941979003880410473080574091490070695110052811909159227740529646043516321,
  373628888730710090838942008897538904057571586203747867773101859358342299662710102186772785367,
  373628888730710090838942008897538904057571586203747867773101859363338228286924286414355807447,
  373628888730710090838942008897538904057571586257399551457901317019813979812028340805975547095,
  373628888730710090838942008897538904057571586257536417998219525326504892911238932898949753047,
  373628888730710090838942008897538904057998550726862455369038623110341974672169726620084070615,
  373628888730710090838942008897538904057999618904926875909648773459740139189723910834840266967,
  373628888730710090838953701183327322497157549817080811050633130468294844068566553011486995665,
  373628888730710090838953701183327322497157549817080811050928274279492050221678415831857419473,
  373628888730710090838953701183327322497157549817080811168600870043518589289537441341657658577,
  373628888730710090838953701183327322497157549817080811168600884825004954432694365926756242641,
  373628888730710090838953701183327323766827708037616044809565561730003310527257122016888370385,
  373628888730710090838953701183327818937772905805534099894408506065922197962925330777459905745,
  373628888730710090838953701183327820204628901391230656337223988203354934627131193655359714513,
  373628888730710090838953701183327820204629990586460764380405029844271346808031950776193266897,
  373628888730710090838953731097122677738069723759232081289869848012784325449887543086014916823,
  373628888730710090838953731097122677738069723759232081289869849933493217559985894761507031895,
  373628888730710090838953731097122677738069723759232081289870615712047491993419020666244054231,
  373628888730710090838953731097122677738069723759232081289870615712143685547961028924031077207,
  373628888730710090838953731097122677738077986398225082482301119699264318867125534356377561303,
  373628888730710090838953731097122677741300412894982735010252265334835018047723694421251315543,
  373628888730710090838953731097122677741308657220235140886426533969532393052517687847576791255,
  373628888730710090838953731097122677741308657227323302265201283950280264488977632276702161111,
  373628888730710090838953731097148396496048747580290328187465465658797267394809693220727548119,
  373628888730710090838953731097148396496048747580290328187465465663793196019023877448310570199,
  373628888730710090838953731097148396496048747633942011872264923320268947544127931839930309847,
  373628888730710090838953731097148396496048747634078878412583131626959860643338523932904515799,
  373628888730710090838953731097148460839130271291439871568603554636114142387137634380529920215,
  373628888730710090838953731097148461003262546660696042084902263345387062432955798480900188375,
  373628888730710182585323902654849740749627527953569489872954361325051202479499210167715227863,
  373628888730710182585323902654849740749627527960675474970038959227340693499831038769027481633,
  373628888730710182585323902654849740749627530685482743460025751004307869023302573827906064423,
  373628888730710182585323902654849740749627530685482743460025765785794480265313967462577995809,
  373628888730710182585323902654849740749628598863547162990010633977189167986243363553801575255,
  373628888730710182585323902654849740749628598863547162990010635973409968525994699279072100385,
  373628888730710182585323902654849740749628598863547163880392503778729331646906766456745611303]

def side6aPaths7 : List ℕ := [
  373628888730710182585323902654849740749628598863547163882663135140073994060494098958961999905,
  373628888730710182585323902654849740750055563332873201253481448484661084415167504971887164631,
  373628888730710182585323902654849740750055563332873201253782403373516822332782995303569686561,
  373628888730710182585323902654849740750055563332873201371454999137543115301787551763796578343,
  373628888730710182585323902654849740750055563332873201371455013919029726543798945398468509729,
  373628888730710182585323902654849740750055563386506499990554159007848625748573302878963669847,
  373628888730710182585323902654849740750055563386506499990554161004069426288324638604234194977,
  373628888730710182585323902654849740750055563386643274395177933378878575076732507559574360103,
  373628888730710182585323902654849740750055563386643623309181066890555006178963733378643394593,
  373628888730710182589920580055975000317512275921725837068901691390289234140579863798015840295,
  373628888730710182589920580055975000317512275921725837068901706171775845382591257432687771681,
  373628888730710182589930783089388520775907431653276444178045565095581085606161155890833123543,
  373628888730710182589930787051373467651077917436559612857389877331820878386135411182910177313,
  373628888730710182589932306273861227664135605526805495568561042214092359193549278482430152743,
  373628888730710182589932306273861227664135605526805495568561056995578970435560672117102084129,
  373628888730710184147972195523307463581768598351121533217858415701879088437551707142075176145,
  373628888730710184147972195523307464848624593936818089660673897839311825101757570019974984913,
  373628888730710184147972195523307464848625683132048197703854939480228237282658327140808537297,
  373628888730710184147972195523502068135626315409973142650697395396931871529436271898292508503,
  373628888730710184147972195523502068135634559735225548526871664031629246534230265324617984215,
  373628888730710184147972195523502068135634559742313709905646414012377117970690209753743354071,
  373628888730710184386614190432797595112178705457111465752168033739355342883441790911196037153,
  373628888730710184390602053389348302720355920414881069992206754617064831177358041114785474775,
  373628888730710184390602053389348302720355920421969231370981504597812702613817985543910844631,
  373628888730710184391210863892372241944114807141802669762575049232412208292576773762229338145,
  373628888730710184391210867844419533805603682457196725626588430443982463737692052807573700641,
  373628888730746055416062530852384671985977772625723917069140933853170264724129664333435758807,
  373628888730746055416062530852384671985986014132941004364505475088504489075205817644456995031,
  373628888730746055416062530852384671985987106060083970957640010901111228768410761187375317025,
  373628888730746055416062530852384671986405810844189216288011612003696969167340624769699033127,
  373628888730746055416062530852384671986405810844189216288011626785183334310497549354797617191,
  373628888730746055416062530852384671986405810844189216290283009143704566382623518675798634913,
  373628888730746055416062530852384671986405810844189216290283009143800759937165526933585657889,
  373628888730746055416062530852384672150546324935151871882797391211994035723958315778798689111,
  373628888730746055416062530852384672150546324935151871885068773532807393789617760367620299607,
  373628888730746055416062530852384672150546324935151871885375518890188849181139376683671224353,
  373628888730746055416062530852384672150546324935288691524709940703329562681996742769830801447,
  373628888730746055416062530852384672150546324935288691524709955484815927825153667354929385511,
  373628888730746055416062530852384672150546324935289040439007465150912388942349779027404042657,
  373628888730746055416062530852384672150546324935289040439007465151008582496891787285191065633,
  373628888730746055416062530852384737759614539451495240834910678391840853170107376607354043607,
  373628888730746055416062530852384737759614539451495589864603623855694654663000673291309300951,
  373628888730746055416062530852384737759614539451495636110241288909772215497859685080753373217,
  373628888730746055416062530852384737759614539451513718151996757464581106282990165449630036007,
  373628888730746055416062530852384737759614539451513718151996772246067471426147090034728620071,
  373628888730746055416062530852384737759614539451513718154268154604588703498273059355729637793,
  373628888730746055416062530852384737759614539451513718154268154604684897052815067613516660769,
  373628888730746055416062530852384737759622780958712723403027702466911626391754777486902074199,
  373628888730746055416062530852384737759622780958712723405299084787724984457414222075723684695,
  373628888730746055416062530852384737759622780958712723405605830145106439848935838391774609441,
  373628888730746055416062530852384737759622801976014835512964018036671963424677567846686404647,
  373628888730746055416062530852384737759622801976014835512964032818158328567834492431784988711,
  373628888730746055416062530852384737759622802029630356890471971065158561460253244949237379489,
  373628888730746055416062530852384737759622802029630356890471971065254755014795253207024402465,
  373628888730746668212236692834058461314470595209056250754087476855594461513882308218554817751,
  373628888730746668212236692834058461314470595209193117294405685162285374613092900311529023703,
  373628888730746761759898697364270911427897792902925530600515083444186350464826591718298628135,
  373628888730746761759898697364270911427897792902925530600515098225672715607983516303397212199,
  373628888730746761759898697364270911427897792902925530602786480584193947680109485624398229921,
  373628888730746761759898697364270911427897792902925530602786480584290141234651493882185252897,
  373628888730746763323142525448125165197658525009286875527633024055514265278808088211291236567,
  373628888730746763327737627695046201080705784613931357958166693833861616261847773521558235351,
  373628888730746763328346438274355256458635528320248292849119617744241597843493368057924288545,
  373628888730746763561796242633509902955218227863569222255000072327594489956964657559206637607,
  373628888730746763561796242633509902955218227863569222255000087109080855100121582144305221671,
  373628888730746763561796242633509902955218227863569222257271469467602087172247551465306239393,
  373628888730746763561796242633509902955218227863569222257271469467698280726789559723093262369,
  373628931155121443742808887161724272512285591416172747756871560003900360920732882228229190865,
  373628931155121443742808887161724272512285591416172747759142938455663465221481222820124551383,
  373628931155121443742808887161724272512285594248109655822251670482542680915978505195872708823,
  373628931155121443742808887161724272512285594255215640919336268384832171936310333797184962593,
  373628931155121443742808887161724272680076570329643685666181389505785841382097821805340841169,
  373628931155121443742808887161724272680076570329643685666181389505785842008096032748607023959]

def side6aPaths8 : List ℕ := [
  373628931155121443742808887161724272680076570329643685666182169995477496579659531945809189719,
  373628931155121443742808887161724272680076570329643685666182171991698297119410867671079714849,
  373628931155121443742808887161724272680076570329644035705900056718315178010256069221584863265,
  373628931155121443742808887161724272680076570329780506196197897840173310568158693138224369703,
  373628931155121443742808887161724272680076570329780855110201046133323394527181736900863066145,
  373628931155121443742808887161724272680076570329780855110501201801359540099850692723149504545,
  373628931155121443742808887161724338289144784845850585011563798441673787183324859667442644177,
  373628931155121443742808887161724338289144784845850585011563798441769980574007632573058137303,
  373628931155121443742808887161724338289144784845850585131496966420178065307548271446657481943,
  373628931155121443742808887161724338289144784845850585131797921309033803225163761778340003873,
  373628931155121443742808887161724338289153026353204537186411700760703432049894283513444226257,
  373628931155121443742808887161724338289153026353204537186411700760703432675892494456710409047,
  373628931155121443742808887161724338289153026353204537186412481250395087247455993653912574807,
  373628931155121443742808887161724338289153026353204537186412483246615887787207329379183099937,
  373628931155121443742808887161724338289153047370506650184451975173515711310839518215079972903,
  373628931155121443742808887161724338289153047424122125438544964197530231771516150099443056673,
  373628931155121443742808887161724338289153047424122171561965707715605712617754158644982841377,
  373628931249562946951573660168459452849017907626396886666117112669016507430616599064149092567]

def side6aPaths9 : List ℕ := [
  373628931249562946951573660168459452849017907626396886666412241665931742048902957274478005665,
  373628931249562946951573660168459452849017907626396886781808445200743816496255725725550850087,
  373628931249562946951573660168459452849017907626396886781808445200743817122255013405217250721,
  373628931249562946951573660168459452849017907626396932019390845473418053747252533865922599767,
  373628931249562946951573660168459452849017907626396932019390845473418053830191386675282038177,
  373628931249562946951573660168459452849017907626396932019390845511125927127926747829928931367,
  373628931249562946951573660168459452849017907626396932019390845511222088879165554969904635297,
  373628931249562946951573660168459452849017907626415014061146328847504877912390606465643986135,
  373628931249562946951573660168459452849017907626415014061146328847517377319487324619223715233,
  373628931249562946951573660168459452849017907626415014061146328852500838340119570513681133607,
  373628931249562946951573660168459452849017907626415014061146328852500838966118858193347534241,
  373628931249562946951573660168459452849017907626415014063417711168330735302207916398685887319,
  373628931249562946951573660168459452849017907626415014063417711168330735385146769208045325729,
  373628931249562946951573660168459452849017907626415014063423503595272940446074926125109424167,
  373628931249562946951573660168459452849017907626415014063423518371859815911073469631527083425,
  373628931249562946951573664120506677668072453864094717521197970076748007423446886502084765911,
  373628931249562946951573664120506677668072453864094717521493099073663242041733244712413679009,
  373628931249562946951573664120506677668072453864094717636889302608475316489086013163486523431,
  373628931249562946951573664120506677668072453864094717636889302608475317115085300843152924065,
  373628931249562946951573664120506677668072453864094762874471702881149553740082821303858273111,
  373628931249562946951573664120506677668072453864094762874471702881149553823021674113217711521,
  373628931249562946951573664120506677668072453864094762874471702918857427120757035267864604711,
  373628931249562946951573664120506677668072453864094762874471702918953588871995842407840308641,
  373628931249562946951573664120506677668072453864112844916227186255236377905220893903579659479,
  373628931249562946951573664120506677668072453864112844916227186255248877312317612057159388577,
  373628931249562946951573664120506677668072453864112844916227186260232338332949857951616806951,
  373628931249562946951573664120506677668072453864112844916227186260232338958949145631283207585,
  373628931249562946951573664120506677668072453864112844918498568576062235295038203836621560663,
  373628931249562946951573664120506677668072453864112844918498568576062235377977056645980999073,
  373628931249562946951573664120506677668072453864112844918504361003004440438905213563045097511,
  373628931249562946951573664120506677668072453864112844918504375779591315903903757069462756769,
  373628931249562946951573694034133212552007462874069370735846115627971786166142405525224239143,
  373628931249562946951573694034133212552007462874069370735846115627971786792141693204890639777,
  373628931249562946951573694100532041971542557593880677200136619163665444294757071053373696215,
  373628931249562946951573694100557327529682707009436225764576143583851436981686361722288197025,
  373628931249562946951573694110443979496059210578124722038518633141831808087288956044349485095,
  373628931249562946951573694110443979496059210578124722038518633141831808713288243724015885729,
  373628931249562946951585386386319962704092372884781549441209712231319956235846233324396072353]

def side6aPaths10 : List ℕ := [
  373628931249562946951585386386345681462063134120635345371491724159015498012059222900923026849,
  373628931249562946951585412414686812653816001225108679300173074493362428727800637738562742487,
  373628931249562946951585412414686812653816001232196840558704426899133598270310590581771462871,
  373628931249562946951585412414686812653817090427426553564767558246026311360912263648769599703,
  373628931249562946951585412414686812653817090427426599692430892087084762079164700849108281559,
  373628931249562946951585416300141101042390960424805656814784968080676212550003156722995023265,
  373628931249562946951585416300141101209761053424865761027846780099183655383339372186536103329,
  373628931249562946951585416300166819968158779190767055217203669463309824464392253931433872801,
  373628931249562946951585416300166819968159868385978686178939749884306404713785952756242959777,
  373628931249562946956178995438924987195043997172897247750165588254878245116090464192147613911,
  373628931249562946956178995438924987195043997172897247750165588259874173740304648419730635991,
  373628931249562946956178995438924987195045086368108878711901668675874825365484163016956700887,
  373628931249562946956178995438924987195045086368108878711901668680870753989698347244539722967,
  373628931249562946956178995438924987195053330646815797307727690692398079440579426654177336535,
  373628931249562946956178995438924987195053351678275499855434353596886736756291050472013949143,
  373628931249562946956178995438925052804121566187394237052199433185412527255314108866076731607,
  373628931249562946956178995438925052804121566194482398310730785591183696797824061709285451991,
  373628931249562946956178995438925052968262080285599955591756165216712423153688153951606270167,
  373628931249562946956178995438925052968262080285600001719419499057770873871940591151944952023,
  373628931249562948752862398830430370240581933852588146630201260877954891528753850509911930065,
  373628931249562948752862398830430370240581933852588146630496404689152097681865713330282353873,
  373628931249562948752862398830430370240581933852588146748169000453178636749724738840082592977,
  373628931249562948752862398830430370240581933852588146748169015234665001892881663425181177041,
  373628931249562948752862398830456088998552695088441942560483272805650433304966840086438884561,
  373628931249562948752862398830456088998552695088441942560778416616847639458078702906809308369,
  373628931249562948752862398830456088998552695088441942678451012380874178525937728416609547473,
  373628931249562948752862398830456088998552695088441942678451027162360543669094653001708131537,
  373628931249562948752862398830651190327750565834050187442226837225713103730017209418989188305]

def side6aPaths11 : List ℕ := [
  373628931249562948752862398906741138283258520915695044697821359257995534673629598526858319057,
  373628931249562948752862398906741138450628613915755148910883171276502977506965813990399399121,
  373628931249562948752862398906935808610324966528119165012972426360608048705909860376890848465,
  373628931249562948752862398906935808610326055723330795974708506781604628955303559201699935441,
  373628931249562948752862398906935808777696151501950159659723795703468983170793726403398087889,
  373628931249562948752862398906935808777696151509038320918255148109240152713303679246606808273,
  373628931249562948757459072279923827093492557962308196869765423770442005904244541376783050967,
  373628931249562948757459072279923827093492557962308196869765425691150898014342893052275166039,
  373628931249562948757459072279923827093492557962308196869766191469705172447776018957012188375,
  373628931249562948757459072279923827093492557962308196869766191469801366002318027214799211351,
  373628931249562948757459072279923827260862650962368301082827235788949448737580756840324131031,
  373628931249562948757459072279923827260862650962368301082827237709658340847679108515816246103,
  373628931249562948757459072279923827260862650962368301082828003488212615281112234420553268439,
  373628931249562948757459072279923827260862650962368301082828003488308808835654242678340291415,
  373628931249562948757459072279923828530524570461214781769552049301316822115017404658741799127,
  373628931249562948757459072279924323701468679087536377230149558116146790633544474189595531095,
  373628931249562948757459072279924323701469768282748008191885638537143370882938173014404618071,
  373628931249562948757459072279924324968325763807741580948133699821862525044428170307501156567,
  373628931249562948757459072279924324968325763814829742206665052227633694586938123150709876951,
  373628931249562948757459072279924324968326853010059455212728183574526407677539796217708013783,
  373628931249562948757459072279924324968326853010059501340391517415584858395792233418046695639,
  373628931249562948757459076231971053349569762193534360519364141367039830467647105816811137239,
  373628931249562948757459076231971053349569762193534360519364141372035759091861290044394159319,
  373628931249562948757459076231971053349570851388745991481100221788036410717040804641620224215,
  373628931249562948757459076231971053349570851388745991481100221793032339341254988869203246295,
  373628931249562948757459076231971053349579095667452910076926243804559664792136068278840859863,
  373628931249562948757459076231971053349579116698912612624632906709048322107847692096677472471,
  373628931249562948757459076241858268628830401411477126997837409439792280083892210017109666007,
  373628931249562948757459076241858268628830401418565288256368761845563449626402162860318386391,
  373628931249562948757459076241883489850792742798751109744025953265525671138471398103369509079,
  373628931249562948757459076241883489850792742798751155871689287106584121856723835303708190935,
  373628931263660969669886177079951329275122436135227525337532452357918204200343073476466829527,
  373628931263660969669886177079951329275122436142333510434617050260207695220674902077779083297,
  373628931263660969669886177079951329275122438867140778924603842037174870744146437136657666087,
  373628931263660969669886177079951329275122438867140778924603856818661481986157830771329597473,
  373628931263660969669886177079951329275123507045205198454588725010056169707087226862553176919,
  373628931263660969669886177079951329275123507045205198454588727006276970246838562587823702049,
  373628931263660969669886177079951329275123507045205199344970594811596333367750629765497212967,
  373628931263660969669886177079951329275123507045205199347241226172940995781337962267713601569,
  373628931263660969669886177079951329275550471514531236718059539517528086136011368280638766295]

def side6aPaths12 : List ℕ := [
  373628931263660969669886177079951329275550471514531236718360494406383824053626858612321288225,
  373628931263660969669886177079951329275550471514531236836033090170410117022631415072548180007,
  373628931263660969669886177079951329275550471514531236836033104951896728264642808707220111393,
  373628931263660969669886177079951329275550471568164535455132250040715627469417166187715271511,
  373628931263660969669886177079951329275550471568164535455132252036936428009168501912985796641,
  373628931263660969669886177079951329275550471568301309859756024411745576797576370868325961767,
  373628931263660969669886177079951329275550471568301658773759157923422007899807596687394996257,
  373628931263661062988094868010067802949369370709106747056359291972046470860179008725524801751,
  373628931263661062988094868010067802949369370716212732153443889874335961880510837326837055521,
  373628931263661062988094868010067802949369373441020000643430681651303137403982372385715638311,
  373628931263661062988094868010067802949369373441020000643430696432789748645993766020387569697,
  373628931263661062988094868010067802949370441619084420173415564624184436366923162111611149143,
  373628931263661062988094868010067802949370441619084420173415566620405236906674497836881674273,
  373628931263661062988094868010067802949370441619084421063797434425724600027586565014555185191,
  373628931263661062988094868010067802949370441619084421066068065787069262441173897516771573793,
  373628931263661062988094868010067802949797406088410458436886379131656352795847303529696738519,
  373628931263661062988094868010067802949797406088410458437187334020512090713462793861379260449,
  373628931263661062988094868010067802949797406088410458554859929784538383682467350321606152231,
  373628931263661062988094868010067802949797406088410458554859944566024994924478743956278083617,
  373628931263661062988094868010067802949797406142043757173959089654843894129253101436773243735,
  373628931263661062988094868010067802949797406142043757173959091651064694669004437162043768865,
  373628931263661062988094868010067802949797406142180531578582864025873843457412306117383933991,
  373628931263661062988094868010067802949797406142180880492585997537550274559643531936452968481,
  373628931263661769327337515256684067144281179534411195376409954931873987680694596229057204263,
  373628931263661769327337515256684067144281179534411195376409969713360598922705989863729135649,
  373628931263661770895176411818428393554400242673658396644009428920961009284764875238257846487,
  373628931263661770895785226273305021017922574679024648750189787358774157660674959267439181857,
  373628931263661771129235030632654204093369407865922313759177133606244775333113102937375625255,
  373628931263661771129235030632654204093369407865922313759177148387731386575124496572047556641,
  373628931263901185770776657538855713237357846063049259304735658937613427661127290767769064657,
  373628931263901185770776657538855713404727939063109363517797470956120870494463506231310144721,
  373628931263901185770776657539050383564424291675473379619886726040225941693407552617801594065,
  373628931263901185770776657539050383564425380870685010581622806461222521942801251442610681041,
  373628931263901185770776657539050383731795476649304374266638095383086876158291418644308833489,
  373628931263901185770776657539050383731795476656392535525169447788858045700801371487517553873,
  373628931263901185770776687442569877396952742573536038590615420167040204515049906247470536535,
  373628931263901185770776687442569877396953831768747669552351500588036784764443605072279623511,
  373628931263901185770776687442569878663809827293741242308599561872755938925933602365376162007,
  373628931263901185770776687442569878663809827300829403567130914278527108468443555208584882391,
  373628931263901185770776687442569878663810916496059116573194045625419821559045228275583019223,
  373628931263901185770776687442569878663810916496059162700857379466478272277297665475921701079,
  373628931263937856453675171939135999569143197123080705264729992475804893416770782315036147745,
  373628931263937856454282459323890594766936266722561220409602694129019791690059645262344880161]

def side6aPaths13 : List ℕ := [
  373628931263938469245255784838361105286977305879791691559959282246434540512472622662645573847,
  373628931263938469245255784838361105286977305886879852818490634652205710054982575505854294231,
  373628931263938469245255784838361105286978395082109565824553765999098423145584248572852431063,
  373628931263938469245255784838361105286978395082109611952217099840156873863836685773191112919,
  373628931263938562797512917557105297998351831332540964062809155892823860109293302139209252897,
  373628931263938562797512921509152522817406377570238794917890013300555360102123589577144926241,
  373628931263938562798120208903988871307107944624467418946373202628930077484240581986560901153,
  373628931263938562798120208904014590065078705860321214876655214556625619260453571563087855649,
  373645598653944694552798976791505229750605392826734710458548054180554409946177457217251961047,
  373645598653944694552798976791505229750605392826734710458843183177469644564463815427580874145,
  373645598653944694552798976791505229750605392826734710574239386712281719011816583878653718567,
  373645598653944694552798976791505229750605392826734710574239386712281719637815871558320119201,
  373645598653944694552798976791505229750605392826734755811821786984955956262813392019025468247,
  373645598653944694552798976791505229750605392826734755811821786984955956345752244828384906657,
  373645598653944694552798976791505229750605392826734755811821787022663829643487605983031799847,
  373645598653944694552798976791505229750605392826734755811821787022759991394726413123007503777,
  373645598653944694552798976791505229750605392826752837853577270359042780427951464618746854615,
  373645598653944694552798976791505229750605392826752837853577270359055279835048182772326583713,
  373645598653944694552798976791505229750605392826752837853577270364038740855680428666784002087,
  373645598653944694552798976791505229750605392826752837853577270364038741481679716346450402721,
  373645598653944694552798976791505229750605392826752837855848652679868637817768774551788755799,
  373645598653944694552798976791505229750605392826752837855848652679868637900707627361148194209,
  373645598653944694552798976791505229750605392826752837855854445106810842961635784278212292647,
  373645598653944694552798976791505229750605392826752837855854459883397718426634327784629951905,
  373645598653944694552798976791505229750613634319794253677162964948585562273340239498929451047,
  373645598653944694552798976791505229750613634319794253677162964948585562899339527178595851681,
  373645598653944694552798976791505229750613652619478266346522425893992619416306182533639956695,
  373645598653944694552798976791505229750613652626447036526370423875609189581354423005499739553,
  373645598653944694552798976791505229750613655351235827935206647284372576153503986275710087207,
  373645598653944694552798976791505229750613655351235827935206647284372576779503273955376487841,
  373645598653944694552798976791505295353228754242003453276237622580369781294137566652281335847,
  373645598653944694552798976791505295353228754242003453276237622580369781920136854331947736481,
  373645598653944694552798976791505295353228754242122495207554668044560055482189676220743542999,
  373645598653944694552798976791505295353228754242122540558256069504659753592242416737851395489,
  373645598653944694552798976791505295353228754242140272680538611995377997811063234331559538727,
  373645598653944694552798976791505295353228754242140272680538611995377998437062522011225939361,
  373645598653944694552798976791505295523814121434059212322533199641438547061826997897182963927,
  373645598653944694552798976791505295523814121434059212322828328638353781680113356107511877025,
  373645598653944694552798976791505295523814121434059212438224532173165856127466124558584721447,
  373645598653944694552798976791505295523814121434059212438224532173165856753465412238251122081,
  373645598653944694552798976791505295524250419391479167166512388116257636457618908883511557335,
  373645598653944694552798976791505295524250419391479167166512388116270135864715627037091286433,
  373645598653944694552798976791505295524250419391479167166512388121253596885347872931548704807,
  373645598653944694552798976791505295524250419391479167166512388121253597511347160611215105441,
  373645598653944694552798976791505295524250419445112815823358209977319516511592846801135115095,
  373645598653944694552798976791505295524250419445112815823358209977319516594531699610494553505,
  373645598653944694552798976791505295524250419445249590230259159048418043218570255928721092647,
  373645598653944694552798976791505295524250419445249939144262307379275935616728822037021482401]

def side6aPaths14 : List ℕ := [
  373645598653944694552799006695024292748800568095491737111787685335863584813668505387922567207]

def side6aPaths15 : List ℕ := [
  373645598653944694552799006695024292748800568095491737111787685335863585439667793067588967841]

def side6aPaths16 : List ℕ := [
  373645598653944694552799006695024292748800568095610779043104730800053859001720614956384774359,
  373645598653944694552799006695024292748800568095610824393806132260153557111773355473492626849,
  373645598653944694552799006695024292748800568095628556516088674750871801330594173067200770087,
  373645598653944694552799006695024292748800568095628556516088674750871801956593460746867170721,
  373645598653944694552799006695024292748801657183573682139373814326367593923945371652888062167,
  373645598653944694552799006695024292748801657183573682139668943323282828542231729863216975265,
  373645598653944694552799006695024292748801657183573682255065146858094902989584498314289819687,
  373645598653944694552799006695024292748801657183573682255065146858094903615583785993956220321,
  373645598653944694552799006695024292748801660022735268314610397199387903996713406977926905047,
  373645598653944694552799006695024292748801660022735268314610397199400403403810125131506634145,
  373645598653944694552799006695024292748801660022735268314610397204383864424442371025964052519,
  373645598653944694552799006695024292748801660022735268314610397204383865050441658705630453153,
  373645598653944694552799006695024292748801660022735617346574723035629974780224175478033783639,
  373645598653944694552799006695024292748801660022735617346574723035629974863163028287393222049,
  373645598653944694552799006695024292748801660022735618236662231464102388003474105273545863207,
  373645598653944694552799006695024292748801660022735618238932860909830034930347325078753795489,
  373645598653944694552799006771334993915978802199333542953553417857025067110511625959979477207,
  373645598653944694552799006771334993915978802199333542953848546853940301728797984170308390305,
  373645598653944694552799006771334993915978802199333543069244750388752376176150752621381234727,
  373645598653944694552799006771334993915978802199333543069244750388752376802150040301047635361,
  373645598653944694552799006771334993915978802199333588306827150661426613427147560761752984407,
  373645598653944694552799006771334993915978802199333588306827150661426613510086413571112422817,
  373645598653944694552799006771334993915978802199333588306827150699134486807821774725759316007,
  373645598653944694552799006771334993915978802199333588306827150699230648559060581865735019937,
  373645598653944694552799006771334993915978802199351670348582634035513437592285633361474370775,
  373645598653944694552799006771334993915978802199351670348582634035525936999382351515054099873,
  373645598653944694552799006771334993915978802199351670348582634040509398020014597409511518247,
  373645598653944694552799006771334993915978802199351670348582634040509398646013885089177918881,
  373645598653944694552799006771334993915978802199351670350854016356339294982102943294516271959,
  373645598653944694552799006771334993915978802199351670350854016356339295065041796103875710369,
  373645598653944694552799006771334993915978802199351670350859808783281500125969953020939808807,
  373645598653944694552799006771334993915978802199351670350859823559868375590968496527357468065,
  373645598653944694552799006771529664242610041781444115772438175716982175892272129875875409959,
  373645598653944694552799006771529664242610041781444115772438175716982176518271417555541810593,
  373645598653944694552799006771530096346620646282331118229850506170249277886529310632754931927,
  373645598653944694552799006771530096511171602525493875546965946023730209956393630167153364385,
  373645598653944694552799006771530160850587252048250673592797482308986547976792924232416964647,
  373645598653944694552799006771530160850587252048250673592797482308986548602792211912083365281,
  373645598653944694790855631691565448243459521762939095158738028642642076361062021624198981847,
  373645598653944694790855631691565448243459521762939095159033157639557310979348379834527894945,
  373645598653944694790855631691565448243459521762939095274429361174369385426701148285600739367,
  373645598653944694790855631691565448243459521762939095274429361174369386052700435965267140001,
  373645598653944694790855631691565448243459521762939140512011761447043622677697956425972489047,
  373645598653944694790855631691565448243459521762939140512011761447043622760636809235331927457,
  373645598653944694790855631691565448243459521762939140512011761484751496058372170389978820647,
  373645598653944694790855631691565448243459521762939140512011761484847657809610977529954524577,
  373645598653944694790855631691565448243459521762957222553767244821130446842836029025693875415,
  373645598653944694790855631691565448243459521762957222553767244821142946249932747179273604513,
  373645598653944694790855631691565448243459521762957222553767244826126407270564993073731022887,
  373645598653944694790855631691565448243459521762957222553767244826126407896564280753397423521,
  373645598653944694790855631691565448243459521762957222556038627141956304232653338958735776599,
  373645598653944694790855631691565448243459521762957222556038627141956304315592191768095215009,
  373645598653944694790855631691565448243459521762957222556044419568898509376520348685159313447,
  373645598653944694790855631691565448243459521762957222556044434345485384841518892191576972705,
  373645598653944694791451200838644925492013046427020757920767404545351674372103040501858035927,
  373645598653944694791451200838644925492013046427020757921062533542266908990389398712186949025,
  373645598653944694791451200838644925492013046427020758036458737077078983437742167163259793447]

def side6aPaths17 : List ℕ := [
  373645598653944694791451200838644925492013046427020758036458737077078984063741454842926194081,
  373645598653944694791451200838644925492013046427020803274041137349753220688738975303631543127,
  373645598653944694791451200838644925492013046427020803274041137349753220771677828112990981537,
  373645598653944694791451200838644925492013046427020803274041137387461094069413189267637874727,
  373645598653944694791451200838644925492013046427020803274041137387557255820651996407613578657,
  373645598653944694791451200838644925492013046427038885315796620723840044853877047903352929495,
  373645598653944694791451200838644925492013046427038885315796620723852544260973766056932658593,
  373645598653944694791451200838644925492013046427038885315796620728836005281606011951390076967,
  373645598653944694791451200838644925492013046427038885315796620728836005907605299631056477601,
  373645598653944694791451200838644925492013046427038885318068003044665902243694357836394830679,
  373645598653944694791451200838644925492013046427038885318068003044665902326633210645754269089,
  373645598653944694791451200838644925492013046427038885318073795471608107387561367562818367527,
  373645598653944694791451200838644925492013046427038885318073810248194982852559911069236026785,
  373645598653944694796047848270242495132344251665552070658315307896736919188276513800131391527,
  373645598653944694796047848270242495132344251665552070658315307896736919814275801479797792161,
  373645598653944694796058051379965922299896213076390304075362573451290656945180514705017006295,
  373645598653944694796058055265445928347816026021488893930709084134671961436091171891765431713,
  373645598653944694796059574487933689630089983879522879961461721712885370125012628339500986407,
  373645598653944694796059574487933689630089983879522879961461721712885370751011916019167387041,
  373645598653944696592741454771276700457276402992898115334657422421513355485575928674938899873,
  373645598653944696592741458647065089927010683979496564429193306098730548254201052588274994593,
  373645598653944696596741077658648043166338383113388988015172975730725039052983818498853169367,
  373645598653944696596741077658648043166339451291453408435539728505146501676588011127692716247,
  373645598653944696596741077658648043333709547070072772120555783200690575063264799310857496791,
  373645598653944696596741077658648043333709547077024159982517077757338680159205446464339306711,
  373645598653944696597338132106419481422111890784775364187526320688855753796160018124619238817,
  373645598653944696597338132106444703910069185494538136199507621031705589913876390372666363297,
  373645598653944696597338136058491994338201276951026531463209308547200953272991695516297186721,
  373645598653944696597338136058491994502341791042126006699907637246833546787647813516428955041,
  373645598653945402465082914193500680819260805964205772535245186473126196571395684394070567127,
  373645598653945402465082914193500680819260805964205772535245186478122125195609868621653589207,
  373645598653945402465082914193500680819260805964205772537516564892080982193895234562102009047,
  373645598653945402465082914193500680819260805964205772537522361215898298677351040005498857687,
  373645598653945402465082914193500680819260805964223852800781222551206194345465757284058668247,
  373645598653945402465082914193500680819260805964223852800781222588914002867329090731257751767,
  373645598653945402465082914193500680819260805964223899814583070124883218415259529182200850647,
  373645598653945402465082914193500680819260805964223899934828001177786235322391613411842768087,
  373645598653945402465082914193500680819269047457265315637868609003686085738387050744860777687,
  373645598653945402465082914193500680819269047457265315637868609041393894260250384192059861207,
  373645598653945402465082914193500680819269047457265315638168764709430039832919340014346299607,
  373645598653945402465082914193500680819269047457265315638169547190263052705056832694394731735,
  373645598653945402465082914193500680819269068488706889896212447045217053713083086791126935767,
  373645598653945402465082914193500680819269068488706889896212447050212982337297271018709957847,
  373645598653945402465082914193500680819269068542358573581011904706688733862401325410329697495,
  373645598653945402465082914193500680819269068542495440121330113013379646961611917503303903447,
  373645598653945402465082914193500746428337283004931916523499263806468597314076509470926170327,
  373645598653945402465082914193500746428337283004931916523499263811464525938290693698509192407,
  373645598653945402465082914193500746592477797096031391760197592506101190828732627471057938647,
  373645598653945402465082914193500746592477797096031391760197592511097119452946811698640960727,
  373645598653945402465082914193500747859326619298823290346347256693397621275679345420913482967,
  373645598653945402465082914193500747862558397522418807746426519967975466102593900640842934487,
  373645598653945402465082914193526399744601681277988297092135093491222778179447440636853230807,
  373645598653945402465082914193526464084453628804829533183613048352811477428231589534852324567,
  373645598653945402465082914193526464087684294077082965321868537724928903453378626169279225047,
  373645598653945402465082914193526960692422576554377732795664719561435797836317746238520420567,
  373645598653945402465082914193526960692422597578594675302902187384018654702116014844287772887,
  373645598653945402465082914203582499720245783238239284878769601316915927453185415705648556247,
  373645598653945402465082914203582499720245783292009357902492535558251387228130371501426338007,
  373645598653945402465082914203582499720672747761335395393555030917065170883011156808477305047,
  373645598653945402465082914203582499720673815939399815813921783691486633506615349437316851927,
  373645598653945402465082914203607720938978548494975079486690071498549385020611000288638789847,
  373645598653945402465082914203607720942210323933041867511092517874250266502595707508313680087,
  373645598653945402465082914203607722208631110649162633063485484344718580256002743789742057687,
  373645598653945402465082914203607722208631110649162982983265157677016589779767418306582669527]

def side6aPaths18 : List ℕ := [
  373645598653945402465082914203607722208631113427721847297857326711373100177672294404987676887,
  373645598653945402465082914203607722208631113434673235159818621268021205273612941558469486807,
  373645598654221488023580117350427762249350406570719651869882056259561396296431731941512590545,
  373645598654221488023580117350427762249350406570719651870177200070758602449543594761883014353,
  373645598654221488023580117350427762249350406570719651987849795834785141517402620271683253457,
  373645598654221488023580117350427762249350406570719651987849810616271506660559544856781837521,
  373645598654221488023580117350427762249350406624471992771629163761908713426956883509918840017,
  373645598654221488023580117350427762249777329098842148927293677803230226927607724878057977041,
  373645598654221488023580117350427762249778439218110109781311304392796642574916709877403104465,
  373645598654221488023580117350427762249778442057408562378893325452117484908541922043368649937,
  373645598654221488023580117350427762249778442057408911410863447574552544840476075885990040785,
  373645598654221488023580117350622365533548385246110562402693482247099679068665614370318595281,
  373645598654221488023580117350622365533548385253198025717833956677096705888684815083396412625,
  373645598654221488023580117350622365533548385253216502144232950204883800573027677291820430545,
  373645598654221488023580117350622365533548385253216502146504347307170843924570389657131472081,
  373645598654221488023580117350622862141089300348113007495353832377348753586735019205730251985,
  373645598654221488023580117350622862141089300348113007495648976188545959739846882026100675793,
  373645598654221488023580117350622862141089300348113007613321571952572498807705907535900914897,
  373645598654221488023580117350622862141089300348113007613321586734058863950862832120999498961,
  373645598654221488023580117350622863410759458568648241254286263639057220045425588211131626705,
  373645598654221488023581666552940387589172960025848609884672118928595536288013461458929857745,
  373645598654221488023581666552940387589172960025848609884967262739792742441125324279300281553,
  373645598654221488023581666552940387589172960025848610002639858503819281508984349789100520657,
  373645598654221488023581666552940387589172960025848610002639873285305646652141274374199104721,
  373645598654221488023581670428728777058907241012447058979208002605812729056638585372265952465,
  373645598654221488023581670428728777058907241012447058979503146417009935209750448192636376273,
  373645598654221488023581670428728777058907241012447059097175742181036474277609473702436615377,
  373645598654221488023581670428728777058907241012447059097175756962522839420766398287535199441,
  373645598654221488023581700408778930647274430484148918023200152013290032817131906526037685457,
  373645598654221488023593392694542062094927162811675023091540192285170804119415131515344114897,
  373645598654221488023593392694567284582884457521437795103521492628020640237131503763391239377,
  373645598654221488023593422608362704163212283825626188473469940755198054108991809098183619793,
  373645598654221488023593422608362704327352797916725663710168269454830647623647927098315388113,
  373645598654221488023593422608388423085750523682626958017197005539323537925627304931152901329,
  373645598654221488023593422608388423085751591860691378437563758313745000549231497559992448209,
  373645598654222194366810609429153644770227907432900561630025224023546576696911373462640650455,
  373645598654222194366810609429153644770227907432900561630025225944255468807009725138132765527,
  373645598654222194366810609429153644770227907432900561630025991722809743240442851042869787863]

def side6aPaths19 : List ℕ := [
  373645598654222194366810609429153644770227907432900561630025991722905936794984859300656810839,
  373645598654222194366810609429153644770227907432900911434409476334481488890509942581963122903,
  373645598654222194366810609429153644770227910211186484959478169486514764879118208999870818519,
  373645598654222194366810609429153644770227910218410813806578687614551192190756896714527467735,
  373645598654222194366810609429153644770227910218429291123664000908628265030474290672853204183,
  373645598654222194366810609429153644770227910218429291125935398048635829815068808153550326615,
  373645598654222194366810609429153646036648696934531883155630003356545766736756569695215806679,
  373645598654222194366810609429153646036648696934531929278751327417317515467928607512796457175,
  373645598654222194366810609429153646036648696934531929398990462146294554898730124737795210455,
  373645598654222194366810609429153646036648696934531929398990476927877113513912285443701377879,
  373645598654222194366810609429153646039880472372598717303153773793018396949913314732471347415,
  373645598654222194366810609429153646039880472372598717303153775713727289060011666407963462487,
  373645598654222194366810609429153646039880472372598717303154541492281563493444792312700484823,
  373645598654222194366810609429153646039880472372598717303154541492377757047986800570487507799,
  373645598654222194366810609429153646039888735011591718495585045479498390367151306002833991895,
  373645598654222194366810609439235397897995893575090372704564574750214300003215983402050775255,
  373645598654222194366810609439235397897995893575090372704564576670923192113314335077542890327,
  373645598654222194366810609439235397897995893575090372704565342449477466546747460982279912663,
  373645598654222194366810609439235397897995893575090372704565342449573660101289469240066935639,
  373645598654222194366810609439260620385953188284853144716545875093064136120932355650097899735,
  373645598654222194366810609439260620385953188284853144716545877013773028231030707325590014807,
  373645598654222194366810609439260620385953188284853144716546642792327302664463833230327037143,
  373645598654222194366810609439260620385953188284853144716546642792423496219005841488114060119,
  373645598654222194366810609439455721711921459104234858728019245512612029429083649989182875863,
  373645598654222194366810609515545669670659014112124328780244023860437622155885648396259284823,
  373645598654222194366810609515545669834799528203223804016942352560070215670541766396391053143,
  373645598654222194366810609515740339994495880815587820236703454369525437306148491851314358487,
  373645598654222194366810609515740339994496948993652240657070207143946899929752684480153905367,
  373645598654222194366810609515740340161867044772271604342086261839490973316429472663318685911,
  373645598654222194366810609515740340161867044779222992204047556396139078412370119816800495831,
  373645598654222194367417896824210249866416937145502338661710613670977658171174296689719240919,
  373645598654222194367417896824210249866416937145502338661710613675973586795388480917302262999,
  373645598654222194367417896824210249866416937145502338663981992089932443793673846857750682839,
  373645598654222194367417896824210249866416937145502338663987788413749760277129652301147531479,
  373645598654222194367417896824210249866416937145520418927246649749057655945244369579707342039,
  373645598654222194367417896824210249866416937145520418927246649786765464467107703026906425559,
  373645598654222194367417896824210249866416937145520465941048497322734680015038141477849524439,
  373645598654222194367417896824210249866416937145520466061293428375637696922170225707491441879,
  373645598654222194367417896824210249866425178638561881764334036201537547338165663040509451479,
  373645598654222194367417896824210249866425178638561881764334036239245355860028996487708534999,
  373645598654222194367417896824210249866425178638561881764634191907281501432697952309994973399,
  373645598654222194367417896824210249866425178638561881764634974388114514304835444990043405527,
  373645598654222194367417896824210249866425199670003456022677874243068515312861699086775609559,
  373645598654222194367417896824210249866425199670003456022677874248064443937075883314358631639,
  373645598654222194367417896824210249866425199723655139707477331904540195462179937705978371287,
  373645598654222194367417896824210249866425199723792006247795540211231108561390529798952577239,
  373645598654222194367417896824210315475493414186228482649964691004320058913855121766574844119,
  373645598654222194367417896824210315475493414186228482649964691009315987538069305994157866199]

def side6aPaths20 : List ℕ := [
  373645598654222194367417896824210315639633928277327957886663019703952652428511239766706612439,
  373645598654222194367417896824210315639633928277327957886663019708948581052725423994289634519,
  373645598654222194367417896824210316906482750480119856472812683891249082875457957716562156759,
  373645598654222194367417896824210316909714528703715373872891947165826927702372512936491608279,
  373645598654222194367419416133258987778701656711439891392752754327254578078520688030480197847,
  373645598654222194367419416133258987778701656765209964416475688568590037853465643826257979607,
  373645598654222194367419416133258987779128621234536001907538183927403821508346429133308946647,
  373645598654222194367419416133258987779129689412600422327904936701825284131950621762148493527,
  373645598654222194367419420008657738242613445679300676457462923646722387202080840565106796759,
  373645598654222194367419420008658234850162602281551088863816294527767809301280283225865447639,
  373645598654222194367419420008852839400355531508114287448196217183656913988432080336086231255,
  373645598654222194367419420008852839400355531508114637367975890515954923512196754852926843095,
  373645598654222194367419420008852839400355534286673501682568059550311433910101630951331850455,
  373645598654222194367419420008852839400355534293624889544529354106959539006042278104813660375,
  380164703385978490656433378345824642329466658740462052945835157058351099009774710124167424215,
  380164703385978490656433378345824642329466658740462099187218615466687556168053736386249903137,
  380164703385978490656433378345824642329466658740479831429438588829295434182267538456511696935,
  380164703385978490656433378345824642329466658740479831429438588829391627738407010301602188321,
  380164703385978490656433378345824642329466658747431219291394089043288125883153003193949395799,
  380164703385978490656433378345824642329466658747431219291394089043301116073269181537101827105,
  380164703385978490656433378345824642329466658747431219291399883385943539278208185609993506855,
  380164703385978490656433378345824642329466658747431219291399898162542881639866006423865674785,
  380164703385978490656433378345824642329466661525990083605991284683316329813709266019907681495,
  380164703385978490656433378345824642329466661525990083605991286641745775244277399390964960289,
  380164703385978490656433378345824642329466661525990083605992052420300049676113061708398514215,
  380164703385978490656433378345824642329466661525990083605992052420396243232252533553489005601,
  380164703385978490656433378345824642329466661525990432635684232105586586547054517731767786327,
  380164703385978490656433378345824642329466661525990432635684232105599576737170696074920217633,
  380164703385978490656433378345824642329466661525990433525771725752598059199877736225239126055,
  380164703385978490656433378345824642329466661525990433528042355198229512737664569975734815777,
  380164703385978490656433378345824643595887448242111199078164692223066372953284772506667503655,
  380164703385978490656433378345824643595887448242111199078164692223162566509424244351757995041,
  380164703385978490656433378345824643598699429854911141399262053459206919383269444406974474455,
  380164703385978490656433378345824643598700521735334939693133254381733031646376589710783958049,
  380164703385978490656433378345824643599119223680177987102567138598767254435269479726342393895,
  380164703385978490656433378345824643599119223680177987102567138598863447991408951571432885281,
  380164703385978490656433378345825074266096729318983989948514219897629817274003512030065317073,
  380164703385978490656433378345825074266096729372635627507921724118147545089932895159736612049,
  380164703385978490656433378345825074266096729372635673635585057959205995808185332360075293905,
  380164703385978490656433378345825074266104970865813909751581478437315276197806917478528964439,
  380164703385978490656433378345825074266104970865814258900618073915138452203428376827388356823,
  380164703385978490656433378345825074266104970865814258900918259146121903489680968536814119127,
  380164703385978490656433378345825138769645722342533715135614668239238630212158903598422445089,
  380164703385978490656433378345825139868720090788023458499692731546922671224225703980740241623,
  380164703385978490656433378345825139868720090788023458499992916777906122510478295690166003927,
  380164703385978490656433378345825140036501715088968028302236642075004487677757719645279767585,
  380164703385978490656433378345825140036502804284179659263972722496001067927151418470088854561,
  380164703385978490656433382231499750805208089877152925526400236781496284116903983966357042385,
  380164703385978490656433382231499750805208089877152925528671615233259388417652324558252402903,
  380164703385978490656433382231499750805208089877171005791936272892384600569222847280209062103,
  380164703385978490656433382231499750805208089877171052033319731300721057727501873542291541025,
  380164703385978490656433382231499750973007310283802145677098442150869872488115884683549005009,
  380164703385978490656433382231499750973007310283802145677098442150869873114114095626815187799,
  380164703385978490656433382231499750973007310283802145677098442155852843977726169011366304599,
  380164703385978490656433382231499750973007310283802145677098442155865834167842347354518735905,
  380164703385978490656433382231499750973007310283802495719088487815078831688302982335238884385,
  380164703385978490656433382231499750973007310283938966209386314150396614573455220376350674983,
  380164703385978490656433382231499750973007310283939315123389477230087048205228650014517087265,
  380164703385978490656433382231499750973007310283939315123689632898026967959508730984613563425,
  380164703385978490656433382231499816582075524800008695995653830640818339855444094271713522897]

def side6aPaths21 : List ℕ := [
  380164703385978490656433382231499816582075524800008695995653830640914533246126867177329016023,
  380164703385978490656433382231499816582075524800008695995654596344149319331771430840140971223,
  380164703385978490656433382231499816582075524800008695995654598302578764762339564211198250017,
  380164703385978490656433382231499816582083766307362997197328753405787463155912346391652390097,
  380164703385978490656433382231499816582083766307362997197328753405787463781910557334918572887,
  380164703385978490656433382231499816582083766307362997197328753410770434645522630719469689687,
  380164703385978490656433382231499816582083766307362997197328753410783424835638809062622120993,
  380164703385978490656433382231499816582083787324665110197640391483739015316136045453206278183,
  380164703385978490656433382231499816582083787378280585451733395294293885449563063213097077793,
  380164703385978490656433382231499816582083787378280631575154138812273140477412196906446900257,
  380164703385978490656434927405848922397819388031129222230153887132905999345260450108424245287,
  380164703385978490656434927405848922397819388031129222230153887133002192901399921953514736673,
  380164703385978490656434927405848922397819406323451690484967414008354958429950575096766261463,
  380164703385978490656434927405848922397819406330557326312782061227209215330541462733372541985,
  380164703385978490656434927405848922397819409055346164737391354955488856211058718714191597607,
  380164703385978490656434927405848922397819409055346164737391354955585049767198190559282088993,
  380164703385978490656434931433817276256095455907590629214560875930062375694962649303473580247,
  380164703385978490656434931433817276256095455907590675455944334338398832853241675565556059169,
  380164703385978490656434931433817276256095455907608407698164307701006710867455477635817852967,
  380164703385978490656434931433817276256095455907608407698164307701102904423594949480908344353,
  380164703385978490656434931434011879874590215054702620718096340612244281306376659637140993233,
  380164703385978490656434931434011879874590215054702620720367719064007385607125000229036353751,
  380164703385978490656434931434011879874590215054720700983632376723132597758695522950993012951,
  380164703385978490656434931434011879874590215054720747225015835131469054916974549213075491873,
  380164703385978490656434931434037664409863617243725825319850394194890459883927950964125390033,
  380164703385978490656434931434037664409863617243725825319850394194890460509926161907391572823,
  380164703385978490656434931434037664409863617243725825319850394199873431373538235291942689623,
  380164703385978490656434931434037664409863617243725825319850394199886421563654413635095120929,
  380164703385978490656434931434037664409863617297514632443221531212098099065306302117910268961,
  380164703385978490656434931434037664409863638268116053568701897557921452089335661756489060391,
  380164703385978490656434931434037664409863638321731574950458999034680955931104570723677621281,
  380164703385978490656434931434037664409863638321731621073579559270210295853798279682109230113,
  380164703385978490656434931444119416267970794106807835217176445993497288270720542339232578775,
  380164703385978490656434931444119416267970794106807835217176447951926733701288675710289857569,
  380164703385978490656434931444119416267970794106807835217177213730481008133124338027723411495,
  380164703385978490656434931444119416267970794106807835217177213730577201689263809872813902881,
  380164703385978490656434931444119416267979035614024922512540221525500533145469359081826366673,
  380164703385978490656434931444119416267979035614024922512540221525596726536152131987441859799,
  380164703385978490656434931444119416267979035614024922512540987228831512621796695650253814999,
  380164703385978490656434931444119416267979035614024922512540989187260958052364829021311093793,
  380164703385978490656434931444119417534402021644780531253627312225973203693488505989844343639,
  380164703385978490656434931444119417534402021644780531253627312225986193883604684332996774945,
  380164703385978490656434931444119417534402021698413829990399069851542836159419864962691552465,
  380164703385978490656434931444119417534402021698413829990399069851542836785418075905957735255,
  380164703385978490656434931444119417534402021698413829990399069856525807649030149290508852055,
  380164703385978490656434931444119417534402021698413829990399069856538797839146327633661283361,
  380164703385978490656434931444119417537631624410305515613548302820735373902746975011943927847,
  380164703385978490656434931444119417537631624410305864643241248284589175395640271695899185191,
  380164703385978490656434931444119417537639863178695309590284417314119269334374317319342115873,
  380164703385978490656434931444119417537639863185782818913144983673250728906326247691158572065,
  380164703385978490656434931444119417537639863185782818915416365994064086971985692279980182561,
  380164703385979198325458241159359467892128843186490556616899103575035908167188096059993352407,
  380164703385979198325458241159359467892128843186490602858282561983372365325467122322075831329,
  380164703385979198325458241159359467892128843186508335100502535345980243339680924392337625127,
  380164703385979198325458241159359467892128843186508335100502535346076436895820396237428116513,
  380164703385979198325458241159359467892128843193459722962458035559972935040566389129775323991,
  380164703385979198325458241159359467892128843193459722962458035559985925230682567472927755297,
  380164703385979198325458241159359467892128843193459722962463829902628348435621571545819435047,
  380164703385979198325458241159359467892128843193459722962463844679227690797279392359691602977,
  380164703385979198325458241159359467892128845972018587277055231200001138971122651955733609687,
  380164703385979198325458241159359467892128845972018587277055233158430584401690785326790888481,
  380164703385979198325458241159359467892128845972018587277055998936984858833526447644224442407,
  380164703385979198325458241159359467892128845972018587277055998937081052389665919489314933793,
  380164703385979198325458241159359467892128845972018936306748178622271395704467903667593714519,
  380164703385979198325458241159359467892128845972018936306748178622284385894584082010746145825,
  380164703385979198325458241159359467892128845972018937196835672269282868357291122161065054247,
  380164703385979198325458241159359467892128845972018937199106301714914321895077955911560743969,
  380164703385979198325458271073180539354927988625552198615012172449923821414995358985280475175,
  380164703385979198325458271073180539354927988625552198615012172450020014971134830830370966561,
  380164703385979198325458271139578873435719730502391551051564882940791741040920517423909169367,
  380164703385979198325458271139604655598598162287838191650308588579830250582813581508172860449,
  380164703385979198325458271149491307564966427188453106307500326209755817218339362586740052007,
  380164703385979198325458271149491307564966427188453106307500326209852010774478834431830543393,
  380164703385979198325468440327286242284253728874820017999522419776790779397338345082101945553]

def side6aPaths22 : List ℕ := [
  380164703385979198325468440327286243551109724460516574442337901914223516061544207960001754321,
  380164703385979198325468440327286243551110813655746682485518943555139928242444965080835306705,
  380164703385979198325468440327480846838111445933671627432361399471843562489222909838319277911,
  380164703385979198325468440327480846838119690258924033308535668106540937494016903264644753623,
  380164703385979198325468440327480846838119690266012194687310418087288808930476847693770123479,
  380164703385979198325469963425393008264983659872100091326569097079910995158410320538653183009,
  380164703385979198325469989377423870219302220032267512667480119056936646405510428141648734423,
  380164703385979198325469989377423870219302220039355674046254869037684517841970372570774104279,
  380164703385979198325469993339188429278668270035194145179156628362550345018269553247569071137,
  380164703385979198325469993339214148037075323664380652064672194880285218314913172542127623201,
  380164703386255283883957027374637651946505682641818520578807031550134924411391752524977157329,
  380164703386255283883957027374637651946505682641818520581078410001898028712140093116872517847,
  380164703386255283883957027374637651946505682641836600844343067661023240863710615838829177047,
  380164703386255283883957027374637651946505682641836647085726526069359698021989642100911655969,
  380164703386255283883957027374637651946506774576031217239078949832478629004989537591475360977,
  380164703386255283883957027374637651946506774576031217239078949832478629630987748534741543767,
  380164703386255283883957027374637651946506774576031217239078949837461600494599821919292660567,
  380164703386255283883957027374637651946506774576031217239078949837474590684716000262445091873,
  380164703386255283883957027374637651946506774576031217241356905102759410921602264092630109217,
  380164703386255283883957027374637651946506774576031218129466613933982871576883814178620100647,
  380164703386255283883957027374637651946506774576031218131737243379710518586484845085365423137,
  380164703386255283883957027374637651946506774576031218131737245333035097122417611829403208737,
  380164703386255283883957027374637651946933739045357254612174454664711701540953767469553628369,
  380164703386255283883957027374637651946933739045357254612174454664807894931636540375169121495,
  380164703386255283883957027374637651946933739045357254612175220368042681017281104037981076695,
  380164703386255283883957027374637651946933739045357254612175222326472126447849237409038355489]

def side6aPaths23 : List ℕ := [
  380164703386255283883957027374637651946933739098990554239622474863138086767319476916637455569,
  380164703386255283883957027374637651946933739098990554239622474863138087393317687859903638359,
  380164703386255283883957027374637651946933739098990554239622474868121058256929761244454755159,
  380164703386255283883957027374637651946933739098990554239622474868134048447045939587607186465,
  380164703386255283883957027374637651946933739099127328644252043534132115006709555281448849447,
  380164703386255283883957027374637651946933739099127677557955019462059437050388194825143110689,
  380164703386255283883957027374637651946933739099127677558255177083516109240887246249084603425,
  380164703386255990227185936405314441741491904768306607598491829119672471493677845408333293783,
  380164703386255990227185936405314441741491904768306653839875287528008928651956871670415772705,
  380164703386255990227185936405314441741491904768324386082095260890616806666170673740677566503,
  380164703386255990227185936405314441741491904768324386082095260890713000222310145585768057889,
  380164703386255990227185936405314441741491904775275773944050761104609498367056138478115265367,
  380164703386255990227185936405314441741491904775275773944050761104622488557172316821267696673,
  380164703386255990227185936405314441741491904775275773944056555447264911762111320894159376423,
  380164703386255990227185936405314441741491904775275773944056570223864254123769141708031544353,
  380164703386255990227185936405314441741491907553834638258647956744637702297612401304073551063,
  380164703386255990227185936405314441741491907553834638258647958703067147728180534675130829857,
  380164703386255990227185936405314441741491907553834638258648724481621422160016196992564383783,
  380164703386255990227185936405314441741491907553834638258648724481717615716155668837654875169]

def side6aPaths24 : List ℕ := [
  380164703386255990227185936405314441741491907553834987288340904166907959030957653015933655895,
  380164703386255990227185936405314441741491907553834987288340904166920949221073831359086087201,
  380164703386255990227185936405314441741491907553834988178428397813919431683780871509404995623,
  380164703386255990227185936405314441741491907553834988180699027259550885221567705259900685345,
  380164703386255990227793223790069036939284974367787122743364530772887369766966708355642026199,
  380164703386255990227793223790069036939284974367787168984747989181223826925245734617724505121,
  380164703386255990227793223790069036939284974367804901226967962543831704939459536687986298919,
  380164703386255990227793223790069036939284974367804901226967962543927898495599008533076790305,
  380164703386255990227793223790069036939284974374756289088923462757824396640345001425423997783,
  380164703386255990227793223790069036939284974374756289088923462757837386830461179768576429089,
  380164703386255990227793223790069036939284974374756289088929257100479810035400183841468108839,
  380164703386255990227793223790069036939284974374756289088929271877079152397058004655340276769,
  380164703386255990227793223790069036939284977153315153403520658397852600570901264251382283479,
  380164703386255990227793223790069036939284977153315153403520660356282046001469397622439562273,
  380164703386255990227793223790069036939284977153315153403521426134836320433305059939873116199,
  380164703386255990227793223790069036939284977153315153403521426134932513989444531784963607585,
  380164703386255990227793223790069036939284977153315502433213605820122857304246515963242388311,
  380164703386255990227793223790069036939284977153315502433213605820135847494362694306394819617,
  380164703386255990227793223790069036939284977153315503323301099467134329957069734456713728039,
  380164703386255990227793223790069036939284977153315503325571728912765783494856568207209417761,
  380164703386255990232389871297925441928509483112898699326683790449348160132935410752333467687,
  380164703386255990232389871297925441928509483112898699326683790449444353689074882597423959073,
  380164703386255990232400074331339094865874182531040115790675654472281813746421698632037820631,
  380164703386255990232400078293129371417224300125309834097699602740011079881017939975660915745,
  380164703386255990232401597515617132696268679074401273196415040235756651196474381614127435815,
  380164703386255990232401597515617132696268679074401273196415040235852844752613853459217927201,
  380164703386255991795038134196465835826838229100613855596466685268857149914185911837537850577,
  380164703386255991795038134196465835994208322100673959809528497287364592747522127301078930641,
  380164703386255991795038134196660506153904674713037975911617752371469663946466173687570379985,
  380164703386255991795038134196660506153905763908249606873353832792466244195859872512379466961,
  380164703386255991795038134196660506321275859686868970558369121714330598411350039714077619409,
  380164703386255991795038134196660506321275859693957131816900474120101767953859992557286339793,
  380164703386255991795038164100179999986433125611100634882346446498283926768108527317239322455,
  380164703386255991795038164100179999986434214806312265844082526919280507017502226142048409431,
  380164703386255991795038164100180001253290210331305838600330588203999661178992223435144947927,
  380164703386255991795038164100180001253290210338393999858861940609770830721502176278353668311,
  380164703386255991795038164100180001253291299533623712864925071956663543812103849345351805143,
  380164703386255991795038164100180001253291299533623758992588405797721994530356286545690486999,
  380164703386255992029083477722700811904121369189127280318392247342553751103527806280215317537,
  380164703386255992029083481674748036723175915426825111173473104750285251096358093718150990881]

def side6aPaths25 : List ℕ := [
  380164703386255992033071374544924847285545301383718051440441429810213836919998923374850599127,
  380164703386255992033071374544924847285545301390806212698972782215985006462508876218059319511,
  380164703386255992033071374544924847285546390586035925705035913562877719553110549285057456343,
  380164703386255992033071374544924847285546390586035971832699247403936170271362986485396138199,
  380164703386255992033680155134102428218277119453562733386507082822324009713004928589408259105,
  380164703386255992033680155134128146976247880689416529316789094750019551489217918165935213601,
  380164703386255992033680159086175437404379972145886842653836343833665222399238366136783359009,
  380164703386255992033680159086175437571750065145946946866898155852172665232574581600324439073,
  380181382003691256725530964243441230342038834415300349226036157898756206400389122547457321175,
  380181382003691256725530964243441230342038834415300349226331286895671441018675480757786234273,
  380181382003691256725530964243441230342038834415300349341727490430483515466028249208859078695,
  380181382003691256725530964243441230342038834415300349341727490430483516092027536888525479329,
  380181382003691256725530964243441230342038834415300394579309890703157752717025057349230828375,
  380181382003691256725530964243441230342038834415300394579309890703157752799963910158590266785,
  380181382003691256725530964243441230342038834415300394579309890740865626097699271313237159975,
  380181382003691256725530964243441230342038834415300394579309890740961787848938078453212863905,
  380181382003691256725530964243441230342038834415318476621065374077244576882163129948952214743,
  380181382003691256725530964243441230342038834415318476621065374077257076289259848102531943841,
  380181382003691256725530964243441230342038834415318476621065374082240537309892093996989362215,
  380181382003691256725530964243441230342038834415318476621065374082240537935891381676655762849,
  380181382003691256725530964243441230342038834415318476623336756398070434271980439881994115927,
  380181382003691256725530964243441230342038834415318476623336756398070434354919292691353554337,
  380181382003691256725530964243441230342038834415318476623342548825012639415847449608417652775,
  380181382003691256725530964243441230342038834415318476623342563601599514880845993114835312033,
  380181382003691256725530964243441230342047075908359892444651068666787358727551904829134811175,
  380181382003691256725530964243441230342047075908359892444651068666787359353551192508801211809,
  380181382003691256725530964243441230342047094208043905114010529612194415870517847863845316823,
  380181382003691256725530964243441230342047094215012675293858527593810986035566088335705099681,
  380181382003691256725530964243441230342047096939801466702694751002574372607715651605915447335,
  380181382003691256725530964243441230342047096939801466702694751002574373233714939285581847969,
  380181382003691256725530964243441230345269520711788805023498797802928655142178995602949787041,
  380181382003691256725530964243441230345276694195009630001971483187264542131380561750277089495,
  380181382003691256725530964243441230345276694195009630002271668418247993417633153459702851799,
  380181382003691256725530964243441230345277765037022733818227339439055762114908233412820979105,
  380181382003691256725530964243441230345277765044110895076758691844826931657418186256029699489,
  380181382003691256725530964243466517169848052849228508775135791522219307930360745361760970967,
  380181382003691256725530964243466517169848052849228508775430920519134542548647103572089884065,
  380181382003691256725530964243466517169849144837074761841169439487213306162972674052985887575,
  380181382003691256725530964243466517169849144837074761841169439487213306245911526862345325985,
  380181382003691256725530964243466517169849144837074762731557118370178701724230503397751205927,
  380181382003691256725530964243466517169849144837074762733827749769327153087942136936166325665,
  380181382003691256725530964243466517170276109306400799211993565867850449649952059445547515095,
  380181382003691256725530964243466517170276109306400799211993565867862949057048777599127244193,
  380181382003691256725530964243466517170276109360034098841712964517872763925302613378147982167,
  380181382003691256725530964243466517170276109360034098841712964517872764008241466187507420577,
  380181382003691256725530964243466517170276109360170873246342547970327945154056244500579954727]

def side6aPaths26 : List ℕ := [
  380181382003691256725530964243466517170276109360171222160345681519808165206411771355847720353,
  380181382003691256725530964253522056197672348789059269123789656684767561244903997548819329063,
  380181382003691256725530964253522056197672348789059269123789656684767561870903285228485729697,
  380181382003691256725530964253522056197672348789178311055106702148957835432956107117281536215,
  380181382003691256725530964253522056197672348789178356405808103609057533543008847634389388705,
  380181382003691256725530964253522056197672348789196088528090646099775777761829665228097531943,
  380181382003691256725530964253522056197672348789196088528090646099775778387828952907763932577,
  380181382003691256725530964253548269027963492297414358548820080780621000439830274593084008663,
  380181382003691256725530964253548269027963492297414358549115209777536235058116632803412921761,
  380181382003691256725530964253548269027963492297414358664511413312348309505469401254485766183,
  380181382003691256725530964253548269027963492297414358664511413312348310131468688934152166817,
  380181382003691256725530964253548270294386457303916513445684467178871684205852659360327133399,
  380181382003691256725530964253548270294386457303916513445979596175786918824139017570656046497,
  380181382003691256725530964253548270462184609593341421069613595255331043698032257378073615191,
  380181382003691256725530964253548270462184609593341421069613595255331043780971110187433053601,
  380181382003691256725530964253548270462184609593478241601607093091540943529972354972885135399,
  380181382003691256725530964253548270462184609593478590515910409923471078687483306563071114657,
  380181382003691256725530964253548336071252824055914717886108658028991961962328015747033218263,
  380181382003691256725530964253548336071252824055914717886108658029004461369424733900612947361,
  380181382003691256725530964253548336071252824055914717886108658033987922390056979795070365735,
  380181382003691256725530964253548336071252824055914717886108658033987923016056267474736766369,
  380181382003691256725530964253548336071252824109548016622880415659544565917869659047697726679,
  380181382003691256725530964253548336071252824109548016622880415659557065324966377201277455777,
  380181382003691256725530964253548336071261065616901923560150961046394832872935422402221742935,
  380181382003691256725530964253548336071261065616901923560150961046394832955874275211581181345,
  380181382003691256725530964253548336071261065616902272589843906510248634365828719086177000279,
  380181382003691256725530964253548336071261065616902272589843906510248634448767571895536438689,
  380181382003691256725530964253548336071261086634204385587589788104069986206993735460919128103,
  380181382003691256725530964253548336071261086634204385589861170424883344272653180049740738599,
  380181382003691256725530964253548336071261086687819906967374901056230886062229847899805867425,
  380181382003691256725530964253548336071261086687819906967374915837717251205386772484904451489,
  380181382003691256730136265581834175565549628499695171881333892331977498861923101966097574103,
  380181382003691256730136265581834175565549628499695171881629021328892733480209460176426487201,
  380181382003691256730136265581834175565549628499695171997025224863704807927562228627499331623,
  380181382003691256730136265581834175565549628499695171997025224863704808553561516307165732257,
  380181382003691256730136265581834175565549628499695217234607625136379045178559036767871081303,
  380181382003691256730136265581834175565549628499695217234607625136379045261497889577230519713,
  380181382003691256730136265581834175565549628499695217234607625174086918559233250731877412903,
  380181382003691256730136265581834175565549628499695217234607625174183080310472057871853116833,
  380181382003691256730136265581834175565549628499713299276363108510465869343697109367592467671,
  380181382003691256730136265581834175565549628499713299276363108510478368750793827521172196769,
  380181382003691256730136265581834175565549628499713299276363108515461829771426073415629615143,
  380181382003691256730136265581834175565549628499713299276363108515461830397425361095296015777,
  380181382003691256730136265581834175565549628499713299278634490831291726733514419300634368855,
  380181382003691256730136265581834175565549628499713299278634490831291726816453272109993807265,
  380181382003691256730136265581834175565549628499713299278640283258233931877381429027057905703,
  380181382003691256730136265581834175565549628499713299278640298034820807342379972533475564961,
  380181382003691256730136265582028845892180868081805744700218650191934607643683605881993506855,
  380181382003691256730136265582028845892180868081805744700218650191934608269682893561659907489,
  380181382003691256730136265582029277996191472582692747157630980645201709637940786638873028823,
  380181382003691256730136265582029278160742428825855504474746420498682641707805106173271461281,
  380181382003691256730136265582029342500158078348612302520577956783938979728204400238535061543,
  380181382003691256730136265582029342500158078348612302520577956783938980354203687918201462177,
  380181382003691256730136265658119226283612238185872061780944855138601556227436090637681020321,
  380181382003691256730136265658288611052539623570846370099988651363335316096874587053236021463,
  380181382003691256730136265658288611052539623577934531478763401344083187533334531482361391319,
  380181382003691256730136265658313896443317918661521290579192021602648324757149360233895546273,
  380181382003691256730136265658313896610688014500843637950774731382209690691091576000889081249,
  380181382003691258526819668973560378698255105233604580370272273761356442448792482709276059863,
  380181382003691258526819668973560378698255105233604580370567402758271677067078840919604972961]

def side6aPaths27 : List ℕ := [
  380181382003691258526819668973560378698255105240710566122403573575273499889261960246583008087,
  380181382003691258526819668973560378698255105240710566122403573575273499972200813055942446497,
  380181382003691258526819668973560378698255105240710566122409367955636477040875933873293963303,
  380181382003691258526819668973560378698255105240710566122409382732236064792239584021240544673,
  380181382003691258526819668973560378698255108019269430436994974920224615969725627162600291543,
  380181382003691258526819668973560378698255108019269430436994974920237115376822345316180020641,
  380181382003691258526819668973560378698255108019269779466693716637571960553163474784401398615,
  380181382003691258526819668973560378698255108019269779466693716637571960636102327593760837025,
  380181382003691258526819668973560378698255108019269780356781210322290996962545484488539582503]

def side6aPaths28 : List ℕ := [
  380181382003691258526819668973560378698255108019269780359051839767922695890038147573109685665,
  380181382003691258531416342422833016901020847282634453795451588036407584220649456152825424087,
  380181382003691258531416342422833016901020847282634453795746717033322818838935814363154337185,
  380181382003691258531416342422833016901020847282634453911142920568134893286288582814227181607,
  380181382003691258531416342422833016901020847282634453911142920568134893912287870493893582241,
  380181382003691258531416342422833016901020847282634499148725320840809130537285390954598931287,
  380181382003691258531416342422833016901020847282634499148725320840809130620224243763958369697,
  380181382003691258531416342422833016901020847282634499148725320878517003917959604918605262887,
  380181382003691258531416342422833016901020847282634499148725320878613165669198412058580966817,
  380181382003691258531416342422833016901020847282652581190480804214895954702423463554320317655,
  380181382003691258531416342422833016901020847282652581190480804214908454109520181707900046753,
  380181382003691258531416342422833016901020847282652581190480804219891915130152427602357465127,
  380181382003691258531416342422833016901020847282652581190480804219891915756151715282023865761,
  380181382003691258531416342422833016901020847282652581192752186535721812092240773487362218839,
  380181382003691258531416342422833016901020847282652581192752186535721812175179626296721657249,
  380181382003691258531416342422833016901020847282652581192757978962664017236107783213785755687,
  380181382003691258531416342422833016901020847282652581192757993739250892701106326720203414945,
  380181382003691258531416346374880241720075393520332284650532445444139084213479743590761097431,
  380181382003691258531416346374880241720075393520332284650827574441054318831766101801090010529,
  380181382003691258531416346374880241720075393520332284766223777975866393279118870252162854951,
  380181382003691258531416346374880241720075393520332284766223777975866393905118157931829255585,
  380181382003691258531416346374880241720075393520332330003806178248540630530115678392534604631,
  380181382003691258531416346374880241720075393520332330003806178248540630613054531201894043041,
  380181382003691258531416346374880241720075393520332330003806178286248503910789892356540936231,
  380181382003691258531416346374880241720075393520332330003806178286344665662028699496516640161,
  380181382003691258531416346374880241720075393520350412045561661622627454695253750992255990999,
  380181382003691258531416346374880241720075393520350412045561661622639954102350469145835720097,
  380181382003691258531416346374880241720075393520350412045561661627623415122982715040293138471,
  380181382003691258531416346374880241720075393520350412045561661627623415748982002719959539105,
  380181382003691258531416346374880241720075393520350412047833043943453312085071060925297892183,
  380181382003691258531416346374880241720075393520350412047833043943453312168009913734657330593,
  380181382003691258531416346374880241720075393520350412047838836370395517228938070651721429031,
  380181382003691258531416346374880241720075393520350412047838851146982392693936614158139088289,
  380181382003691258531416376288506776604010402530306937865180590995362862956175262613900570663,
  380181382003691258531416376288506776604010402530306937865180590995362863582174550293566971297,
  380181382003691258531416376354905606023545497250118244329471094531056521084789928142050027735,
  380181382003691258531416376354930891581685646665673792893910618951242513771719218810964528545,
  380181382003691258531416376364817543548062150234362289167853108509222884877321813133025816615,
  380181382003691258531416376364817543548062150234362289167853108509222885503321100812692217249,
  380181382003691258531428068640693526756095312541019116570544187598711033025879090413072403873,
  380181382003691258531428068640719245514066073776872912500826199526406574802092079989599358369,
  380181382003691258531428094669060376705818940881346246429507549860753505517833494827239074007,
  380181382003691258531428094669060376705818940888434407688038902266524675060343447670447794391]

def side6aPaths29 : List ℕ := [
  380181382003691258531428094669060376705820030083664120694102033613417388150945120737445931223,
  380181382003691258531428094669060376705820030083664166821765367454475838869197557937784613079,
  380181382003691258531428098554514665094393900081043223944119443448067289340036013811671354785,
  380181382003691258531428098554514665261763993081103328157181255466574732173372229275212434849,
  380181382003691258531428098554540384020161718847004622346538144830700901254425111020110204321,
  380181382003691258531428098554540384020162808042216253308274225251697481503818809844919291297,
  380181382018030905950419321019815090881130579703822541193810994061474858726743044467613886679,
  380181382018030905950419321019815090881130579703822541194106123058390093345029402677942799777,
  380181382018030905950419321019815090881130579703822541309502326593202167792382171129015644199,
  380181382018030905950419321019815090881130579703822541309502326593202168418381458808682044833,
  380181382018030905950419321019815090881130579703822586547084726865876405043378979269387393879,
  380181382018030905950419321019815090881130579703822586547084726865876405126317832078746832289,
  380181382018030905950419321019815090881130579703822586547084726903584278424053193233393725479,
  380181382018030905950419321019815090881130579703822586547084726903680440175292000373369429409,
  380181382018030905950419321019815090881130579703840668588840210239963229208517051869108780247,
  380181382018030905950419321019815090881130579703840668588840210239975728615613770022688509345,
  380181382018030905950419321019815090881130579703840668588840210244959189636246015917145927719,
  380181382018030905950419321019815090881130579703840668588840210244959190262245303596812328353,
  380181382018030905950419321019815090881130579703840668591111592560789086598334361802150681431,
  380181382018030905950419321019815090881130579703840668591111592560789086681273214611510119841,
  380181382018030905950419321019815090881130579703840668591117384987731291742201371528574218279,
  380181382018030905950419321019815090881130579703840668591117399764318167207199915034991877537,
  380181382018030905950419321019815090881138821196882084412425904829506011053905826749291376679,
  380181382018030905950419321019815090881138821196882084412425904829506011679905114428957777313,
  380181382018030905950419321019815090881138839496566097081785365774913068196871769784001882327,
  380181382018030905950419321019815090881138839503534867261633363756529638361920010255861665185,
  380181382018030905950419321019815090881138842228323658670469587165293024934069573526072012839,
  380181382018030905950419321019815090881138842228323658670469587165293025560068861205738413473,
  380181382018030905950419321019815156483753941119091284011500562461290230074703153902643261479,
  380181382018030905950419321019815156483753941119091284011500562461290230700702441582309662113,
  380181382018030905950419321019815156483753941119210325942817607925480504262755263471105468631,
  380181382018030905950419321019815156483753941119210371293519009385580202372808003988213321121,
  380181382018030905950419321019815156483753941119228103415801551876298446591628821581921464359,
  380181382018030905950419321019815156483753941119228103415801551876298447217628109261587864993,
  380181382018030905950419321019815156654339308311147043057796139522358995842392585147544889559,
  380181382018030905950419321019815156654339308311147043058091268519274230460678943357873802657,
  380181382018030905950419321019815156654339308311147043173487472054086304908031711808946647079,
  380181382018030905950419321019815156654339308311147043173487472054086305534030999488613047713,
  380181382018030905950419321019815156654775606268566997901775327997178085238184496133873482967,
  380181382018030905950419321019815156654775606268566997901775327997190584645281214287453212065,
  380181382018030905950419321019815156654775606268566997901775328002174045665913460181910630439,
  380181382018030905950419321019815156654775606268566997901775328002174046291912747861577031073,
  380181382018030905950419321019815156654775606322200646558621149858239965292158434051497040727,
  380181382018030905950419321019815156654775606322200646558621149858239965375097286860856479137,
  380181382018030905950419321019815156654775606322337420965522098929338491999135843179083018279,
  380181382018030905950419321019815156654775606322337769879525247260196384397294409287383408033]

def side6aPaths30 : List ℕ := [
  380181382018030905950419350923334153879325754972579567847050625216784033594234092638284492839,
  380181382018030905950419350923334153879325754972579567847050625216784034220233380317950893473,
  380181382018030905950419350923334153879325754972698609778367670680974307782286202206746699991,
  380181382018030905950419350923334153879325754972698655129069072141074005892338942723854552481,
  380181382018030905950419350923334153879325754972716387251351614631792250111159760317562695719,
  380181382018030905950419350923334153879325754972716387251351614631792250737159047997229096353,
  380181382018030905950419350923334153879326844060661512874636754207288042704510958903249987799,
  380181382018030905950419350923334153879326844060661512874931883204203277322797317113578900897,
  380181382018030905950419350923334153879326844060661512990328086739015351770150085564651745319,
  380181382018030905950419350923334153879326844060661512990328086739015352396149373244318145953,
  380181382018030905950419350923334153879326846899823099049873337080308352777278994228288830679,
  380181382018030905950419350923334153879326846899823099049873337080320852184375712381868559777,
  380181382018030905950419350923334153879326846899823099049873337085304313205007958276325978151,
  380181382018030905950419350923334153879326846899823099049873337085304313831007245955992378785,
  380181382018030905950419350923334153879326846899823448081837662916550423560789762728395709271,
  380181382018030905950419350923334153879326846899823448081837662916550423643728615537755147681,
  380181382018030905950419350923334153879326846899823448971925171345022836784039692523907788839,
  380181382018030905950419350923334153879326846899823448974195800790750483710912912329115721121,
  380181382018030905950419350999644855046503989076421373688816357737945515891077213210341402839,
  380181382018030905950419350999644855046503989076421373689111486734860750509363571420670315937,
  380181382018030905950419350999644855046503989076421373804507690269672824956716339871743160359,
  380181382018030905950419350999644855046503989076421373804507690269672825582715627551409560993,
  380181382018030905950419350999644855046503989076421419042090090542347062207713148012114910039,
  380181382018030905950419350999644855046503989076421419042090090542347062290652000821474348449,
  380181382018030905950419350999644855046503989076421419042090090580054935588387361976121241639,
  380181382018030905950419350999644855046503989076421419042090090580151097339626169116096945569,
  380181382018030905950419350999644855046503989076439501083845573916433886372851220611836296407,
  380181382018030905950419350999644855046503989076439501083845573916446385779947938765416025505,
  380181382018030905950419350999644855046503989076439501083845573921429846800580184659873443879,
  380181382018030905950419350999644855046503989076439501083845573921429847426579472339539844513,
  380181382018030905950419350999644855046503989076439501086116956237259743762668530544878197591,
  380181382018030905950419350999644855046503989076439501086116956237259743845607383354237636001,
  380181382018030905950419350999644855046503989076439501086122748664201948906535540271301734439,
  380181382018030905950419350999644855046503989076439501086122763440788824371534083777719393697,
  380181382018030905950419350999839525373135228658531946507701115597902624672837717126237335591,
  380181382018030905950419350999839525373135228658531946507701115597902625298837004805903736225,
  380181382018030905950419350999839957477145833159418948965113446051169726667094897883116857559,
  380181382018030905950419350999839957641696789402581706282228885904650658736959217417515290017,
  380181382018030905950419350999840021981112438925338504328060422189906996757358511482778890279,
  380181382018030905950419350999840021981112438925338504328060422189906997383357799162445290913,
  380181382018066780825086714846507309534182151937317466055237795789479696005321441076908255447,
  380181382018066780825086714846507309534182151937317466055532924786394930623607799287237168545,
  380181382018066780825086714846507309534182151937317466170929128321207005070960567738310012967,
  380181382018066780825086714846507309534182151937317466170929128321207005696959855417976413601,
  380181382018066780825086714846507309534182151937317511408511528593881242321957375878681762647,
  380181382018066780825086714846507309534182151937317511408511528593881242404896228688041201057,
  380181382018066780825086714846507309534182151937317511408511528631589115702631589842688094247,
  380181382018066780825086714846507309534182151937317511408511528631685277453870396982663798177,
  380181382018066780825086714846507309534182151937335593450267011967968066487095448478403149015]

def side6aPaths31 : List ℕ := [
  380181382018066780825086714846507309534182151937335593450267011967980565894192166631982878113,
  380181382018066780825086714846507309534182151937335593450267011972964026914824412526440296487,
  380181382018066780825086714846507309534182151937335593450267011972964027540823700206106697121,
  380181382018066780825086714846507309534182151937335593452538394288793923876912758411445050199,
  380181382018066780825086714846507309534182151937335593452538394288793923959851611220804488609,
  380181382018066780825086714846507309534182151937335593452544186715736129020779768137868587047,
  380181382018066780825086714846507309534182151937335593452544201492323004485778311644286246305,
  380181382018066872338030582422394590637276585211828969911887461844469229067072131078159984855,
  380181382018066872338030582422394590637276585211828969912182590841384463685358489288488897953,
  380181382018066872338030582422394590637276585211828970027578794376196538132711257739561742375,
  380181382018066872338030582422394590637276585211828970027578794376196538758710545419228143009,
  380181382018066872338030582422394590637276585211829015265161194648870775383708065879933492055,
  380181382018066872338030582422394590637276585211829015265161194648870775466646918689292930465,
  380181382018066872338030582422394590637276585211829015265161194686578648764382279843939823655,
  380181382018066872338030582422394590637276585211829015265161194686674810515621086983915527585,
  380181382018066872338030582422394590637276585211847097306916678022957599548846138479654878423,
  380181382018066872338030582422394590637276585211847097306916678022970098955942856633234607521,
  380181382018066872338030582422394590637276585211847097306916678027953559976575102527692025895,
  380181382018066872338030582422394590637276585211847097306916678027953560602574390207358426529,
  380181382018066872338030582422394590637276585211847097309188060343783456938663448412696779607,
  380181382018066872338030582422394590637276585211847097309188060343783457021602301222056218017,
  380181382018066872338030582422394590637276585211847097309193852770725662082530458139120316455,
  380181382018066872338030582422394590637276585211847097309193867547312537547529001645537975713,
  380181382018067578677261481537871849291271561003525385093696232654104059283685141611322486823,
  380181382018067578677261481537871849291271561003525385093696232654104059909684429290988887457,
  380181382018067580245112134078389584881358167832264384791766181942927688634802111045052262615,
  380181382018067580245709192478038932431502802237434393826492054200877283963142643021011340705,
  380181382018067580479158996837388613042958052501440773924117749398486793889868792863029145639,
  380181382018067580479158996837388613042958052501440773924117749398486794515868080542695546273,
  380181382018343665803610886351462852866126885934615818637137962085255222345203143904525143457,
  380181382018343665804206425605078376913926650970234275214500627704177383616112802319573568929,
  380181382018344280401662221487810405850982971973491789003602882600013608867573756346464069847,
  380181382018344280401662221487810406015115247342747959399658193734309827019441928860917688535,
  380181382018344280401662221487836124773512973108649253706687695592482436492607927675221829847,
  380181382018344280401662221487836124773514041233098501781515866506366848561915975547023386839,
  380181382018344372147436883838293080145769180110261517244153641221848230123905109786604981665,
  380181382018344372147436887713886931766995022205775337126862521393297749348715546256164638113,
  380181382018344372148044175108723280256696592038563220509627340904662656892059994315797941665,
  380181382018344372148044175108748501478658933418730959952957481398728745562921255316660014497,
  380181382126810833281631513083717243636671312111481203740619568221832639416512545459024816343,
  380181382126810833281631513083717243636671312111481203740619568226828568040726729686607838423,
  380181382126810833281631513083717243636671312111481203742890946640787425039012095627056258263,
  380181382126810833281631513083717243636671312111481203742896742964604741522467901070453106903,
  380181382126810833281631513083717243636671312111499284006155604299912637190582618349012917463,
  380181382126810833281631513083717243636671312111499284006155604337620445712445951796212000983,
  380181382126810833281631513083717243636671312111499331019957451873589661260376390247155099863,
  380181382126810833281631513083717243636671312111499331140202382926492678167508474476797017303,
  380181382126810833281631513083717243636679553604540746843242990752392528583503911809815026903,
  380181382126810833281631513083717243636679553604540746843242990790100337105367245257014110423,
  380181382126810833281631513083717243636679553604540746843543146458136482678036201079300548823,
  380181382126810833281631513083717243636679553604540746843543928938969495550173693759348980951,
  380181382126810833281631513083717243636679574635982321101586828793923496558199947856081184983,
  380181382126810833281631513083717243636679574635982321101586828798919425182414132083664207063,
  380181382126810833281631513083717243636679574689634004786386286455395176707518186475283946711,
  380181382126810833281631513083717243636679574689770871326704494762086089806728778568258152663,
  380181382126810833281631513093604458915930859355653124905313068697393207636214830062249830615,
  380181382126810833281631513093604458915930859355653124905313068702389136260429014289832852695,
  380181382126810833281631513093629680137893200735820864348643209191459296307076091063111903447,
  380181382126810833281631513093629680137893200735820864348643209196455224931290275290694925527,
  380181382126810833281631513093824349195299931828281901727669713149368473198899866453865012439,
  380181382126810833281631513093824845803268882356252495162043721797442053405338553800481958103,
  380181382126810833281631517035595649368418848851890532499758468039492742590645481259483143383,
  380181382126810833281631517045482367112088662771581247338279265320160298986939390752020634839,
  380181382126810833281631517045482863549045296991187787496180031848466081510248747059376168151,
  380181382126810833281631517121793134052475649292511261300746051285857584346348475313702955223,
  380181382126810833281631517121793134055706314618379516757718132585098319364196008303578966231,
  380181382126810833281633062296142306743710710299104114403744281544564694775793708600329365719]

def side6aPaths32 : List ℕ := [
  380181382126810833281633062296142306743710710352874187427467215785900154550738664396107147479,
  380181382126810833281633062296142371086792234010235180703731036370031138188487766429649201367,
  380181382126810833281633062296142371250924509379491351099786347504327356340355938944102820055,
  380181382126810833281633066171735660829347929243193191020426115908118671584938832702799997143,
  380181382126810833281633066171736157436888844391722996116662583535494028275689533180582947031,
  380181382126810833281633066171930760720667029094884492897220934234452209095322525512686495959,
  380181382126810833281633066171930760720667029094884842817000607566750218619087200029527107799,
  380181382126810833281633066171930760721085754896137298571069721112021616805934072095216101591,
  380181382126810833281633066171930760721086823020586546645897892025906028875242119967017658583,
  380181424551222000882242277365262224933749105761136227719927886909478192316220906277561971921,
  380181424551222000882242277365262224933749105761136227720223030720675398469332769097932395729,
  380181424551222000882242277365262224933749105761136227837895626484701937537191794607732634833,
  380181424551222000882242277365262224933749105761136227837895641266188302680348719192831218897,
  380181424551222000882242277365262224933749105814888568621674994411825509446746057845968221393,
  380181424551222000882242277365262224933749126785489989749133147526870081484888411376445543633,
  380181424551222000882242277365262224933749126839141627308540651747387809300817794506116838609,
  380181424551222000882242277365262224933749126839141673436203985588446260019070231706455520465,
  380181424551222000882242277365262225098308324636204128647663394898555812728949521773857879249,
  380181424551222000882242277365262225098308324643310463548831305004494536690083536666241848529,
  380181424551222000882242277365262225098308327421869327863422691563001282900274675366592853201,
  380181424551222000882242277365262225098308327421869676893121448066792997353985051204060239057,
  380181424551222000882242277365262290536791169182070043564935041980390789841291998617777485009,
  380181424551222000882242277365262290707376539152547892872529164918139179045669830170940028113,
  380181424551222000882242277365262290707384780659764980167893706153473403396745983481961264337,
  380181424551222000882242277365262290707385872640660241419114705437619849826130594269735998673,
  380181424551222000882242277365262290707812837109985929760540260512736817192706945618286818513,
  380181424551222000882242277365262290707812837109986278790233205976590618685600242302242075857,
  380181424551222000882242277365262290707812837163619578417386848147465949522801089006076482769,
  380181424551222000882242277365262290707812837163619578419658230468279307588460533594898093265,
  380181424551222000882242307335205337132736659845333465816181110161081907052870098892484261073,
  380181424551222000882242307335205337132736659845333465816476253972279113205981961712854684881,
  380181424551222000882242307335205337132736659845333465934148849736305652273840987222654923985,
  380181424551222000882242307335205337132736659845333465934148864517792017416997911807753508049,
  380181424551222000882242307335205338402406818065868699575113541422790373511560667897885635793,
  380181424551222000882242307335205833573352015833786754659956485758709260947228876658457171153,
  380181424551222000882242307335205834840208011419483311102771967896141997611434739536356979921,
  380181424551222000882242307335205834840209100614713419145953009537058409792335496657190532305,
  380181424551222000882253999620993756841992781679183514685197203314855265672609184620961608913,
  380181424551222000882253999620993756841992781679183560928857083548161811134284691714178864337,
  380181424551222000882253999620993756841992781679201642970612566884540826151565281973005006033,
  380181424551222000882253999620993756841992781679201642972883949243074492689240074246942151889,
  380181424551222000882254029534789110813243059986022130300262704533841333008756700349912069329,
  380181424551222000882254029534789110813243059986022130300557848345038539161868563170282493137,
  380181424551222000882254029534789110813243059986022130418230444109065078229727588680082732241]

def side6aPaths33 : List ℕ := [
  380181424551222000882254029534789110813243059986022130418230458890551443372884513265181316305,
  380181424551222000882254029534814829571213821221875926230544716461536874784969689926439023825,
  380181424551222000882254029534814829571213821221875926230839860272734080938081552746809447633,
  380181424551222000882254029534814829571213821221875926348512456036760620005940578256609686737,
  380181424551222000882254029534814829571213821221875926348512470818246985149097502841708270801,
  380181424551222000882254029535009930900411691967484171112288280881599545210020059258989327569,
  380181424551222000882254029611099878855919647049129028367882802913881976153632448366858458321,
  380181424551222000882254029611099879023289740049189132580944614932389418986968663830399538385,
  380181424551222000882254029611294549182986092661553148683033870016494490185912710216890987729,
  380181424551222000882254029611294549182987181856764779644769950437491070435306409041700074705,
  380181424551222000882254029611294549350357277635384143329785239359355424650796576243398227153,
  380181424551222000882254029611294549350357277642472304588316591765126594193306529086606947537,
  380181424551222094200450998265126710915244700641819331909536173657422816422402746877324571857,
  380181424551222094200450998265126710915244700641819331909831317468620022575514609697694995665,
  380181424551222094200450998265126710915244700641819332027503913232646561643373635207495234769,
  380181424551222094200450998265126710915244700641819332027503928014132926786530559792593818833,
  380181424551222094200450998265126710915244700695571672811283281159770133552927898445730821329,
  380181424551222094200450998265126710915671623169941828966947795201091647053578739813869958353,
  380181424551222094200450998265126710915672733289209789820965421790658062700887724813215085777,
  380181424551222094200450998265126710915672736128508242418547442849978905034512936979180631249,
  380181424551222094200450998265126710915672736128508591450517564972413964966447090821802022097,
  380181424551222094200450998265321314199442679317210242442347599644961099194636629306130576593,
  380181424551222094200450998265321314199442679324297705757488074074958126014655830019208393937,
  380181424551222094200450998265321314199442679324316182183887067602745220698998692227632411857,
  380181424551222094200450998265321314199442679324316182186158464705032264050541404592943453393,
  380181424551222094200450998265321810806983594419212687535007949775210173712706034141542233297,
  380181424551222094200450998265321810806983594419212687535303093586407379865817896961912657105,
  380181424551222094200450998265321810806983594419212687652975689350433918933676922471712896209,
  380181424551222094200450998265321810806983594419212687652975704131920284076833847056811480273,
  380181424551222094200450998265321812076653752639747921293940381036918640171396603146943608017,
  380181424551222094433914103920282288618666797239410397448145486357871379552591200766307087569,
  380181424551222094433914103920282288618666797239410397448440630169068585705703063586677511377,
  380181424551222094433914103920282288618666797239410397566113225933095124773562089096477750481,
  380181424551222094433914103920282288618666797239410397566113240714581489916719013681576334545,
  380181424551222094434509643173897812666466562275028854025508151976793540823500859181355513041,
  380181424551222094434509643173897812666466562275028854025803295787990746976612722001725936849,
  380181424551222094434509643173897812666466562275028854143475891552017286044471747511526175953,
  380181424551222094434509643173897812666466562275028854143475906333503651187628672096624760017,
  380181424551222094439116497600504276407757913705533237650976149096895578339251313316050253009,
  380181424551222096235799897106529587631729921619447343631718617377741348187350946675203232977,
  380181424551222096235799900982123439252955763714961163514427497549190867412161383144762889425,
  380181424551222096240396574441477830748056970520258045199415716344832772288036720193827517649,
  380181424551222096240396574441503051970019311900425784642745856838898860958897981194689590481,
  380181424551222096240396578393550342398151403356914180024119391074760945538939782426260157649,
  380181424551222096240396578393550342562283678726170350420174702209057163690807954940713776337,
  380181424551258673371049678378550288078041399489721206424083194672842414240890481604389229777,
  380181424551258673371645213604054354139381919966263170494467218995323828032867061511345132753]

def side6aPaths34 : List ℕ := [
  380181424551258673375644772721766081225245381913368512388926454872666439443060355178564932817,
  380181424551259379714875671837269057371224449106308494450775436718511373874575740491096929489,
  380181424551259379714875675712836695230879679612611054204290055523334380443543045628148593873,
  380181424551259379714875701740788054766796262959796778286325499474005177394106679226738160849,
  380181424551259379715482963107673043720581249445398937704726721755066009207813989775721641169,
  380181424551259379715482963107698264771952160362923577845291548354782304651161611647501219025,
  380181424551259379715482963107867647004352305592667351180126526198935461348871879267982259409,
  380181424659761620365584946969284128765642473841690567609845397741139259875596573773077801175,
  380181424659761620365584946969284128765642473841690567609845399661848151985694925448569916247,
  380181424659761620365584946969284128765642473841690567609846165440402426419128051353306938583,
  380181424659761620365584946969284128765642473841690567609846165440498619973670059611093961559,
  380181424659761620365584946969284128765642473841690917414229650052074172069195142892400273623,
  380181424659761620365584946969284128765642473841827387904527491173957729991493391944575997783,
  380181424659761620365584946969284128765642473841827737053564086651780905997114851293435390167,
  380181424659761620365584946969284128765642473841827737053864271882764357283367443002861152471,
  380181424659761620365584946969284128765643544744562255629817074487208534901760234283122419927,
  380181424659761620365584946969284128765643544744562301875749115615319907368466561946172271447,
  380181424659761620365584946969284128765643544744580383917504598951602696484630466251271060695,
  380181424659761620365584946969284128765643544744580383919775981310232588923421944478935558999,
  380181424659761620365584946969284128766069399094602251112916025911400810483400126141181847767,
  380181424659761620365584946969284128766070509213888293893588841887315388708548530307620006103,
  380181424659761620365584946969284128766070509267521592630360599517867992664090173608284514519,
  380181424659761620365584946969284128766070509274627882296523469292176120439277786742205197143,
  380181424659761620365584946969284128766070512053186746608843475445569726729413189805716159703,
  380181424659761620365584946969284128766070512053186746611114857766383084795072634394537770199,
  380181424659761620365584946969284128766070512053187095640813597572988215960022376694925003607,
  380181424659761620365584946969284128766070512053187095640813612354474581103179301280023587671,
  380181424659761620365584946969479164317965717981854068476919639289083160878529834974091798743,
  380181424659761620365584946969479164317965717981854068476919641209792052988628186649583913815,
  380181424659761620365584946969479164317965717981854068476920406988346327422061312554320936151,
  380181424659761620365584946969479164317965717981854068476920406988442520976603320812107959127,
  380181424659761620365584946969479164317973980620847069669350910975563154295767826244454443223,
  380181424659761620365584946969479164321196407117604722197302056611133853476365986309328197463,
  380181424659761620365584946969479164321204651442857128073476325245831228481159979735653673175,
  380181424659761620365584946969479164321204651449945289452251075226579099917619924164779043031,
  380181424659761620365584947045569112441271822574483661940898639029381173252011065054564313303,
  380181424659761620365584947045569112441271822574483661941199579131683816073657395200252914519,
  380181424659761620365584947045569112441271822574483662058872174895710109668871741309883399383,
  380181424659761620365584947045569112441271822574483662058872189677196720284673345295151737687,
  380181424659761620365584947045763782600541210656782097739886138154102767028480089338168338647,
  380181424659761620365584947045763782600541210656782097739886140074811659138578441013660453719,
  380181424659761620365584947045763782600541210656782097739886905853365933572011566918397476055,
  380181424659761620365584947045763782600541210656782097739886905853462127126553575176184499031,
  380181424659761620365584947045763782767911303656842201952947950172610209861816304801709418711,
  380181424659761620365584947045763782767911303656842201952947952093319101971914656477201533783,
  380181424659761620365584947045763782767911303656842201952948717871873376405347782381938556119,
  380181424659761620365584947045763782767911303656842201952948717871969569959889790639725579095,
  380181424659761620365584947045763784037573223155688682639672763684977583239252952620127086807,
  380181424659761620365584947045764279208517331782010278100270272499807551757780022150980818775,
  380181424659761620365584947045764279208518420977221909062006352920804132007173720975789905751,
  380181424659761620365584947045764280475374416502215481818254414205523286168663718268886444247,
  380181424659761620365584947045764280475374416509303643076785766611294455711173671112095164631,
  380181424659761620365584947045764280475375505704533356082848897958187168801775344179093301463,
  380181424659761620365584947045764280475375505704533402210512231799245619520027781379431983319,
  380181424659761620366192234354233758246106222641636427948663791172826238898816756651569834199,
  380181424659761620366192234354233758246106222641636427948663793093535131008915108327061949271]

def side6aPaths35 : List ℕ := [
  380181424659761620366192234354233758246106222641636427948664558872089405442348234231798971607,
  380181424659761620366192234354233758246106222641636427948664558872185598996890242489585994583,
  380181424659761620366192234354233758246106222641636777753048043483761151092415325770892306647,
  380181424659761620366192234354233758246106225419922351278116736635794427081023592188800002263,
  380181424659761620366192234354233758246106225427146680125217254763830854392662279903456651479,
  380181424659761620366192234354233758246106225427165157442302568057907927232379673861782387927,
  380181424659761620366192234354233758246106225427165157444573965197915492016974191342479510359,
  380181424659761620366192234354233759512527012143267749474268570505825428938661952884144990423,
  380181424659761620366192234354233759512527012143267795597389894566597177669833990701725640919,
  380181424659761620366192234354233759512527012143267795717629029295574217100635507926724394199,
  380181424659761620366192234354233759512527012143267795717629044077156775715817668632630561623,
  380181424659761620366192234354233759515758787581334583621792340942298059151818697921400531159,
  380181424659761620366192234354233759515758787581334583621792342863006951261917049596892646231,
  380181424659761620366192234354233759515758787581334583621793108641561225695350175501629668567,
  380181424659761620366192234354233759515758787581334583621793108641657419249892183759416691543,
  380181424659761620366192234354233759515767050220327584814223612628778052569056689191763175639,
  380181424659761620366193753663282430385173951075730279410720867711981151230678026620162926807,
  380181424659761620366193753663282430385173951075730279410720869632690043340776378295655041879,
  380181424659761620366193753663282430385173951075730279410721635411244317774209504200392064215,
  380181424659761620366193753663282430385173951075730279410721635411340511328751512458179087191,
  380181424659761620366193757538876282006399793171244099293429747883430670455488463089722583255,
  380181424659761620366193757538876282006399793171244099293429749804139562565586814765214698327,
  380181424659761620366193757538876282006399793171244099293430515582693836999019940669951720663,
  380181424659761620366193757538876282006399793171244099293430515582790030553561948927738743639,
  380181424659761620366193787518926434328763790537910530626621812830309055126182417109233559767,
  380181424659761620366205479804689567042419714970490145332121999877817130184555543538542696279,
  380181424659761620366205479804714788264382056350657884775452140371883218855416804539404769111,
  380181424659761620366205509718510207844709882654846278263072435224410783163939788942629005527,
  380181424659761620366205509718510208008842158024102448659127746358707001315807961457082624215,
  380181424659761620366205509718535926767239883790003742966157248216879610788973960271386765527,
  380181424659761620366205509718535926767240951914452991040985419130764022858282008143188322519,
  380181424659761620604238690249434413074674806022902358172232841484031305925562243478248347479,
  380181424659761620604238694125002050934330036529204917925747460288854312494529548615300011863,
  380181424659761620604238720152953410470246619876390642007782904239525109445093182213889578839,
  380181424659761620608835367584356442429431243334501799728407525809846367807067564732796496087,
  380181424659761620608835367584381663480802154252026439868972352409562663250415186604576073943,
  380181424659761620608835367584551045713202299481770213203807330253715819948125454225057114327,
  380181424659761620608835371536428953908934245708514835250346652419104467001643608817613269207,
  380181424659761620608835371536428954073065410919045066954845692954471239416102710153136695511,
  380181424659761620608835371536428955175355032431860233446498486289135468859281969512958257367,
  380181424659761713684402474486888079748133008158948906923996263118141789467726605651421030615,
  380181424659761713684402474486888079748133008158948906923996263123137718091940789879004052695,
  380181424659761713684402474486888079748133008158948906926267641537096575090226155819452472535,
  380181424659761713684402474486888079748133008158948906926273437860913891573681961262849321175,
  380181424659761713684402474486888079748133010937252562377996569407089051489521751406340611287,
  380181424659761713684402474486888079748133010937252562377996569444796860011385084853539694807,
  380181424659761713684402474486888079748133010944476891342768934293200008543950268656136087767,
  380181424659761713684402474486888079748133010944495368659855013365940229853318277677957954775,
  380181424659761713684402474486888081017366871153821747429910902033187264946049458975955085527,
  380181424659761713684402474486888081017366871153821747429910902038183193570263643203538107607,
  380181424659761713684402474486888081017366871207473431114710359694658945095367697595157847255,
  380181424659761713684402474486888081017366871207610297655028568001349858194578289688132053207,
  380181424659761713684402474486888577455168064507454836039014289726458720977430588910450895063,
  380181424659761713684402474486888577455168064507454836039014289731454649601644773138033917143,
  380181424659761713684402474486888577455169153702666467000750370147455301226824287735259982039,
  380181424659761713684402474486888577455169153702666467000750370152451229851038471962843004119,
  380181424659761713684402474486888577455177397981373385596576392163978555301919551372480617687,
  380181424659761713684402474486888577455177419012833088144283055068467212617631175190317230295,
  380181424659761713684402478438935305836413154867018460924024498868827907797192344016834390231,
  380181424659761713684402478438935305836413154867018460924024498873823836421406528244417412311,
  380181424659761713684402478438935305836413154867018460926295877287782693419691894184865832151,
  380181424659761713684402478438935305836413154867018460926301673611600009903147699628262680791,
  380181424659761713684402478438935305836413154867036541189560534946907905571262416906822491351,
  380181424659761713684402478438935305836413154867036541189560534984615714093125750354021574871,
  380181424659761713684402478438935305836413154867036588203362382520584929641056188804964673751,
  380181424659761713684402478438935305836413154867036588323607313573487946548188273034606591191,
  380181424659761713684402478438935305836421396360078004026647921399387796964183710367624600791,
  380181424659761713684402478438935305836421396360078004026647921437095605486047043814823684311]

def side6aPaths36 : List ℕ := [
  380181424659761713684402478438935305836421396360078004026948077105131751058715999637110122711,
  380181424659761713684402478438935305836421396360078004026948859585964763930853492317158554839,
  380181424659761713684402478438935305836421417391519578284991759440918764938879746413890758871,
  380181424659761713684402478438935305836421417391519578284991759445914693563093930641473780951,
  380181424659761713684402478438935305836421417445171261969791217102390445088197985033093520599,
  380181424659761713684402478438935305836421417445308128510109425409081358187408577126067726551,
  380181424659761713684402478448822521115672702111190382088717999344388476016894628620059404503,
  380181424659761713684402478448822521115672702111190382088717999349384404641108812847642426583,
  380181424659761713684402478448847742337635043491358121532048139838454564687755889620921477335,
  380181424659761713684402478448847742337635043491358121532048139843450493311970073848504499415,
  380181424659761713684402478449042411395041774583819158911074643796363741579579665011674586327,
  380181424659761713684402478449042908003010725111789752345448652444437321786018352358291531991,
  380181424659761713917853832010735832823757145849492207368852655871943221288780142209837689047,
  380181424659761713917853835886303403811144694272173382075747013554080871093158956823940294871,
  380181424659761713917853861924530690357197992027357646527257239889672710422751830589672384727,
  380181424659761713917865584103977602549073075215307430136882143838474759276921590171036149975,
  380181424659761713917865584103977602549081335015019756204409384536614304293812197748955015383,
  380181424659761713917865584103977602552312005837029814728778196381859080373154342826070894807,
  380181424659761713917865584103977602552312005844117975987309548787630249915664295669279615191,
  380181424659761713917865584104003321307052096197103479110968462222974386295080231529704188119,
  380181424659761713917865584104003321307052096250873552134691396464309846070025187325481969879,
  380181424659761713917865584104003385650133619908234545410955217048440829707774289359024023767,
  380181424659761713917865584104003385814265895277490715807010528182737047859642461873477642455,
  380181424659761713918461093377594540973112405428165256339748301509408294298678614174510737623,
  380181424659761713918461093377594606582188861451726107859978612764325884966475075882614122711,
  380181424659761713918461093453905309015788989712712941063078269655190645342332595055392057559,
  380181424659761713918461123281139752300846264104961265576184445559492219028616521952979970263,
  380181424659761713918461123281164973351781990023513578942846167852011495746974786600617765079,
  380181424659761713918461123281334422456884981311634122363975720058294916664296537907844999383,
  380181424659761713918461123357618909694703805988091769892242650666010118676796890428666931415,
  380181424659761713918461123357618909694703806041844110793989758168357435807322041997073180887,
  380181424659761713918461123357618909694703827066097169480855415503919735661393778657221798103,
  380181424659761713918461123357618909694703827066097215608518749344978186379646215857560479959,
  380181424659761713918461123357618909862073899041903865087271896854566869116893582943773649111,
  380181424659761713918461123357618909862073899041904215007051570186864878640658257460614260951,
  380181424659761713918461123357618909862492624843156670761120683732136276827505129526303254743,
  380181424659761713918461123357618909862493692967605918835948854646020688896813177398104811735]

theorem side6a_paths : ∀ P ∈ side6aEnum.all 36, P ∈ side6aPaths0 ++ (side6aPaths1 ++ (side6aPaths2 ++ (side6aPaths3 ++ (side6aPaths4 ++ (side6aPaths5 ++ (side6aPaths6 ++ (side6aPaths7 ++ (side6aPaths8 ++ (side6aPaths9 ++ (side6aPaths10 ++ (side6aPaths11 ++ (side6aPaths12 ++ (side6aPaths13 ++ (side6aPaths14 ++ (side6aPaths15 ++ (side6aPaths16 ++ (side6aPaths17 ++ (side6aPaths18 ++ (side6aPaths19 ++ (side6aPaths20 ++ (side6aPaths21 ++ (side6aPaths22 ++ (side6aPaths23 ++ (side6aPaths24 ++ (side6aPaths25 ++ (side6aPaths26 ++ (side6aPaths27 ++ (side6aPaths28 ++ (side6aPaths29 ++ (side6aPaths30 ++ (side6aPaths31 ++ (side6aPaths32 ++ (side6aPaths33 ++ (side6aPaths34 ++ (side6aPaths35 ++ (side6aPaths36)))))))))))))))))))))))))))))))))))) := by
  have h : side6aTree.toList = side6aPaths0 ++ (side6aPaths1 ++ (side6aPaths2 ++ (side6aPaths3 ++ (side6aPaths4 ++ (side6aPaths5 ++ (side6aPaths6 ++ (side6aPaths7 ++ (side6aPaths8 ++ (side6aPaths9 ++ (side6aPaths10 ++ (side6aPaths11 ++ (side6aPaths12 ++ (side6aPaths13 ++ (side6aPaths14 ++ (side6aPaths15 ++ (side6aPaths16 ++ (side6aPaths17 ++ (side6aPaths18 ++ (side6aPaths19 ++ (side6aPaths20 ++ (side6aPaths21 ++ (side6aPaths22 ++ (side6aPaths23 ++ (side6aPaths24 ++ (side6aPaths25 ++ (side6aPaths26 ++ (side6aPaths27 ++ (side6aPaths28 ++ (side6aPaths29 ++ (side6aPaths30 ++ (side6aPaths31 ++ (side6aPaths32 ++ (side6aPaths33 ++ (side6aPaths34 ++ (side6aPaths35 ++ (side6aPaths36)))))))))))))))))))))))))))))))))))) := by decide +kernel
  rw [← h]
  refine side6aEnum.fronts_sound 27 8 36 side6aTree rfl ?_
  rw [side6a_fronts]
  exact partsP (Enum.partF_mem side6a_part0) (partsP (Enum.partF_mem side6a_part1) (partsP (Enum.partF_mem side6a_part2) (partsP (Enum.partF_mem side6a_part3) (partsP (Enum.partF_mem side6a_part4) (partsP (Enum.partF_mem side6a_part5) (Enum.partF_mem side6a_part6))))))

def side6a_l2_0 : List ℕ := [
  20, 576566311862140933, 120, 4401269768317, 110750375796040269829, 20, 576566311862140933, 104, 865166123920785413, 110741368596785528837, 20,
  576566311862140933, 96, 865130939548696581, 110736864997158158341, 20, 576566311862140933, 96, 865130939548696581, 110736864997158158341, 20,
  576566311862140933, 88, 865095755176607749, 110732361397530787845, 20, 576566311862140933, 88, 865095755176607749, 110732361397530787845, 20,
  576566311862140933, 88, 865095755176607749, 110732361397530787845, 20, 576566311862140933, 88, 865095755176607749, 110732361397530787845, 20,
  576566311862140933, 80, 865060586919034929, 110727857797903417349, 20, 576566311862140933, 80, 865060586919034929, 110727857797903417349, 20,
  576566311862140933, 80, 865060586919034929, 110727857797903417349, 20, 576566311862140933, 80, 865060586919034929, 110727857797903417349, 20,
  576566311862140933, 80, 865060586919034929, 110727857797903417349, 20, 576566311862140933, 80, 865060586919034929, 110727857797903417349, 20,
  576566311862140933, 80, 865060586919034929, 110727857797903417349, 20, 576566311862140933, 80, 865060586919034929, 110727857797903417349, 20,
  576566311862140933, 88, 865095755176607749, 110732361397530787845, 20, 576566311862140933, 88, 865095755176607749, 110732361397530787845, 20,
  576566311862140933, 120, 4401269768317, 110750375796040269829, 20, 576566311862140933, 104, 865166123920785413, 110741368596785528837, 20,
  576566311862140933, 96, 865130939548696581, 110736864997158158341, 20, 576566311862140933, 96, 865130939548696581, 110736864997158158341, 20,
  576566311862140933, 96, 865130939548696581, 110736864997158158341, 20, 576566311862140933, 120, 4401269768317, 110750375796040269829, 20,
  576566311862140933, 120, 4401269768317, 110750375796040269829, 20, 576566311862140933, 104, 865166123920785413, 110741368596785528837, 20,
  576566311862140933, 104, 865166123920785413, 110741368596785528837, 20, 576566311862140933, 120, 4401269768317, 110750375796040269829, 20,
  576566311862140933, 104, 865166123920785413, 110741368596785528837, 20, 576566311862140933, 112, 865201308292874245, 110745872196412899333, 20,
  576566311862140933, 120, 4401269768317, 110750375796040269829, 20, 576566311862140933, 120, 4401269768317, 110750375796040269829, 20,
  576566311862140933, 120, 4401269768317, 110750375796040269829, 20, 576566311862140933, 112, 288235189738209397, 110745872196412899333, 20,
  576566311862140933, 96, 865130939548696581, 110736864997158158341, 20, 576566311862140933, 88, 865095755176607749, 110732361397530787845, 20,
  576566311862140933, 88, 865095755176607749, 110732361397530787845, 20, 576566311862140933, 112, 288235189738209397, 110745872196412899333, 20,
  576566311862140933, 104, 865166123920785413, 110741368596785528837, 20, 576566311862140933, 112, 288235189738209397, 110745872196412899333, 20,
  576566311862140933, 112, 288235189738209397, 110745872196412899333, 20, 576566311862140933, 120, 4401269768317, 110750375796040269829, 20,
  576566311862140933, 104, 865166123920785413, 110741368596785528837, 20, 576566311862140933, 96, 865130939548696581, 110736864997158158341, 20,
  576566311862140933, 96, 865130939548696581, 110736864997158158341, 20, 576566311862140933, 120, 4401269768317, 110750375796040269829, 20,
  576566311862140933, 112, 865201308292874245, 110745872196412899333, 20, 576566311862140933, 120, 4401269768317, 110750375796040269829, 20,
  576566311862140933, 120, 4401269768317, 110750375796040269829, 20, 576566311862140933, 120, 4401269768317, 110750375796040269829, 20,
  576566311862140933, 104, 865166123920785413, 110741368596785528837, 20, 576566311862140933, 112, 865201308292874245, 110745872196412899333, 20,
  576566311862140933, 120, 4401269768317, 110750375796040269829, 20, 576566311862140933, 120, 4401269768317, 110750375796040269829, 20,
  576566311862140933, 120, 4401269768317, 110750375796040269829, 20, 576566311862140933, 120, 4401269768317, 110750375796040269829, 20,
  576566311862140933, 88, 865095755176607749, 110732361397530787845, 20, 576566311862140933, 80, 865060570804518917, 110727857797903417349, 20,
  576566311862140933, 80, 865060570804518917, 110727857797903417349, 20, 576566311862140933, 72, 865025386432430085, 110723354198276046853]

theorem side6a_l2_run0 : run .l2 2 45 8 side6aEnv [] side6a_l2_0 (side6aPaths0.map fun P => ⟨[P], []⟩) = true := Run.run_one (by decide +kernel)

def side6a_l2_1 : List ℕ := [
  20, 576566311862140933, 72, 865025386432430085, 110723354198276046853, 20, 576566311862140933, 72, 865025386432430085, 110723354198276046853, 20,
  576566311862140933, 72, 865025386432430085, 110723354198276046853, 20, 576566311862140933, 64, 864990202060341253, 110718850598648676357, 20,
  576566311862140933, 64, 864990202060341253, 110718850598648676357, 20, 576566311862140933, 64, 864990202060341253, 110718850598648676357, 20,
  576566311862140933, 64, 864990202060341253, 110718850598648676357, 20, 576566311862140933, 64, 864990202060341253, 110718850598648676357, 20,
  576566311862140933, 64, 864990202060341253, 110718850598648676357, 20, 576566311862140933, 64, 864990202060341253, 110718850598648676357, 20,
  576566311862140933, 64, 864990202060341253, 110718850598648676357, 20, 576566311862140933, 72, 865025386432430085, 110723354198276046853, 20,
  576566311862140933, 72, 865025386432430085, 110723354198276046853, 20, 576566311862140933, 120, 4401269768317, 110750375796040269829, 20,
  576566311862140933, 88, 865095755176607749, 110732361397530787845, 20, 576566311862140933, 80, 865060570804518917, 110727857797903417349, 20,
  576566311862140933, 80, 865060570804518917, 110727857797903417349, 20, 576566311862140933, 104, 865166123920785413, 110741368596785528837, 20,
  576566311862140933, 112, 288235189738209397, 110745872196412899333, 20, 576566311862140933, 112, 288235189738209397, 110745872196412899333, 20,
  576566311862140933, 112, 865201308292874245, 110745872196412899333, 20, 576566311862140933, 120, 4401269768317, 110750375796040269829, 20,
  576566311862140933, 120, 4401269768317, 110750375796040269829, 20, 576566311862140933, 80, 865060570804518917, 110727857797903417349, 20,
  576566311862140933, 120, 4401269768317, 110750375796040269829, 20, 576566311862140933, 120, 4401269768317, 110750375796040269829, 20,
  576566311862140933, 88, 865095755176607749, 110732361397530787845, 20, 576566311862140933, 88, 865095755176607749, 110732361397530787845, 20,
  576566311862140933, 120, 4401269768317, 110750375796040269829, 20, 576566311862140933, 120, 4401269768317, 110750375796040269829, 20,
  576566311862140933, 80, 865060570804518917, 110727857797903417349, 20, 576566311862140933, 72, 865025386432430085, 110723354198276046853, 20,
  576566311862140933, 72, 865025386432430085, 110723354198276046853, 20, 576566311862140933, 72, 865025386432430085, 110723354198276046853, 20,
  576566311862140933, 72, 865025386432430085, 110723354198276046853, 20, 576566311862140933, 64, 864990202060341253, 110718850598648676357, 20,
  576566311862140933, 64, 864990202060341253, 110718850598648676357, 20, 576566311862140933, 64, 864990202060341253, 110718850598648676357, 20,
  576566311862140933, 64, 864990202060341253, 110718850598648676357, 20, 576566311862140933, 64, 864990202060341253, 110718850598648676357, 20,
  576566311862140933, 64, 864990202060341253, 110718850598648676357, 20, 576566311862140933, 64, 864990202060341253, 110718850598648676357, 20,
  576566311862140933, 56, 864955017688252421, 110714346999021305861, 20, 576566311862140933, 56, 864955017688252421, 110714346999021305861, 20,
  576566311862140933, 56, 864955017688252421, 110714346999021305861, 20, 576566311862140933, 56, 864955017688252421, 110714346999021305861, 20,
  576566311862140933, 56, 864955017688252421, 110714346999021305861, 20, 576566311862140933, 56, 864955017688252421, 110714346999021305861, 20,
  576566311862140933, 56, 864955017688252421, 110714346999021305861, 20, 576566311862140933, 56, 864955017688252421, 110714346999021305861, 20,
  576566311862140933, 56, 864955017688252421, 110714346999021305861, 20, 576566311862140933, 56, 864955017688252421, 110714346999021305861, 20,
  576566311862140933, 56, 864955017688252421, 110714346999021305861, 20, 576566311862140933, 56, 864955017688252421, 110714346999021305861, 20,
  576566311862140933, 56, 864955017688252421, 110714346999021305861, 20, 576566311862140933, 56, 864955017688252421, 110714346999021305861, 20,
  576566311862140933, 112, 865201308292874245, 110745872196412899333, 20, 576566311862140933, 120, 4401269768317, 110750375796040269829, 20,
  576566311862140933, 64, 864990202060341253, 110718850598648676357, 20, 576566311862140933, 64, 864990202060341253, 110718850598648676357]

theorem side6a_l2_run1 : run .l2 2 45 8 side6aEnv [] side6a_l2_1 (side6aPaths1.map fun P => ⟨[P], []⟩) = true := Run.run_one (by decide +kernel)

def side6a_l2_2 : List ℕ := [
  20, 576566311862140933, 64, 864990202060341253, 110718850598648676357, 20, 576566311862140933, 64, 864990202060341253, 110718850598648676357, 20,
  576566311862140933, 120, 4401269768317, 110750375796040269829, 20, 576566311862140933, 120, 4401269768317, 110750375796040269829, 20,
  576566311862140933, 80, 865060570804518917, 110727857797903417349, 20, 576566311862140933, 72, 865025386432430085, 110723354198276046853, 20,
  576566311862140933, 72, 865025386432430085, 110723354198276046853, 20, 576566311862140933, 72, 865025386432430085, 110723354198276046853, 20,
  576566311862140933, 72, 865025386432430085, 110723354198276046853, 20, 576566311862140933, 120, 4401269768317, 110750375796040269829, 20,
  576566311862140933, 104, 865166146477752393, 110741368596785528837, 20, 576566311862140933, 112, 288235189738209397, 110745872196412899333, 20,
  576566311862140933, 120, 4401269768317, 110750375796040269829, 20, 576566311862140933, 112, 288235189738209397, 110745872196412899333, 20,
  576566311862140933, 120, 4401269768317, 110750375796040269829, 20, 576566311862140933, 120, 4401269768317, 110750375796040269829, 20,
  576566311862140933, 88, 865095755176607749, 110732361397530787845, 20, 576566311862140933, 120, 4401269768317, 110750375796040269829, 20,
  576566311862140933, 120, 4401269768317, 110750375796040269829, 20, 576566311862140933, 72, 865025386432430085, 110723354198276046853, 20,
  576566311862140933, 64, 864990202060341253, 110718850598648676357, 20, 576566311862140933, 64, 864990202060341253, 110718850598648676357, 20,
  576566311862140933, 64, 864990202060341253, 110718850598648676357, 20, 576566311862140933, 64, 864990202060341253, 110718850598648676357, 20,
  576566311862140933, 56, 864955017688252421, 110714346999021305861, 20, 576566311862140933, 56, 864955017688252421, 110714346999021305861, 20,
  576566311862140933, 56, 864955017688252421, 110714346999021305861, 20, 576566311862140933, 56, 864955017688252421, 110714346999021305861, 20,
  576566311862140933, 56, 864955017688252421, 110714346999021305861, 20, 576566311862140933, 56, 864955017688252421, 110714346999021305861, 20,
  576566311862140933, 56, 864955017688252421, 110714346999021305861, 20, 576566311862140933, 56, 864955017688252421, 110714346999021305861, 20,
  576566311862140933, 56, 864955017688252421, 110714346999021305861, 20, 576566311862140933, 56, 864955017688252421, 110714346999021305861, 20,
  576566311862140933, 56, 864955017688252421, 110714346999021305861, 20, 576566311862140933, 56, 864955017688252421, 110714346999021305861, 20,
  576566311862140933, 56, 864955017688252421, 110714346999021305861, 20, 576566311862140933, 56, 864955017688252421, 110714346999021305861, 20,
  576566311862140933, 56, 864955017688252421, 110714346999021305861, 20, 576566311862140933, 56, 864955017688252421, 110714346999021305861, 20,
  576566311862140933, 56, 864955017688252421, 110714346999021305861, 20, 576566311862140933, 56, 864955017688252421, 110714346999021305861, 20,
  576566311862140933, 56, 864955017688252421, 110714346999021305861, 20, 576566311862140933, 56, 864955017688252421, 110714346999021305861, 20,
  576566311862140933, 56, 864955017688252421, 110714346999021305861, 20, 576566311862140933, 56, 864955017688252421, 110714346999021305861, 20,
  576566311862140933, 56, 864955017688252421, 110714346999021305861, 20, 576566311862140933, 48, 864919840832356357, 110709843399393935365, 20,
  576566311862140933, 48, 864919840832356357, 110709843399393935365, 20, 576566311862140933, 48, 864919840832356357, 110709843399393935365, 20,
  576566311862140933, 48, 864919840832356357, 110709843399393935365, 20, 576566311862140933, 48, 864919840832356357, 110709843399393935365, 20,
  576566311862140933, 48, 864919840832356357, 110709843399393935365, 20, 576566311862140933, 48, 864919840832356357, 110709843399393935365, 20,
  576566311862140933, 48, 864919840832356357, 110709843399393935365, 20, 576566311862140933, 48, 864919840832356357, 110709843399393935365, 20,
  576566311862140933, 48, 864919840832356357, 110709843399393935365, 20, 576566311862140933, 48, 864919840832356357, 110709843399393935365, 20,
  576566311862140933, 48, 864919840832356357, 110709843399393935365, 20, 576566311862140933, 48, 864919840832356357, 110709843399393935365]

theorem side6a_l2_run2 : run .l2 2 45 8 side6aEnv [] side6a_l2_2 (side6aPaths2.map fun P => ⟨[P], []⟩) = true := Run.run_one (by decide +kernel)

def side6a_l2_3 : List ℕ := [
  20, 576566311862140933, 48, 864919840832356357, 110709843399393935365, 20, 576566311862140933, 48, 864919840832356357, 110709843399393935365, 20,
  576566311862140933, 48, 864919840832356357, 110709843399393935365, 20, 576566311862140933, 48, 864919840832356357, 110709843399393935365, 20,
  576566311862140933, 48, 864919840832356357, 110709843399393935365, 20, 576566311862140933, 48, 864919840832356357, 110709843399393935365, 20,
  576566311862140933, 48, 864919840832356357, 110709843399393935365, 20, 576566311862140933, 48, 864919840832356357, 110709843399393935365, 20,
  576566311862140933, 48, 864919840832356357, 110709843399393935365, 20, 576566311862140933, 48, 864919840832356357, 110709843399393935365, 20,
  576566311862140933, 48, 864919840832356357, 110709843399393935365, 20, 576566311862140933, 48, 864919840832356357, 110709843399393935365, 20,
  576566311862140933, 48, 864919840832356357, 110709843399393935365, 20, 576566311862140933, 48, 864919840832356357, 110709843399393935365, 20,
  576566311862140933, 48, 864919840832356357, 110709843399393935365, 20, 576566311862140933, 48, 864919840832356357, 110709843399393935365, 20,
  576566311862140933, 48, 864919840832356357, 110709843399393935365, 20, 576566311862140933, 48, 864919840832356357, 110709843399393935365, 20,
  576566311862140933, 48, 864919840832356357, 110709843399393935365, 20, 576566311862140933, 48, 864919840832356357, 110709843399393935365, 20,
  576566311862140933, 48, 864919840832356357, 110709843399393935365, 20, 576566311862140933, 48, 864919840832356357, 110709843399393935365, 20,
  576566311862140933, 48, 864919840832356357, 110709843399393935365, 20, 576566311862140933, 88, 865095773438607417, 110732361397530787845, 20,
  576566311862140933, 88, 865095773438607417, 110732361397530787845, 20, 576566311862140933, 120, 4401269768317, 110750375796040269829, 20,
  576566311862140933, 104, 865166123920785413, 110741368596785528837, 20, 576566311862140933, 96, 865130939548696581, 110736864997158158341, 20,
  576566311862140933, 96, 865130939548696581, 110736864997158158341, 20, 576566311862140933, 112, 865201308292874245, 110745872196412899333, 20,
  576566311862140933, 120, 4401269768317, 110750375796040269829, 20, 576566311862140933, 112, 288235189738209397, 110745872196412899333, 20,
  576566311862140933, 120, 4401269768317, 110750375796040269829, 20, 576566311862140933, 112, 865201308292874245, 110745872196412899333, 20,
  576566311862140933, 120, 4401269768317, 110750375796040269829, 20, 576566311862140933, 72, 865025386432430085, 110723354198276046853, 20,
  576566311862140933, 72, 865025386432430085, 110723354198276046853, 20, 576566311862140933, 120, 4401269768317, 110750375796040269829, 20,
  576566311862140933, 88, 865095755176607749, 110732361397530787845, 20, 576566311862140933, 80, 865060570804518917, 110727857797903417349, 20,
  576566311862140933, 80, 865060570804518917, 110727857797903417349, 20, 576566311862140933, 112, 865201308292874245, 110745872196412899333, 20,
  576566311862140933, 120, 4401269768317, 110750375796040269829, 20, 576566311862140933, 64, 864990202060341253, 110718850598648676357, 20,
  576566311862140933, 64, 864990202060341253, 110718850598648676357, 20, 576566311862140933, 64, 864990202060341253, 110718850598648676357, 20,
  576566311862140933, 64, 864990202060341253, 110718850598648676357, 20, 576566311862140933, 120, 4401269768317, 110750375796040269829, 20,
  576566311862140933, 120, 4401269768317, 110750375796040269829, 20, 576566311862140933, 80, 865060570804518917, 110727857797903417349, 20,
  576566311862140933, 72, 865025386432430085, 110723354198276046853, 20, 576566311862140933, 72, 865025386432430085, 110723354198276046853, 20,
  576566311862140933, 72, 865025386432430085, 110723354198276046853, 20, 576566311862140933, 72, 865025386432430085, 110723354198276046853, 20,
  576566311862140933, 120, 4401269768317, 110750375796040269829, 20, 576566311862140933, 104, 865166123920785413, 110741368596785528837, 20,
  576566311862140933, 96, 865130959958179905, 110736864997158158341, 20, 576566311862140933, 96, 865130959958179905, 110736864997158158341, 20,
  576566311862140933, 120, 4401269768317, 110750375796040269829, 20, 576566311862140933, 112, 288235189738209397, 110745872196412899333]

theorem side6a_l2_run3 : run .l2 2 45 8 side6aEnv [] side6a_l2_3 (side6aPaths3.map fun P => ⟨[P], []⟩) = true := Run.run_one (by decide +kernel)

def side6a_l2_4 : List ℕ := [
  20, 576566311862140933, 120, 4401269768317, 110750375796040269829, 20, 576566311862140933, 120, 4401269768317, 110750375796040269829, 20,
  576566311862140933, 120, 4401269768317, 110750375796040269829, 20, 576566311862140933, 88, 865095755176607749, 110732361397530787845, 20,
  576566311862140933, 80, 865060570804518917, 110727857797903417349, 20, 576566311862140933, 80, 865060570804518917, 110727857797903417349, 20,
  576566311862140933, 120, 4401269768317, 110750375796040269829, 20, 576566311862140933, 120, 4401269768317, 110750375796040269829, 20,
  576566311862140933, 120, 4401269768317, 110750375796040269829, 20, 576566311862140933, 80, 865060570804518917, 110727857797903417349, 20,
  576566311862140933, 72, 865025386432430085, 110723354198276046853, 20, 576566311862140933, 72, 865025386432430085, 110723354198276046853, 20,
  576566311862140933, 72, 865025386432430085, 110723354198276046853, 20, 576566311862140933, 72, 865025386432430085, 110723354198276046853, 20,
  576566311862140933, 120, 4401269768317, 110750375796040269829, 20, 576566311862140933, 104, 865166146477752393, 110741368596785528837, 20,
  576566311862140933, 112, 288235189738209397, 110745872196412899333, 20, 576566311862140933, 120, 4401269768317, 110750375796040269829, 20,
  576566311862140933, 112, 288235189738209397, 110745872196412899333, 20, 576566311862140933, 120, 4401269768317, 110750375796040269829, 20,
  576566311862140933, 120, 4401269768317, 110750375796040269829, 20, 576566311862140933, 88, 865095755176607749, 110732361397530787845, 20,
  576566311862140933, 120, 4401269768317, 110750375796040269829, 20, 576566311862140933, 120, 4401269768317, 110750375796040269829, 20,
  576566311862140933, 64, 864990202060341253, 110718850598648676357, 20, 576566311862140933, 56, 864955017688252421, 110714346999021305861, 20,
  576566311862140933, 56, 864955017688252421, 110714346999021305861, 20, 576566311862140933, 56, 864955017688252421, 110714346999021305861, 20,
  576566311862140933, 56, 864955017688252421, 110714346999021305861, 20, 576566311862140933, 48, 864919840832356357, 110709843399393935365, 20,
  576566311862140933, 48, 864919840832356357, 110709843399393935365, 20, 576566311862140933, 48, 864919840832356357, 110709843399393935365, 20,
  576566311862140933, 48, 864919840832356357, 110709843399393935365, 20, 576566311862140933, 48, 864919840832356357, 110709843399393935365, 20,
  576566311862140933, 48, 864919840832356357, 110709843399393935365, 20, 576566311862140933, 48, 864919840832356357, 110709843399393935365, 20,
  576566311862140933, 48, 864919840832356357, 110709843399393935365, 20, 576566311862140933, 48, 864919840832356357, 110709843399393935365, 20,
  576566311862140933, 48, 864919840832356357, 110709843399393935365, 20, 576566311862140933, 48, 864919840832356357, 110709843399393935365, 20,
  576566311862140933, 48, 864919840832356357, 110709843399393935365, 20, 576566311862140933, 48, 864919840832356357, 110709843399393935365, 20,
  576566311862140933, 48, 864919840832356357, 110709843399393935365, 20, 576566311862140933, 48, 864919840832356357, 110709843399393935365, 20,
  576566311862140933, 48, 864919840832356357, 110709843399393935365, 20, 576566311862140933, 48, 864919840832356357, 110709843399393935365, 20,
  576566311862140933, 48, 864919840832356357, 110709843399393935365, 20, 576566311862140933, 48, 864919840832356357, 110709843399393935365, 20,
  576566311862140933, 48, 864919840832356357, 110709843399393935365, 20, 576566311862140933, 48, 864919840832356357, 110709843399393935365, 20,
  576566311862140933, 48, 864919840832356357, 110709843399393935365, 20, 576566311862140933, 48, 864919840832356357, 110709843399393935365,
  2251811633233941, 2251811633233941, 2251811633233941, 2251811633233941, 2251811633233941, 2251811633233941, 2251811633233941, 2251811633233941,
  2251811633233941, 2251811633233941, 2251811633233941, 2251811633233941, 2251811633233941, 2251811633233941, 2251811633233941, 2251811633233941,
  2251811633233941, 2251811633233941, 2251811633233941, 2251811633233941, 2251811633233941, 2251811633233941, 2251811633233941, 2251811633233941,
  2251811633233941, 2251811633233941, 2251811633233941, 2251811633233941, 2251811633233941, 2251811633233941, 2251811633233941, 2251811633233941,
  2251811633233941, 2251811633233941, 2251811633233941, 2251811633233941, 2251811633233941, 2251811633233941, 2251811633233941, 2251811633233941]

theorem side6a_l2_run4 : run .l2 2 45 8 side6aEnv [] side6a_l2_4 (side6aPaths4.map fun P => ⟨[P], []⟩) = true := Run.run_one (by decide +kernel)

def side6a_l2_5 : List ℕ := [
  2251811633233941, 2251811633233941, 2251811633233941, 2251811633233941, 2251811633233941, 2251811633233941, 2251811633233941, 2251811633233941,
  2251811633233941, 2251811633233941, 2251811633233941, 2251811633233941, 2251811633233941, 2251811633233941, 2251811633233941, 2251811633233941,
  2251811633233941, 2251811633233941, 2251811633233941, 2251811633233941, 2251811633233941, 2251811633233941, 2251811633233941, 2251811633233941,
  2251811633233941, 2251811633233941, 2251811633233941, 2251811633233941, 2251811633233941, 2251811633233941, 2251811633233941, 2251811633233941,
  2251811633233941, 2251811633233941, 2251811633233941, 2251811633233941, 2251811633233941, 2251811633233941, 2251811633233941, 2251811633233941,
  2251811633233941, 2251811633233941, 2251811633233941, 2251811633233941, 2251811633233941, 2251811633233941, 28, 24, 73804991795007324189,
  9447038950586577849957, 24, 36893633009149808137, 36893632734271901289, 120, 4401269768317, 28, 158604619419773, 110750410982568230941, 24, 28,
  73804991795007324189, 64, 100, 84, 36893947881792220225, 1814015977566724664863849, 864990223543566421, 604465294516112158887457, 28,
  9447038950586577849997, 64, 100, 84, 36893947881792220225, 1814015977566724664863849, 864990223543566421, 68, 604468176819873676010017,
  36893805632475374089, 24, 28, 73804991795007324189, 64, 32, 36, 14171999543262911140473, 40, 36893685785707942933, 36893683999001547801,
  4722387277246009184325, 604465276501713649405473, 28, 9447038950586577849965, 64, 32, 36, 14171999543262911140473, 40, 36893685785707942933,
  36893683999001547801, 4722387277246009184325, 68, 604468158805475166528033, 36893805632475374089, 64, 4, 8, 14171999420117608825977,
  36893545185658537081, 0, 36893527593472492153, 4722371514647313384005, 24, 28, 73804991795007324189, 60, 36893791476263166073,
  604467877312896681648197, 28, 9447038950586577849965, 60, 36893791476263166073, 604467877312896681648197, 4, 8, 36893543261513188481,
  36893545323097490545, 0, 36893527730911445617, 36893527730911445573, 120, 4401269768317, 28, 158604619419773, 110750410982568230941, 120,
  4401269768317, 28, 158604619419773, 110750410982568230941, 12, 16, 36893576934056790129, 36893580095152720001, 80, 96, 110727755677541138517,
  110727755677541138517, 96, 36893930701923035669, 36893928777777687053, 72, 104, 4722427405022393280077, 110723252352791543885, 28,
  288234226590416973, 36893981003574607949, 72, 100, 104, 14172576303357255234589, 36893967260684661781, 110723252215352590413, 76,
  36893844115382347285, 28, 24, 73804991795007324189, 9447038950586577849965, 1814092011891872605864013, 72, 88, 110723251803035729997,
  110723251803035729997, 88, 36893893730844550681, 36893893593405597197, 8, 12, 36893559341870745201, 36893562502966675073, 4, 36893545323097490545,
  0, 36893527730911445617, 36, 40, 36893686060585849973, 44, 36893703652771894897, 48, 52, 36893735263731194481, 36893738424827124353,
  36893721244957939829, 40, 36893686060585849865, 44, 36893703652771894897, 48, 52, 36893735263731194481, 36893738424827124353, 36893721244957939829,
  24, 28, 73804991795007324189, 56, 136, 140, 604473367271339899177017, 1813942213073243574650509, 140, 36894125315481159193, 36894123528774764045,
  60, 604467600359119225101857, 36893770448103284233, 28, 9447038950586577849997, 56, 136, 140, 604473367271339899177017, 1813942213073243574650509,
  140, 36894125315481159193, 36894123528774764045, 60, 604467600359119225101857, 36893770448103284233, 4, 8, 36893542986635281529,
  36893545185658537081, 0, 36893527593472492153, 36893527456033538621, 120, 4401269768317, 28, 158604619419773, 110750410982568230941, 120,
  4401269768317, 28, 158604619419773, 110750410982568230941, 120, 4401269768317, 28, 158604619419773, 110750410982568230941, 4, 8,
  36893542436879467649, 36893545323097490545, 0, 36893527730911445617, 36893527730911445549, 72, 104, 4722427405022393280077, 110723252352791543885,
  28, 288234226590416973, 36893981003574607949, 72, 100, 104, 36893964649344545817, 36893967260684661781, 110723252215352590413, 76,
  36893844115382347285, 36893841504042231321, 72, 88, 110723251803035729997, 110723251803035729997, 76, 36893844252821300749, 36893841504042231321,
  4, 8, 36893542436879467649, 36893545323097490545, 0, 36893527730911445617, 36893527730911445549, 2251813780717597, 2251813780717597,
  2251813780717597, 2251813780717597, 2251813780717597, 2251813780717597, 2251813780717597, 2251813780717597, 2251813780717597]

theorem side6a_l2_run5 : run .l2 2 45 8 side6aEnv [] side6a_l2_5 (side6aPaths5.map fun P => ⟨[P], []⟩) = true := Run.run_one (by decide +kernel)

def side6a_l2_6 : List ℕ := [
  2251813780717597, 2251813780717597, 2251813780717597, 2251813780717597, 2251813780717597, 2251813780717597, 2251813780717597, 2251813780717597,
  2251813780717597, 2251813780717597, 60, 288233676835127361, 120, 4401269768317, 110750551728646520893, 32, 28, 36893646890484109325, 48,
  36893720557763170877, 36893718908495728749, 60, 9449344935432791528013, 36893773334321304141, 48, 32, 36893720282885263933, 36893720282885263973,
  28, 36893718908495728645, 36893718908495728741, 32, 28, 36893646890484109325, 48, 36893720282885263933, 36893718908495728741, 48,
  36893720282885263973, 28, 36893718908495728645, 36893718908495728741, 32, 28, 36893646890484109325, 48, 36893720008007356989, 36893718908495728777,
  48, 36893720008007357021, 28, 36893718908495728645, 36893718908495728777, 48, 32, 36893720008007356989, 36893720008007357021, 32,
  36893718908495729213, 36893718908495729245, 48, 32, 36893720008007356989, 36893720008007357021, 28, 36893718908495728645, 36893718908495728781, 32,
  28, 36893646890484109325, 36893646890484109433, 48, 36893720008007357021, 36893718908495729245, 2251822370652221, 2251822370652221,
  2251822370652221, 2251822370652221, 2251822370652221, 2251822370652221, 2251822370652221, 2251822370652221, 2251824518135877, 2251824518135877,
  2251833108070501, 2251828813103189, 2251826665619533, 2251826665619533, 68, 88, 73827511854729134153, 4722418714345039995977, 96, 88, 64, 12, 8,
  14174305278932302169737, 0, 132, 4, 604463851323656937554949, 604463563093280785777669, 4, 604463851499578797999117, 604463563269202646221837,
  604464072000038678757957, 604468138926424055679061, 110736761914723467333, 110736762601918234697, 64, 12, 8, 604464072035223050855509, 88, 0, 132,
  4, 604463851323656937554949, 604463563093280785777669, 4, 604463851499578797999117, 604463563269202646221837, 604464072000038678757957,
  1814316255177432777228361, 604468138926424055679061, 1814316255089471847006277, 92, 3438122893409, 120, 4401269768317, 110750692474724810845,
  2251833108070501, 104, 120, 110741267301057364077, 110741267301057364077, 132, 36894088894158485005, 36894089993670112841, 2251828813103189, 120,
  4401269768317, 84, 404895341489277, 110750657288205238357, 2251828813103189, 2251830960586845, 2251833108070501, 92, 3438122893409, 120,
  4401269768317, 110750692474724810845, 2251833108070501, 112, 288235189738209397, 68, 288235188663746677, 36894104148961460341, 36, 68,
  73827511167534366761, 36893808243815486477, 68, 9449921431644344947797, 36893808243815486549, 2251824518135877, 2251824518135877, 2251830960586845,
  104, 44, 48, 36893717259228289037, 14174881901175375927309, 48, 4722395809456324614253, 110741264827156201521, 72, 76, 36893840404530603533,
  1209671471953289299371533, 76, 4722411571917522740817, 1814390618561703377633357, 32, 36, 36893664482670154325, 36893667918643991125, 28,
  36893649364385271821, 36893649364385271921, 2251830960586845, 120, 4401269768317, 76, 369710952622205, 110750622101685665869, 40, 72,
  334390047544909, 36893823636978275917, 76, 1209663734765692597048877, 36893843703065482801, 2251826665619533, 2251826665619533, 2251833108070501,
  52, 56, 36893752443600378893, 36893755742135262221, 56, 36893752443600378989, 36893756017013169237, 92, 3438122893409, 120, 4401269768317,
  110750692474724810845, 2251833108070501, 120, 4401269768317, 84, 404895341489277, 110750657288205238357, 2251828813103189, 2251830960586845,
  2251833108070501, 92, 3438122893409, 120, 4401269768317, 110750692474724810845, 2251833108070501, 120, 4401269768317, 44, 228973397153917,
  110750481355607375917, 88, 104, 110732259552046547037, 110732259552046547037, 104, 36893966298611985953, 36893964374466637325, 80, 116,
  110727756364735905877, 110727756364735905877, 112, 36893999833716632105, 36894001208106166797, 80, 96, 110727755677541138517,
  110727755677541138517, 96, 36893929464972454437, 36893929190094547469, 72, 104, 4722427457798951413325, 110723252352791543885, 104,
  36893964649344542249, 36893965748856169997, 104, 120, 36894036117600351817, 36894035018088724029, 120, 36894035980161398317, 36894034743210817069,
  72, 44, 116, 136, 4722445630389637626929, 40, 73813999544018141229, 4722393557518946145933, 136, 110723253452303171705, 40, 73813999544018141229,
  4722393557518946145933, 64, 14172576126475470831665, 110723250978402009137, 76, 36893844115382347301, 44, 9448192084710320242765,
  1814093164813377246265421]

theorem side6a_l2_run6 : run .l2 2 45 8 side6aEnv [] side6a_l2_6 (side6aPaths6.map fun P => ⟨[P], []⟩) = true := Run.run_one (by decide +kernel)

def side6a_l2_7 : List ℕ := [
  72, 88, 110723251803035729997, 110723251803035729997, 88, 36893894280600364581, 36893894005722457613, 2251818075684909, 2251818075684909,
  2251818075684909, 2251818075684909, 2251818075684909, 2251818075684909, 2251818075684909, 2251818075684909, 2251820223168565, 2251820223168565,
  2251833108070501, 2251824518135877, 2251822370652221, 2251822370652221, 76, 44, 73832015042039775281, 9450497927855898368093, 44,
  36893843703065483277, 36893843703065483357, 20, 16, 36893596587827137137, 36893596587827137037, 24, 28, 36893632871710854741, 36893629298298064493,
  36893614180013182065, 2251830960586845, 84, 12, 20, 16, 36893596587827137137, 36893596587827137037, 24, 28, 36893632871710854741,
  36893629298298064493, 36893614180013182065, 20, 16, 36893596587827137137, 36893596587827137037, 24, 28, 36893632871710854741, 36893629298298064493,
  36893614180013182065, 112, 865201325481132081, 110746153688577867825, 92, 3438122893409, 120, 4401269768317, 110750692474724810845,
  2251833108070501, 120, 104, 36894036392478258769, 36894035842722444853, 104, 36894035018088724049, 36894033918577096245, 92, 3438122893409, 120,
  4401269768317, 110750692474724810845, 2251833108070501, 4, 8, 36893542024562607233, 36893545185658537081, 0, 36893527593472492153,
  36893527730911445537, 2251824518135877, 120, 4401269768317, 36, 193789008286845, 110750446169087803429, 120, 4401269768317, 36, 193789008286845,
  110750446169087803429, 80, 96, 110727755677541138517, 110727755677541138517, 96, 36893930839361989145, 36893928915216640525, 72, 104,
  4722427422614579324493, 110723252352791543885, 104, 36893964374466635297, 36893965748856169997, 72, 100, 104, 14172576303357255234597,
  36893967260684661785, 110723252215352590413, 76, 36893844115382347289, 36, 9447615623958016688205, 1814092588352624926064717, 72, 88,
  110723251803035729997, 110723251803035729997, 88, 36893894005722457629, 36893893730844550669, 72, 88, 110723251803035729997, 110723251803035729997,
  88, 36893894005722457629, 36893893730844550669, 64, 96, 4722422936607121220165, 110718748478286135365, 96, 36893929190094545441,
  36893930289606173197, 36, 32, 73809495669512732709, 36893665032425968265, 64, 92, 96, 14171999807145701814309, 36893931801434664989,
  110718748340847181893, 68, 36893808656132350493, 1814018801341145715638341, 4, 8, 36893543261513188481, 36893545323097490545, 0,
  36893527730911445617, 36893527730911445573, 64, 108, 104, 1814015982263838338725445, 604471043431524361517085, 36, 32, 73809495669512732709, 136,
  1209294777190298324832909, 140, 36894125315481159197, 14172000000659748308517, 56, 36893753268234097733, 110718747103896600617, 68,
  36893808656132350493, 36, 9447615588498766692421, 1814018801341145715638341, 64, 116, 112, 1814015986802622338185797, 604471622249629595023885,
  112, 108, 4722432313242282899525, 604471333948884699068429, 1814015986573923919608441, 68, 36893808931010257433, 36, 9447615588498766692421,
  1814018801341145715638341, 64, 80, 110718747928530321477, 110718747928530321477, 80, 36893858821350367773, 36893858546472460813, 4, 8,
  36893543261513188481, 36893545323097490545, 0, 36893527730911445617, 36893527730911445573, 2251815928201253, 2251815928201253, 2251815928201253,
  2251815928201253, 2251815928201253, 2251815928201253, 2251815928201253, 2251815928201253, 2251815928201253, 2251815928201253, 2251815928201253,
  2251815928201253, 2251815928201253, 2251815928201253, 2251830960586845, 2251833108070501, 2251818075684909, 2251818075684909, 2251818075684909,
  2251818075684909, 2251833108070501, 2251833108070501, 2251822370652221, 2251820223168565, 2251820223168565, 2251820223168565, 2251820223168565,
  112, 288235189738209397, 28, 288235188663091317, 36894104148877574261, 120, 4401269768317, 28, 158604619419773, 110750410982568230941, 120,
  4401269768317, 28, 158604619419773, 110750410982568230941, 28, 88, 104, 110732259552046547037, 110732259552046547037, 288234776346230877, 88, 104,
  110732259552046547037, 110732259552046547037, 36894051372319047773, 64, 96, 4722422901422749131333, 110718748478286135365, 28, 288233951712510021,
  36893945819202388037, 64, 96, 4722422901422749131333, 110718748478286135365, 28, 288233951712510021, 36893945819202388037]

theorem side6a_l2_run7 : run .l2 2 45 8 side6aEnv [] side6a_l2_7 (side6aPaths7.map fun P => ⟨[P], []⟩) = true := Run.run_one (by decide +kernel)

def side6a_l2_8 : List ℕ := [
  20, 24, 36893613630257368093, 28, 73804991795007324185, 108, 64, 112, 36894000658350356509, 14171999879026274482205, 68, 604468161057274980213281,
  36893807144303862301, 604464990699178290449521, 16, 132, 64, 68, 72, 84, 110718748065969274957, 36893876138658506309, 36893823362100372549,
  1814015959552326155379337, 68, 28, 24, 9447038950586577849961, 9447038950586577849909, 604468161057274980213281, 36893807144303862301,
  604464650747775168103453, 36893596038071323165, 72, 76, 36893844390260254277, 80, 36893861845007345785, 36893859920861997185, 68,
  36893823362100372549, 36893823087222465657, 88, 92, 36893914759004433989, 96, 36893932213751525497, 36893930289606176897, 84, 36893893730844552301,
  36893893730844552209, 64, 136, 116, 120, 36894035842722446365, 36894037629428841493, 110718749852675670137, 140, 36894125590359066133,
  36894123803652671005, 68, 36893808931010257429, 36893807144303862301, 40, 36, 36893682624612013073, 36893682624612013165, 56, 52,
  36893752993356192785, 36893752993356192877, 60, 36893770585542237765, 64, 80, 110718747928530321477, 110718747928530321477, 36893791613702119493,
  4, 8, 36893541612245746809, 12, 36893559479309698629, 20, 24, 36893613630257368093, 36893615691841670153, 56, 60, 36893770310664330873, 64, 80,
  110718747928530321477, 110718747928530321477, 36893791613702119493, 60, 36893770585542237765, 64, 80, 110718747928530321477, 110718747928530321477,
  36893791613702119493, 0, 36893527593472492153, 36893527730911445573, 56, 36, 14171423170196660032537, 110714243504269099049, 28,
  288233676834603069, 36893910634830168125, 56, 20, 24, 36893613355379461141, 28, 73804991795007324185, 36893633421466668605, 16,
  36893595763193416325, 36893595763193416213, 28, 20, 73804991795007324185, 16, 36893595763193416325, 36893595763193416213, 36893910634830168125, 8,
  20, 24, 36893613355379461141, 28, 73804991795007324185, 36893633421466668605, 16, 36893595763193416325, 36893595763193416213, 12,
  36893559479309698617, 36893563052722488893, 44, 40, 36893699941920151161, 36893700216798058041, 48, 52, 36893736500681775741, 36893738699705031289,
  36893721244957939769, 28, 24, 9447038950586577849961, 9447038950586577849909, 56, 36, 40, 36893682624612013073, 44, 36893700216798058041,
  110714243504269099057, 110714243504269099049, 60, 604467586848320342990369, 36893771685053865493, 20, 24, 36893613355379461141,
  36893615554402716701, 56, 36, 40, 36893682624612013073, 44, 36893700216798058041, 110714243504269099057, 110714243504269099049, 60,
  36893773884077121053, 36893771685053865493, 28, 24, 9447038950586577849961, 9447038950586577849909, 56, 36, 40, 36893682624612013073, 44,
  36893700216798058041, 110714243504269099057, 110714243504269099049, 60, 604467584596520529305121, 36893771685053865493, 4, 8, 36893541612245746809,
  12, 36893559479309698617, 20, 24, 36893613355379461141, 36893615691841670153, 40, 36, 36893682624612013073, 56, 110714243504269099049, 44,
  36893699941920151161, 48, 52, 36893736500681775741, 36893738699705031289, 36893721244957939769, 44, 36893700216798058041, 48, 52,
  36893736500681775741, 36893738699705031289, 36893721244957939769, 20, 24, 36893613355379461141, 36893615691841670153, 40, 36, 36893682624612013073,
  56, 110714243504269099049, 44, 36893699941920151161, 48, 52, 36893736500681775741, 36893738699705031289, 36893721244957939769, 44,
  36893700216798058041, 48, 52, 36893736500681775741, 36893738699705031289, 36893721244957939769, 44, 40, 36893700216798058097, 36893700216798058041,
  56, 110714243504269099057, 48, 52, 36893736500681775737, 36893756154452122685, 36893720970080032829, 4, 8, 36893541612245746809,
  36893544361024816257, 0, 36893527593472492153, 36893527730911445561, 4, 8, 36893541612245746809, 12, 36893559479309698617, 20, 24,
  36893613355379461141, 36893615691841670153, 40, 44, 36893699941920151161, 48, 52, 36893736500681775741, 36893738699705031289, 36893721244957939769,
  44, 36893700216798058041, 48, 52, 36893736500681775741, 36893738699705031289, 36893721244957939769, 0, 36893527593472492153, 36893527730911445561,
  120, 4401269768317, 52, 264157786020989, 110750516542126948405]

theorem side6a_l2_run8 : run .l2 2 45 8 side6aEnv [] side6a_l2_8 (side6aPaths8.map fun P => ⟨[P], []⟩) = true := Run.run_one (by decide +kernel)

def side6a_l2_9 : List ℕ := [
  52, 24, 73818503418523549725, 9448768439221238107725, 24, 36893738149949214253, 36893738149949214285, 24, 52, 73818503418523549725,
  36893737737632353841, 52, 9448768439221238107725, 36893737875071307361, 52, 24, 73818503418523549725, 9448768439221238107725, 24,
  36893737737632353841, 36893737875071307361, 24, 52, 73818503418523549725, 36893737462754446897, 52, 9448768439221238107725, 36893737600193400409,
  24, 52, 73818503418523549725, 36893737462754446897, 52, 9448768439221238107725, 36893737600193400409, 52, 24, 73818503418523549725,
  9448768439221238107725, 24, 36893737462754446897, 36893737600193400409, 52, 24, 73818503418523549725, 9448768439221238107725, 24,
  36893737462754446897, 36893737600193400409, 24, 52, 73818503418523549725, 36893737187876539953, 52, 9448768439221238107725, 36893737325315493457,
  52, 24, 73818503418523549725, 9448768439221238107725, 24, 36893737187876539953, 36893737325315493457, 52, 24, 73818503418523549725,
  9448768439221238107725, 24, 36893737187876539953, 36893737325315493457, 24, 52, 73818503418523549725, 36893737187876539953, 52,
  9448768439221238107725, 36893737325315493457, 24, 52, 73818503418523549725, 36893737187876539953, 52, 9448768439221238107725, 36893737325315493457,
  24, 52, 73818503418523549725, 36893737187876539953, 52, 9448768439221238107725, 36893737325315493457, 24, 52, 73818503418523549725,
  36893737187876539953, 52, 9448768439221238107725, 36893737325315493457, 24, 52, 73818503418523549725, 36893737187876539953, 20,
  36893615279524809737, 36893615279524809845, 60, 288233676835127361, 120, 4401269768317, 110750551728646520893, 104, 120, 110741267301057364077,
  110741267301057364077, 120, 36894036942234072617, 36894035018088724009, 40, 24, 36893685098513174073, 36893685098513174117, 20,
  36893683724123638789, 36893683724123638885, 40, 24, 36893685098513174073, 36893685098513174117, 20, 36893683724123638789, 36893683724123638885, 40,
  24, 36893684823635267129, 36893684823635267165, 20, 36893683724123638789, 36893683724123638921, 40, 24, 36893684823635267129, 36893684823635267165,
  24, 36893683586684685881, 36893683586684685917, 40, 24, 36893684823635267129, 36893684823635267165, 20, 36893683724123638789, 36893683724123638925,
  40, 24, 36893684823635267129, 36893684823635267165, 24, 36893683586684685881, 36893683586684685917, 2251822370652221, 2251822370652221,
  2251822370652221, 2251822370652221, 2251822370652221, 2251822370652221, 2251822370652221, 2251822370652221, 2251824518135877, 2251824518135877,
  2251833108070501, 2251828813103189, 2251826665619533, 2251826665619533, 132, 128, 4, 8, 604463781517862713311789, 136, 140, 0,
  9903529796542269425744888893, 96, 1814311071147233579631109, 9903529803149050079095108137, 604473362926069946205189, 604473074695693794411621, 0,
  604463563093280785777669, 60, 1209516120526996845363717, 136, 140, 96, 100, 1814311125770971247555173, 1814311125190429108089489, 64,
  29725748078360256374514917381, 68, 604468174779299214197817, 72, 76, 8, 604468681434257293525549, 604468681592586967925293,
  9903615689748305390162028589, 604468442743477042819625, 604473362926069946205189, 604473074695693794411577, 604472786465317642650169, 96, 136, 100,
  1814311125770971247555173, 140, 0, 4, 9903529796542269425744888913, 604463563251610460177449, 1814311125190429108089489, 604473363084399620604969,
  1814311146037169570727013, 136, 92, 604470192550261951054889, 140, 60, 100, 1209516174573354409275913, 56, 4722402547126048398985, 64, 104, 4, 0,
  9903529796542269425744888913, 9903529803149050079095108137, 0, 604463563251610460177449, 9903531020345928567773802537, 4722427316923998942345,
  1209516154303994050650249, 100, 1814315678773718502355465, 56, 19816830098953106990219402889, 0, 4, 9903529796542269425744888913,
  604463563251610460177449, 4, 9903529803149050079095108137, 9903531020345928567773802537, 604473363084399620604969, 9903686858728093642495963653]

theorem side6a_l2_run9 : run .l2 2 45 8 side6aEnv [] side6a_l2_9 (side6aPaths9.map fun P => ⟨[P], []⟩) = true := Run.run_one (by decide +kernel)

def side6a_l2_10 : List ℕ := [
  68, 88, 73827511854729134153, 4722418714345039995977, 96, 100, 14174305667886689615973, 64, 14174305525084603818569, 0, 132, 4, 128, 8,
  604463781553047085400621, 14174305261201813144649, 604472786430133270561333, 604463563058096413688837, 4, 8, 128, 604463781553047085400621,
  604463781482678341222965, 14174305261201813144649, 604463563251610460177449, 4, 1814311071147233579631109, 72, 1814311109427830412289029, 140,
  1814311125190429108089489, 76, 1814311111679630225974789, 92, 132, 136, 604473362890885574116357, 604473074625325050233921, 136,
  604473363084399620604969, 1814311146037169570727013, 1814311122938629294403589, 64, 1814316255089334349791301, 60, 132, 56, 52, 48,
  604467001556411911844393, 44, 40, 1209597108372205271646253, 36, 604466157131481779684357, 32, 1814316254948596861435941, 28,
  1814316254931004675391521, 24, 604465292440353324352517, 20, 16, 12, 1209597108249059969335313, 604464427749224869005365, 604464715979601020797957,
  604464983943778849403433, 1209597108389797457690673, 1814316255036557791658041, 604467598283362538570757, 56, 52, 48, 604467001556411911844393, 44,
  40, 1209597108372205271646253, 36, 604466157324995826172969, 32, 1814316254948596861435941, 28, 1814316254931004675391521, 24,
  604465292633867370841129, 20, 16, 12, 1209597108249059969335313, 604464427925146729449525, 604464716173115067286569, 604464983943778849403433,
  1209597108389797457690673, 1814316255036557791658041, 604467598476876585059369, 1209597108460166201868353, 120, 4401269768317, 84, 404895341489277,
  110750657288205238357, 92, 3438122893409, 120, 4401269768317, 110750692474724810845, 92, 3438122893409, 120, 4401269768317, 110750692474724810845,
  2251833108070501, 44, 60, 36893771822492817477, 36893773334321305689, 60, 36893771959931770929, 36893773334321305669, 104, 120,
  110741267301057364077, 110741267301057364077, 120, 36894037079673026097, 36894035567844537917, 104, 120, 110741267301057364077,
  110741267301057364077, 120, 36894037079673026097, 36894035292966630965, 2251828813103189, 120, 4401269768317, 76, 369710952622205,
  110750622101685665869, 40, 72, 36893823636978275917, 334390047544909, 36, 36893685648268989449, 36893685648268989545, 120, 4401269768317, 84,
  404895341489277, 110750657288205238357, 2251828813103189, 2251830960586845, 2251833108070501, 120, 4401269768317, 84, 404895341489277,
  110750657288205238357, 92, 3438122893409, 120, 4401269768317, 110750692474724810845, 92, 3438122893409, 120, 4401269768317, 110750692474724810845,
  2251833108070501, 112, 288235189738209397, 60, 288235188663615605, 36894104148944683125, 60, 28, 73823007293028958241, 9449344935432791527505, 28,
  36893773059443396661, 36893773059443396693, 60, 28, 73823007293028958241, 9449344935432791527505, 28, 36893772784565489717, 36893772784565489749,
  60, 28, 73823007293028958241, 9449344935432791527505, 28, 36893772784565489717, 36893772784565489749, 112, 288235189738209397, 68,
  288235188663746677, 36894104148961460341, 96, 68, 88, 73827511854729134153, 4722418714345039995977, 52, 28, 14174305457740380639301,
  110736761364967653409, 8, 48, 1814311098204015715949157, 604466952016816010757637, 48, 1814311098204015715949157, 604466952192737871201837, 68, 88,
  73827511854729134153, 4722418714345039995977, 52, 48, 604467001556411911844397, 36, 88, 8, 28, 1814316255018965605613601, 24,
  1814316254913412489347101, 20, 136, 604465006461776986244661, 92, 9903639671664019117600616497, 1814316255194887466057821,
  1209597108284244341424153, 28, 1814316255018965605613601, 24, 1814316254913412489347101, 20, 136, 604465006461776986244677, 92,
  9903639671664019117600616497, 1814316255194887466057821, 1209597108284244341424153, 1814316255177432777228361, 1209597108389797457690665, 8, 48,
  36, 88, 28, 1209597108407252146520097, 24, 1814316254913412489347101, 20, 136, 604465006461776986244661, 92, 9903639671664019117600616497,
  1814316255194887466057821, 1209597108284244341424153, 1814316255177432777228361, 1814316255001510916784169, 604466952016816010757637, 48, 36, 88,
  28, 1209597108407252146520097, 24, 1814316254913412489347101, 20, 136, 604465006461776986244677, 92, 9903639671664019117600616497,
  1814316255194887466057821, 1209597108284244341424153, 1814316255177432777228361, 1814316255001510916784169, 604466952192737871201837,
  2251824518135877, 2251824518135877, 2251830960586845]

theorem side6a_l2_run10 : run .l2 2 45 8 side6aEnv [] side6a_l2_10 (side6aPaths10.map fun P => ⟨[P], []⟩) = true := Run.run_one (by decide +kernel)

def side6a_l2_11 : List ℕ := [
  104, 108, 4722429832744134522477, 28, 1814384916793468892755565, 1814384916793468892755565, 68, 136, 8, 64, 1209589942986730951942797, 60, 48,
  9449921396459972860525, 73827510892656459829, 9449921414052158906477, 64, 1209589942986730951942797, 60, 48, 9449921396459972860525,
  73827510892656459829, 9449921414052158906477, 100, 9903649116982452808465986565, 96, 1209589961405749740450377, 92, 72, 76, 9449921466828717041261,
  80, 84, 88, 9449921537197461220973, 9903630226651830201396440133, 4722416497729598401097, 4722414245929784715337, 77371963580508032124208713,
  4722423253129039458377, 64, 1814390042065629188128837, 28, 19818048470086634111005368865, 24, 1814390041889707327684637, 100,
  9903559059977884958273844273, 9903559059977884958273844293, 104, 108, 4722429850336320566893, 28, 1814384916793468892755565, 24,
  14174881813214445702733, 1814384872091724153884193, 76, 96, 73832015729234542673, 36893931663995709517, 72, 1814390618561565880418381, 28,
  19819257396482709494630983201, 24, 1814390618350459647885341, 100, 9903559059982388557901214769, 96, 604470462678141224166917,
  1814390618649664307855441, 112, 288235189738209397, 76, 288235188663877749, 36894104148978237557, 112, 288235189738209397, 136,
  36894106623783483913, 36894107860734065221, 112, 288235189738209397, 128, 36894072538923022905, 36894070752216627773, 2251830960586845, 120,
  4401269768317, 68, 334526563755133, 110750586915166093381, 32, 64, 36893788177728279109, 299205675455045, 68, 4722407314608483209765,
  36893808518693392937, 32, 64, 36893788177728279109, 299205675455045, 68, 4722407314608483209765, 36893808243815485993, 32, 64,
  36893788177728279109, 299205675455045, 68, 4722407314608483209765, 36893808243815485993, 120, 4401269768317, 76, 369710952622205,
  110750622101685665869, 104, 108, 4722429850336320566893, 4722429674414460122733, 76, 96, 73832015729234542673, 36893931663995709517, 72,
  1814390618561565880418381, 1209671471953289299371553, 2251826665619533, 2251826665619533, 2251833108070501, 112, 116, 4722434353935964715637,
  4722434107645360093813, 72, 76, 8, 1209663734466625434297937, 604468681680547898140741, 36893843977943393869, 68, 56, 36893807419181768309, 76,
  73832014767161868349, 1209672048414316480701985, 36893825011367814261, 84, 104, 73836519603739951193, 36893967123245706321, 80,
  36893879162315483729, 112, 116, 36894018800292215409, 4722434107645360093813, 1209745835425795690998305, 120, 4401269768317, 84, 404895341489277,
  110750657288205238357, 92, 3438122893409, 120, 4401269768317, 110750692474724810845, 92, 3438122893409, 120, 4401269768317, 110750692474724810845,
  2251833108070501, 120, 4401269768317, 76, 369710952622205, 110750622101685665869, 104, 108, 110741266888740503661, 4722429568861343856237, 108,
  36893984715431753225, 76, 48, 44, 40, 36893703240455034473, 36893703240455034377, 4722396231531292006481, 73832015042039775285, 72,
  1814390618561565880418381, 36893843977943393825, 120, 4401269768317, 84, 404895341489277, 110750657288205238357, 2251828813103189,
  2251830960586845, 2251833108070501, 120, 4401269768317, 84, 404895341489277, 110750657288205238357, 92, 3438122893409, 120, 4401269768317,
  110750692474724810845, 92, 3438122893409, 120, 4401269768317, 110750692474724810845, 2251833108070501, 120, 4401269768317, 36, 193789008286845,
  110750446169087803429, 88, 104, 110732259552046547037, 110732259552046547037, 104, 36893966023734079001, 36893963962149776921, 80, 116,
  110727756364735905877, 110727756364735905877, 112, 36893999558838725153, 36894001208106166817, 80, 96, 110727755677541138517,
  110727755677541138517, 96, 36893930839361989145, 36893928777777687065, 72, 104, 4722427422614579324493, 110723252352791543885, 104,
  36893964374466635297, 36893965748856170013, 104, 120, 36894036117600351817, 36894034743210817085, 120, 36894036117600351781, 36894034743210817057,
  72, 116, 112, 1814089773778917193169485, 604471622267221781068309, 136, 110723253452303171705, 140, 36894125590359066137, 14172576461686929638949,
  36, 32, 9447615446798131270257, 9447615446798131270221, 76, 36893844115382347289, 1814092588352624926064717, 72, 88, 110723251803035729997,
  110723251803035729997, 88, 36893894005722457637, 36893893593405597209, 44, 48, 36893718083862009881, 36893721382396893209, 48,
  36893717671545149573, 36893721382396893317]

theorem side6a_l2_run11 : run .l2 2 45 8 side6aEnv [] side6a_l2_11 (side6aPaths11.map fun P => ⟨[P], []⟩) = true := Run.run_one (by decide +kernel)

def side6a_l2_12 : List ℕ := [
  56, 60, 36893771959931772545, 36893773884077121145, 52, 36893756291891076217, 36893756429330029637, 116, 112, 64, 44, 14171999666408213452837,
  110718747378774507569, 36, 32, 9447615446798131270257, 9447615446798131270209, 52, 40, 48, 36893735263731194489, 56, 60, 604467557821334636411913,
  604467877312898829131845, 604467298723618574187013, 604466147930641918858309, 604467875184370877604385, 604471622267221781068309, 64, 44,
  14171999666408213452837, 110718747378774507569, 36, 32, 9447615446798131270257, 9447615446798131270209, 112, 52, 40, 48, 36893735263731194489, 56,
  60, 604467557821334636411961, 604467877312898829131845, 604467298723618574187013, 604466147930641918858309, 604467875184370877604385, 52, 40, 48,
  36893735263731194489, 56, 60, 604467557821334636411961, 604467877312898829131845, 604467298811579504409109, 604466147930641918858309,
  604467875325108365959713, 56, 60, 36893771959931772545, 36893773884077121145, 52, 36893756291891076217, 36893756429330029637, 36, 32,
  9447615446798131270257, 9447615446798131270209, 64, 44, 14171999666408213452837, 110718747378774507569, 68, 604468161057274996990505,
  1814018801341145715638341, 4, 28, 24, 36893633284027715141, 36893633146588761721, 56, 60, 36893771959931772545, 36893773884077121145, 52,
  36893756291891076217, 36893756429330029637, 0, 36893527593472492153, 36893527730911445573, 44, 64, 14171999666408213452837, 68,
  36893808931010257433, 36, 32, 9447615446798131270257, 9447615446798131270209, 1814018801341145715638341, 64, 110718747378774507569, 68,
  36893808931010257433, 36, 32, 9447615446798131270257, 9447615446798131270209, 1814018801341145715638341, 4, 8, 36893542162001560697,
  36893544361024816257, 0, 36893527593472492153, 36893527730911445573, 120, 4401269768317, 44, 228973397153917, 110750481355607375917, 44, 88, 104,
  110732259552046547037, 110732259552046547037, 104, 36893966023734079001, 36893964099588730389, 88, 104, 110732259552046547037,
  110732259552046547037, 104, 36893966023734079001, 36893964099588730389, 80, 116, 110727756364735905877, 110727756364735905877, 112,
  36893999833716632105, 36894001208106166825, 80, 96, 110727755677541138517, 110727755677541138517, 96, 36893930839361989145, 36893928915216640533,
  72, 104, 4722427457798951413325, 110723252352791543885, 104, 36893964649344542249, 36893965748856170013, 120, 104, 36894036117600351817,
  36894036117600351785, 104, 36894034468332910141, 36894034468332910089, 72, 44, 40, 36893700216798058101, 73813999545092341805, 64,
  14172576126475470831665, 110723250978402009137, 76, 36893844115382347289, 44, 40, 36893700216798058101, 9448191941634322077261,
  1814093164813377246265421, 72, 88, 110723251803035729997, 110723251803035729997, 88, 36893894280600364573, 36893893730844550677, 2251818075684909,
  2251818075684909, 2251818075684909, 2251818075684909, 2251818075684909, 2251818075684909, 2251818075684909, 2251818075684909, 2251820223168565,
  2251820223168565, 2251833108070501, 2251824518135877, 2251822370652221, 2251822370652221, 36, 68, 73827511167534366761, 36893808381254439997, 68,
  9449921431644344947805, 36893808518693393501, 76, 96, 73832015729234542673, 36893931663995709517, 104, 108, 4722429850336320566893,
  4722429621637901989485, 72, 1814390618561565880418381, 1209671471953289299371541, 112, 288235189738209397, 76, 288235188663877749,
  36894104148978237557, 84, 104, 73836519603739951193, 36893967123245706321, 80, 36893879162315483729, 36893879162315483669, 76, 64, 60,
  36893791201385259029, 36893791201385259089, 36893842878431765077, 80, 36893858271594555509, 36893860470617811057, 2251830960586845, 76, 40,
  73832015042039775277, 36, 36893685648268989517, 36893685648268989461, 112, 865201323333648425, 110746118502058295337, 84, 104,
  73836519603739951193, 36893967123245706321, 80, 36893879162315483729, 36893879162315483669, 120, 4401269768317, 84, 404895341489277,
  110750657288205238357, 92, 3438122893409, 120, 4401269768317, 110750692474724810845, 92, 3438122893409, 120, 4401269768317, 110750692474724810845,
  2251833108070501, 4, 8, 36893541887123653757, 12, 16, 36893576796617836673, 36893580370030626937, 36893562915283535381, 0, 36893527593472492153,
  36893527730911445525, 4, 8, 36893541887123653757, 12, 16, 36893576796617836673, 36893580370030626937, 36893562915283535381, 0,
  36893527593472492153, 36893527730911445525]

theorem side6a_l2_run12 : run .l2 2 45 8 side6aEnv [] side6a_l2_12 (side6aPaths12.map fun P => ⟨[P], []⟩) = true := Run.run_one (by decide +kernel)

def side6a_l2_13 : List ℕ := [
  120, 4401269768317, 84, 404895341489277, 110750657288205238357, 92, 3438122893409, 120, 4401269768317, 110750692474724810845, 92, 3438122893409,
  120, 4401269768317, 110750692474724810845, 2251833108070501, 4, 8, 36893541199928886401, 24, 36893613080501552665, 36893614180013180441, 0,
  36893527593472492153, 36893527730911445525, 4, 8, 36893541199928886401, 24, 36893612805623645721, 36893614180013180441, 0, 36893527593472492153,
  36893527730911445525, 4, 8, 36893542162001560697, 24, 36893612530745738369, 36893614180013180441, 0, 36893527593472492153, 36893527730911445525,
  2251824518135877, 120, 4401269768317, 44, 228973397153917, 110750481355607375917, 44, 32, 73813999544018141221, 73813999544018141221, 16,
  36893702965577124389, 36893702965577124429, 44, 32, 73813999544018141221, 73813999544018141221, 16, 36893702690699217445, 36893702690699217505, 44,
  32, 73813999544018141221, 73813999544018141221, 16, 36893702690699217445, 36893702690699217505, 44, 32, 73813999544018141221, 73813999544018141221,
  16, 36893702415821310501, 36893702415821310553, 44, 32, 73813999544018141221, 73813999544018141221, 16, 36893702415821310501, 36893702415821310553,
  44, 32, 73813999544018141221, 73813999544018141221, 16, 36893702415821310501, 36893702415821310553, 44, 32, 73813999544018141221,
  73813999544018141221, 16, 36893702415821310501, 36893702415821310553, 44, 32, 73813999544018141221, 73813999544018141221, 16, 36893702140943403561,
  36893702140943403601, 44, 32, 73813999544018141221, 73813999544018141221, 16, 36893702140943403561, 36893702140943403601, 44, 32,
  73813999544018141221, 73813999544018141221, 16, 36893702140943403561, 36893702140943403601, 44, 32, 73813999544018141221, 73813999544018141221, 16,
  36893702140943403561, 36893702140943403601, 44, 32, 73813999544018141221, 73813999544018141221, 16, 36893702140943403561, 36893702140943403601, 44,
  32, 73813999544018141221, 73813999544018141221, 16, 36893702140943403561, 36893702140943403601, 44, 32, 73813999544018141221, 73813999544018141221,
  16, 36893702140943403561, 36893702140943403601, 16, 44, 73813999544018141205, 36893702140943403561, 12, 36893580095152719917, 36893580095152719989,
  44, 32, 73813999544018141221, 73813999544018141221, 16, 36893702415821310501, 36893702415821310553, 44, 32, 73813999544018141221,
  73813999544018141221, 16, 36893702415821310501, 36893702415821310553, 44, 288233127079051313, 120, 4401269768317, 110750481355607375917, 44, 32,
  73813999544018141221, 73813999544018141221, 16, 36893702965577124389, 36893702965577124457, 44, 32, 73813999544018141221, 73813999544018141221, 16,
  36893702690699217445, 36893702690699217505, 44, 32, 73813999544018141221, 73813999544018141221, 16, 36893702690699217445, 36893702690699217505, 44,
  32, 73813999544018141221, 73813999544018141221, 16, 36893702415821310501, 36893702415821310553, 44, 32, 73813999544018141221, 73813999544018141221,
  16, 36893702415821310501, 36893702415821310553, 120, 4401269768317, 44, 228973397153917, 110750481355607375917, 44, 32, 73813999544018141221,
  73813999544018141221, 16, 36893702965577124389, 36893702965577124457, 44, 32, 73813999544018141221, 73813999544018141221, 16, 36893702690699217445,
  36893702690699217505, 44, 32, 73813999544018141221, 73813999544018141221, 16, 36893702690699217445, 36893702690699217505, 120, 4401269768317, 44,
  228973397153917, 110750481355607375917, 44, 32, 73813999544018141221, 73813999544018141221, 16, 36893702965577124389, 36893702965577124413, 44, 32,
  73813999544018141221, 73813999544018141221, 16, 36893702690699217445, 36893702690699217469, 44, 32, 73813999544018141221, 73813999544018141221, 16,
  36893702690699217445, 36893702690699217469, 2251818075684909, 2251818075684909, 2251818075684909, 2251818075684909, 2251818075684909,
  2251818075684909, 2251818075684909, 2251818075684909]

theorem side6a_l2_run13 : run .l2 2 45 8 side6aEnv [] side6a_l2_13 (side6aPaths13.map fun P => ⟨[P], []⟩) = true := Run.run_one (by decide +kernel)

def side6a_l2_14 : List ℕ := [
  4, 52, 48, 1209442360009349801187849, 136, 1209442360009349801187981, 1209442360009349801187981, 136, 88, 92, 1814237334308668951244429,
  1814237333728126811778701, 48, 29724529707019528467321461257, 29724529707019546069095684749, 48, 9903587722748151990078020657,
  9903587722748151990080183345, 88, 136, 92, 1814237334308668951244429, 1814237333728126811778701, 92, 52, 48, 1814237311210128674920969,
  1209442360009349801187981, 29724464485338051535103804985, 1814237333728126811778701, 92, 136, 9903634949007054071979454001, 52, 48,
  19815503626440508213899887709, 1209442360009349801187981, 48, 19815611727846583865423436297, 9903587722748151990080183345,
  9903633731521945207149047345]

theorem side6a_l2_run14 : run .l2 2 45 8 side6aEnv [] side6a_l2_14 (side6aPaths14.map fun P => ⟨[P], []⟩) = true := Run.run_one (by decide +kernel)

def side6a_l2_15 : List ℕ := [
  132, 4, 124, 0, 604463490982910189716529, 52, 48, 1209442360009349801187849, 8, 40, 56, 60, 64, 604467886496146504302681, 84, 88,
  1814237331458734812048521, 604469615878403414967301, 80, 604469327648027263190021, 76, 604469035107565530530861, 100, 104, 108,
  604471057030284173852761, 112, 604471340950574744749101, 604471273203066287703089, 604470768799908022060081, 104, 108, 604471057030284173852761,
  112, 604471340950574744749101, 604471273203066287703089, 604470768799908022075481, 604467598265770352526341, 1209442362824099568295049, 56, 60, 64,
  604467886496146504302681, 84, 88, 1814237331458734812048521, 604469615878403414967301, 80, 604469327648027263190021, 76, 604469035107565530530861,
  100, 104, 108, 604471057030284173852761, 112, 604471340950574744749101, 604471273203066287703089, 604470768799908022060081, 104, 108,
  604471057030284173852761, 112, 604471340950574744749101, 604471273203066287703089, 604470768799908022075481, 604467598265770352526341,
  1209442362824099568295049, 604463851270880379421701, 88, 128, 1814237356809074902057477, 604472786412541084516913, 8, 40, 44, 84,
  604469615878403414967301, 80, 604469327648027263190021, 76, 604469035107565530530861, 100, 104, 108, 604471057030284173852761, 112,
  604471340950574744749101, 604471273203066287703089, 604470768799908022060081, 104, 108, 604471057030284173852761, 112, 604471340950574744749101,
  604471273203066287703089, 604470768799908022075481, 604466445344265745417221, 84, 604469615878403414967301, 80, 604469327648027263190021, 76,
  604469035107565530530861, 100, 104, 108, 604471057030284173852761, 112, 604471340950574744749101, 604471273203066287703089,
  604470768799908022060081, 104, 108, 604471057030284173852761, 112, 604471340950574744749101, 604471273203066287703089, 604470768799908022075481,
  604463851270880379421701, 128, 604472498199757118783537, 604472786412541084516913, 124, 88, 0, 604463558730418646762541, 128,
  1814237356809074902057477, 604472786412541084516913, 40, 44, 84, 604469615878403414967301, 80, 604469327648027263190021, 76,
  604469035107565530530861, 100, 104, 108, 604471057030284173852761, 112, 604471340950574744749101, 604471273220658473747505,
  604470768799908022060085, 104, 108, 604471057030284173852761, 112, 604471340950574744749101, 604471273220658473747505, 604470768799908022075481,
  604466445344265745417221, 84, 604469615878403414967301, 80, 604469327648027263190021, 76, 604469035107565530530861, 100, 104, 108,
  604471057030284173852761, 112, 604471340950574744749101, 604471273220658473747505, 604470768799908022060085, 104, 108, 604471057030284173852761,
  112, 604471340950574744749101, 604471273220658473747505, 604470768799908022075481, 128, 604472498199757118783537, 604472786412541084516913, 124, 4,
  0, 604463490982910189716533, 52, 48, 1209442360009349801187849, 8, 40, 56, 60, 64, 604467886689660550791257, 84, 88, 1814237331458734812048521,
  604469616071917461455905, 80, 604469327841541309678625, 76, 604469035107565530530901, 100, 104, 108, 604471057223798220341337, 112,
  604471340950574744749141, 604471273203066287703093, 604470768817500208104497, 104, 108, 604471057223798220341337, 112, 604471340950574744749141,
  604471273203066287703093, 604470768993422068564057, 604467598459284399014945, 1209442362824099568295049, 56, 60, 64, 604467886689660550791257, 84,
  88, 1814237331458734812048521, 604469616071917461455905, 80, 604469327841541309678625, 76, 604469035107565530530901, 100, 104, 108,
  604471057223798220341337, 112, 604471340950574744749141, 604471273203066287703093, 604470768817500208104497, 104, 108, 604471057223798220341337,
  112, 604471340950574744749141, 604471273203066287703093, 604470768993422068564057, 604467598459284399014945, 1209442362824099568295049,
  604463851464394425910305, 88, 8, 40, 44, 84, 1814237331458734812048521, 80, 604469327841541309678625, 76, 604469035107565530530901, 100, 104, 108,
  604471057223798220341337, 112, 604471340950574744749141, 604471273203066287703093, 604470768817500208104497, 104, 108, 604471057223798220341337,
  112, 604471340950574744749141, 604471273203066287703093, 604470768993422068564057, 604466445537779791905825, 84, 1814237331458734812048521, 80,
  604469327841541309678625, 76, 604469035107565530530901, 100, 104, 108, 604471057223798220341337, 112, 604471340950574744749141,
  604471273203066287703093, 604470768817500208104497, 104, 108, 604471057223798220341337, 112, 604471340950574744749141, 604471273203066287703093,
  604470768993422068564057, 604463851464394425910305, 8, 40, 44, 84, 604469616071917461455905, 80, 604469327841541309678625, 76,
  604469035107565530530901, 100, 104, 108, 604471057223798220341337, 112, 604471340950574744749141, 604471273203066287703093,
  604470768817500208104497, 104, 108, 604471057223798220341337, 112, 604471340950574744749141, 604471273203066287703093, 604470768993422068564057,
  604466445537779791905825, 84, 604469616071917461455905, 80, 604469327841541309678625, 76, 604469035107565530530901, 100, 104, 108,
  604471057223798220341337, 112, 604471340950574744749141, 604471273203066287703093, 604470768817500208104497, 104, 108, 604471057223798220341337,
  112, 604471340950574744749141, 604471273203066287703093, 604470768993422068564057, 604463851464394425910305, 88, 0, 8,
  29724463700747946052378821129, 40, 44, 48, 604466733768155943682137, 100, 104, 108, 604471057223798220341337, 112, 604471340950574744749141,
  604471273396580334191669, 604470768993422068548661, 104, 108, 604471057223798220341337, 112, 604471340950574744749141, 604471273396580334191669,
  604470768993422068564057, 604466445537779791905825, 100, 104, 108, 604471057223798220341337, 112, 604471340950574744749141,
  604471273396580334191669, 604470768993422068548661, 104, 108, 604471057223798220341337, 112, 604471340950574744749141, 604471273396580334191669,
  604470768993422068564057, 40, 44, 48, 604466733768155943682137, 84, 1814237331458734812048521, 80, 604469327841541309678625, 76,
  604469035107565530530901, 100, 104, 108, 604471057223798220341337, 112, 604471340950574744749141, 604471273396580334191669,
  604470768993422068548661, 104, 108, 604471057223798220341337, 112, 604471340950574744749141, 604471273396580334191669, 604470768993422068564057,
  604466445537779791905825, 48, 52, 1814237311210128674920969, 84, 1814237331458734812048521, 80, 604469327841541309678625, 76,
  604469035107565530530901, 100, 104, 108, 604471057223798220341337, 112, 604471340950574744749141, 604471273396580334191669,
  604470768993422068548661, 104, 108, 604471057223798220341337, 112, 604471340950574744749141, 604471273396580334191669, 604470768993422068564057,
  84, 1814237331458734812048521, 80, 604469327841541309678625, 76, 604469035107565530530901, 100, 104, 108, 604471057223798220341337, 112,
  604471340950574744749141, 604471273396580334191669, 604470768993422068548661, 104, 108, 604471057223798220341337, 112, 604471340950574744749141,
  604471273396580334191669, 604470768993422068564057, 40, 44, 84, 604469616071917461455905, 80, 604469327841541309678625, 76,
  604469035107565530530901, 100, 104, 108, 604471057223798220341337, 112, 604471340950574744749141, 604471273396580334191669,
  604470768993422068548661, 104, 108, 604471057223798220341337, 112, 604471340950574744749141, 604471273396580334191669, 604470768993422068564057,
  604466445537779791905825, 84, 604469616071917461455905, 80, 604469327841541309678625, 76, 604469035107565530530901, 100, 104, 108,
  604471057223798220341337, 112, 604471340950574744749141, 604471273396580334191669, 604470768993422068548661, 104, 108, 604471057223798220341337,
  112, 604471340950574744749141, 604471273396580334191669, 604470768993422068564057, 4, 0, 604463490982910189716533, 52, 48,
  1209442360009349801187849, 8, 40, 56, 60, 64, 604467886689660550791205, 84, 88, 1814237331458734812048521, 604469616071917461455905, 80,
  604469327841541309678625, 76, 604469034931643670086741, 100, 104, 108, 604471057223798220341285, 112, 604471340774652884304981,
  604471273203066287703093, 604470768817500208104497, 104, 108, 604471057223798220341285, 112, 604471340774652884304981, 604471273203066287703093,
  604470768993422068564005, 604467598459284399014945, 1209442362824099568295049, 56, 60, 64, 604467886689660550791205, 84, 88,
  1814237331458734812048521, 604469616071917461455905, 80, 604469327841541309678625, 76, 604469034931643670086741, 100, 104, 108,
  604471057223798220341285, 112, 604471340774652884304981, 604471273203066287703093, 604470768817500208104497, 104, 108, 604471057223798220341285,
  112, 604471340774652884304981, 604471273203066287703093, 604470768993422068564005, 604467598459284399014945, 1209442362824099568295049,
  604463851464394425910305, 88, 128, 604472498375678979227697, 1814237356228532762591881, 8, 40, 84, 604469616071917461455905, 80,
  604469327841541309678625, 76, 604469034931643670086741, 100, 104, 108, 604471057223798220341285, 112, 604471340774652884304981,
  604471273203066287703093, 604470768817500208104497, 104, 108, 604471057223798220341285, 112, 604471340774652884304981, 604471273203066287703093,
  604470768993422068564005, 84, 604469616071917461455905, 80, 604469327841541309678625, 76, 604469034931643670086741, 100, 104, 108,
  604471057223798220341285, 112, 604471340774652884304981, 604471273203066287703093, 604470768817500208104497, 104, 108, 604471057223798220341285,
  112, 604471340774652884304981, 604471273203066287703093, 604470768993422068564005, 604463851464394425910305, 0, 604463558554496786318421, 88, 128,
  604472498375678979227697, 1814237356228532762591881, 40, 84, 604469616071917461455905, 80, 604469327841541309678625, 76, 604469034931643670086741,
  100, 104, 108, 604471057223798220341285, 112, 604471340774652884304981, 604471273396580334191669, 604470768993422068548661, 104, 108,
  604471057223798220341285, 112, 604471340774652884304981, 604471273396580334191669, 604470768993422068564005, 84, 604469616071917461455905, 80,
  604469327841541309678625, 76, 604469034931643670086741, 100, 104, 108, 604471057223798220341285, 112, 604471340774652884304981,
  604471273396580334191669, 604470768993422068548661, 104, 108, 604471057223798220341285, 112, 604471340774652884304981, 604471273396580334191669,
  604470768993422068564005]

theorem side6a_l2_run15 : run .l2 2 45 8 side6aEnv [] side6a_l2_15 (side6aPaths15.map fun P => ⟨[P], []⟩) = true := Run.run_one (by decide +kernel)

def side6a_l2_16 : List ℕ := [
  52, 288233401957089337, 120, 4401269768317, 110750516542126948405, 104, 120, 110741267301057364077, 110741267301057364077, 120,
  36894037079673026093, 36894035155527677489, 96, 108, 110736763289113002085, 110736763289113002085, 124, 36894052885152674349, 36894054534420116017,
  96, 112, 110736763426551955557, 110736763426551955557, 112, 36894000108594541105, 36893999971155587633, 120, 4401269768317, 52, 264157786020989,
  110750516542126948405, 104, 120, 110741267301057364077, 110741267301057364077, 120, 36894037079673026093, 36894035155527677489, 96, 108,
  110736763289113002085, 110736763289113002085, 124, 36894052885152674349, 36894054534420116017, 96, 112, 110736763426551955557,
  110736763426551955557, 112, 36894000108594541105, 36893999971155587633, 2251820223168565, 2251820223168565, 2251820223168565, 2251820223168565,
  2251820223168565, 2251820223168565, 2251820223168565, 2251820223168565, 60, 288233676835127361, 120, 4401269768317, 110750551728646520893, 104,
  120, 110741267301057364077, 110741267301057364077, 120, 36894037217111979569, 36894035292966630965, 96, 108, 110736763289113002085,
  110736763289113002085, 124, 36894053160030581301, 36894054534420116021, 96, 112, 110736763426551955557, 110736763426551955557, 112,
  36894000383472448053, 36894000108594541109, 88, 116, 36894017975658491469, 110732259964363407453, 116, 36894017975658491445, 36894019075170119221,
  60, 80, 73823007980223725633, 88, 110732258726338625601, 9449345024356869210177, 80, 88, 14173729118898577932353, 1209522745093487787507777, 88,
  110732258727412826177, 1814241891705201246601281, 88, 100, 110732259414607593565, 110732259414607593565, 60, 80, 73823007980223725633,
  9449345024356869210177, 80, 1209522745093487787507777, 1814241891705201246601281, 88, 104, 110732259552046547037, 110732259552046547037, 104,
  36893965199100358197, 36893964924222451253, 2251822370652221, 2251822370652221, 2251822370652221, 2251822370652221, 2251822370652221,
  2251822370652221, 2251822370652221, 2251822370652221, 2251824518135877, 2251824518135877, 2251833108070501, 2251828813103189, 2251826665619533,
  2251826665619533, 120, 4401269768317, 52, 264157786020989, 110750516542126948405, 104, 120, 110741267301057364077, 110741267301057364077, 120,
  36894036942234072609, 36894035292966630945, 96, 108, 110736763289113002085, 110736763289113002085, 124, 36894052885152674353, 36894054534420116017,
  96, 112, 110736763426551955557, 110736763426551955557, 112, 36894001482984075809, 36894000108594541089, 88, 116, 36894017700780584525,
  110732259964363407453, 116, 36894017700780584497, 36894019075170119217, 40, 52, 73818503418523549741, 88, 14173728993963539437113,
  1814241315121166126874669, 52, 73818503418523549741, 88, 110732257765340151853, 1814241315121303640735789, 40, 52, 73818503418523549741, 88, 100,
  110732259414607593565, 110732259414607593565, 1814241315121166126874669, 52, 73818503418523549741, 88, 100, 110732259414607593565,
  110732259414607593565, 1814241315121303640735789, 88, 104, 110732259552046547037, 110732259552046547037, 104, 36893966298611985953,
  36893964924222451233, 80, 108, 36893982516408494669, 110727756089857998933, 108, 36893982516408494641, 36893983615920122401, 52, 40,
  73818503418523549741, 73818503418523549741, 60, 80, 14173152656356521549881, 1209448381656303131754561, 80, 110727755127785324609,
  1209448381656440628969537, 52, 40, 73818503418523549741, 73818503418523549741, 60, 80, 14173152656356521549881, 1209448381656303131754561, 80,
  110727755127785324609, 1209448381656440628969537, 52, 40, 73818503418523549741, 73818503418523549741, 60, 80, 14173152656356521549881,
  1209448381656303131754561, 80, 110727755127785324609, 1209448381656440628969537, 116, 100, 36894017425902679125, 36894017425902679085, 96,
  36894018800292213385, 36894018800292213253, 52, 40, 73818503418523549741, 73818503418523549741, 60, 80, 14173152656356521549881,
  1209448381656303131754561, 80, 110727755127785324609, 1209448381656440628969537, 124, 108, 36894052610274768981, 36894052610274768941, 104,
  36894053984664303245, 36894053984664303109, 80, 96, 110727755677541138517, 110727755677541138517, 96, 36893931938873616929, 36893929739850361377,
  60, 288233676835127361, 120, 4401269768317, 110750551728646520893, 104, 120, 110741267301057364077, 110741267301057364077, 120,
  36894036942234072609, 36894034743210817057, 32, 16, 36893649914141084213, 36893649914141084261, 12, 36893648539751548933, 36893648539751549029]

theorem side6a_l2_run16 : run .l2 2 45 8 side6aEnv [] side6a_l2_16 (side6aPaths16.map fun P => ⟨[P], []⟩) = true := Run.run_one (by decide +kernel)

def side6a_l2_17 : List ℕ := [
  32, 16, 36893649914141084213, 36893649914141084261, 12, 36893648539751548933, 36893648539751549029, 32, 16, 36893649639263177269,
  36893649639263177309, 12, 36893648539751548933, 36893648539751549065, 32, 16, 36893649639263177269, 36893649639263177309, 16, 36893648264873642549,
  36893648264873642589, 32, 16, 36893649639263177269, 36893649639263177309, 12, 36893648539751548933, 36893648539751549069, 32, 16,
  36893649639263177269, 36893649639263177309, 16, 36893648264873642549, 36893648264873642589, 2251822370652221, 2251822370652221, 2251822370652221,
  2251822370652221, 2251822370652221, 2251822370652221, 2251822370652221, 2251822370652221, 2251824518135877, 2251824518135877, 2251833108070501,
  2251828813103189, 2251826665619533, 2251826665619533, 132, 96, 100, 1814311125770971247555173, 32, 1814311125331166596444773,
  77372214313931286051893861, 60, 32, 36, 9449344827954590388837, 154818065677408488189334117, 28, 604465580705913848218629,
  1209516136289595541164069, 48, 1814315678593397657501749, 1814315678593535171362869, 96, 60, 32, 100, 1814311125770971247555173,
  1814311125331166596444773, 28, 604465580881835708662817, 77371594352892580005941825, 48, 14174305489900231727681, 110736761639845560373, 60, 32,
  36, 9449344827954590388837, 154818065677408488189334117, 28, 604465580881835708662817, 77371594352892580005941825, 48, 1814315678593397657501749,
  1814315678593535171362869, 68, 88, 73827511854729134153, 4722418714345039995977, 96, 56, 14174305525084603817545, 110736761914723467325, 56,
  1814316255089334349791293, 1814316255089471847006269, 120, 4401269768317, 84, 404895341489277, 110750657288205238357, 92, 3438122893409, 120,
  4401269768317, 110750692474724810845, 92, 3438122893409, 120, 4401269768317, 110750692474724810845, 2251833108070501, 104, 120,
  110741267301057364077, 110741267301057364077, 132, 36894088619280578113, 36894089993670112837, 104, 120, 110741267301057364077,
  110741267301057364077, 120, 36894036942234072617, 36894035292966630965, 104, 120, 110741267301057364077, 110741267301057364077, 120,
  36894036942234072617, 36894035018088724009, 2251828813103189, 120, 4401269768317, 68, 334526563755133, 110750586915166093381, 32, 64,
  36893788177728279109, 299205675455045, 68, 9449921431644344947229, 36893808518693392925, 68, 32, 73827511167534366757, 9449921431644344947229, 112,
  865201321186164769, 110746083315538722849, 120, 4401269768317, 68, 334526563755133, 110750586915166093381, 68, 32, 73827511167534366757,
  9449921431644344947229, 112, 865201321186164769, 110746083315538722849, 120, 4401269768317, 68, 334526563755133, 110750586915166093381, 120,
  4401269768317, 68, 334526563755133, 110750586915166093381, 2251824518135877, 40, 44, 36893701866065499765, 36893700216798058101, 56,
  36893754642623632965, 76, 1209663723348363854222929, 72, 112, 116, 110745770763245912181, 4722434054868801960565, 1209672048414316480701957,
  36893843977943393869, 120, 4401269768317, 76, 369710952622205, 110750622101685665869, 120, 4401269768317, 76, 369710952622205,
  110750622101685665869, 2251826665619533, 120, 4401269768317, 84, 404895341489277, 110750657288205238357, 2251828813103189, 2251830960586845,
  2251833108070501, 120, 4401269768317, 76, 369710952622205, 110750622101685665869, 76, 64, 104, 84, 108, 110741266888740503661, 4,
  1814384916687915776489069, 0, 14174881707661329433165, 36893527318594585117, 110741266751301550169, 84, 73832016004112449625, 36893965748856171629,
  73832015042039775301, 72, 104, 14174882021021296109137, 1814390618561565880418381, 36893843977943393821, 120, 4401269768317, 84, 404895341489277,
  110750657288205238357, 2251828813103189, 2251830960586845, 2251833108070501, 4, 0, 84, 1209737480892931456893529, 80, 112, 116,
  110745770763245912181, 4722434054868801960565, 1209745835425795690998277, 36893879162315483733, 604463488889440050414193, 0, 36893527181155631701,
  36893527318594585117, 2251830960586845, 2251830960586845, 2251833108070501, 2251833108070501, 120, 4401269768317, 76, 369710952622205,
  110750622101685665869, 92, 3438122893409, 120, 4401269768317, 110750692474724810845, 120, 4401269768317, 84, 404895341489277,
  110750657288205238357, 92, 3438122893409, 120, 4401269768317, 110750692474724810845, 2251833108070501, 2251833108070501, 120, 4401269768317, 84,
  404895341489277, 110750657288205238357, 2251833108070501]

theorem side6a_l2_run17 : run .l2 2 45 8 side6aEnv [] side6a_l2_17 (side6aPaths17.map fun P => ⟨[P], []⟩) = true := Run.run_one (by decide +kernel)

def side6a_l2_18 : List ℕ := [
  92, 3438122893409, 120, 4401269768317, 110750692474724810845, 2251833108070501, 112, 288235189738209397, 52, 288235188663484533,
  36894104148927905909, 52, 40, 73818503418523549741, 73818503418523549741, 20, 36893737875071306797, 36893737875071306837, 52, 40,
  73818503418523549741, 73818503418523549741, 20, 36893737600193399853, 36893737600193399893, 52, 40, 73818503418523549741, 73818503418523549741, 20,
  36893737600193399853, 36893737600193399893, 112, 288235189738209397, 52, 288235188663484533, 36894104148927905909, 112, 288235189738209397, 52,
  288235188663484533, 36894104148927905909, 112, 288235189738209397, 52, 288235188663484533, 36894104148927905909, 2251820223168565,
  2251820223168565, 112, 288235189738209397, 60, 288235188663615605, 36894104148944683125, 112, 288235189738209397, 60, 288235188663615605,
  36894104148944683125, 2251822370652221, 2251822370652221, 112, 288235189738209397, 68, 288235188663746677, 36894104148961460341, 68, 88,
  73827511854729134153, 4722418714345039995977, 96, 100, 14174305667886689615973, 20, 1814311125278390038311525, 1814311125278390038311525, 88, 92,
  64, 136, 20, 72, 9903610265829086967240205341, 29725757523707945863314678809, 16, 1814316254878228117258261, 9903549540876978572197507133,
  9903639671668522717227987001, 1814316255089471847006277, 1814316255194887466057821, 1814316255177432777228361, 2251824518135877, 2251824518135877,
  2251830960586845, 112, 288235189738209397, 60, 288235188663615605, 36894104148944683125, 60, 48, 96, 100, 73823008668492824677, 20,
  1814311125278390038311525, 1814311125278390038311525, 20, 0, 4, 40, 36, 604466136900467828601381, 140, 162260149792640950136721591644709, 64, 68,
  9449344968692078748261, 92, 9903605543174373721436070461, 88, 9449345077408305250397, 19816712927538324394565110849, 19816712672702139479805151257,
  36, 140, 162260128546714143706188070072869, 64, 68, 9449344968692078748261, 92, 9903605543174373721436070461, 88, 9449345077408305250397,
  19816712927538324394565110849, 19816712672702139479805151257, 19816712441253147429980209689, 9449344690380212273157, 4,
  154818063353146202354942565, 56, 136, 1209516151489244283543181, 64, 92, 9903639671668522717227986985, 88, 9449345077408305250397,
  19816712927538324394565110849, 19816712672456693300113458789, 154818067388371468479824485, 16, 9449344760748956450837, 92,
  9903549540876978572197507133, 9903549540876978572197507133, 73823007293028958261, 96, 48, 14174305489900231727681, 110736761639845560373, 48,
  1814315678593397657501749, 1814315678593535171362869, 88, 68, 60, 110732259001216532553, 14173729152293213840449, 110732259002290733129, 60, 68,
  73823008255101632585, 9449345056653008970845, 68, 1209522745128534662381641, 1209522745128672159596617, 88, 68, 60, 110732259001216532553,
  14173729152293213840449, 110732259002290733129, 60, 68, 73823008255101632585, 9449345056653008970845, 68, 1209522745128534662381641,
  1209522745128672159596617, 112, 288235189738209397, 68, 288235188663746677, 36894104148961460341, 68, 88, 73827511854729134153,
  4722418714345039995977, 96, 100, 14174305667886689615973, 20, 1814311125278390038311525, 1814311125278390038311525, 56, 1814316255089334349791293,
  1814316255089471847006269, 2251824518135877, 2251824518135877, 2251830960586845, 104, 108, 4722429832744134522477, 4722429621637901989485, 68, 56,
  20, 72, 1209589945291307323761737, 24, 1209589918269709559532617, 136, 140, 64, 60, 1209589940787707696390217, 1209589940787707696390169, 0, 4, 60,
  32, 28, 19817921293285785766464061977, 1209589922702940442726509, 28, 1209589923142745093836809, 4722387224332020486217, 1209589940998813928923161,
  4722371461733324685897, 154827512698079555309601389, 19817921229586872636935653401, 77371963580508032124208713, 16, 4722380468932579428937,
  4722380468932579428889, 73827511167534366781, 56, 1814390042065629188128829, 1814390042065766701989949, 76, 96, 73832015729234542673,
  36893931663995709517, 104, 108, 4722429850336320566893, 4722429621637901989485, 64, 1814390618561565880418373, 1814390618561703377633349, 112,
  288235189738209397, 76, 288235188663877749, 36894104148978237557, 112, 288235189738209397, 128, 36894072401484069425, 36894070752216627773, 112,
  288235189738209397, 100, 36894001208106169429, 96, 36893949531059663441, 92, 36893931938873618485, 36893931938873618517, 2251830960586845, 120,
  4401269768317, 60, 299342174888061, 110750551728646520893, 24, 56, 36893752718478282301, 264021303365181, 60, 73823007293028958237,
  36893773334321303069, 24, 56, 36893752718478282301, 264021303365181, 60, 73823007293028958237, 36893773059443396129]

theorem side6a_l2_run18 : run .l2 2 45 8 side6aEnv [] side6a_l2_18 (side6aPaths18.map fun P => ⟨[P], []⟩) = true := Run.run_one (by decide +kernel)

def side6a_l2_19 : List ℕ := [
  60, 24, 73823007293028958237, 73823007293028958237, 24, 56, 36893752718478282301, 264021303365181, 36893773059443396129, 120, 4401269768317, 60,
  299342174888061, 110750551728646520893, 120, 4401269768317, 60, 299342174888061, 110750551728646520893, 120, 4401269768317, 60, 299342174888061,
  110750551728646520893, 2251822370652221, 2251822370652221, 120, 4401269768317, 68, 334526563755133, 110750586915166093381, 120, 4401269768317, 68,
  334526563755133, 110750586915166093381, 2251824518135877, 2251824518135877, 120, 4401269768317, 76, 369710952622205, 110750622101685665869, 24, 76,
  96, 73832015729234542673, 36893931663995709517, 4, 604464972913478199289961, 20, 16, 604464653333826516625501, 604464655251374795459149,
  604464932257936250900037, 4, 36893615004646900813, 104, 108, 4722429867928506611309, 4722429621637901989485, 604464988517747220690485,
  2251826665619533, 2251826665619533, 2251833108070501, 120, 4401269768317, 68, 334526563755133, 110750586915166093381, 68, 24, 4,
  73827509655705878537, 0, 4722371461733324685897, 36893527456033538585, 28, 604465231624166168792581, 1209589920732615605751325, 64, 104, 108,
  4722429832744134522477, 4722429621637901989485, 1814390042065629188128837, 36893808931010257433, 96, 76, 100, 110736763014235095141, 4, 24, 68,
  73827509655705878537, 64, 14174305525084603818569, 36893808518693397017, 14174305334595078325317, 14174305665685517251205, 110736762876796141649,
  68, 76, 73827512129607041105, 9449921552589701261413, 64, 1814316255089334349791301, 36893808518693397017, 68, 24, 96, 100, 73827512268120195173,
  4722425135630443885157, 76, 73827512129607041105, 9449921552589701261413, 28, 604465231624166168792581, 1209589920732615605751325, 64, 96,
  14174305525084603818569, 1814316255089334349791301, 36893808793571303957, 120, 4401269768317, 76, 369710952622205, 110750622101685665869, 76, 96,
  73832015729234542673, 36893931663995709517, 72, 104, 108, 4722429850336320566893, 4722429621637901989485, 1814390618561565880418381,
  36893844115382347289, 2251826665619533, 2251826665619533, 2251833108070501, 76, 4, 24, 73832013255333380105, 36893615279524807757, 0,
  36893527318594585165, 36893527043716678169, 72, 36893843977943393869, 36893843703065486873, 84, 96, 4722422883693166079065, 73836519328862044249,
  80, 36893879162315483729, 36893878887437576729, 120, 4401269768317, 84, 404895341489277, 110750657288205238357, 92, 3438122893409, 120,
  4401269768317, 110750692474724810845, 92, 3438122893409, 120, 4401269768317, 110750692474724810845, 2251833108070501, 120, 4401269768317, 68,
  334526563755133, 110750586915166093381, 68, 24, 4, 73827509655705878537, 0, 4722371461733324685897, 36893527318594585109, 28,
  604465231694534912970245, 1209589920732615605751325, 64, 104, 14174881985836924019273, 1814390042065629188128837, 36893808793571303957, 12, 68, 40,
  36, 36893685785707942933, 36893685648268989541, 73827511167534366765, 64, 36893808793571304037, 36893808931010257429, 16, 36893576934056790117,
  36893579545396906101, 120, 4401269768317, 68, 334526563755133, 110750586915166093381, 68, 40, 36, 36893685785707942933, 4722391763116019946569,
  73827511167534366765, 112, 116, 110745770763245912181, 4722434054868801960565, 64, 1814463829041924026466373, 36893808931010257429, 120,
  4401269768317, 68, 334526563755133, 110750586915166093381, 120, 4401269768317, 68, 334526563755133, 110750586915166093381, 2251824518135877, 4, 76,
  24, 28, 1209663707515396414246481, 32, 604465522211895250522149, 9450497734341851877401, 36893615279524807757, 72, 112, 116, 110745770763245912181,
  4722434054868801960565, 1209672048414316480701989, 36893843977943393869, 0, 36893527318594585165, 36893527456033538581, 120, 4401269768317, 76,
  369710952622205, 110750622101685665869, 120, 4401269768317, 76, 369710952622205, 110750622101685665869, 2251826665619533, 120, 4401269768317, 84,
  404895341489277, 110750657288205238357, 2251828813103189, 2251830960586845, 2251833108070501, 120, 4401269768317, 76, 369710952622205,
  110750622101685665869, 76, 28, 24, 1209663707515396414246481, 604465231659350540881413, 32, 604465522229487436566565, 9450497734341851877401, 104,
  72, 14174882021021296109137, 36893843977943393813, 72, 1814390618561565880418381, 36893843977943393813]

theorem side6a_l2_run19 : run .l2 2 45 8 side6aEnv [] side6a_l2_19 (side6aPaths19.map fun P => ⟨[P], []⟩) = true := Run.run_one (by decide +kernel)

def side6a_l2_20 : List ℕ := [
  120, 4401269768317, 84, 404895341489277, 110750657288205238357, 2251828813103189, 2251830960586845, 2251833108070501, 120, 4401269768317, 76,
  369710952622205, 110750622101685665869, 92, 3438122893409, 120, 4401269768317, 110750692474724810845, 120, 4401269768317, 84, 404895341489277,
  110750657288205238357, 92, 3438122893409, 120, 4401269768317, 110750692474724810845, 2251833108070501, 2251833108070501, 120, 4401269768317, 84,
  404895341489277, 110750657288205238357, 2251833108070501, 92, 3438122893409, 120, 4401269768317, 110750692474724810845, 2251833108070501, 28,
  576601498390102021, 120, 4401269768317, 110750410982568230941, 28, 576601498390102021, 96, 112, 110736763426551955557, 110736763426551955557,
  110736900183686119429, 28, 576601498390102021, 88, 865095757332480005, 110732396584058748933, 28, 576601498390102021, 88, 104,
  110732259552046547037, 110732259552046547037, 110732396584058748933, 28, 576601498390102021, 80, 865060572960391173, 110727892984431378437, 28,
  576601498390102021, 80, 865060572960391173, 110727892984431378437, 28, 576601498390102021, 80, 865060572960391173, 110727892984431378437, 28,
  576601498390102021, 80, 96, 110727755677541138517, 110727755677541138517, 110727892984431378437, 28, 576601498390102021, 72, 865025388588302341,
  110723389384804007941, 28, 576601498390102021, 72, 865025388588302341, 110723389384804007941, 28, 576601498390102021, 72, 865025388588302341,
  110723389384804007941, 28, 576601498390102021, 72, 865025388588302341, 110723389384804007941, 28, 576601498390102021, 72, 865025388588302341,
  110723389384804007941, 28, 576601498390102021, 72, 865025388588302341, 110723389384804007941, 28, 576601498390102021, 72, 865025388588302341,
  110723389384804007941, 28, 576601498390102021, 72, 88, 110723251803035729997, 110723251803035729997, 110723389384804007941, 28, 576601498390102021,
  80, 865060572960391173, 110727892984431378437, 28, 576601498390102021, 80, 865060572960391173, 110727892984431378437, 28, 576601498390102021, 120,
  4401269768317, 110750410982568230941, 28, 576601498390102021, 96, 112, 110736763426551955557, 110736763426551955557, 110736900183686119429, 28,
  576601498390102021, 88, 865095757332480005, 110732396584058748933, 28, 576601498390102021, 88, 104, 110732259552046547037, 110732259552046547037,
  110732396584058748933, 28, 576601498390102021, 104, 865166126076657669, 110741403783313489925, 28, 576601498390102021, 112, 288235189738209397,
  110745907382940860421, 28, 576601498390102021, 112, 288235189738209397, 110745907382940860421, 28, 576601498390102021, 112, 865201310448746501,
  110745907382940860421, 28, 576601498390102021, 120, 4401269768317, 110750410982568230941, 28, 576601498390102021, 120, 4401269768317,
  110750410982568230941, 28, 576601498390102021, 88, 865095757332480005, 110732396584058748933, 28, 576601498390102021, 120, 4401269768317,
  110750410982568230941, 28, 576601498390102021, 120, 4401269768317, 110750410982568230941, 28, 576601498390102021, 96, 112, 110736763426551955557,
  110736763426551955557, 110736900183686119429, 28, 576601498390102021, 96, 112, 110736763426551955557, 110736763426551955557, 110736900183686119429,
  28, 576601498390102021, 112, 288235189738209397, 110745907382940860421, 28, 576601498390102021, 120, 4401269768317, 110750410982568230941, 28,
  576601498390102021, 120, 4401269768317, 110750410982568230941, 28, 576601498390102021, 96, 112, 110736763426551955557, 110736763426551955557,
  110736900183686119429, 28, 576601498390102021, 64, 864990204216213509, 110718885785176637445, 28, 576601498390102021, 64, 864990204216213509,
  110718885785176637445, 28, 576601498390102021, 64, 864990204216213509, 110718885785176637445, 28, 576601498390102021, 64, 92, 288234227664748641,
  110718748340847181893, 110718885785176637445, 28, 576601498390102021, 64, 864990204216213509, 110718885785176637445, 28, 576601498390102021, 64,
  864990204216213509, 110718885785176637445, 28, 576601498390102021, 64, 80, 110718747928530321477, 110718747928530321477, 110718885785176637445, 28,
  576601498390102021, 64, 80, 110718747928530321477, 110718747928530321477, 110718885785176637445, 28, 576601498390102021, 4, 36893630947565503509,
  36893630947565503541]

theorem side6a_l2_run20 : run .l2 2 45 8 side6aEnv [] side6a_l2_20 (side6aPaths20.map fun P => ⟨[P], []⟩) = true := Run.run_one (by decide +kernel)

def side6a_l2_21 : List ℕ := [
  28, 576601498390102021, 4, 36893630947565503509, 36893630947565503541, 28, 576601498390102021, 4, 36893630947565503509, 36893630947565503541, 28,
  576601498390102021, 4, 0, 36893524294937608829, 36893524294937608761, 36893630947565503541, 28, 576601498390102021, 4, 36893630947565503509,
  36893630947565503541, 28, 576601498390102021, 4, 0, 36893524294937608829, 36893524294937608761, 36893630947565503541, 28, 576601498390102021, 4,
  36893630947565503509, 36893630947565503541, 28, 576601498390102021, 4, 0, 36893524294937608829, 36893524294937608761, 36893630947565503541, 28,
  576601498390102021, 4, 36893630947565503509, 36893630947565503541, 28, 576601498390102021, 4, 0, 36893524157498655345, 36893524294937608761,
  36893630947565503541, 28, 576601498390102021, 4, 0, 36893524294937608809, 36893524294937608761, 36893630947565503541, 28, 576601498390102021, 80,
  865060572960391173, 110727892984431378437, 28, 576601498390102021, 80, 865060572960391173, 110727892984431378437, 28, 576601498390102021, 120,
  4401269768317, 110750410982568230941, 28, 576601498390102021, 96, 112, 110736763426551955557, 110736763426551955557, 110736900183686119429, 28,
  576601498390102021, 88, 865095757332480005, 110732396584058748933, 28, 576601498390102021, 88, 104, 110732259552046547037, 110732259552046547037,
  110732396584058748933, 28, 576601498390102021, 120, 4401269768317, 110750410982568230941, 28, 576601498390102021, 96, 112, 110736763426551955557,
  110736763426551955557, 110736900183686119429, 28, 576601498390102021, 88, 865095757332480005, 110732396584058748933, 28, 576601498390102021, 88,
  104, 110732259552046547037, 110732259552046547037, 110732396584058748933, 28, 576601498390102021, 112, 288235189738209397, 110745907382940860421,
  28, 576601498390102021, 120, 4401269768317, 110750410982568230941, 28, 576601498390102021, 120, 4401269768317, 110750410982568230941, 28,
  576601498390102021, 96, 112, 110736763426551955557, 110736763426551955557, 110736900183686119429, 28, 576601498390102021, 4, 36893630947565503509,
  36893630947565503533, 28, 576601498390102021, 4, 0, 36893524294937608829, 36893524294937608749, 36893630947565503533, 28, 576601498390102021, 4,
  36893630947565503509, 36893630947565503533, 28, 576601498390102021, 4, 0, 36893524294937608829, 36893524294937608749, 36893630947565503533, 28,
  576601498390102021, 4, 0, 36893524294937608809, 36893524294937608749, 36893630947565503533, 28, 576601498390102021, 4, 36893630947565503509,
  36893630947565503533, 28, 576601498390102021, 4, 0, 36893524294937608809, 36893524294937608749, 36893630947565503533, 28, 576601498390102021, 4, 0,
  36893524294937608805, 36893524294937608749, 36893630947565503533, 2251813780717597, 2251813780717597, 2251813780717597, 2251813780717597,
  2251813780717597, 2251813780717597, 2251813780717597, 2251813780717597, 2251813780717597, 2251813780717597, 2251813780717597, 2251813780717597,
  2251813780717597, 2251813780717597, 2251813780717597, 2251813780717597, 2251813780717597, 2251813780717597, 2251813780717597, 120, 4401269768317,
  52, 264157786020989, 110750516542126948405, 96, 112, 110736763426551955557, 110736763426551955557, 112, 36894001757861982761, 36893999833716634153,
  88, 100, 110732259414607593565, 110732259414607593565, 120, 36894035292966628885, 36894036667356163605, 88, 104, 110732259552046547037,
  110732259552046547037, 104, 36893964924222451245, 36893964649344544297, 80, 112, 36894000108594539077, 110727756227296952405, 112,
  36894000108594539029, 36894001208106166805, 52, 72, 73818504105718317113, 80, 110727754851833217081, 9448768528145315659833, 80, 72,
  14173152622687024382009, 110727754852907417657, 72, 1209448381621256256880697, 1814167528232969715974201, 52, 72, 73818504105718317113, 80,
  110727754851833217081, 9448768528145315659833, 72, 80, 14173152622687024382009, 1209448381621256256880697, 80, 110727754852907417657,
  1814167528232969715974201, 80, 96, 110727755677541138517, 110727755677541138517, 96, 36893929739850361389, 36893929464972454441, 2251820223168565,
  2251820223168565, 2251820223168565, 2251820223168565, 2251820223168565, 2251820223168565, 2251820223168565, 2251820223168565, 2251822370652221,
  2251822370652221, 2251833108070501, 2251826665619533, 2251824518135877, 2251824518135877, 76, 44, 73832015042039775281, 9450497927855898368093, 44,
  36893843703065483285, 36893843703065483357]

theorem side6a_l2_run21 : run .l2 2 45 8 side6aEnv [] side6a_l2_21 (side6aPaths21.map fun P => ⟨[P], []⟩) = true := Run.run_one (by decide +kernel)

def side6a_l2_22 : List ℕ := [
  112, 288235189738209397, 136, 36894106761222437389, 36894107860734065173, 2251830960586845, 84, 48, 73836518916545183797,
  1209737526280771451492917, 112, 865201325481132081, 110746153688577867825, 92, 3438122893409, 120, 4401269768317, 110750692474724810845,
  2251833108070501, 60, 80, 73823007980223725633, 88, 110732258726338625601, 9449345024356869210177, 88, 80, 14173729118898577932353,
  110732258727412826177, 80, 1209522745093487787507777, 1814241891705201246601281, 92, 3438122893409, 120, 4401269768317, 110750692474724810845,
  2251833108070501, 96, 112, 110736763426551955557, 110736763426551955557, 112, 36894001757861982769, 36894000383472448061, 2251826665619533, 112,
  288235189738209397, 36, 108, 576636704237027413, 576636704237027413, 36894104148894351477, 120, 4401269768317, 36, 193789008286845,
  110750446169087803429, 120, 4401269768317, 36, 193789008286845, 110750446169087803429, 96, 112, 110736763426551955557, 110736763426551955557, 112,
  36894001482984075805, 36893999558838727197, 72, 104, 36893964374466635337, 110723252352791543885, 104, 36893964374466635293, 36893965748856170001,
  72, 104, 36893964374466635337, 110723252352791543885, 104, 36893964374466635293, 36893965748856170001, 36, 32, 112, 1209294777190298324832885,
  1209294777190298324832885, 9447615446798131270221, 72, 4, 40, 9903572337003917612238902277, 44, 112, 9903578055805328836497446441, 48,
  14172576057066650605605, 52, 4722398166809187457613, 56, 9903591227622770595460160549, 60, 64, 14172576127435394785317, 68, 4722407174008442200653,
  232203487810398460287517733, 14172576109843208740389, 1814089733053006500337197, 132, 76, 80, 92, 110723251940474683477, 604469850100768410249805,
  4722413929407883257933, 1814089750768337847068297, 76, 80, 92, 110723251940474683477, 604469850100768410249805, 4722413929407883257933,
  1814089750768337847068297, 76, 112, 116, 1814092588528546786508917, 9903663058086768516346287109, 29722092967630256785865057833,
  1814092588352624926064717, 72, 80, 92, 110723251940474683477, 4722420684807324314189, 96, 108, 14172576320949441278501, 112, 124,
  110723253039986311285, 128, 36894073226117791877, 1814089780340802587738245, 14172576338541627324453, 108, 110723252490230497381, 112, 124,
  110723253039986311285, 128, 36894073226117791877, 1814089780340802587738245, 14172576338541627324453, 36, 32, 9447615446798131270269,
  9447615446798131270221, 76, 604468748777028516324905, 1814092588352624926064717, 72, 76, 36893844527699207797, 80, 36893861570129438853, 84,
  36893879162315483781, 88, 36893897304257342597, 92, 128, 124, 14172576410834516852741, 36894073226117791877, 124, 132, 136, 140,
  110723253589742125189, 36894126002675926661, 36894108410489881733, 36894090818303836789, 1814089780340802587738245, 36893914896443387509, 68,
  36893826935513162885, 36, 28, 73809495669512732705, 32, 9447615446798131270261, 36893651013652713589, 76, 604468748777028516324905,
  1814092588352624926064717, 72, 120, 124, 14172576391318185459237, 14172576392967452900901, 68, 1814089748815605196137597, 4,
  232203487810398460287517733, 36, 32, 9447615446798131270269, 9447615446798131270221, 0, 140, 232203482987043259372619813, 136, 12, 16,
  14172575916329162246181, 1814089717571882781247529, 16, 1814089717132078130137229, 29722045933049058444479580285, 14172576461686929638949,
  29722046439469829343038014077, 36, 32, 9447615446798131270269, 9447615446798131270221, 84, 1814092588387809298153549, 1209300231260553304277069,
  72, 88, 110723251803035729997, 110723251803035729997, 88, 36893894005722457637, 36893894005722457629, 72, 88, 110723251803035729997,
  110723251803035729997, 88, 36893894005722457637, 36893894005722457629, 64, 44, 14171999666408213452837, 110718747378774507569, 96,
  36893929190094545437, 36893930289606173201, 64, 44, 14171999666408213452837, 110718747378774507569, 96, 36893929190094545437, 36893930289606173201,
  36, 12, 16, 73809494982317965329, 4722378322685814900777, 16, 9447615358837201045637, 36893580644908533893, 64, 44, 14171999666408213452837,
  110718747378774507569, 68, 604468172316274065416745, 1209299654729432256544837, 36, 32, 9447615446798131270269, 9447615446798131270209, 64, 44,
  14171999666408213452837, 110718747378774507569, 60, 36893791751141073029, 604467884068298270187589]

theorem side6a_l2_run22 : run .l2 2 45 8 side6aEnv [] side6a_l2_22 (side6aPaths22.map fun P => ⟨[P], []⟩) = true := Run.run_one (by decide +kernel)

def side6a_l2_23 : List ℕ := [
  36, 32, 136, 1209294777190298324832909, 1209294777190298324832909, 9447615446798131270209, 64, 44, 14171999666408213452837, 110718747378774507569,
  136, 140, 1814018801657805064437901, 9903691613653350018223576073, 68, 29720884041247692201121554985, 1814018801341145715638341, 36, 32,
  9447615446798131270269, 9447615446798131270209, 64, 44, 14171999666408213452837, 110718747378774507569, 68, 604468167812674438046249,
  1814018801341145715638341, 36, 32, 112, 1209294777190298324832885, 1209294777190298324832885, 9447615446798131270209, 64, 44,
  14171999666408213452837, 110718747378774507569, 44, 1209299654711840070500401, 40, 68, 112, 116, 1814018801552251948171381,
  9903663058086768516346287109, 29720884041234181402239443497, 1814018801341145715638341, 604466407010892354623013, 36, 32, 9447615446798131270269,
  9447615446798131270209, 64, 44, 14171999666408213452837, 110718747378774507569, 68, 604468172316274065416745, 1814018801341145715638341, 36, 32,
  9447615446798131270269, 9447615446798131270209, 64, 44, 14171999666408213452837, 110718747378774507569, 76, 1814018801376330087727173,
  1209299654764616628633669, 64, 80, 110718747928530321477, 110718747928530321477, 80, 36893861295251530269, 36893858821350367773, 64, 80,
  110718747928530321477, 110718747928530321477, 80, 36893861020373623325, 36893858821350367773, 120, 4401269768317, 44, 228973397153917,
  110750481355607375917, 96, 112, 110736763426551955557, 110736763426551955557, 112, 36894001482984075809, 36893999833716634145, 88, 100,
  110732259414607593565, 110732259414607593565, 120, 36894035018088721957, 36894036667356163617, 88, 104, 110732259552046547037,
  110732259552046547037, 104, 36893966298611985953, 36893964649344544289, 80, 112, 36893999833716632133, 110727756227296952405, 112,
  36893999833716632101, 36894001208106166817, 124, 128, 4, 8, 604463779195694155448353, 36893545460536444037, 80, 14173152871586820276229, 0,
  604472495912772932993617, 8, 604463777330922434724485, 604463846855241682256965, 4, 8, 604463779195694155448353, 36893545460536444037, 132, 136,
  604473002726060686722089, 36894108410489881733, 604472784319070945230917, 128, 36894073226117791877, 4, 80, 1814163567352281814810757, 8,
  604463779195694155448361, 36893545460536444037, 604472426247716197122093, 44, 120, 48, 40, 1209368568705377179276925, 80, 73813999545092472877, 92,
  9448192155353942327381, 73814001193285582933, 1209368571291428527806589, 40, 1209368568705377179276925, 80, 73813999545092472877, 92,
  9448192155353942327381, 73814001193285582933, 80, 120, 124, 14173152849870568046129, 9903672577183171302795253765, 140, 84,
  232212933484493651448965777, 136, 232212937519718917572937361, 4, 0, 48, 9903581782331358502359013389, 52, 29723255189446396523678865973,
  14173152533211219237425, 14173152323344983719941, 1814163542248232329423501, 12, 16, 604464378174444595845153, 0,
  162259685592979648748908878501917, 4, 14173152323344983719941, 116, 29723255808011301743390229117, 112, 14173152815926192963701,
  232212935736134745517276209, 16, 0, 162259664347052842318375356930077, 4, 14173152323344983719941, 20, 116, 29723255808011301743390229117, 112,
  14173152815926192963701, 232212935736134745517276209, 1814163506729608705739389, 29723254858868673075801770109, 92, 1814166951860040828780629,
  1209374594732784834904149, 80, 96, 110727755677541138517, 110727755677541138517, 96, 36893929464972454445, 36893929464972454433, 72, 52,
  14172576162619766873133, 110723251253279916089, 104, 36893964649344542245, 36893965748856170001, 72, 52, 14172576162619766873133,
  110723251253279916089, 68, 36893826935513162885, 128, 604468460687506808120849, 604468460828244296476197, 72, 52, 14172576162619766873133,
  110723251253279916089, 44, 40, 120, 1209368568705377179276925, 1209368568705377179276925, 9448191941634322077261, 52, 1209374018184071601127481,
  48, 4, 9903581782331358502359013389, 76, 120, 124, 1814093165024483478798461, 9903672577183171302795253765, 68, 9903611188157283453464683549,
  29722102412079478149004403789, 1209374018201663787171917, 1814093164707824129998901, 72, 52, 14172576162619766873133, 110723251253279916089, 68,
  36893826935513162885, 128, 604468460687506808120849, 604468460828244296476197]

theorem side6a_l2_run23 : run .l2 2 45 8 side6aEnv [] side6a_l2_23 (side6aPaths23.map fun P => ⟨[P], []⟩) = true := Run.run_one (by decide +kernel)

def side6a_l2_24 : List ℕ := [
  44, 72, 52, 14172576162619766873133, 110723251253279916089, 40, 76, 36, 9448191926380645842985, 4, 0, 140, 1209368545993864995930769, 32,
  1209368564025855691461129, 28, 24, 20, 16, 12, 73813998581945466897, 80, 84, 88, 9448192137486878376025, 112, 73814001880480350301,
  4722432119590755511857, 1209368591047453455690249, 9448192099963996481613, 1209368555018656436718089, 9448191853673391852621,
  1209368559522256064089609, 9448191891196273754145, 9448191765712461627981, 132, 604466085249809602200649, 604466085249809602200609,
  9448192084710320242765, 9448191941634322077261, 72, 52, 14172576162619766873133, 110723251253279916089, 52, 1209374018184071601127481, 48, 4,
  9903581782331358502359013389, 132, 40, 36, 1814093164655047571865641, 604466085249809602200649, 604466445537779791889481, 40, 36,
  1814093164655047571865641, 604466085249809602200609, 604466445326673559356461, 1814093164707824129998901, 72, 52, 14172576162619766873133,
  110723251253279916089, 68, 36893826935513162885, 128, 604468460687506808120849, 604468460828244296476197, 72, 52, 14172576162619766873133,
  110723251253279916089, 44, 40, 120, 1209368568705377179276925, 1209368568705377179276925, 9448191941634322077261, 84, 1814093164848561618354253,
  1209374018236848159260749, 72, 88, 110723251803035729997, 110723251803035729997, 88, 36893896479623620129, 36893894280600364577, 120,
  4401269768317, 52, 264157786020989, 110750516542126948405, 96, 112, 110736763426551955557, 110736763426551955557, 112, 36894001482984075809,
  36893999558838727201, 88, 100, 110732259414607593565, 110732259414607593565, 120, 36894035292966628897, 36894036667356163617, 88, 104,
  110732259552046547037, 110732259552046547037, 104, 36893966298611985953, 36893964374466637345, 80, 112, 36894000108594539077,
  110727756227296952405, 112, 36894000108594539041, 36894001208106166817, 52, 72, 73818504105718317113, 80, 110727754851833217081,
  9448768528145315659833, 80, 72, 14173152622687024382009, 110727754852907417657, 72, 1209448381621256256880697, 1814167528232969715974201, 52, 72,
  73818504105718317113, 80, 110727754851833217081, 9448768528145315659833, 80, 72, 14173152622687024382009, 110727754852907417657, 72,
  1209448381621256256880697, 1814167528232969715974201, 80, 96, 110727755677541138517, 110727755677541138517, 96, 36893929739850361381,
  36893929190094547489, 2251820223168565, 2251820223168565, 2251820223168565, 2251820223168565, 2251820223168565, 2251820223168565, 2251820223168565,
  2251820223168565, 2251822370652221, 2251822370652221, 2251833108070501, 2251826665619533, 2251824518135877, 2251824518135877, 68, 36,
  73827511167534366761, 9449921431644344947805, 36, 36893808381254439997, 36893808518693393501, 104, 108, 4722429850336320566893, 4,
  1814384916687915776489069, 0, 14174881707661329433165, 1814384858580925271769609, 76, 96, 73832015729234542673, 36893931663995709517, 72,
  1814390618561565880418381, 4, 19819257396482709494630983177, 0, 1814390618244906531618821, 9903530762956185072109237765, 112, 288235189738209397,
  76, 288235188663877749, 36894104148978237557, 112, 288235189738209397, 136, 36894106761222437389, 36894107860734065221, 112, 288235189738209397,
  128, 36894072538923022905, 36894070752216627773, 2251830960586845, 76, 40, 73832015042039775277, 1209663734765692597048877, 112,
  865201323333648425, 110746118502058295337, 84, 104, 73836519603739951193, 36893967123245706321, 80, 36893879162315483729, 112, 116,
  36894018800292215409, 4722434054868801960565, 1209745835425795690998301, 120, 4401269768317, 84, 404895341489277, 110750657288205238357, 92,
  3438122893409, 120, 4401269768317, 110750692474724810845, 92, 3438122893409, 120, 4401269768317, 110750692474724810845, 2251833108070501, 128, 124,
  4, 0, 604463488748702562075173, 8, 604463779230878527537189, 36893545460536444037, 8, 0, 604472495947957305082457, 604463777330922434724485,
  604463846890426054345805, 36894073226117791877, 88, 124, 132, 120, 4, 8, 604463779230878527537189, 36893545460536444037, 8,
  1814237286440330724377609, 604463846890426054345805, 1814237352111961228197505, 1814237356791482716013149, 4722440810268192686213, 4, 8, 124,
  604463779230878527537189, 604463779230878527537201, 36893545460536444037, 124, 132, 136, 604473002708468500677681, 36894108410489881733,
  604472784354255317319757, 604472426318084941299761, 60, 80, 73823007980223725633, 88, 110732258726338625601, 9449345024356869210177, 88, 80,
  14173729118898577932353, 110732258727412826177, 80, 1209522745093487787507777, 1814241891705201246601281]

theorem side6a_l2_run24 : run .l2 2 45 8 side6aEnv [] side6a_l2_24 (side6aPaths24.map fun P => ⟨[P], []⟩) = true := Run.run_one (by decide +kernel)

def side6a_l2_25 : List ℕ := [
  120, 4401269768317, 84, 404895341489277, 110750657288205238357, 92, 3438122893409, 120, 4401269768317, 110750692474724810845, 92, 3438122893409,
  120, 4401269768317, 110750692474724810845, 2251833108070501, 16, 32, 36893648539751549497, 36893649914141084213, 32, 36893648539751549541,
  36893649639263177249, 16, 32, 36893647852556782145, 36893649914141084221, 32, 36893648264873642529, 36893649639263177249, 32, 16,
  36893647852556782145, 36893647989995735585, 16, 36893649914141084221, 36893649639263177249, 2251826665619533, 120, 4401269768317, 36,
  193789008286845, 110750446169087803429, 36, 20, 73809495669512732697, 73809495669512732697, 8, 36893667781205034525, 36893667781205034573, 36, 20,
  73809495669512732697, 73809495669512732697, 8, 36893667506327127581, 36893667506327127649, 36, 20, 73809495669512732697, 73809495669512732697, 8,
  36893667506327127581, 36893667506327127649, 36, 20, 73809495669512732697, 73809495669512732697, 8, 36893667231449220641, 36893667231449220697, 36,
  20, 73809495669512732697, 73809495669512732697, 8, 36893667231449220641, 36893667231449220697, 36, 20, 73809495669512732697, 73809495669512732697,
  8, 36893667231449220641, 36893667231449220697, 36, 20, 73809495669512732697, 73809495669512732697, 8, 36893667231449220641, 36893667231449220697,
  36, 20, 73809495669512732697, 73809495669512732697, 8, 36893666956571313697, 36893666956571313745, 36, 20, 73809495669512732697,
  73809495669512732697, 8, 36893666956571313697, 36893666956571313745, 36, 20, 73809495669512732697, 73809495669512732697, 8, 36893666956571313697,
  36893666956571313745, 36, 20, 73809495669512732697, 73809495669512732697, 8, 36893666956571313697, 36893666956571313745, 36, 20,
  73809495669512732697, 73809495669512732697, 8, 36893666956571313697, 36893666956571313745, 36, 20, 73809495669512732697, 73809495669512732697, 8,
  36893666956571313697, 36893666956571313745, 36, 20, 73809495669512732697, 73809495669512732697, 8, 36893666956571313697, 36893666956571313745, 8,
  36, 20, 73809495669512732697, 73809495669512732697, 36893666956571313697, 4, 36893544910780630153, 36893544910780630025, 36, 20,
  73809495669512732697, 73809495669512732697, 8, 36893667231449220641, 36893667231449220697, 36, 20, 73809495669512732697, 73809495669512732697, 8,
  36893667231449220641, 36893667231449220697, 120, 4401269768317, 36, 193789008286845, 110750446169087803429, 36, 20, 73809495669512732697,
  73809495669512732697, 8, 36893667781205034525, 36893667781205034601, 36, 20, 73809495669512732697, 73809495669512732697, 8, 36893667506327127581,
  36893667506327127649, 36, 20, 73809495669512732697, 73809495669512732697, 8, 36893667506327127581, 36893667506327127649, 36, 20,
  73809495669512732697, 73809495669512732697, 8, 36893667506327127581, 36893667506327127649, 36, 288232852201013289, 120, 4401269768317,
  110750446169087803429, 36, 288232852201013289, 120, 4401269768317, 110750446169087803429, 36, 20, 73809495669512732697, 73809495669512732697, 8,
  36893667781205034525, 36893667781205034601, 36, 20, 73809495669512732697, 73809495669512732697, 8, 36893667781205034525, 36893667781205034573, 120,
  4401269768317, 36, 193789008286845, 110750446169087803429, 36, 20, 73809495669512732697, 73809495669512732697, 8, 36893667781205034525,
  36893667781205034557, 36, 20, 73809495669512732697, 73809495669512732697, 8, 36893666681693406753, 36893666681693406793, 36, 20,
  73809495669512732697, 73809495669512732697, 8, 36893666681693406753, 36893666681693406793, 36, 20, 73809495669512732697, 73809495669512732697, 8,
  36893666681693406753, 36893666681693406793, 36, 20, 73809495669512732697, 73809495669512732697, 8, 36893666681693406753, 36893666681693406793, 36,
  20, 73809495669512732697, 73809495669512732697, 8, 36893666406815499809, 36893666406815499841, 36, 20, 73809495669512732697, 73809495669512732697,
  8, 36893666406815499809, 36893666406815499841, 36, 20, 73809495669512732697, 73809495669512732697, 8, 36893666406815499809, 36893666406815499841,
  36, 20, 73809495669512732697, 73809495669512732697, 8, 36893666406815499809, 36893666406815499841, 36, 20, 73809495669512732697,
  73809495669512732697, 8, 36893666406815499809, 36893666406815499841]

theorem side6a_l2_run25 : run .l2 2 45 8 side6aEnv [] side6a_l2_25 (side6aPaths25.map fun P => ⟨[P], []⟩) = true := Run.run_one (by decide +kernel)

def side6a_l2_26 : List ℕ := [
  36, 20, 73809495669512732697, 73809495669512732697, 8, 36893666406815499809, 36893666406815499841, 36, 20, 73809495669512732697,
  73809495669512732697, 8, 36893667231449220641, 36893667231449220697, 36, 20, 73809495669512732697, 73809495669512732697, 8, 36893667231449220641,
  36893667231449220697, 120, 4401269768317, 36, 193789008286845, 110750446169087803429, 36, 20, 73809495669512732697, 73809495669512732697, 8,
  36893667781205034525, 36893667781205034601, 36, 20, 73809495669512732697, 73809495669512732697, 8, 36893667506327127581, 36893667506327127649, 36,
  20, 73809495669512732697, 73809495669512732697, 8, 36893667506327127581, 36893667506327127649, 120, 4401269768317, 36, 193789008286845,
  110750446169087803429, 36, 20, 73809495669512732697, 73809495669512732697, 8, 36893667781205034525, 36893667643766081077, 36, 20,
  73809495669512732697, 73809495669512732697, 8, 36893667506327127581, 36893667506327127605, 36, 20, 73809495669512732697, 73809495669512732697, 8,
  36893667506327127581, 36893667506327127605, 120, 4401269768317, 36, 193789008286845, 110750446169087803429, 36, 20, 73809495669512732697,
  73809495669512732697, 8, 36893667781205034525, 36893667643766081077, 36, 20, 73809495669512732697, 73809495669512732697, 8, 36893666406815499809,
  36893666406815499841, 36, 20, 73809495669512732697, 73809495669512732697, 8, 36893666406815499809, 36893666406815499841, 36, 20,
  73809495669512732697, 73809495669512732697, 8, 36893666406815499809, 36893666406815499841, 8, 36, 20, 73809495669512732697, 73809495669512732697,
  36893666406815499809, 4, 36893544635902723193, 36893544635902723081, 2251815928201253, 2251815928201253, 2251815928201253, 2251815928201253,
  2251815928201253, 2251815928201253, 2251815928201253, 2251815928201253, 2251815928201253, 2251815928201253, 2251815928201253, 2251815928201253,
  2251815928201253, 2251815928201253, 60, 288233676835127361, 120, 4401269768317, 110750551728646520893, 104, 120, 110741267301057364077,
  110741267301057364077, 120, 36894037217111979569, 36894035292966630965, 96, 108, 110736763289113002085, 110736763289113002085, 124,
  36894053160030581277, 36894054534420116021, 96, 112, 110736763426551955557, 110736763426551955557, 112, 36894000383472448053, 36894000108594541109,
  88, 116, 36894017975658491469, 110732259964363407453, 116, 36894017975658491421, 36894019075170119221, 60, 80, 73823007980223725633, 88,
  110732258726338625601, 9449345024356869210177, 88, 80, 14173729118898577932353, 110732258727412826177, 80, 1209522745093487787507777,
  1814241891705201246601281, 88, 100, 110732259414607593565, 110732259414607593565, 60, 80, 73823007980223725633, 9449345024356869210177, 80,
  1209522745093487787507777, 1814241891705201246601281, 88, 104, 110732259552046547037, 110732259552046547037, 104, 36893965199100358197,
  36893964924222451253, 2251822370652221, 2251822370652221, 2251822370652221, 2251822370652221, 2251822370652221, 2251822370652221, 2251822370652221,
  2251822370652221, 2251824518135877, 2251824518135877, 2251833108070501, 2251828813103189, 2251826665619533, 2251826665619533, 68, 88,
  73827511854729134153, 4722418714345039995977, 96, 100, 14174305667886689615973, 8, 1814311125225613480178277, 1814311125225613480178277, 64, 88,
  132, 128, 0, 4, 604463491211608608293949, 604463563093280785777681, 4, 8, 604463493287486561518693, 604463493463408421962849,
  604463562952543297406021, 604472786465317642650173, 0, 4, 604463491211608608293969, 604463563251610460177437, 4, 8, 604463493287486561518693,
  604463493463408421962849, 604463563269202646205465, 1814316255177432777228361, 1814316255089471847006277, 92, 3438122893409, 120, 4401269768317,
  110750692474724810845, 2251833108070501, 104, 120, 110741267301057364077, 110741267301057364077, 132, 36894088894158485021, 36894089993670112841,
  2251828813103189, 120, 4401269768317, 44, 228973397153917, 110750481355607375917, 104, 120, 110741267301057364077, 110741267301057364077, 120,
  36894036942234072613, 36894035018088724005]

theorem side6a_l2_run26 : run .l2 2 45 8 side6aEnv [] side6a_l2_26 (side6aPaths26.map fun P => ⟨[P], []⟩) = true := Run.run_one (by decide +kernel)

def side6a_l2_27 : List ℕ := [
  8, 44, 4, 40, 0, 140, 1209368568511863132788369, 132, 136, 77372581510388131517629965, 604473002743652872766529, 9903529796533262226490147877,
  604463493217117817341009, 1209368568705377179276813, 1209368548439178856104973, 4, 0, 48, 604466663751255486891533, 80, 84, 40, 76, 140, 12,
  9903539317926500822897924113, 9903540535398098888846219301, 132, 136, 77372581510388131517629965, 604473002743652872766529,
  9903529796533262226490147877, 1814163540014024701782029, 604466445185821180626481, 14173152673949605177993, 40, 84, 140, 12,
  9903539317926500822897924113, 9903540535398098888846219301, 132, 136, 77372581510388131517629965, 604473002743652872766529,
  9903529796533262226490147877, 19814393359527788909969812017, 604466445168219506349581, 604463493217117817341009, 9903534927587900481131976721, 12,
  604464069748238865073701, 132, 4, 128, 136, 140, 80, 1814163502313970008589837, 0, 44, 40, 1209368568511863132788369, 1209368568705377179276813,
  16, 20, 24, 604464954635196899399717, 28, 40, 76, 19814393359313850325895489681, 72, 68, 604468413399710720727077, 64, 604468105043873734148653,
  9903605432484902079923230765, 604468751345604634018897, 1814166951653333614466569, 604465292581090812691537, 604464646208991168628261,
  19814393354630124315204388913, 604463493393039677785169, 604473293120275721946661, 604473002743652872766529, 604472716659523418392101,
  604463851411617867760681, 4, 0, 140, 80, 1814163502313970008589837, 44, 40, 1209368568511863132788369, 1209368568705377179276813, 16, 20, 24,
  604464954635196899399717, 9903554628724082001849358349, 604464646208991168628261, 19814393354630124315204388913, 9903529796533262226490147877,
  604463493393039677785169, 604463851253288193360921, 132, 0, 4, 604463491141239864116261, 604463563022912041600013, 4, 8, 604463493217117817341009,
  604463493393039677785169, 604463563022912041583641, 0, 4, 604463491141239864116289, 604463563093280785777701, 4, 8, 604463493217117817341009,
  604463493393039677785169, 604463563181241715983401, 8, 44, 40, 108, 154799176794464325361940565, 1209368568705377179276913,
  1209368568705377179276813, 4, 48, 604466663751255486891533, 80, 52, 56, 604467260478206113617957, 60, 14173152569635588341821, 64,
  604467816672760094000653, 68, 72, 604468413399710720727077, 76, 14173152640004332519501, 1814163540014024701782029, 14173152603579963417137,
  14173152533211219237425, 92, 1814166951860040828780629, 1209374594732784834904149, 9903534927587900481131976721, 12, 604464069748238865073701, 80,
  108, 112, 1814163502190824706278925, 604471275507642659505701, 77371408124561986162984533, 44, 92, 9448192155353942327381, 73814001193285582933,
  92, 1814166951860040828780629, 1209374594732784834904149, 80, 96, 110727755677541138517, 110727755677541138517, 96, 36893929464972454445,
  36893929464972454437, 72, 52, 14172576162619766873133, 110723251253279916089, 44, 76, 128, 604468749058620448253481, 604468748917882959898149,
  73814000643529769037, 76, 128, 604468749058620448253481, 604468748917882959898149, 1209374018201663787171917, 132, 0, 4, 604463491106055492027429,
  604463563022912041600013, 4, 8, 604463493217117817341001, 604463493357855305696329, 604463563022912041583641, 0, 4, 604463491106055492027453,
  604463563093280785777701, 4, 8, 604463493217117817341001, 604463493357855305696329, 604463563163649529938985, 52, 72, 14172576162619766873133, 44,
  73814000506090815545, 1209374018184071601127481, 72, 110723251253279916089, 44, 40, 36, 9448191926380645842985, 32, 76, 8, 4, 0, 140,
  1209368568511863132788369, 28, 24, 20, 73813998856823373849, 16, 604464646138622424450573, 12, 132, 136, 77372581510388131517629965,
  604473002708468500677693, 604464360195230458463269, 1209368552802040995121201, 9448191871265577897549, 604465510829750879782413,
  604463493217117817341001, 1209368548439178856104973, 12, 604464069748238865073701, 16, 20, 24, 73813998856823373849, 28, 9448191871265577897549,
  604465510900119623960101, 604464646208991168628261, 1209368552802040995121201, 9448192084710320242765, 9448191908788459798565,
  9448191941634322077261, 48, 8, 604466663751255486891533, 604466663821624231069221, 1814093164707824129998901, 132, 0, 4, 604463491106055492027429,
  604463563022912041600013, 4, 8, 604463493217117817341001, 604463493357855305696329, 604463563022912041583641, 0, 4, 604463491106055492027453,
  604463563093280785777701, 4, 8, 604463493217117817341001, 604463493357855305696329, 604463563163649529938985, 72, 52, 14172576162619766873133,
  110723251253279916089, 44, 84, 9448192119894692331597, 73814000918407675981, 84, 1814093164848561618354253, 1209374018236848159260749]

theorem side6a_l2_run27 : run .l2 2 45 8 side6aEnv [] side6a_l2_27 (side6aPaths27.map fun P => ⟨[P], []⟩) = true := Run.run_one (by decide +kernel)

def side6a_l2_28 : List ℕ := [
  72, 88, 110723251803035729997, 110723251803035729997, 88, 36893896479623620133, 36893894280600364581, 120, 4401269768317, 52, 264157786020989,
  110750516542126948405, 104, 120, 110741267301057364077, 110741267301057364077, 120, 36894036942234072617, 36894035292966630965, 96, 108,
  110736763289113002085, 110736763289113002085, 124, 36894052885152674349, 36894054534420116017, 96, 112, 110736763426551955557,
  110736763426551955557, 112, 36894001757861982761, 36894000108594541109, 88, 116, 36894017700780584525, 110732259964363407453, 116,
  36894017700780584493, 36894019075170119213, 132, 0, 4, 604463491176424236205101, 604463563058096413688845, 4, 8, 604463493252302189429849,
  604463493428224049874009, 604463563058096413672497, 0, 4, 604463491176424236205129, 604463563234018274133029, 4, 8, 604463493252302189429849,
  604463493428224049874009, 604463563163649529938993, 88, 100, 110732259414607593565, 110732259414607593565, 52, 100, 9448768651565495877725,
  73818505067790991453, 100, 1814241315332272359407709, 1209448958205016365531229, 88, 104, 110732259552046547037, 110732259552046547037, 104,
  36893964924222451253, 36893964924222451253, 80, 108, 36893982516408494669, 110727756089857998933, 108, 36893982516408494637, 36893983615920122413,
  80, 60, 52, 110727755126711124033, 14173152656356521549881, 110727755127785324609, 52, 60, 73818504380596224065, 9448768560716316680277, 60,
  1209448381656303131754561, 1209448381656440628969537, 80, 60, 52, 110727755126711124033, 14173152656356521549881, 110727755127785324609, 52, 60,
  73818504380596224065, 9448768560716316680277, 60, 1209448381656303131754561, 1209448381656440628969537, 80, 60, 52, 110727755126711124033,
  14173152656356521549881, 110727755127785324609, 52, 60, 73818504380596224065, 9448768560716316680277, 60, 1209448381656303131754561,
  1209448381656440628969537, 116, 100, 36894016738707911765, 36894017700780586009, 100, 36894018800292213841, 36894018800292213785, 60, 52, 80,
  110727755126711124033, 73818504380596224065, 80, 14173152656356521549881, 1209448381656303131754561, 80, 110727755127785324609, 52,
  9448768560716316680277, 1209448381656440628969537, 124, 108, 36894051923080001621, 36894052885152675865, 108, 36894053984664303697,
  36894053984664303641, 80, 96, 110727755677541138517, 110727755677541138517, 96, 36893931938873616937, 36893929739850361397, 60, 288233676835127361,
  120, 4401269768317, 110750551728646520893, 104, 120, 110741267301057364077, 110741267301057364077, 120, 36894036942234072617, 36894035018088724009,
  96, 108, 110736763289113002085, 110736763289113002085, 124, 36894053022591627821, 36894054534420116013, 96, 112, 110736763426551955557,
  110736763426551955557, 112, 36894001757861982761, 36893999833716634153, 88, 116, 36894017975658491469, 110732259964363407453, 116,
  36894017838219537965, 36894019075170119213, 60, 80, 73823007980223725633, 88, 110732258726338625601, 9449345024356869210177, 88, 80,
  14173729118898577932353, 110732258727412826177, 80, 1209522745093487787507777, 1814241891705201246601281, 88, 100, 110732259414607593565,
  110732259414607593565, 60, 80, 73823007980223725633, 9449345024356869210177, 80, 1209522745093487787507777, 1814241891705201246601281, 88, 104,
  110732259552046547037, 110732259552046547037, 104, 36893965199100358189, 36893964649344544297, 2251822370652221, 2251822370652221,
  2251822370652221, 2251822370652221, 2251822370652221, 2251822370652221, 2251822370652221, 2251822370652221, 2251824518135877, 2251824518135877,
  2251833108070501, 2251828813103189, 2251826665619533, 2251826665619533, 132, 0, 4, 604463491211608608293949, 604463563022912041600017, 4, 8,
  604463493287486561518693, 604463493463408421962849, 604463563093280785761337, 0, 4, 604463491211608608293969, 604463563251610460177449, 4, 8,
  604463493287486561518693, 604463493463408421962849, 604463563269202646205465, 68, 88, 73827511854729134153, 4722418714345039995977, 96, 100,
  14174305667886689615973, 8, 1814311125225613480178277, 1814311125225613480178277, 64, 1814316255089334349791301, 88, 132, 128, 0, 4,
  604463491211608608293941, 604463563058096413688845, 4, 8, 604463493252302189429861, 604463493463408421962849, 604463563022912041583681,
  604472786430133270561333, 0, 4, 604463491211608608293969, 604463563251610460177449, 4, 8, 604463493252302189429861, 604463493463408421962849,
  604463563269202646205465, 1814316255177432777228361, 120, 4401269768317, 84, 404895341489277, 110750657288205238357, 92, 3438122893409, 120,
  4401269768317, 110750692474724810845]

theorem side6a_l2_run28 : run .l2 2 45 8 side6aEnv [] side6a_l2_28 (side6aPaths28.map fun P => ⟨[P], []⟩) = true := Run.run_one (by decide +kernel)

def side6a_l2_29 : List ℕ := [
  92, 3438122893409, 120, 4401269768317, 110750692474724810845, 2251833108070501, 40, 24, 36893683999001546305, 36893683999001546349, 24,
  36893685098513174041, 36893685098513174057, 40, 24, 36893683311806778953, 36893683724123639405, 24, 36893685098513174041, 36893685098513174057, 40,
  24, 36893683311806778953, 36893683449245732461, 24, 36893685098513174041, 36893685098513174057, 2251828813103189, 120, 4401269768317, 44,
  228973397153917, 110750481355607375917, 28, 44, 73813999544018141217, 36893702690699218985, 44, 73813999544018141217, 36893702828138172461, 28, 44,
  73813999544018141217, 36893702690699218985, 44, 73813999544018141217, 36893702690699218989, 28, 44, 73813999544018141217, 36893702690699218985, 44,
  73813999544018141217, 36893702690699218989, 28, 44, 73813999544018141217, 36893700766553870381, 44, 73813999544018141217, 36893702415821312069, 28,
  44, 73813999544018141217, 36893700766553870381, 44, 73813999544018141217, 36893702415821312069, 28, 44, 73813999544018141217, 36893700766553870381,
  44, 73813999544018141217, 36893702415821312069, 28, 44, 73813999544018141217, 36893700766553870381, 44, 73813999544018141217, 36893702415821312069,
  28, 44, 73813999544018141217, 36893700766553870381, 44, 73813999544018141217, 36893702140943405125, 28, 44, 73813999544018141217,
  36893700766553870381, 44, 73813999544018141217, 36893702140943405125, 28, 44, 73813999544018141217, 36893700766553870381, 44, 73813999544018141217,
  36893702140943405125, 28, 44, 73813999544018141217, 36893700766553870381, 44, 73813999544018141217, 36893702140943405125, 28, 44,
  73813999544018141217, 36893702690699218985, 44, 73813999544018141217, 36893702140943405125, 28, 44, 73813999544018141217, 36893702690699218985, 44,
  73813999544018141217, 36893702140943405125, 28, 44, 73813999544018141217, 36893702965577125929, 44, 73813999544018141217, 36893702965577125933, 28,
  44, 73813999544018141217, 36893703240455032853, 32, 36893646753045155957, 36893651151091667061, 28, 44, 73813999544018141217, 36893700766553870381,
  44, 73813999544018141217, 36893702278382358601, 28, 44, 73813999544018141217, 36893700766553870381, 44, 73813999544018141217, 36893702278382358601,
  44, 288233127079051313, 120, 4401269768317, 110750481355607375917, 28, 44, 73813999544018141217, 36893702415821312041, 44, 73813999544018141217,
  36893702828138172461, 28, 44, 73813999544018141217, 36893702690699218985, 44, 73813999544018141217, 36893702690699218989, 28, 44,
  73813999544018141217, 36893702690699218985, 44, 73813999544018141217, 36893702690699218989, 28, 44, 73813999544018141217, 36893700766553870381, 44,
  73813999544018141217, 36893702415821312061, 28, 44, 73813999544018141217, 36893700766553870381, 44, 73813999544018141217, 36893702415821312061,
  120, 4401269768317, 44, 228973397153917, 110750481355607375917, 28, 44, 73813999544018141217, 36893702553260265513, 44, 73813999544018141217,
  36893702828138172461, 28, 44, 73813999544018141217, 36893702690699218985, 44, 73813999544018141217, 36893702690699218989, 28, 44,
  73813999544018141217, 36893702690699218985, 44, 73813999544018141217, 36893702690699218989, 120, 4401269768317, 44, 228973397153917,
  110750481355607375917, 28, 44, 73813999544018141217, 36893702690699218985, 44, 73813999544018141217, 36893702828138172461, 28, 44,
  73813999544018141217, 36893702690699218985, 44, 73813999544018141217, 36893702690699218989, 28, 44, 73813999544018141217, 36893702690699218985, 44,
  73813999544018141217, 36893702690699218989, 2251818075684909, 2251818075684909, 2251818075684909, 2251818075684909, 2251818075684909,
  2251818075684909, 2251818075684909, 2251818075684909]

theorem side6a_l2_run29 : run .l2 2 45 8 side6aEnv [] side6a_l2_29 (side6aPaths29.map fun P => ⟨[P], []⟩) = true := Run.run_one (by decide +kernel)

def side6a_l2_30 : List ℕ := [
  8, 136, 16, 32, 28, 604465510847343065827929, 604465510847343065843253, 36, 604465803774832891463213, 604465871152905441576497, 32, 28,
  604465510864935251872293, 604465510847343065843253, 36, 604465803598911031019053, 604465871152905441576497, 16, 32, 28, 604465510847343065827929,
  604465510847343065843249, 36, 604465803774832891463213, 604465871135313255532081, 52, 32, 28, 604465510864935251872293, 604465510847343065843249,
  36, 604465803598911031019053, 604465871135313255532081, 32, 28, 604465510864935251872293, 604465510847343065843249, 36, 604465803598911031019053,
  604465871135313255532081, 136, 12, 604464069871384167384613, 16, 604464358101760319161893, 32, 28, 604465511040857112316453,
  604465511040857112331829, 36, 604465803598911031019093, 604465871328827302020661, 52, 16, 12, 604464069871384167384613, 604464358101760319161893,
  20, 1209442342575493431167509, 32, 28, 604465511040857112316453, 604465510864935251887665, 36, 604465803598911031019093, 604465871135313255532085,
  4, 12, 604464069871384167384613, 16, 604464358101760319161893, 32, 28, 604465511040857112316453, 604465510864935251887665, 36,
  604465803598911031019093, 604465871135313255532085, 604463853522680193091125, 132, 0, 4, 604463491176424236205101, 604463563040504227644429, 4, 8,
  604463493234710003385433, 604463493428224049874009, 604463563040504227628065, 0, 4, 604463491176424236205137, 604463563216426088088613, 4, 8,
  604463493234710003385433, 604463493428224049874009, 604463563234018274116641, 52, 288233401957089337, 120, 4401269768317, 110750516542126948405,
  104, 120, 110741267301057364077, 110741267301057364077, 120, 36894037079673026093, 36894035155527677489, 96, 108, 110736763289113002085,
  110736763289113002085, 124, 36894052885152674349, 36894054534420116017, 96, 112, 110736763426551955557, 110736763426551955557, 112,
  36894000108594541105, 36893999971155587633, 120, 4401269768317, 52, 264157786020989, 110750516542126948405, 104, 120, 110741267301057364077,
  110741267301057364077, 120, 36894037079673026093, 36894035155527677489, 96, 108, 110736763289113002085, 110736763289113002085, 124,
  36894052885152674349, 36894054534420116017, 96, 112, 110736763426551955557, 110736763426551955557, 112, 36894000108594541105, 36893999971155587633,
  2251820223168565, 2251820223168565, 2251820223168565, 2251820223168565, 2251820223168565, 2251820223168565, 2251820223168565, 2251820223168565, 60,
  288233676835127361, 120, 4401269768317, 110750551728646520893, 104, 120, 110741267301057364077, 110741267301057364077, 120, 36894037217111979569,
  36894035292966630965, 96, 108, 110736763289113002085, 110736763289113002085, 124, 36894053160030581301, 36894054534420116021, 96, 112,
  110736763426551955557, 110736763426551955557, 112, 36894000383472448053, 36894000108594541109, 88, 116, 36894017975658491469,
  110732259964363407453, 116, 36894017975658491445, 36894019075170119221, 60, 80, 73823007980223725633, 88, 110732258726338625601,
  9449345024356869210177, 80, 88, 14173729118898577932353, 1209522745093487787507777, 88, 110732258727412826177, 1814241891705201246601281, 88, 100,
  110732259414607593565, 110732259414607593565, 60, 80, 73823007980223725633, 9449345024356869210177, 80, 1209522745093487787507777,
  1814241891705201246601281, 88, 104, 110732259552046547037, 110732259552046547037, 104, 36893965199100358197, 36893964924222451253,
  2251822370652221, 2251822370652221, 2251822370652221, 2251822370652221, 2251822370652221, 2251822370652221, 2251822370652221, 2251822370652221,
  2251824518135877, 2251824518135877, 2251833108070501, 2251828813103189, 2251826665619533, 2251826665619533, 120, 4401269768317, 52,
  264157786020989, 110750516542126948405, 36, 52, 73818503418523549737, 36893737875071308825, 52, 73818503418523549737, 36893737875071308853, 36, 52,
  73818503418523549737, 36893737600193401881, 52, 73818503418523549737, 36893737737632355381, 36, 52, 73818503418523549737, 36893737600193401881, 52,
  73818503418523549737, 36893737737632355381, 36, 52, 73818503418523549737, 36893737325315494937, 52, 73818503418523549737, 36893737600193401909, 36,
  52, 73818503418523549737, 36893737325315494937, 52, 73818503418523549737, 36893737600193401909, 36, 52, 73818503418523549737, 36893737325315494937,
  52, 73818503418523549737, 36893737600193401909, 36, 52, 73818503418523549737, 36893737325315494937, 52, 73818503418523549737, 36893737600193401909,
  36, 52, 73818503418523549737, 36893737325315494937, 52, 73818503418523549737, 36893737325315494981]

theorem side6a_l2_run30 : run .l2 2 45 8 side6aEnv [] side6a_l2_30 (side6aPaths30.map fun P => ⟨[P], []⟩) = true := Run.run_one (by decide +kernel)

def side6a_l2_31 : List ℕ := [
  36, 52, 73818503418523549737, 36893737325315494937, 52, 73818503418523549737, 36893737325315494981, 36, 52, 73818503418523549737,
  36893737325315494937, 52, 73818503418523549737, 36893737325315494981, 36, 52, 73818503418523549737, 36893737325315494937, 52, 73818503418523549737,
  36893737325315494981, 36, 52, 73818503418523549737, 36893737325315494937, 52, 73818503418523549737, 36893737875071308853, 36, 52,
  73818503418523549737, 36893737325315494937, 52, 73818503418523549737, 36893737875071308853, 36, 52, 73818503418523549737, 36893737325315494937, 52,
  73818503418523549737, 36893738149949215797, 36, 52, 73818503418523549737, 36893738424827122709, 40, 36893681937417245813, 36893686335463756917, 60,
  288233676835127361, 120, 4401269768317, 110750551728646520893, 44, 48, 36893717121789335581, 36893721519835846685, 60, 73823007293028958257,
  36893773059443398717, 8, 24, 36893614729768994353, 36893612943062599217, 24, 36893614729768994405, 36893612943062599269, 4, 8,
  36893541887123653769, 24, 36893614729768994405, 36893613355379459209, 8, 36893541887123653641, 24, 36893614729768994405, 36893613355379459077, 8,
  24, 36893614454891087409, 36893612943062599217, 24, 36893614454891087453, 36893612943062599261, 4, 8, 36893541887123653769, 24,
  36893614454891087453, 36893613355379459209, 8, 36893541887123653641, 24, 36893614454891087453, 36893613355379459077, 8, 24, 36893614454891087409,
  36893612943062599217, 24, 36893614454891087453, 36893612943062599261, 4, 8, 36893541887123653769, 24, 36893614454891087453, 36893613355379459209,
  8, 36893541887123653641, 24, 36893614454891087453, 36893613355379459077, 2251822370652221, 2251822370652221, 2251822370652221, 2251822370652221,
  2251822370652221, 2251822370652221, 2251822370652221, 2251822370652221, 2251824518135877, 2251824518135877, 2251833108070501, 2251828813103189,
  2251826665619533, 2251826665619533, 44, 60, 73823007293028958257, 36893772784565491741, 60, 73823007293028958257, 36893772784565491773, 52, 68,
  73827511167534366777, 36893807968937581597, 68, 73827511167534366777, 36893807694059674693, 120, 4401269768317, 84, 404895341489277,
  110750657288205238357, 92, 3438122893409, 120, 4401269768317, 110750692474724810845, 92, 3438122893409, 120, 4401269768317, 110750692474724810845,
  2251833108070501, 52, 68, 73827511167534366777, 36893807968937581601, 68, 73827511167534366777, 36893807968937581637, 60, 76, 73832015042039775297,
  36893843153309671457, 76, 73832015042039775297, 36893843703065485357, 32, 36, 40, 36893685373391082521, 36893682899489920009, 36893665307303875177,
  0, 4722387083319511613957, 36893649089507361289, 2251828813103189, 120, 4401269768317, 68, 334526563755133, 110750586915166093381, 52, 68,
  73827511167534366777, 36893807144303860805, 68, 73827511167534366777, 36893807968937581637, 52, 68, 73827511167534366777, 36893807144303860805, 56,
  36893752718478285925, 36893755467257355381, 120, 4401269768317, 68, 334526563755133, 110750586915166093381, 52, 68, 73827511167534366777,
  36893807144303860805, 68, 73827511167534366777, 36893808793571302465, 120, 4401269768317, 68, 334526563755133, 110750586915166093381, 120,
  4401269768317, 68, 334526563755133, 110750586915166093381, 2251824518135877, 76, 28, 24, 1209663707515396414246481, 36893629573175971349, 32,
  36893647165362016277, 9450497734341851877401, 72, 80, 36893858271594555413, 112, 116, 110745770763245912181, 4722434195606290315893,
  1814464405557927710042137, 36893843977943393869, 120, 4401269768317, 76, 369710952622205, 110750622101685665869, 120, 4401269768317, 76,
  369710952622205, 110750622101685665869, 2251826665619533, 120, 4401269768317, 84, 404895341489277, 110750657288205238357, 2251828813103189,
  2251830960586845, 2251833108070501, 120, 4401269768317, 76, 369710952622205, 110750622101685665869, 60, 76, 73832015042039775297,
  36893843703065485361, 76, 73832015042039775297, 36893843703065485385, 120, 4401269768317, 84, 404895341489277, 110750657288205238357,
  2251828813103189, 2251830960586845, 2251833108070501, 28, 24, 36893629573175971413, 36893629573175971349, 32, 36893647165362016277,
  36893649364385271829, 2251830960586845, 2251830960586845, 2251833108070501, 2251833108070501, 120, 4401269768317, 76, 369710952622205,
  110750622101685665869]

theorem side6a_l2_run31 : run .l2 2 45 8 side6aEnv [] side6a_l2_31 (side6aPaths31.map fun P => ⟨[P], []⟩) = true := Run.run_one (by decide +kernel)

def side6a_l2_32 : List ℕ := [
  92, 3438122893409, 120, 4401269768317, 110750692474724810845, 120, 4401269768317, 84, 404895341489277, 110750657288205238357, 92, 3438122893409,
  120, 4401269768317, 110750692474724810845, 2251833108070501, 2251833108070501, 120, 4401269768317, 84, 404895341489277, 110750657288205238357,
  2251833108070501, 92, 3438122893409, 120, 4401269768317, 110750692474724810845, 2251833108070501, 112, 288235189738209397, 44, 28,
  73813999544018141217, 73813999544018141217, 36894104148911128693, 44, 28, 73813999544018141217, 73813999544018141217, 12, 36893702690699216933,
  36893702690699216981, 44, 28, 73813999544018141217, 73813999544018141217, 12, 36893702415821309989, 36893702415821310037, 44, 28,
  73813999544018141217, 73813999544018141217, 12, 36893702415821309989, 36893702415821310037, 112, 288235189738209397, 44, 28, 73813999544018141217,
  73813999544018141217, 36894104148911128693, 44, 28, 73813999544018141217, 73813999544018141217, 12, 36893702965577123877, 36893702965577123933,
  112, 288235189738209397, 44, 28, 73813999544018141217, 73813999544018141217, 36894104148911128693, 112, 288235189738209397, 44, 28,
  73813999544018141217, 73813999544018141217, 36894104148911128693, 112, 288235189738209397, 44, 28, 73813999544018141217, 73813999544018141217,
  36894104148911128693, 44, 28, 73813999544018141217, 73813999544018141217, 12, 36893702140943403045, 36893702140943403077, 44, 28,
  73813999544018141217, 73813999544018141217, 12, 36893701866065496101, 36893701866065496133, 44, 28, 73813999544018141217, 73813999544018141217, 12,
  36893701866065496101, 36893701866065496133, 112, 288235189738209397, 44, 28, 73813999544018141217, 73813999544018141217, 36894104148911128693, 112,
  288235189738209397, 44, 28, 73813999544018141217, 73813999544018141217, 36894104148911128693, 112, 288235189738209397, 44, 28,
  73813999544018141217, 73813999544018141217, 36894104148911128693, 12, 44, 73813999544018141201, 36893701866065496101, 44, 28, 73813999544018141217,
  73813999544018141217, 36893701866065496125, 2251818075684909, 2251818075684909, 2251818075684909, 2251818075684909, 112, 288235189738209397, 68,
  288235188663746677, 36894104148961460341, 68, 88, 73827511854729134153, 4722418714345039995977, 96, 100, 14174305667886689615973,
  4722425082853885751909, 72, 36893822812344558605, 76, 36893840404530603533, 4, 0, 8, 136, 604463781693784573756989, 604463781693784573757009, 12,
  604464065244639237703741, 604464103701157930797141, 36893523745181794829, 8, 36893541337367839757, 136, 604463853575456751224389,
  604463853716194239579681, 2251824518135877, 2251824518135877, 2251830960586845, 104, 108, 4722429867928506611309, 4722429568861343856237, 76, 96,
  73832015729234542673, 36893931663995709517, 80, 36893857996716648461, 1814390618581632871835661, 4, 0, 36893523745181794901, 36893523745181794829,
  8, 36893541337367839757, 36893543811269002253, 2251830960586845, 112, 288235189738209397, 52, 288235188663484533, 36894104148927905909, 4, 0, 8,
  136, 604463781658600201668141, 604463781658600201668169, 12, 604464065209454865614901, 104, 1213737829201545309, 604464124160870300452957,
  36893523745181794829, 8, 36893541337367839757, 136, 604463853540272379135521, 604463853716194239579681, 80, 60, 52, 110727755126711124033,
  14173152656356521549881, 110727755127785324609, 52, 60, 73818504380596224065, 9448768560716316680277, 60, 1209448381656303131754561,
  1209448381656440628969537, 80, 60, 52, 110727755126711124033, 14173152656356521549881, 110727755127785324609, 52, 60, 73818504380596224065,
  9448768560716316680277, 60, 1209448381656303131754561, 1209448381656440628969537, 112, 288235189738209397, 60, 288235188663615605,
  36894104148944683125, 4, 0, 12, 8, 136, 604463781693784573756989, 604463781693784573757009, 604464065244639237703741, 8, 136,
  604463781693784573756989, 604463781693784573757009, 92, 604464117036034952464433, 604464117036034952464441, 36893523745181794829, 8,
  36893541337367839757, 136, 604463853575456751224377, 604463853716194239579681, 88, 68, 60, 110732259001216532553, 14173729152293213840449,
  110732259002290733129, 60, 68, 73823008255101632585, 9449345056653008970845, 68, 1209522745128534662381641, 1209522745128672159596617]

theorem side6a_l2_run32 : run .l2 2 45 8 side6aEnv [] side6a_l2_32 (side6aPaths32.map fun P => ⟨[P], []⟩) = true := Run.run_one (by decide +kernel)

def side6a_l2_33 : List ℕ := [
  88, 68, 60, 110732259001216532553, 14173729152293213840449, 110732259002290733129, 60, 68, 73823008255101632585, 9449345056653008970845, 68,
  1209522745128534662381641, 1209522745128672159596617, 112, 288235189738209397, 68, 288235188663746677, 36894104148961460341, 96, 68, 88,
  73827511854729134153, 4722418714345039995977, 100, 14174305667886689615973, 4722425082853885751909, 68, 88, 73827511854729134153,
  4722418714345039995977, 4, 0, 8, 136, 604463781693784573756981, 604463781693784573757009, 12, 604464065209454865614901, 604464119252650394060357,
  36893523745181794829, 8, 36893541337367839757, 136, 604463853540272379135521, 604463853716194239579681, 2251824518135877, 2251824518135877,
  2251830960586845, 68, 12, 32, 44, 73827510342900645925, 4722393979731461542473, 28, 16, 1209589913730925560072265, 73827509793144832021,
  4722387224332020486217, 32, 44, 73827510342900645925, 4722393979731461542473, 28, 16, 36893576521739929613, 73827509793144832021,
  4722387224332020486217, 104, 108, 4722429832744134522477, 4722429568861343856237, 64, 1814390042065629188128837, 1209597684941810089075213, 76, 96,
  73832015729234542673, 36893931663995709517, 104, 108, 4722429850336320566893, 4722429568861343856237, 72, 1814390618561565880418381,
  1209671471953289299371533, 112, 288235189738209397, 76, 48, 73832015042039775285, 576812609991344161, 36894104148978237557, 4, 0,
  36893523745181794901, 36893523745181794829, 8, 36893541337367839757, 36893543811269002253, 4, 0, 36893523745181794901, 36893523745181794829, 8,
  36893541337367839757, 36893543811269002253, 2251830960586845, 112, 288235189738209397, 52, 36, 73818503418523549737, 73818503418523549737,
  36894104148927905909, 36, 52, 73818503418523549737, 36893736225803867189, 52, 73818503418523549737, 36893737737632355381, 36, 52,
  73818503418523549737, 36893736225803867189, 52, 73818503418523549737, 36893737600193401909, 36, 52, 73818503418523549737, 36893738149949215793, 52,
  73818503418523549737, 36893737600193401909, 112, 288235189738209397, 52, 36, 73818503418523549737, 73818503418523549737, 36894104148927905909, 112,
  288235189738209397, 52, 36, 73818503418523549737, 73818503418523549737, 36894104148927905909, 112, 288235189738209397, 52, 36,
  73818503418523549737, 73818503418523549737, 36894104148927905909, 2251820223168565, 2251820223168565, 112, 288235189738209397, 60,
  288235188663615605, 36894104148944683125, 112, 288235189738209397, 60, 288235188663615605, 36894104148944683125, 2251822370652221,
  2251822370652221, 112, 288235189738209397, 68, 288235188663746677, 36894104148961460341, 4, 0, 8, 136, 604463781693784573756989,
  604463781693784573757009, 12, 604464065244639237703741, 68, 88, 73827511854729134153, 4722418714345039995977, 604464103701157930797141,
  36893523745181794829, 8, 36893541337367839757, 136, 604463853575456751224361, 604463853681009867490857, 2251824518135877, 2251824518135877,
  2251830960586845, 112, 288235189738209397, 60, 44, 73823007293028958257, 73823007293028958257, 36894104148944683125, 44, 60, 73823007293028958257,
  36893772784565491745, 60, 73823007293028958257, 36893772784565491773, 44, 60, 73823007293028958257, 36893772784565491745, 60, 73823007293028958257,
  36893772647126538301, 44, 60, 73823007293028958257, 36893772784565491745, 60, 73823007293028958257, 36893772647126538301, 112, 288235189738209397,
  68, 52, 73827511167534366777, 73827511167534366777, 36894104148961460341, 52, 68, 73827511167534366777, 36893807968937581601, 68,
  73827511167534366777, 36893807694059674693, 2251824518135877, 2251824518135877, 2251830960586845, 52, 68, 73827511167534366777,
  36893808243815488549, 68, 73827511167534366777, 36893807968937581637, 60, 76, 73832015042039775297, 36893843428187578405, 76, 73832015042039775297,
  36893843703065485357, 112, 288235189738209397, 76, 60, 73832015042039775297, 73832015042039775297, 36894104148978237557, 4, 0,
  36893523745181794901, 36893523745181794829, 8, 36893541337367839757, 36893543811269002253, 4, 0, 36893523745181794901, 36893523745181794829, 8,
  36893541337367839757, 36893543811269002253, 2251830960586845, 52, 68, 73827511167534366777, 36893807831498628125, 68, 73827511167534366777,
  36893807968937581637, 60, 76, 73832015042039775297, 36893843015870717981, 76, 73832015042039775297, 36893843703065485385]

theorem side6a_l2_run33 : run .l2 2 45 8 side6aEnv [] side6a_l2_33 (side6aPaths33.map fun P => ⟨[P], []⟩) = true := Run.run_one (by decide +kernel)

def side6a_l2_34 : List ℕ := [
  68, 12, 0, 73827509243389018117, 4, 36893523745181794829, 8, 36893541337367839757, 36893559479309698573, 16, 36893576521739929613,
  4722378357870254098449, 104, 112, 110741267026179457133, 108, 36893999283960821773, 4722429568861343856237, 64, 1814390042065629188128837,
  1209597684941810089075213, 112, 288235189738209397, 76, 60, 73832015042039775297, 73832015042039775297, 36894104148978237557, 4, 0,
  36893523745181794901, 36893523745181794829, 8, 36893541337367839757, 36893543811269002253, 112, 288235189738209397, 76, 288235188663877749,
  36894104148978237557, 4, 0, 36893523745181794901, 36893523745181794829, 8, 36893541337367839757, 36893543811269002253, 2251830960586845, 0, 4,
  36893523745181794901, 8, 36893541337367839757, 36893543811269002253, 4, 36893523745181794829, 36893526219082957325, 120, 4401269768317, 52,
  264157786020989, 110750516542126948405, 16, 0, 36893577896129462825, 36893577896129462801, 0, 36893578995641090601, 36893579820274811405, 0, 16,
  36893577896129462825, 36893578995641090601, 16, 36893577896129462801, 36893579820274811405, 0, 16, 36893577896129462825, 36893578995641090601, 16,
  36893577896129462801, 36893580095152718349, 120, 4401269768317, 52, 264157786020989, 110750516542126948405, 52, 36, 73818503418523549737,
  73818503418523549737, 112, 865201316891197457, 110746012942499577873, 120, 4401269768317, 52, 264157786020989, 110750516542126948405, 120,
  4401269768317, 52, 264157786020989, 110750516542126948405, 120, 4401269768317, 52, 264157786020989, 110750516542126948405, 0, 16,
  36893577896129462825, 36893578995641090601, 4, 36893523882620748297, 36893527181155631629, 0, 16, 36893577896129462825, 36893578995641090601, 4,
  36893523882620748297, 36893526906277724689, 0, 16, 36893577896129462825, 36893578995641090601, 4, 36893523882620748297, 36893527181155631629, 120,
  4401269768317, 52, 264157786020989, 110750516542126948405, 120, 4401269768317, 52, 264157786020989, 110750516542126948405, 120, 4401269768317, 52,
  264157786020989, 110750516542126948405, 0, 16, 36893577896129462825, 36893578995641090601, 4, 36893523882620748297, 36893527043716678157,
  2251820223168565, 2251820223168565, 2251820223168565, 2251820223168565, 120, 4401269768317, 76, 369710952622205, 110750622101685665869, 0, 16,
  36893578445885276749, 36893578720763183657, 4, 36893523882620748297, 36893525944205050385, 2251826665619533, 2251826665619533, 2251833108070501, 0,
  16, 36893577621251555925, 36893578858202137129, 4, 36893523882620748297, 36893526219082957325, 92, 3438122893409, 120, 4401269768317,
  110750692474724810845, 2251833108070501, 120, 4401269768317, 60, 299342174888061, 110750551728646520893, 0, 16, 36893578171007369769,
  36893578995641090601, 4, 36893523882620748297, 36893527318594585105, 0, 16, 36893578171007369769, 36893578995641090601, 16, 36893578171007369745,
  36893578171007369745, 0, 16, 36893578171007369769, 36893578995641090601, 4, 36893523882620748297, 36893527318594585105, 120, 4401269768317, 68,
  334526563755133, 110750586915166093381, 0, 16, 36893578445885276737, 36893578995641090601, 16, 36893578445885276689, 36893579820274811405, 0, 16,
  36893578445885276737, 36893578995641090601, 16, 36893578445885276689, 36893579820274811405, 16, 0, 36893578445885276737, 36893578445885276689, 0,
  36893578995641090601, 36893580095152718349, 120, 4401269768317, 76, 369710952622205, 110750622101685665869, 0, 16, 36893578171007369769,
  36893578720763183657, 4, 36893523882620748297, 36893525944205050385, 2251826665619533, 2251826665619533, 2251833108070501, 0, 16,
  36893578720763183689, 36893578720763183657, 4, 36893523882620748297, 36893525944205050385, 0, 16, 36893578171007369809, 36893578995641090601, 4,
  36893523882620748297, 36893526219082957325, 120, 4401269768317, 84, 404895341489277, 110750657288205238357, 92, 3438122893409, 120, 4401269768317,
  110750692474724810845, 92, 3438122893409, 120, 4401269768317, 110750692474724810845, 2251833108070501, 120, 4401269768317, 60, 299342174888061,
  110750551728646520893, 0, 16, 36893578171007369777, 36893578995641090609, 16, 36893578171007369745, 36893579820274811405]

theorem side6a_l2_run34 : run .l2 2 45 8 side6aEnv [] side6a_l2_34 (side6aPaths34.map fun P => ⟨[P], []⟩) = true := Run.run_one (by decide +kernel)

def side6a_l2_35 : List ℕ := [
  0, 16, 36893578171007369777, 36893578995641090609, 16, 36893578171007369745, 36893579820274811405, 16, 0, 36893578171007369777,
  36893578171007369745, 0, 36893578995641090609, 36893580095152718349, 120, 4401269768317, 60, 299342174888061, 110750551728646520893, 120,
  4401269768317, 60, 299342174888061, 110750551728646520893, 120, 4401269768317, 60, 299342174888061, 110750551728646520893, 2251822370652221,
  2251822370652221, 120, 4401269768317, 68, 334526563755133, 110750586915166093381, 120, 4401269768317, 68, 334526563755133, 110750586915166093381,
  2251824518135877, 2251824518135877, 120, 4401269768317, 76, 369710952622205, 110750622101685665869, 0, 16, 36893578445885276721,
  36893578583324230193, 4, 36893523882620748297, 36893525944205050385, 2251826665619533, 2251826665619533, 2251833108070501, 120, 4401269768317, 68,
  334526563755133, 110750586915166093381, 0, 16, 36893578445885276729, 36893579820274811445, 16, 36893578445885276689, 36893579820274811405, 0, 16,
  36893578445885276729, 36893578445885276729, 16, 36893578445885276689, 36893579820274811405, 0, 16, 36893578445885276729, 36893580095152718389, 16,
  36893578445885276689, 36893580095152718349, 120, 4401269768317, 76, 369710952622205, 110750622101685665869, 0, 16, 36893577483812602433,
  36893579682835857981, 4, 36893523882620748297, 36893525944205050385, 2251826665619533, 2251826665619533, 2251833108070501, 0, 16,
  36893577621251555905, 36893579820274811453, 4, 36893523882620748297, 36893525944205050385, 0, 16, 36893577621251555913, 36893578995641090629, 4,
  36893523882620748297, 36893526219082957325, 120, 4401269768317, 84, 404895341489277, 110750657288205238357, 92, 3438122893409, 120, 4401269768317,
  110750692474724810845, 92, 3438122893409, 120, 4401269768317, 110750692474724810845, 2251833108070501, 0, 16, 36893577346373648961,
  36893579820274811453, 4, 36893523882620748297, 36893525944205050385, 0, 16, 36893577621251555909, 36893578995641090629, 4, 36893523882620748297,
  36893526219082957325, 0, 16, 36893577346373648953, 36893579957713764917, 4, 36893523882620748297, 36893525944205050385, 120, 4401269768317, 84,
  404895341489277, 110750657288205238357, 92, 3438122893409, 120, 4401269768317, 110750692474724810845, 120, 4401269768317, 84, 404895341489277,
  110750657288205238357, 92, 3438122893409, 120, 4401269768317, 110750692474724810845, 2251833108070501, 92, 3438122893409, 120, 4401269768317,
  110750692474724810845, 120, 4401269768317, 60, 299342174888061, 110750551728646520893, 0, 16, 36893578171007369777, 36893579270518997553, 16,
  36893578171007369745, 36893579820274811405, 0, 16, 36893578171007369777, 36893580095152718381, 4, 36893523882620748297, 36893526768838771217, 120,
  4401269768317, 60, 299342174888061, 110750551728646520893, 0, 16, 36893578171007369777, 36893580095152718381, 16, 36893578171007369745,
  36893579682835857933, 120, 4401269768317, 60, 299342174888061, 110750551728646520893, 120, 4401269768317, 60, 299342174888061,
  110750551728646520893, 2251822370652221, 120, 4401269768317, 84, 404895341489277, 110750657288205238357, 2251828813103189, 2251830960586845,
  2251833108070501, 120, 4401269768317, 76, 369710952622205, 110750622101685665869, 0, 16, 36893578720763183689, 36893578720763183665, 4,
  36893523882620748297, 36893525944205050385, 120, 4401269768317, 84, 404895341489277, 110750657288205238357, 2251828813103189, 2251830960586845,
  2251833108070501, 120, 4401269768317, 68, 334526563755133, 110750586915166093381, 0, 16, 36893578445885276729, 36893579820274811445, 16,
  36893578445885276689, 36893579820274811405, 0, 16, 36893578445885276729, 36893579957713764917, 4, 36893523882620748297, 36893526768838771217, 120,
  4401269768317, 68, 334526563755133, 110750586915166093381, 16, 0, 36893578445885276729, 36893578445885276689, 0, 36893579957713764917,
  36893579682835857933, 120, 4401269768317, 68, 334526563755133, 110750586915166093381, 120, 4401269768317, 68, 334526563755133,
  110750586915166093381, 2251824518135877, 0, 16, 36893578583324230201, 36893579957713764917, 4, 36893523882620748297, 36893525944205050385, 120,
  4401269768317, 76, 369710952622205, 110750622101685665869]

theorem side6a_l2_run35 : run .l2 2 45 8 side6aEnv [] side6a_l2_35 (side6aPaths35.map fun P => ⟨[P], []⟩) = true := Run.run_one (by decide +kernel)

def side6a_l2_36 : List ℕ := [
  120, 4401269768317, 76, 369710952622205, 110750622101685665869, 2251826665619533, 120, 4401269768317, 84, 404895341489277, 110750657288205238357,
  2251828813103189, 2251830960586845, 2251833108070501, 120, 4401269768317, 76, 369710952622205, 110750622101685665869, 0, 16, 36893578720763183681,
  36893579682835857981, 4, 36893523882620748297, 36893525944205050385, 120, 4401269768317, 84, 404895341489277, 110750657288205238357,
  2251828813103189, 2251830960586845, 2251833108070501, 120, 4401269768317, 84, 404895341489277, 110750657288205238357, 92, 3438122893409, 120,
  4401269768317, 110750692474724810845, 120, 4401269768317, 84, 404895341489277, 110750657288205238357, 120, 4401269768317, 68, 334526563755133,
  110750586915166093381, 92, 3438122893409, 120, 4401269768317, 110750692474724810845, 120, 4401269768317, 84, 404895341489277,
  110750657288205238357, 92, 3438122893409, 120, 4401269768317, 110750692474724810845, 120, 4401269768317, 76, 369710952622205,
  110750622101685665869, 92, 3438122893409, 120, 4401269768317, 110750692474724810845, 120, 4401269768317, 84, 404895341489277,
  110750657288205238357, 92, 3438122893409, 120, 4401269768317, 110750692474724810845, 2251833108070501, 2251833108070501, 2251833108070501, 92,
  3438122893409, 120, 4401269768317, 110750692474724810845, 2251833108070501, 92, 3438122893409, 120, 4401269768317, 110750692474724810845, 120,
  4401269768317, 76, 369710952622205, 110750622101685665869, 2251833108070501, 92, 3438122893409, 120, 4401269768317, 110750692474724810845,
  2251833108070501, 120, 4401269768317, 84, 404895341489277, 110750657288205238357, 2251833108070501, 92, 3438122893409, 120, 4401269768317,
  110750692474724810845, 2251833108070501]

theorem side6a_l2_run36 : run .l2 2 45 8 side6aEnv [] side6a_l2_36 (side6aPaths36.map fun P => ⟨[P], []⟩) = true := Run.run_one (by decide +kernel)

theorem side6a_l2 : side6aTab.Refuted .l2 2 45 8 36 :=
  Tab.refuted_one (T := side6aTab) rfl side6a_paths (parts (part side6a_l2_run0) (parts (part side6a_l2_run1) (parts (part side6a_l2_run2) (parts (part side6a_l2_run3) (parts (part side6a_l2_run4) (parts (part side6a_l2_run5) (parts (part side6a_l2_run6) (parts (part side6a_l2_run7) (parts (part side6a_l2_run8) (parts (part side6a_l2_run9) (parts (part side6a_l2_run10) (parts (part side6a_l2_run11) (parts (part side6a_l2_run12) (parts (part side6a_l2_run13) (parts (part side6a_l2_run14) (parts (part side6a_l2_run15) (parts (part side6a_l2_run16) (parts (part side6a_l2_run17) (parts (part side6a_l2_run18) (parts (part side6a_l2_run19) (parts (part side6a_l2_run20) (parts (part side6a_l2_run21) (parts (part side6a_l2_run22) (parts (part side6a_l2_run23) (parts (part side6a_l2_run24) (parts (part side6a_l2_run25) (parts (part side6a_l2_run26) (parts (part side6a_l2_run27) (parts (part side6a_l2_run28) (parts (part side6a_l2_run29) (parts (part side6a_l2_run30) (parts (part side6a_l2_run31) (parts (part side6a_l2_run32) (parts (part side6a_l2_run33) (parts (part side6a_l2_run34) (parts (part side6a_l2_run35) (part side6a_l2_run36)))))))))))))))))))))))))))))))))))))

end MinCert
end Peano
