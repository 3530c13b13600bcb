import Verif.Lemmas.MinFast

set_option autoImplicit false

/-
Side, grid 6, steps to adjacent cells: no curve has less dilation.  This file is generated.
-/
namespace Peano
namespace MinCert

/-- Table of links and of their specs. -/
def side6aEnv : Env where
  N := 6
  G := 36
  m := 1
  S := 1
  W := 7
  B := 392
  L := 8
  links := [([0, 0], [0, 1]), ([0, 0], [1, 0]), ([0, 1], [0, 0]), ([0, 1], [1, 1]), ([1, 0], [0, 0]), ([1, 0], [1, 1]), ([1, 1], [0, 1]), ([1, 1], [1, 0])]
  doms := [
    [⟨[(1, false), (0, false)], false, 0⟩, ⟨[(1, false), (0, true)], true, 0⟩],
    [⟨[(0, false), (1, false)], false, 0⟩, ⟨[(0, true), (1, false)], true, 0⟩],
    [⟨[(1, false), (0, false)], true, 0⟩, ⟨[(1, false), (0, true)], false, 0⟩],
    [⟨[(0, false), (1, true)], false, 0⟩, ⟨[(0, true), (1, true)], true, 0⟩],
    [⟨[(0, false), (1, false)], true, 0⟩, ⟨[(0, true), (1, false)], false, 0⟩],
    [⟨[(1, true), (0, false)], false, 0⟩, ⟨[(1, true), (0, true)], true, 0⟩],
    [⟨[(0, false), (1, true)], true, 0⟩, ⟨[(0, true), (1, true)], false, 0⟩], [⟨[(1, true), (0, false)], true, 0⟩, ⟨[(1, true), (0, true)], false, 0⟩]]

/-- Data of the search of paths. -/
def side6aEnum : Enum where
  L := 8
  B := 392
  ones := 8
  offs := [1, 7]
  trans := [
    [(1, 6), (1, 7), (9, 0), (9, 1)], [(7, 6), (7, 7), (15, 0), (15, 1)], [(1, 4), (1, 5), (7, 2), (7, 3)], [(9, 4), (9, 5), (15, 2), (15, 3)],
    [(1, 4), (1, 5), (7, 2), (7, 3)], [(9, 4), (9, 5), (15, 2), (15, 3)], [(1, 6), (1, 7), (9, 0), (9, 1)], [(7, 6), (7, 7), (15, 0), (15, 1)]]
  U := 558517276622592
  F := 8796093022208
  starts := [(8, 0), (8, 1)]
  finals := [(43, 1), (43, 7)]

def side6aTab : Tab := ⟨side6aEnv, [([0, 0], [1, 0])], [side6aEnum]⟩

theorem side6a_ok : side6aTab.Ok 2 6 1 1 := Fast.ok_sound (by decide +kernel)

def side6aTree : CT :=
  .node (.node (.node (.node (.node (.node (.node (.node (.node (.node (.node .nil
  373628888621966929548804519753934406736499408872654278411613835696963025734205831126100601047 .nil)
  373628888621966929548804519753934406736499408872654278411908964693878260352492189336429514145 (.node .nil
  373628888621966929548804519753934406736499408872654278527305168228690334799844957787502358567 .nil))
  373628888621966929548804519753934406736499408872654278527305168228690335425844245467168759201 (.node (.node .nil
  373628888621966929548804519753934406736499408872654323764887568501364572050841765927874108247 .nil)
  373628888621966929548804519753934406736499408872654323764887568501364572133780618737233546657 .nil))
  373628888621966929548804519753934406736499408872654323764887568539072445431515979891880439847 (.node (.node (.node .nil
  373628888621966929548804519753934406736499408872654323764887568539168607182754787031856143777 .nil)
  373628888621966929548804519753934406736499408872672405806643051875451396215979838527595494615 (.node .nil
  373628888621966929548804519753934406736499408872672405806643051875463895623076556681175223713 .nil))
  373628888621966929548804519753934406736499408872672405806643051880447356643708802575632642087 (.node (.node .nil
  373628888621966929548804519753934406736499408872672405806643051880447357269708090255299042721 .nil)
  373628888621966929548804519753934406736499408872672405808914434196277253605797148460637395799 .nil)))
  373628888621966929548804519753934406736499408872672405808914434196277253688736001269996834209 (.node (.node (.node (.node .nil
  373628888621966929548804519753934406736499408872672405808920226623219458749664158187060932647 .nil)
  373628888621966929548804519753934406736499408872672405808920241399806334214662701693478591905 (.node .nil
  373628888621966929548804519753934406736507650365713821630228746464994178061368613407778091047 .nil))
  373628888621966929548804519753934406736507650365713821630228746464994178687367901087444491681 (.node (.node .nil
  373628888621966929548804519753934406736507668665397834299588207410401235204334556442488596695 .nil)
  373628888621966929548804519753934406736507668672366604479436205392017805369382796914348379553 .nil))
  373628888621966929548804519753934406736507671397155395888272428800781191941532360184558727207 (.node (.node (.node .nil
  373628888621966929548804519753934406736507671397155395888272428800781192567531647864225127841 .nil)
  373628888621966929548804519753934406739730095169142734209076475601135474475995704181593066913 (.node .nil
  373628888621966929548804519753934406739737268652363559187549160985471361465197270328920369367 .nil))
  373628888621966929548804519753934406739737268652363559187849346216454812751449862038346131671 (.node (.node .nil
  373628888621966929548804519753934406739738339494376663003805017237262581448724941991464258977 .nil)
  373628888621966929548804519753934406739738339501464824262336369643033750991234894834672979361 .nil))))
  373628888621966929548804519753934408005741531660270674803225671582674608576702054155594361047 (.node (.node (.node (.node (.node .nil
  373628888621966929548804519753934408005741531660270674803225671587670537200916238383177383127 .nil)
  373628888621966929548804519753934408005741531660270674805497050001629394199201604323625802967 (.node .nil
  373628888621966929548804519753934408005741531660270674805502846325446710682657409767022651607 .nil))
  373628888621966929548804519753934408005741531660288756847258329666821621894850232450774853847 (.node (.node .nil
  373628888621966929548804519753934408005741531660288802084840729977203732526521254555152935127 .nil)
  373628888621966929548804519753934903176686732213717109343959963161258726998781941554592101585 .nil))
  373628888621966929548804519753934903176686732213717109344255106972455933151893804374962525393 (.node (.node (.node .nil
  373628888621966929548804519753934903176686732213717109461927702736482472219752829884762764497 .nil)
  373628888621966929548804519753934903176686732213717109461927717517968837362909754469861348561 (.node .nil
  373628888621966929548804519753934903176686732267469450245707070663606044129307093122998351057 .nil))
  373628888621966929548804519753934903176686753238070871373165223778650616167449446653475673297 (.node (.node .nil
  373628888621966929548804519753934903176686753291722508932572727999168343983378829783146968273 .nil)
  373628888621966929548804519753934903176686753291722555060236061840226794701631266983485650129 .nil)))
  373628888621966929548804519753934904443542725013903413610221981707783254520439970582195988695 (.node (.node (.node (.node .nil
  373628888621966929548804519753934904443542725013903413610221983628492146630538322257688103767 .nil)
  373628888621966929548804519753934904443542725013903413610222749407046421063971448162425126103 (.node .nil
  373628888621966929548804519753934904443542725013903413610222749407142614618513456420212149079 .nil))
  373628888621966929548804519753934904443542725013903763414606234018718166714038539701518461143 (.node (.node .nil
  373628888621966929548804519753934904443542725014040233904904075140601724636336788753694185303 .nil)
  373628888621966929548804519753934904443542725014040583053940670618424900641958248102553577687 .nil))
  373628888621966929548804519753934904443542725014040583054240855849408351928210839811979339991 (.node (.node (.node .nil
  373628888621966929548804519753934904443543814209115394374065139696942644857476882914899257559 .nil)
  373628888621966929548804519753934904443543814209115394374065139701938573481691067142482279639 (.node .nil
  373628888621966929548804519753934904443543814209115394376336518115897430479976433082930699479 .nil))
  373628888621966929548804519753934904443543814209115394376342314439714746963432238526327548119 (.node (.node .nil
  373628888621966929548804519753934904443543816934059436262898398292234174229403362842185951447 .nil)
  373628888621966929548804519753934904443543816941010475213127956472230229807886737660281743575 .nil)))))
  373628888621966929548804523639414479827716813429581379502676821470536837708962767412285532375 (.node (.node (.node (.node (.node (.node .nil
  373628888621966929548804523639414479827716813436687364599761419372826328729294596013597786145 .nil)
  373628888621966929548804523639414479827716816161494633089748211149793504252766131072476368935 (.node .nil
  373628888621966929548804523639414479827716816161494633089748225931280115494777524707148300321 .nil))
  373628888621966929548804523639414479827717884339559052619733094122674803215706920798371879767 (.node (.node .nil
  373628888621966929548804523639414479827717884339559052619733096118895603755458256523642404897 .nil)
  373628888621966929548804523639414479827717884339559053510114963924214966876370323701315915815 .nil))
  373628888621966929548804523639414479827717884339559053512385595285559629289957656203532304417 (.node (.node (.node .nil
  373628888621966929548804523639414479828144848808885090883203908630146719644631062216457469143 .nil)
  373628888621966929548804523639414479828144848808885090883504863519002457562246552548139991073 (.node .nil
  373628888621966929548804523639414479828144848808885091001177459283028750531251109008366882855 .nil))
  373628888621966929548804523639414479828144848808885091001177474064515361773262502643038814241 (.node (.node .nil
  373628888621966929548804523639414479828144848862518389620276619153334260978036860123533974359 .nil)
  373628888621966929548804523639414479828144848862518389620276621149555061517788195848804499489 .nil)))
  373628888621966929548804523639414479828144848862655164024900393524364210306196064804144664615 (.node (.node (.node (.node .nil
  373628888621966929548804523639414479828144848862655512938903527036040641408427290623213699105 .nil)
  373628888621966929548804523639609083111914794843973006937700111567328813845019214214360191015 (.node .nil
  373628888621966929548804523639609083111914794843973006937700126348815425087030607849032122401 .nil))
  373628888621966929548804523639609515212249099802106787145689323244434736763782693598530234583 (.node (.node .nil
  373628888621966929548804523639609515380040057576850865466835660920770229732227857214611783713 .nil)
  373628888621966929548804523639609579719455709938887988715219987267580861543069418336694030375 .nil))
  373628888621966929548804523639609579719455709938887988715220002049067472785080811971365961761 (.node (.node (.node .nil
  373628888621966929548804523705592921093475484181370216983774775949442441955488970951631295697 .nil)
  373628888621966929548804523705592921093475484235021854543182280169960169771418354081302590673 (.node .nil
  373628888621966929548804523705592921093475484235021900670845614011018620489670791281641272529 .nil))
  373628888621966929548804523705592921093483725728200136786842034489127900879292376400094943063 (.node (.node .nil
  373628888621966929548804523705592921093483725728200485935878629966951076884913835748954335447 .nil)
  373628888621966929548804523705592921093483725728200485936178815197934528171166427458380097751 .nil))))
  373628888621966929548804523715699463503346162169480458930814660661068242105709087295084298273 (.node (.node (.node (.node (.node .nil
  373628888621966929548804523715868350400241906256099105237252870603401116504661310038528878807 .nil)
  373628888621966929548804523715868350400241906256099105237553055834384567790913901747954641111 (.node .nil
  373628888621966929548804523715894133662615550251778894729802159785789835882178111578688323617 .nil))
  373628888621966929548804523715894133829985643251838998942863971804297278715514327042229403681 (.node (.node .nil
  373628888621966929548806042872204315348238673363781686229193307443414149483577710168649623767 .nil)
  373628888621966929548806042872204315348246914870998773524557848678748373834653863479670859991 .nil))
  373628888621966929548806042872204315348248006798141740117692384491355113527858807022589181985 (.node (.node (.node .nil
  373628888621966929548806042872204315348666711582246985448063985593940853926788670604912898087 .nil)
  373628888621966929548806042872204315348666711582246985448064000375427219069945595190011482151 (.node .nil
  373628888621966929548806042872204315348666711582246985450335382733948451142071564511012499873 .nil))
  373628888621966929548806042872204315348666711582246985450335382734044644696613572768799522849 (.node (.node .nil
  373628888621966929548806042872204315512807225673209641042849764802237920483406361614012554071 .nil)
  373628888621966929548806042872204315512807225673209641045121147123051278549065806202834164567 .nil)))
  373628888621966929548806042872204315512807225673209641045427892480432733940587422518885089313 (.node (.node (.node (.node .nil
  373628888621966929548806042872204315512807225673346460684762314293573447441444788605044666407 .nil)
  373628888621966929548806042872204315512807225673346460684762329075059812584601713190143250471 (.node .nil
  373628888621966929548806042872204315512807225673346809599059838741156273701797824862617907617 .nil))
  373628888621966929548806042872204315512807225673346809599059838741252467256339833120404930593 (.node (.node .nil
  373628888621966929548806042872204381121875440189553009994963051982084737929555422442567908567 .nil)
  373628888621966929548806042872204381121875440189553359024655997445938539422448719126523165911 .nil))
  373628888621966929548806042872204381121875440189553405270293662500016100257307730915967238177 (.node (.node (.node .nil
  373628888621966929548806042872204381121875440189571487312049131054824991042438211284843900967 .nil)
  373628888621966929548806042872204381121875440189571487312049145836311356185595135869942485031 .nil)
  373628888621966929548806042872204381121875440189571487314320528194832588257721105190943502753 (.node (.node .nil
  373628888621966929548806042872204381121875440189571487314320528194928781812263113448730525729 .nil)
  373628888621966929548806042872204381121883681696770492563080076057155511151202823322115939159 .nil))))))
  373628888621966929548806042872204381121883681696770492565351458377968869216862267910937549655 (.node (.node (.node (.node (.node (.node (.node .nil
  373628888621966929548806042872204381121883681696770492565658203735350324608383884226988474401 .nil)
  373628888621966929548806042872204381121883702714072604673016391626915848184125613681900269607 (.node .nil
  373628888621966929548806042872204381121883702714072604673016406408402213327282538266998853671 .nil))
  373628888621966929548806042872204381121883702767688126050524344655402446219701290784451244449 (.node (.node .nil
  373628888621966929548806042872204381121883702767688126050524344655498639774243299042238267425 .nil)
  373628888621966929548806068813958686804860416255493061425145856847105577883366477346214386903 .nil))
  373628888621966929548806068813958686804860416255493061425151653170922894366822282789611235543 (.node (.node (.node .nil
  373628888621966929548806072775723378346862975939085957128889745739754037904556585040548999207 .nil)
  373628888621966929548806072775723378346862975939085957128889760521240403047713509625647583271 (.node .nil
  373628888621966929548806072775723378346862975939085957131161142879761635119839478946648600993 .nil))
  373628888621966929548806072775723378346862975939085957131161142879857828674381487204435623969 (.node (.node .nil
  373628888621966929548806072841927040663136465832526410568313926282112511889522495621794752727 .nil)
  373628888621966929548806072842121644281631224979656482337385427075182733953255369269314185431 .nil)))
  373628888621966929548806072842147427547235560882338978213945607742958828264507999637511471137 (.node (.node (.node (.node .nil
  373628888621966929548806072852034079514040120954845817943069349270411511091122839347640414247 .nil)
  373628888621966929548806072852034079514040120954845817943069364051897876234279763932738998311 (.node .nil
  373628888621966929548806072852034079514040120954845817945340746410419108306405733253740016033 .nil))
  373628888621966929548806072852034079514040120954845817945340746410515301860947741511527039009 (.node (.node .nil
  373628888621966929549401612019283296158989912754092669575582614720711195160065598654897580247 .nil)
  373628888621966929549401612019283296158989912754092669575877743717626429778351956865226493345 .nil))
  373628888621966929549401612019283296158989912754229488980183759808655047093274765179797386449 (.node (.node (.node .nil
  373628888621966929549401612019283296158989912754229838129214560981530928475818009256417421527 .nil)
  373628888621966929549401612019283296158991001842174614719160231915878148752265090426886436049 (.node .nil
  373628888621966929549401612019283296158991001842174614721431610367641253053013431018781796567 .nil))
  373628888621966929549401612019283296158991004674111522784540342394520468747510713394529954007 (.node (.node .nil
  373628888621966929549401612019283296158991004681217507881624940296809959767842541995842207777 .nil)
  373628888621966929549401612019283792596792198027863348991222683346123747494618729046308677847 .nil))))
  373628888621966929549401612019283793862796461035788546650931852027474007924271691168163162327 (.node (.node (.node (.node (.node .nil
  373628888621966929549401612019283794030586350807800241633699941604478283127787089094662029345 .nil)
  373628888621966929549401612019283858370438295556218687855412520304046908818770825188398870567 (.node .nil
  373628888621966929549401612019283858370438295556218687857683151665391325133503688641041911847 .nil))
  373628888621966929549401612019283858370438295556219036887381891471996456300050357533911855521 (.node (.node .nil
  373628888621966929549401612019283858370438295556219036887381906248595798660110714760480555041 .nil)
  373628888621966929549401612019309080858395569241591185493148847072080478331841339888324483927 .nil))
  373628888621966929549401612019309080858395569241591185493148847072080478414780192697683922337 (.node (.node (.node .nil
  373628888621966929549401612019309080858395569241591185493148847109788286936428422387490936017 .nil)
  373628888621966929549401612019309080858395569241591185493148847109884513380815508182947081047 (.node .nil
  373628888621966929549401612019309080858395569241591185493449002777824432509097378209777374417 .nil))
  373628888621966929549401612019309080858395569241591185493449002777824433135095589153043557207 (.node (.node .nil
  373628888621966929549401612019309080858395569241591185493449783267516087706659088350245722967 .nil)
  373628888621966929549401612019309080858395569241591185493449785263736888246410424075516248097 .nil)))
  373628888621966929549401612019309080858395569241728005132784219899947233911681912011470314327 (.node (.node (.node (.node .nil
  373628888621966929549401612019309080858395569241728354047081729528335821022411498951765564247 .nil)
  373628888621966929549401612019309080858395569241728401182799575227941384657758711908965679137 (.node .nil
  373628888621966929549401612019309080858395569295380037851825196866553086223779537793600323617 .nil))
  373628888621966929549401612019309080858395569295380037851825962569787872309424101456412278817 (.node (.node .nil
  373628888621966929549401612019309080858395590265981458977011950883173115024760443996654481447 .nil)
  373628888621966929549401612019309080858395590265981458977011952841577135716720661209199136807 .nil))
  373628888621966929549401612019309080858395590265981459867393820646896744936487197436445995047 (.node (.node (.node .nil
  373628888621966929549401612019309080858395590265981459869664452008241161251220060889089036327 .nil)
  373628888621966929549401612019309080858395590319596980239130262413962644441681731188580286497 (.node .nil
  373628888621966929549401612019309080858395590319596980359063430392370729175222370062179631137 .nil))
  373628888621966929549401612019309080858395590319597026482183988712187106153706461558348447137 (.node (.node .nil
  373628888621966929549401612019309080858395590319597026482183988712199850869584558967092281377 .nil)
  373628888621966929549401612019309080858395590319597026482189783054842274076121026627287429537 .nil)))))
  373628888621966929549401612019309080858395590319597026482189797831441616436181383853856129057 (.node (.node (.node (.node (.node (.node .nil
  373628888621966929549401612029390832716510987604939289863267423453169051154626345879414389975 .nil)
  373628888621966929549401612029390832716510987604939289863267423453181550561723064032994119073 (.node .nil
  373628888621966929549401612029390832716510987604939289863273217785870466422475110942205097169 .nil))
  373628888621966929549401612029390832716510987604939289863273232572410816721223170766178237655 (.node (.node .nil
  373628888621966929549401612029390832716510987604939335986393790892143745024902586765475394769 .nil)
  373628888621966929549401612029390832716510987604939335986393790892239938415585359671090887895 .nil))
  373628888621966929549401612029390832716510987604939336106326958870648023149125998544690232535 (.node (.node (.node .nil
  373628888621966929549401612029390832716510987604939336106627913759503761066741488876372754465 .nil)
  373628888621966929549401612029390832716511008629192394793197644770298471776301076960296975575 (.node .nil
  373628888621966929549401612029390832716511008682807961405717181474148254927548670489580682455 .nil))
  373628888621966929549401612029390832716511008689914250956483864486343077167228241140288716833 (.node (.node .nil
  373628888621966929549401612029390832716511011468473115268804621604092647989789866106025422887 .nil)
  373628888621966929549401612029390832716511011468473115271075252965437064304522729558668464167 .nil)))
  373628888621966929549401612029390832716511011468473464300773992772042195471069398451538407841 (.node (.node (.node (.node .nil
  373628888621966929549401612029390832716511011468473464300774007548641537831129755678107107361 .nil)
  373628888621966929549401612029390833982933973696279190163697522728732854607333253886890646359 (.node .nil
  373628888621966929549401612029390833982933973696279190163697522728732854690272106696250084769 .nil))
  373628888621966929549401612029390833982933973696279190163697522766440663211920336386057098449 (.node (.node .nil
  373628888621966929549401612029390833982933973696279190163697522766536889656307422181513243479 .nil)
  373628888621966929549401612029390833982933973696279190163997678434476808784589292208343536849 .nil))
  373628888621966929549401612029390833982933973696279190163997678434476809410587503151609719639 (.node (.node (.node .nil
  373628888621966929549401612029390833982933973696279190163998458924168463982151002348811885399 .nil)
  373628888621966929549401612029390833982933973696279190163998460920389264521902338074082410529 (.node .nil
  373628888621966929549401612029390833982933973696416009803332895556599610187173826010036476759 .nil))
  373628888621966929549401612029390833982933973696416358717630405184988197297903412950331726679 (.node (.node .nil
  373628888621966929549401612029390833982933973696416405853348250884593760933250625907531841569 .nil)
  373628888621966929549401612029390833986163576408171270051551301609840838331065053936064606247 .nil))))
  373628888621966929549401612029390833986163576408171270051551303568244859023025271148609261607 (.node (.node (.node (.node (.node .nil
  373628888621966929549401612029390833986163576408171270941933171373564468242791807375856119847 .nil)
  373628888621966929549401612029390833986163576408171270944203802734908884557524670828499161127 (.node .nil
  373628888621966929549401612029390833986171815176542285588264429373726381485296797311408930849 .nil))
  373628888621966929549401612029390833986171815176560714998888848671809042578492116657844125729 (.node (.node .nil
  373628888621966929549401612029390833986171815183648224324020795436040897271893874156219399585 .nil)
  373628888621966929549401612029390833986171815183648224324020795436053641987771971564963233825 .nil))
  373628888621966929549401612029390833986171815183648224324026589778696065194308439225158381985 (.node (.node (.node .nil
  373628888621966929549401612029390833986171815183648224324026604555295407554368796451727081505 .nil)
  373628888621966929786839283210361616356512187461545657478337751897622101560691493007291265063 (.node .nil
  373628888621966929786839283210361616356512187461545657478337751897622102186690780686957665697 .nil))
  373628888621966929786839283210361616356512187461664699409654797361812375748743602575753472215 (.node (.node .nil
  373628888621966929786839283210361616356512187461664744760356198821912073858796343092861324705 .nil)
  373628888621966929786839283210361616356512187461682476882638741312630318077617160686569467943 .nil)))
  373628888621966929786839283210361616356512187461682476882638741312630318703616448366235868577 (.node (.node (.node (.node .nil
  373628888621966929786839283210361616356520447261377025477182038022244112243770876706473254103 .nil)
  373628888621966929786839283210361616356520447261377025477182038059951920765634210153672337623 (.node .nil
  373628888621966929786839283210361616359742873758153155206822293449804646764872475673698776273 .nil))
  373628888621966929786839283210361616359751118083387084001550849905196696844976355230788217047 (.node (.node .nil
  373628888621966929786839283210361616359751118090475245260082202273260057865622974626797853911 .nil)
  373628888621966929786839283210361616359751118090475245260082202310967866387486308073996937431 .nil))
  373628888621966929786839283210386903181510534509482634205346737163678710395542210562306330663 (.node (.node (.node .nil
  373628888621966929786839283210386903181510534509482634205346751945165321637553604196978262049 .nil)
  373628888621966929786839283210386903184321405895592858958754430985275477278715225390057122007 .nil)
  373628888621966929786839283210386903184322497829668387181090764173059873243276000266773725217 (.node (.node .nil
  373628888621966929786839283210386903184741199781736066343602226535796136420689247196733231143 .nil)
  373628888621966929786839283210386903184741199781736066343602241317282747662700640831405162529 .nil)))))))
  373628888621966929786839283220442442212145701835542706589131614037490659751213636005157543127 (.node (.node (.node (.node (.node (.node (.node
  (.node .nil 373628888621966929786839283220442442212145701835542706589131614075198468273076969452356626647 .nil)
  373628888621966929786839283220468224379118066991498169969000587345968213645563284980254650407 (.node .nil
  373628888621966929786839283220468224379118066991498169969000602127454578788720209565353234471 .nil))
  373628888621966929786839283220468224379118066991498169971271984485975810860846178886354252193 (.node (.node .nil
  373628888621966929786839283220468224379118066991498169971271984486072004415388187144141275169 .nil)
  373628888621966929786839283220468655042436845343778708732438720243677169788184754621380159703 .nil))
  373628888621966929786839283220468656308859810350280863629303106641927853554207139388623284439 (.node (.node (.node .nil
  373628888621966929786839283220468656476649700015043434699166971674449946141657856194193522721 .nil)
  373628888621966929786839283220468720816066462542894262860519464398120941839800677555490009127 (.node .nil
  373628888621966929786839283220468720816066462542894262860519479179607306982957602140588593191 .nil))
  373628888621966929786839283220468720816066462542894262862790861538128539055083571461589610913 (.node (.node .nil
  373628888621966929786839283220468720816066462542894262862790861538224732609625579719376633889 .nil)
  373628888621966929787458236939514181150645484200057236043806016123079770015720200817150126295 .nil)))
  373628888621966929787458236939514181150645484200057236044101145119995004634006559027479039393 (.node (.node (.node (.node .nil
  373628888621966929787458236939514181150645484200057236159497348654807079081359327478551883815 .nil)
  373628888621966929787458236939514181150645484200057236159497348654807079707358615158218284449 (.node .nil
  373628888621966929787458236939514181150645484253809576945553123625427087146245352385556375767 .nil))
  373628888621966929787458236939514181150645505224410998073011276740375252833090016514442802385 (.node (.node .nil
  373628888621966929787458236939514181150645505278062635632418780960989387000317089045704992983 .nil)
  373628888621966929787458236939514181150645505278062681760082114802047837718569526246043674839 .nil))
  373628888621966929787458236939514181315204703075125136971541524112157390428448816313446033623 (.node (.node (.node .nil
  373628888621966929787458236939514181315204703082231122068626122014446881448780644914758287393 .nil)
  373628888621966929787458236939514181315204705807038390558612913791414056972252179973636870183 (.node .nil
  373628888621966929787458236939514181315204705807038390558612928572900668214263573608308801569 .nil))
  373628888621966929787458236939514246753687547620991051888813171193992367540791293157365639383 (.node (.node .nil
  373628888621966929787458236939514246924272917591468901196407294131740756745169124710528182487 .nil)
  373628888621966929787458236939514246924281159098685988491771835367074981096245278021549418711 .nil))))
  373628888621966929787458236939514246924282251025828955084906371179681720789450221564467740705 (.node (.node (.node (.node (.node .nil
  373628888621966929787458236939514246924700955809934200415277972282267461188380085146791456807 .nil)
  373628888621966929787458236939514246924700955809934200415277987063753826331537009731890040871 (.node .nil
  373628888621966929787458236939514246924700955809934200417549369422275058403662979052891058593 .nil))
  373628888621966929787458236939514246924700955809934200417549369422371251958204987310678081569 (.node (.node .nil
  373628888621966929787458266843084613693873195750454606365681662780951318289299873999920687319 .nil)
  373628888621966929787458266843084613693873195750454606365976791777866552907586232210249600417 .nil))
  373628888621966929787458266843084613693873195750591425770282807868895170222509040524820493521 (.node (.node (.node .nil
  373628888621966929787458266843084613693873195750591774919313609041771051605052284601440528599 .nil)
  373628888621966929787458266843084613693874284838536551509259279976118271881499365771909543121 (.node .nil
  373628888621966929787458266843084613693874284838536551511530658427881376182247706363804903639 .nil))
  373628888621966929787458266843084613693874287670473459574639390454760591876744988739553061079 (.node (.node .nil
  373628888621966929787458266843084613693874287677579444671723988357050082897076817340865314849 .nil)
  373628888621966929787458266919344011089646326964067733691412657808211413909503293453255698647 .nil)))
  373628888621966929787458266919538550204585990614565799467742077248769785026583379537040107735 (.node (.node (.node (.node .nil
  373628888621966929787458266919564333470206848895351552914920906890077833878379608039894679585 .nil)
  373628888621966929787458266929451052479444669867471766156908575435801378087502112885631889447 (.node .nil
  373628888621966929787458266929451052479444669867472115070911708947477563090878869655127576615 .nil))
  373628888621966929787458266929451052479444669921105414698065351118353139319804550214635008417 (.node (.node .nil
  373628888621966929787458266929451052479444669921105414700335980563984592855993920377827229729 .nil)
  373628888621966929787458270805239441945948258953899809329107739451622068397194278377952811863 .nil))
  373628888621966929787458270805239441945948258953899809329107739451622068480133131187312250273 (.node (.node (.node .nil
  373628888621966929787458270805239441945948258953899809329107739489329877001781360877119263953 .nil)
  373628888621966929787458270805239441945948258953899809329107739489426103446168446672575408983 (.node .nil
  373628888621966929787458270805239441945948258953899809329407895157366022574450316699405702353 .nil))
  373628888621966929787458270805239441945948258953899809329407895157366023200448527642671885143 (.node (.node .nil
  373628888621966929787458270805239441945948258953899809329408675647057677772012026839874050903 .nil)
  373628888621966929787458270805239441945948258953899809329408677643278478311763362565144576033 .nil)))))
  373628888621966929787458270805239441945948279971201921436766878357913634051919213869850860375 (.node (.node (.node (.node (.node (.node .nil
  373628888621966929787458270805239441945948280024817442814274816567205992937871441655123843927 .nil)
  373628888621966929787458270805239441945948280032060505761022022724111335437827745195936317473 (.node .nil
  373628888621966929787458270805239441945956524357157614914145498352620776462016481693945692193 .nil))
  373628888621966929787458270805239441945956524357157615031806522138490092147555185872051765281 (.node (.node .nil
  373628888621966929787458270805239441949178950853933440846820684779805155276904681581509816359 .nil)
  373628888621966929787458270805239441949178950853933440846820686738209175968864898794054471719 .nil))
  373628888621966929787458270805239441949178950854070215251444459113018570856127236798967984167 (.node (.node (.node .nil
  373628888621966929787458270805239441949178950854070564165447592624694755859503993568463671335 .nil)
  373628888621966929787458270805239441949187189629392617759737775494974772184662327894961684513 (.node .nil
  373628888621966929787458270805239441949187189629411047170062011510607518172702222506478665761 .nil))
  373628888621966929787458270805239441949187189636498510367830043891084654262917513532474391969 (.node (.node .nil
  373628888621966929787458270805239441949187189636498510367830043891097398978795610941218226209 .nil)
  373628888621966929787458270805239441949187189636498511257917537538095881443100114678840603041 .nil)))
  373628888621966929787458270805239441949187189636498511260188166983727334979289484842032824353 (.node (.node (.node (.node .nil
  373628888621966929787459820007556966127173747580899551935656002700333497920179949806621179095 .nil)
  373628888621966929787459820007556966127173747580899551935656002700345997327276667960200908193 (.node .nil
  373628888621966929787459820007556966127173747580899551935656002705329458347908913854658326567 .nil))
  373628888621966929787459820007556966127173747580899551935656002705329458973908201534324727201 (.node (.node .nil
  373628888621966929787459820007556966127173747580899551937932426483733064083446515811470195927 .nil)
  373628888621966929787459820007556966127173747580899552826042135314956524904184764836935185617 .nil))
  373628888621966929787459820007556966127173747580899552828314294289052460342387633573004459223 (.node (.node (.node .nil
  373628888621966929787459820007556966127173747580899552828314296242569425821948794629541510359 .nil)
  373628888621966929787459820007556966127173747587868672039831476276947057825395394957473103063 (.node .nil
  373628888621966929787459820007556966127173747587868672040132431165802795743010885289155624993 .nil))
  373628888621966929787459820007556966127173747587868672157805026929829088712015441749382516775 (.node (.node .nil
  373628888621966929787459820007556966127173747587868672157805041711315699954026835384054448161 .nil)
  373628888621966929787459820007556966127173750359203207389656309022101578027105500381592337623 .nil))))
  373628888621966929787459820007556966127173750366427536354428673875391716996403612811336236247 (.node (.node (.node (.node (.node .nil
  373628888621966929787459820007556966127173750366427885384121619339245518489296909495291493591 .nil)
  373628888621966929787459820007556966127173750366427931629759284393323079324155921284735565857 (.node .nil
  373628888621966929787459820007556966127173750366446013671514752948131970109286401653612228647 .nil))
  373628888621966929787459820007556966127173750366446013671514767729618335252443326238710812711 (.node (.node .nil
  373628888621966929787459820007556966127173750366446013673786150088139567324569295559711830433 .nil)
  373628888621966929787459820007556966127173750366446013673786150088235760879111303817498853409 .nil))
  373628888621966929787459820007556967393596712594370780693636327257718769596918127059440385239 (.node (.node (.node .nil
  373628888621966929787459820007556967393596712594370780693636327257731269004014845213020114337 .nil)
  373628888621966929787459820007556967393596712594370780693642121590420184864766892122231092433 (.node .nil
  373628888621966929787459820007556967393596712594370780693642136376960535163514951946204232919 .nil))
  373628888621966929787459820007556967393596712594370826816762694696693463467194367945501390033 (.node (.node .nil
  373628888621966929787459820007556967393596712594370826816762694696789656857877140851116883159 .nil)
  373628888621966929787459820007556967393596712594370826936695862675197741591417779724716227799 .nil)))
  373628888621966929787459820007556967393596712594370826936996817564053479509033270056398749729 (.node (.node (.node (.node .nil
  373628888621966929787459820007556967396826315306125692027557223644863537249405554081166933207 .nil)
  373628888621966929787459820007556967396834554081602645407374216345899388212535950268911467735 (.node .nil
  373628888621966929787459820007556967396835646062480129183646625761789110563567547219200835617 .nil))
  373628888621966929787459820007556967397262610531805817640762745664265353557405679052167589927 (.node (.node .nil
  373628888621966929787459820007556967397262610531806166554765879175941538560782435821663277095 .nil)
  373628888621966929787459820007556967397262610585439466181919521346817114789708116381170708897 .nil))
  373628888621966929787459820007556967397262610585439466184190150792448568325897486544362930209 (.node (.node (.node .nil
  373628888621966929787459820007557464004803525626720799418282621364517401255455883174501429287 .nil)
  373628888621966929787459820007557464004803525633808262618028423741600564671100790181511835687 .nil)
  373628888621966929787459820007557464004803525680335971651002346803316895251533136299446226983 (.node (.node .nil
  373628888621966929787459820007557464004811767187689878588272892227862536888907559041929359777 .nil)
  373628888621966929787459820007557464004811767187689924711393465334135815491335034865199657377 .nil))))))
  373628888621966929787459820007557464004811767187690227500003894412664694840633376912433348641 (.node (.node (.node (.node (.node (.node (.node .nil
  373628888621966929787459820007751571015322142624232371872761634434985138829120119798832733015 .nil)
  373628888621966929787459820007751571015322142624232371872761634434985138912058972608192171425 (.node .nil
  373628888621966929787459820007751571015322142624232371872767428805381683387552710393909531857 .nil))
  373628888621966929787459820007751571015322142624232371872767443591922279076428677481072986967 (.node (.node .nil
  373628888621966929787459820007751571015322142624232417225740238242471450610408549199636765527 .nil)
  373628888621966929787459820007751571015322142624232417225740240238692251150159884924907290657 .nil))
  373628888621966929787459820007751571015322142624250499267495721616570774099704487143578442583 (.node (.node (.node .nil
  373628888621966929787459820007751571015322142624250499269767103937384132165363931732400053079 .nil)
  373628888621966929787459820007751571015322142624250499270073849294765587556885548048450977825 (.node .nil
  373628888621966929787459820007751571015330384131449504520803843282370065586666954048736762711 .nil))
  373628888621966929787459820007751571015330384131449504520803843282370065669605806858096201121 (.node (.node .nil
  373628888621966929787459820007751571015330384131449504520803843320077874191254036547903214801 .nil)
  373628888621966929787459820007751571015330384131449504520803843320174100635641122343359359831 .nil)))
  373628888621966929787459820007751571015330384131449504521103998988114019763922992370189653201 (.node (.node (.node (.node .nil
  373628888621966929787459820007751571015330384131449504521103998988114020389921203313455835991 .nil)
  373628888621966929787459820007751571015330384131449504521104779477805674961484702510658001751 (.node .nil
  373628888621966929787459820007751571015330384131449504521104781474026475501236038235928526881 .nil))
  373628888621966929787459820007751571015330405148751616628462982188661631241391889540634811223 (.node (.node .nil
  373628888621966929787459820007751571015330405202367138005970920397953990127344117325907794775 .nil)
  373628888621966929787459820007751571015330405209610200952718126554859332627300420866720268321 .nil))
  373628888621966929787459820007752067288573471661808715354805273648817464569223988380494737447 (.node (.node (.node .nil
  373628888621966929787459820007752067288574581781076676093428228185470016812158679673772453927 .nil)
  373628888621966929787459820007752067288581710383497818351340370834573085594930803148390387751 (.node .nil
  373628888621966929787459820007752067289001504255429100124543847965493505851793122190436806695 .nil))
  373628888621966929787459820007752067289001504255429100124838991776690712004904985010807230503 (.node (.node .nil
  373628888621966929787459820007752067289001504255429100242511587540717251072764010520607469607 .nil)
  373628888621966929787459820007752067289001504255429100242511602322203616215920935105706053671 .nil))))
  373628888621966929787459820007752067289001504309062398861610747448839295268486411098927083559 (.node (.node (.node (.node (.node .nil
  373628888621966929787459820007752067289001504309062398861610749407243315960446628311471738919 .nil)
  373628888621966929787459820007752067289001504309199173266234521782052710847708966316385251367 (.node .nil
  373628888621966929787459820007752067289001504309199522180237655293728895851085723085880938535 .nil))
  373628888621966929787459820007752068555003607272656967472734858799173657036010726125306511393 (.node (.node .nil
  373628888621966929787459820007752068555003607272793787112369480629863842250183026235767390241 .nil)
  373628888621966929787459820007752068555003610104730741303136503119598318215043098695375650849 .nil))
  373628888621966929787459820007752068555004696414253427092432488216049651099824030668990755233 (.node (.node (.node .nil
  373628888621966929787459820007752068555004696421477755939532255389587608282718156389337051553 .nil)
  373628888621966929787459820007752068555004696467868598434470939220170237285404424950115598369 (.node .nil
  373628888621966929787459820007752068555004699199763329349205510775493090526373401823807823265 .nil))
  373628888621966929787459820007752068555004699199763329349205512696201982636471753499299938337 (.node (.node .nil
  373628888621966929787459820007752068555004699199763329349206278474756257069904879404036960673 .nil)
  373628888621966929787459820007752068555004699199763329349206278474852450624446887661823983649 .nil)))
  373628888621966929787459820007752068555004699199763678378898458160043039413486952774511361441 (.node (.node (.node (.node .nil
  373628888621966929787459820007752068555004699199763678378898458160055784129365050183255195681 .nil)
  373628888621966929787459820007752068555004699199763679268985951807054266593669553920877572513 (.node .nil
  373628888621966929787459820007752068555004699199763679271256581252685720129858924084069793825 .nil))
  373628888730469168874925289188497390379106497784329973121302326345178449729967344285764426967 (.node (.node .nil
  373628888730469168874925289188497390379106497784329973121302326382886258251830677732963510487 .nil)
  373628888730469168874925289188523172546078862940285436501171299653656003624316993260861534247 .nil))
  373628888730469168874925289188523172546078862940285436501171314435142368767473917845960118311 (.node (.node (.node .nil
  373628888730469168874925289188523172546078862940285436503442696793663600839599887166961136033 .nil)
  373628888730469168874925289188523172546078862940285436503442696793759794394141895424748159009 .nil)
  373628888730469168874925289188523603209397641292565975264609432551364959766938462901987043543 (.node (.node .nil
  373628888730469168874925289188523604475820606299068130161473818949615643532960847669230168279 .nil)
  373628888730469168874925289188523604643610495963830701231337683982137736120411564474800406561 .nil)))))
  373628888730469168874925289188523668983027258491681529392690176705808731818554385836096892967 (.node (.node (.node (.node (.node (.node .nil
  373628888730469168874925289188523668983027258491681529392690191487295096961711310421195477031 .nil)
  373628888730469168874925289188523668983027258491681529394961573845816329033837279742196494753 (.node .nil
  373628888730469168874925289188523668983027258491681529394961573845912522588379287999983517729 .nil))
  373628888730469168874925289198410387992692023023384290261146027871690096986010647968840429607 (.node (.node .nil
  373628888730469168874925289198410387992692023023384639292815979582335912352224209586394280353 .nil)
  373628888730469168874925293140181686728802581246037726476834927788325463959005118144826697943 .nil))
  373628888730469168874925293140181686899387951216515575784429050726073853163382949697989241047 (.node (.node (.node .nil
  373628888730469168874925293140181686899396192723732663079793591961408077514459103009010477271 .nil)
  373628888730469168874925293140181686899397284650875629672928127774014817207664046551928799265 (.node .nil
  373628888730469168874925293140181686899815989434980875003299728876600557606593910134252515367 .nil))
  373628888730469168874925293140181686899815989434980875003299743658086922749750834719351099431 (.node (.node .nil
  373628888730469168874925293140181686899815989434980875005571126016608154821876804040352117153 .nil)
  373628888730469168874925293140181686899815989434980875005571126016704348376418812298139140129 .nil)))
  373628888730469168874925293150483330303295430821975097212968970585045639478079915209043393751 (.node (.node (.node (.node .nil
  373628888730469168874925293150483330303295430829199426177741335438335778447378027638787292375 .nil)
  373628888730469168874925293150483330303295430829199775207434280902189579940271324322742549719 (.node .nil
  373628888730469168874925293150483330303295430829199821453071945956267140775130336112186621985 .nil))
  373628888730469168874925293150483330303295430829217903494827414511076031560260816481063284775 (.node (.node .nil
  373628888730469168874925293150483330303295430829217903494827429292562396703417741066161868839 .nil)
  373628888730469168874925293150483330303295430829217903497098811651083628775543710387162886561 .nil))
  373628888730469168874925293150483330303295430829217903497098811651179822330085718644949909537 (.node (.node (.node .nil
  373628888730469168874925293150483330306535450599606478666218320709997360089763011097156661287 .nil)
  373628888730469168874925293150483330306535450653240081082276753332360660347010164048993235361 (.node .nil
  373628888730469168874925293150483331569726637335849332449863282490480241790870955421203340119 .nil))
  373628888730469168874925293150483331569726637335849332452134664811293599856530400010024950615 (.node (.node .nil
  373628888730469168874925293150483331569726637335849332452441410168675055248052016326075875361 .nil)
  373628888730469168874925293150483331572956237322951876862370154580028361947401371792501649447 .nil))))
  373628888730469168874925293150483331572956240101237451162724686396628420880204918540580958247 (.node (.node (.node (.node (.node .nil
  373628888730469168874925293150483331572956240101237451162724701178114786023361843125679542311 .nil)
  373628888730469168874925293150483331572964478876696673308375437076048547241746676069515440545 (.node .nil
  373628888730469168874925293150483331572964478876714753571640094735173759393317198791472099745 .nil))
  373628888730469168874925293150483331572964478876714753571640094735269952947859207049259122721 (.node (.node .nil
  373628888730710090838941978927400689427942188090341604625669213761676967398572055611252009175 .nil)
  373628888730710090838941978927400689427942188090341604625964342758592202016858413821580922273 .nil))
  373628888730710090838941978927400689427942188090341604741360546293404276464211182272653766695 (.node (.node (.node .nil
  373628888730710090838941978927400689427942188090341604741360546293404277090210469952320167329 .nil)
  373628888730710090838941978927400689427942188090341649978942946566078513715207990413025516375 (.node .nil
  373628888730710090838941978927400689427942188090341649978942946566078513798146843222384954785 .nil))
  373628888730710090838941978927400689427942188090341649978942946603786387095882204377031847975 (.node (.node .nil
  373628888730710090838941978927400689427942188090341649978942946603882548847121011517007551905 .nil)
  373628888730710090838941978927400689427942188090359732020698429940165337880346063012746902743 .nil)))
  373628888730710090838941978927400689427942188090359732020698429940177837287442781166326631841 (.node (.node (.node (.node .nil
  373628888730710090838941978927400689427942188090359732020698429945161298308075027060784050215 .nil)
  373628888730710090838941978927400689427942188090359732020698429945161298934074314740450450849 (.node .nil
  373628888730710090838941978927400689427942188090359732022969812260991195270163372945788803927 .nil))
  373628888730710090838941978927400689427942188090359732022969812260991195353102225755148242337 (.node (.node .nil
  373628888730710090838941978927400689427942188090359732022975604687933400414030382672212340775 .nil)
  373628888730710090838941978927400689427942188090359732022975619464520275879028926178630000033 .nil))
  373628888730710090838941978927595359754573427672452177444553971621634076180332559527147941927 (.node (.node (.node .nil
  373628888730710090838941978927595359754573427672452177444553971621634076806331847206814342561 .nil)
  373628888730710090838941978927595791858584032173339179901966302074901178174589740284027463895 .nil)
  373628888730710090838941978927595792023134988416501937219081741928382110244454059818425896353 (.node (.node .nil
  373628888730710090838941978927595856362550637939258735264913278213638448264853353883689496615 .nil)
  373628888730710090838941978927595856362550637939258735264913278213638448890852641563355897249 .nil))))))))
  373628888730710090838941979003685740146004797776518494525280176568301024764085044282835455393 (.node (.node (.node (.node (.node (.node (.node
  (.node (.node .nil 373628888730710090838941979003855124914932183161492802844323972793034784633523540698390456535 .nil)
  373628888730710090838941979003855124914932183168580964223098722773782656069983485127515826391 (.node .nil
  373628888730710090838941979003880410305710478252167723323527343032347793293798313879049981345 .nil))
  373628888730710090838941979003880410473080574091490070695110052811909159227740529646043516321 (.node (.node .nil
  373628888730710090838942008897538904057571586203747867773101859358342299662710102186772785367 .nil)
  373628888730710090838942008897538904057571586203747867773101859363338228286924286414355807447 .nil))
  373628888730710090838942008897538904057571586257399551457901317019813979812028340805975547095 (.node (.node (.node .nil
  373628888730710090838942008897538904057571586257536417998219525326504892911238932898949753047 .nil)
  373628888730710090838942008897538904057998550726862455369038623110341974672169726620084070615 (.node .nil
  373628888730710090838942008897538904057999618904926875909648773459740139189723910834840266967 .nil))
  373628888730710090838953701183327322497157549817080811050633130468294844068566553011486995665 (.node (.node .nil
  373628888730710090838953701183327322497157549817080811050928274279492050221678415831857419473 .nil)
  373628888730710090838953701183327322497157549817080811168600870043518589289537441341657658577 .nil)))
  373628888730710090838953701183327322497157549817080811168600884825004954432694365926756242641 (.node (.node (.node (.node .nil
  373628888730710090838953701183327323766827708037616044809565561730003310527257122016888370385 .nil)
  373628888730710090838953701183327818937772905805534099894408506065922197962925330777459905745 (.node .nil
  373628888730710090838953701183327820204628901391230656337223988203354934627131193655359714513 .nil))
  373628888730710090838953701183327820204629990586460764380405029844271346808031950776193266897 (.node (.node .nil
  373628888730710090838953731097122677738069723759232081289869848012784325449887543086014916823 .nil)
  373628888730710090838953731097122677738069723759232081289869849933493217559985894761507031895 .nil))
  373628888730710090838953731097122677738069723759232081289870615712047491993419020666244054231 (.node (.node (.node .nil
  373628888730710090838953731097122677738069723759232081289870615712143685547961028924031077207 .nil)
  373628888730710090838953731097122677738077986398225082482301119699264318867125534356377561303 (.node .nil
  373628888730710090838953731097122677741300412894982735010252265334835018047723694421251315543 .nil))
  373628888730710090838953731097122677741308657220235140886426533969532393052517687847576791255 (.node (.node .nil
  373628888730710090838953731097122677741308657227323302265201283950280264488977632276702161111 .nil)
  373628888730710090838953731097148396496048747580290328187465465658797267394809693220727548119 .nil))))
  373628888730710090838953731097148396496048747580290328187465465663793196019023877448310570199 (.node (.node (.node (.node (.node .nil
  373628888730710090838953731097148396496048747633942011872264923320268947544127931839930309847 .nil)
  373628888730710090838953731097148396496048747634078878412583131626959860643338523932904515799 (.node .nil
  373628888730710090838953731097148460839130271291439871568603554636114142387137634380529920215 .nil))
  373628888730710090838953731097148461003262546660696042084902263345387062432955798480900188375 (.node (.node .nil
  373628888730710182585323902654849740749627527953569489872954361325051202479499210167715227863 .nil)
  373628888730710182585323902654849740749627527960675474970038959227340693499831038769027481633 .nil))
  373628888730710182585323902654849740749627530685482743460025751004307869023302573827906064423 (.node (.node (.node .nil
  373628888730710182585323902654849740749627530685482743460025765785794480265313967462577995809 .nil)
  373628888730710182585323902654849740749628598863547162990010633977189167986243363553801575255 (.node .nil
  373628888730710182585323902654849740749628598863547162990010635973409968525994699279072100385 .nil))
  373628888730710182585323902654849740749628598863547163880392503778729331646906766456745611303 (.node (.node .nil
  373628888730710182585323902654849740749628598863547163882663135140073994060494098958961999905 .nil)
  373628888730710182585323902654849740750055563332873201253481448484661084415167504971887164631 .nil)))
  373628888730710182585323902654849740750055563332873201253782403373516822332782995303569686561 (.node (.node (.node (.node .nil
  373628888730710182585323902654849740750055563332873201371454999137543115301787551763796578343 .nil)
  373628888730710182585323902654849740750055563332873201371455013919029726543798945398468509729 (.node .nil
  373628888730710182585323902654849740750055563386506499990554159007848625748573302878963669847 .nil))
  373628888730710182585323902654849740750055563386506499990554161004069426288324638604234194977 (.node (.node .nil
  373628888730710182585323902654849740750055563386643274395177933378878575076732507559574360103 .nil)
  373628888730710182585323902654849740750055563386643623309181066890555006178963733378643394593 .nil))
  373628888730710182589920580055975000317512275921725837068901691390289234140579863798015840295 (.node (.node (.node .nil
  373628888730710182589920580055975000317512275921725837068901706171775845382591257432687771681 .nil)
  373628888730710182589930783089388520775907431653276444178045565095581085606161155890833123543 (.node .nil
  373628888730710182589930787051373467651077917436559612857389877331820878386135411182910177313 .nil))
  373628888730710182589932306273861227664135605526805495568561042214092359193549278482430152743 (.node (.node .nil
  373628888730710182589932306273861227664135605526805495568561056995578970435560672117102084129 .nil)
  373628888730710184147972195523307463581768598351121533217858415701879088437551707142075176145 .nil)))))
  373628888730710184147972195523307464848624593936818089660673897839311825101757570019974984913 (.node (.node (.node (.node (.node (.node .nil
  373628888730710184147972195523307464848625683132048197703854939480228237282658327140808537297 .nil)
  373628888730710184147972195523502068135626315409973142650697395396931871529436271898292508503 (.node .nil
  373628888730710184147972195523502068135634559735225548526871664031629246534230265324617984215 .nil))
  373628888730710184147972195523502068135634559742313709905646414012377117970690209753743354071 (.node (.node .nil
  373628888730710184386614190432797595112178705457111465752168033739355342883441790911196037153 .nil)
  373628888730710184390602053389348302720355920414881069992206754617064831177358041114785474775 .nil))
  373628888730710184390602053389348302720355920421969231370981504597812702613817985543910844631 (.node (.node (.node .nil
  373628888730710184391210863892372241944114807141802669762575049232412208292576773762229338145 .nil)
  373628888730710184391210867844419533805603682457196725626588430443982463737692052807573700641 (.node .nil
  373628888730746055416062530852384671985977772625723917069140933853170264724129664333435758807 .nil))
  373628888730746055416062530852384671985986014132941004364505475088504489075205817644456995031 (.node (.node .nil
  373628888730746055416062530852384671985987106060083970957640010901111228768410761187375317025 .nil)
  373628888730746055416062530852384671986405810844189216288011612003696969167340624769699033127 .nil)))
  373628888730746055416062530852384671986405810844189216288011626785183334310497549354797617191 (.node (.node (.node (.node .nil
  373628888730746055416062530852384671986405810844189216290283009143704566382623518675798634913 .nil)
  373628888730746055416062530852384671986405810844189216290283009143800759937165526933585657889 (.node .nil
  373628888730746055416062530852384672150546324935151871882797391211994035723958315778798689111 .nil))
  373628888730746055416062530852384672150546324935151871885068773532807393789617760367620299607 (.node (.node .nil
  373628888730746055416062530852384672150546324935151871885375518890188849181139376683671224353 .nil)
  373628888730746055416062530852384672150546324935288691524709940703329562681996742769830801447 .nil))
  373628888730746055416062530852384672150546324935288691524709955484815927825153667354929385511 (.node (.node (.node .nil
  373628888730746055416062530852384672150546324935289040439007465150912388942349779027404042657 .nil)
  373628888730746055416062530852384672150546324935289040439007465151008582496891787285191065633 (.node .nil
  373628888730746055416062530852384737759614539451495240834910678391840853170107376607354043607 .nil))
  373628888730746055416062530852384737759614539451495589864603623855694654663000673291309300951 (.node (.node .nil
  373628888730746055416062530852384737759614539451495636110241288909772215497859685080753373217 .nil)
  373628888730746055416062530852384737759614539451513718151996757464581106282990165449630036007 .nil))))
  373628888730746055416062530852384737759614539451513718151996772246067471426147090034728620071 (.node (.node (.node (.node (.node .nil
  373628888730746055416062530852384737759614539451513718154268154604588703498273059355729637793 .nil)
  373628888730746055416062530852384737759614539451513718154268154604684897052815067613516660769 (.node .nil
  373628888730746055416062530852384737759622780958712723403027702466911626391754777486902074199 .nil))
  373628888730746055416062530852384737759622780958712723405299084787724984457414222075723684695 (.node (.node .nil
  373628888730746055416062530852384737759622780958712723405605830145106439848935838391774609441 .nil)
  373628888730746055416062530852384737759622801976014835512964018036671963424677567846686404647 .nil))
  373628888730746055416062530852384737759622801976014835512964032818158328567834492431784988711 (.node (.node (.node .nil
  373628888730746055416062530852384737759622802029630356890471971065158561460253244949237379489 .nil)
  373628888730746055416062530852384737759622802029630356890471971065254755014795253207024402465 (.node .nil
  373628888730746668212236692834058461314470595209056250754087476855594461513882308218554817751 .nil))
  373628888730746668212236692834058461314470595209193117294405685162285374613092900311529023703 (.node (.node .nil
  373628888730746761759898697364270911427897792902925530600515083444186350464826591718298628135 .nil)
  373628888730746761759898697364270911427897792902925530600515098225672715607983516303397212199 .nil)))
  373628888730746761759898697364270911427897792902925530602786480584193947680109485624398229921 (.node (.node (.node (.node .nil
  373628888730746761759898697364270911427897792902925530602786480584290141234651493882185252897 .nil)
  373628888730746763323142525448125165197658525009286875527633024055514265278808088211291236567 (.node .nil
  373628888730746763327737627695046201080705784613931357958166693833861616261847773521558235351 .nil))
  373628888730746763328346438274355256458635528320248292849119617744241597843493368057924288545 (.node (.node .nil
  373628888730746763561796242633509902955218227863569222255000072327594489956964657559206637607 .nil)
  373628888730746763561796242633509902955218227863569222255000087109080855100121582144305221671 .nil))
  373628888730746763561796242633509902955218227863569222257271469467602087172247551465306239393 (.node (.node (.node .nil
  373628888730746763561796242633509902955218227863569222257271469467698280726789559723093262369 .nil)
  373628931155121443742808887161724272512285591416172747756871560003900360920732882228229190865 .nil)
  373628931155121443742808887161724272512285591416172747759142938455663465221481222820124551383 (.node (.node .nil
  373628931155121443742808887161724272512285594248109655822251670482542680915978505195872708823 .nil)
  373628931155121443742808887161724272512285594255215640919336268384832171936310333797184962593 .nil))))))
  373628931155121443742808887161724272680076570329643685666181389505785841382097821805340841169 (.node (.node (.node (.node (.node (.node (.node .nil
  373628931155121443742808887161724272680076570329643685666181389505785842008096032748607023959 .nil)
  373628931155121443742808887161724272680076570329643685666182169995477496579659531945809189719 (.node .nil
  373628931155121443742808887161724272680076570329643685666182171991698297119410867671079714849 .nil))
  373628931155121443742808887161724272680076570329644035705900056718315178010256069221584863265 (.node (.node .nil
  373628931155121443742808887161724272680076570329780506196197897840173310568158693138224369703 .nil)
  373628931155121443742808887161724272680076570329780855110201046133323394527181736900863066145 .nil))
  373628931155121443742808887161724272680076570329780855110501201801359540099850692723149504545 (.node (.node (.node .nil
  373628931155121443742808887161724338289144784845850585011563798441673787183324859667442644177 .nil)
  373628931155121443742808887161724338289144784845850585011563798441769980574007632573058137303 (.node .nil
  373628931155121443742808887161724338289144784845850585131496966420178065307548271446657481943 .nil))
  373628931155121443742808887161724338289144784845850585131797921309033803225163761778340003873 (.node (.node .nil
  373628931155121443742808887161724338289153026353204537186411700760703432049894283513444226257 .nil)
  373628931155121443742808887161724338289153026353204537186411700760703432675892494456710409047 .nil)))
  373628931155121443742808887161724338289153026353204537186412481250395087247455993653912574807 (.node (.node (.node (.node .nil
  373628931155121443742808887161724338289153026353204537186412483246615887787207329379183099937 .nil)
  373628931155121443742808887161724338289153047370506650184451975173515711310839518215079972903 (.node .nil
  373628931155121443742808887161724338289153047424122125438544964197530231771516150099443056673 .nil))
  373628931155121443742808887161724338289153047424122171561965707715605712617754158644982841377 (.node (.node .nil
  373628931249562946951573660168459452849017907626396886666117112669016507430616599064149092567 .nil)
  373628931249562946951573660168459452849017907626396886666412241665931742048902957274478005665 .nil))
  373628931249562946951573660168459452849017907626396886781808445200743816496255725725550850087 (.node (.node (.node .nil
  373628931249562946951573660168459452849017907626396886781808445200743817122255013405217250721 .nil)
  373628931249562946951573660168459452849017907626396932019390845473418053747252533865922599767 (.node .nil
  373628931249562946951573660168459452849017907626396932019390845473418053830191386675282038177 .nil))
  373628931249562946951573660168459452849017907626396932019390845511125927127926747829928931367 (.node (.node .nil
  373628931249562946951573660168459452849017907626396932019390845511222088879165554969904635297 .nil)
  373628931249562946951573660168459452849017907626415014061146328847504877912390606465643986135 .nil))))
  373628931249562946951573660168459452849017907626415014061146328847517377319487324619223715233 (.node (.node (.node (.node (.node .nil
  373628931249562946951573660168459452849017907626415014061146328852500838340119570513681133607 .nil)
  373628931249562946951573660168459452849017907626415014061146328852500838966118858193347534241 (.node .nil
  373628931249562946951573660168459452849017907626415014063417711168330735302207916398685887319 .nil))
  373628931249562946951573660168459452849017907626415014063417711168330735385146769208045325729 (.node (.node .nil
  373628931249562946951573660168459452849017907626415014063423503595272940446074926125109424167 .nil)
  373628931249562946951573660168459452849017907626415014063423518371859815911073469631527083425 .nil))
  373628931249562946951573664120506677668072453864094717521197970076748007423446886502084765911 (.node (.node (.node .nil
  373628931249562946951573664120506677668072453864094717521493099073663242041733244712413679009 .nil)
  373628931249562946951573664120506677668072453864094717636889302608475316489086013163486523431 (.node .nil
  373628931249562946951573664120506677668072453864094717636889302608475317115085300843152924065 .nil))
  373628931249562946951573664120506677668072453864094762874471702881149553740082821303858273111 (.node (.node .nil
  373628931249562946951573664120506677668072453864094762874471702881149553823021674113217711521 .nil)
  373628931249562946951573664120506677668072453864094762874471702918857427120757035267864604711 .nil)))
  373628931249562946951573664120506677668072453864094762874471702918953588871995842407840308641 (.node (.node (.node (.node .nil
  373628931249562946951573664120506677668072453864112844916227186255236377905220893903579659479 .nil)
  373628931249562946951573664120506677668072453864112844916227186255248877312317612057159388577 (.node .nil
  373628931249562946951573664120506677668072453864112844916227186260232338332949857951616806951 .nil))
  373628931249562946951573664120506677668072453864112844916227186260232338958949145631283207585 (.node (.node .nil
  373628931249562946951573664120506677668072453864112844918498568576062235295038203836621560663 .nil)
  373628931249562946951573664120506677668072453864112844918498568576062235377977056645980999073 .nil))
  373628931249562946951573664120506677668072453864112844918504361003004440438905213563045097511 (.node (.node (.node .nil
  373628931249562946951573664120506677668072453864112844918504375779591315903903757069462756769 .nil)
  373628931249562946951573694034133212552007462874069370735846115627971786166142405525224239143 (.node .nil
  373628931249562946951573694034133212552007462874069370735846115627971786792141693204890639777 .nil))
  373628931249562946951573694100532041971542557593880677200136619163665444294757071053373696215 (.node (.node .nil
  373628931249562946951573694100557327529682707009436225764576143583851436981686361722288197025 .nil)
  373628931249562946951573694110443979496059210578124722038518633141831808087288956044349485095 .nil)))))
  373628931249562946951573694110443979496059210578124722038518633141831808713288243724015885729 (.node (.node (.node (.node (.node (.node .nil
  373628931249562946951585386386319962704092372884781549441209712231319956235846233324396072353 .nil)
  373628931249562946951585386386345681462063134120635345371491724159015498012059222900923026849 (.node .nil
  373628931249562946951585412414686812653816001225108679300173074493362428727800637738562742487 .nil))
  373628931249562946951585412414686812653816001232196840558704426899133598270310590581771462871 (.node (.node .nil
  373628931249562946951585412414686812653817090427426553564767558246026311360912263648769599703 .nil)
  373628931249562946951585412414686812653817090427426599692430892087084762079164700849108281559 .nil))
  373628931249562946951585416300141101042390960424805656814784968080676212550003156722995023265 (.node (.node (.node .nil
  373628931249562946951585416300141101209761053424865761027846780099183655383339372186536103329 .nil)
  373628931249562946951585416300166819968158779190767055217203669463309824464392253931433872801 (.node .nil
  373628931249562946951585416300166819968159868385978686178939749884306404713785952756242959777 .nil))
  373628931249562946956178995438924987195043997172897247750165588254878245116090464192147613911 (.node (.node .nil
  373628931249562946956178995438924987195043997172897247750165588259874173740304648419730635991 .nil)
  373628931249562946956178995438924987195045086368108878711901668675874825365484163016956700887 .nil)))
  373628931249562946956178995438924987195045086368108878711901668680870753989698347244539722967 (.node (.node (.node (.node .nil
  373628931249562946956178995438924987195053330646815797307727690692398079440579426654177336535 .nil)
  373628931249562946956178995438924987195053351678275499855434353596886736756291050472013949143 (.node .nil
  373628931249562946956178995438925052804121566187394237052199433185412527255314108866076731607 .nil))
  373628931249562946956178995438925052804121566194482398310730785591183696797824061709285451991 (.node (.node .nil
  373628931249562946956178995438925052968262080285599955591756165216712423153688153951606270167 .nil)
  373628931249562946956178995438925052968262080285600001719419499057770873871940591151944952023 .nil))
  373628931249562948752862398830430370240581933852588146630201260877954891528753850509911930065 (.node (.node (.node .nil
  373628931249562948752862398830430370240581933852588146630496404689152097681865713330282353873 .nil)
  373628931249562948752862398830430370240581933852588146748169000453178636749724738840082592977 (.node .nil
  373628931249562948752862398830430370240581933852588146748169015234665001892881663425181177041 .nil))
  373628931249562948752862398830456088998552695088441942560483272805650433304966840086438884561 (.node (.node .nil
  373628931249562948752862398830456088998552695088441942560778416616847639458078702906809308369 .nil)
  373628931249562948752862398830456088998552695088441942678451012380874178525937728416609547473 .nil))))
  373628931249562948752862398830456088998552695088441942678451027162360543669094653001708131537 (.node (.node (.node (.node (.node .nil
  373628931249562948752862398830651190327750565834050187442226837225713103730017209418989188305 .nil)
  373628931249562948752862398906741138283258520915695044697821359257995534673629598526858319057 (.node .nil
  373628931249562948752862398906741138450628613915755148910883171276502977506965813990399399121 .nil))
  373628931249562948752862398906935808610324966528119165012972426360608048705909860376890848465 (.node (.node .nil
  373628931249562948752862398906935808610326055723330795974708506781604628955303559201699935441 .nil)
  373628931249562948752862398906935808777696151501950159659723795703468983170793726403398087889 .nil))
  373628931249562948752862398906935808777696151509038320918255148109240152713303679246606808273 (.node (.node (.node .nil
  373628931249562948757459072279923827093492557962308196869765423770442005904244541376783050967 .nil)
  373628931249562948757459072279923827093492557962308196869765425691150898014342893052275166039 (.node .nil
  373628931249562948757459072279923827093492557962308196869766191469705172447776018957012188375 .nil))
  373628931249562948757459072279923827093492557962308196869766191469801366002318027214799211351 (.node (.node .nil
  373628931249562948757459072279923827260862650962368301082827235788949448737580756840324131031 .nil)
  373628931249562948757459072279923827260862650962368301082827237709658340847679108515816246103 .nil)))
  373628931249562948757459072279923827260862650962368301082828003488212615281112234420553268439 (.node (.node (.node (.node .nil
  373628931249562948757459072279923827260862650962368301082828003488308808835654242678340291415 .nil)
  373628931249562948757459072279923828530524570461214781769552049301316822115017404658741799127 (.node .nil
  373628931249562948757459072279924323701468679087536377230149558116146790633544474189595531095 .nil))
  373628931249562948757459072279924323701469768282748008191885638537143370882938173014404618071 (.node (.node .nil
  373628931249562948757459072279924324968325763807741580948133699821862525044428170307501156567 .nil)
  373628931249562948757459072279924324968325763814829742206665052227633694586938123150709876951 .nil))
  373628931249562948757459072279924324968326853010059455212728183574526407677539796217708013783 (.node (.node (.node .nil
  373628931249562948757459072279924324968326853010059501340391517415584858395792233418046695639 .nil)
  373628931249562948757459076231971053349569762193534360519364141367039830467647105816811137239 .nil)
  373628931249562948757459076231971053349569762193534360519364141372035759091861290044394159319 (.node (.node .nil
  373628931249562948757459076231971053349570851388745991481100221788036410717040804641620224215 .nil)
  373628931249562948757459076231971053349570851388745991481100221793032339341254988869203246295 .nil)))))))
  373628931249562948757459076231971053349579095667452910076926243804559664792136068278840859863 (.node (.node (.node (.node (.node (.node (.node
  (.node .nil 373628931249562948757459076231971053349579116698912612624632906709048322107847692096677472471 .nil)
  373628931249562948757459076241858268628830401411477126997837409439792280083892210017109666007 (.node .nil
  373628931249562948757459076241858268628830401418565288256368761845563449626402162860318386391 .nil))
  373628931249562948757459076241883489850792742798751109744025953265525671138471398103369509079 (.node (.node .nil
  373628931249562948757459076241883489850792742798751155871689287106584121856723835303708190935 .nil)
  373628931263660969669886177079951329275122436135227525337532452357918204200343073476466829527 .nil))
  373628931263660969669886177079951329275122436142333510434617050260207695220674902077779083297 (.node (.node (.node .nil
  373628931263660969669886177079951329275122438867140778924603842037174870744146437136657666087 .nil)
  373628931263660969669886177079951329275122438867140778924603856818661481986157830771329597473 (.node .nil
  373628931263660969669886177079951329275123507045205198454588725010056169707087226862553176919 .nil))
  373628931263660969669886177079951329275123507045205198454588727006276970246838562587823702049 (.node (.node .nil
  373628931263660969669886177079951329275123507045205199344970594811596333367750629765497212967 .nil)
  373628931263660969669886177079951329275123507045205199347241226172940995781337962267713601569 .nil)))
  373628931263660969669886177079951329275550471514531236718059539517528086136011368280638766295 (.node (.node (.node (.node .nil
  373628931263660969669886177079951329275550471514531236718360494406383824053626858612321288225 .nil)
  373628931263660969669886177079951329275550471514531236836033090170410117022631415072548180007 (.node .nil
  373628931263660969669886177079951329275550471514531236836033104951896728264642808707220111393 .nil))
  373628931263660969669886177079951329275550471568164535455132250040715627469417166187715271511 (.node (.node .nil
  373628931263660969669886177079951329275550471568164535455132252036936428009168501912985796641 .nil)
  373628931263660969669886177079951329275550471568301309859756024411745576797576370868325961767 .nil))
  373628931263660969669886177079951329275550471568301658773759157923422007899807596687394996257 (.node (.node (.node .nil
  373628931263661062988094868010067802949369370709106747056359291972046470860179008725524801751 .nil)
  373628931263661062988094868010067802949369370716212732153443889874335961880510837326837055521 (.node .nil
  373628931263661062988094868010067802949369373441020000643430681651303137403982372385715638311 .nil))
  373628931263661062988094868010067802949369373441020000643430696432789748645993766020387569697 (.node (.node .nil
  373628931263661062988094868010067802949370441619084420173415564624184436366923162111611149143 .nil)
  373628931263661062988094868010067802949370441619084420173415566620405236906674497836881674273 .nil))))
  373628931263661062988094868010067802949370441619084421063797434425724600027586565014555185191 (.node (.node (.node (.node (.node .nil
  373628931263661062988094868010067802949370441619084421066068065787069262441173897516771573793 .nil)
  373628931263661062988094868010067802949797406088410458436886379131656352795847303529696738519 (.node .nil
  373628931263661062988094868010067802949797406088410458437187334020512090713462793861379260449 .nil))
  373628931263661062988094868010067802949797406088410458554859929784538383682467350321606152231 (.node (.node .nil
  373628931263661062988094868010067802949797406088410458554859944566024994924478743956278083617 .nil)
  373628931263661062988094868010067802949797406142043757173959089654843894129253101436773243735 .nil))
  373628931263661062988094868010067802949797406142043757173959091651064694669004437162043768865 (.node (.node (.node .nil
  373628931263661062988094868010067802949797406142180531578582864025873843457412306117383933991 .nil)
  373628931263661062988094868010067802949797406142180880492585997537550274559643531936452968481 (.node .nil
  373628931263661769327337515256684067144281179534411195376409954931873987680694596229057204263 .nil))
  373628931263661769327337515256684067144281179534411195376409969713360598922705989863729135649 (.node (.node .nil
  373628931263661770895176411818428393554400242673658396644009428920961009284764875238257846487 .nil)
  373628931263661770895785226273305021017922574679024648750189787358774157660674959267439181857 .nil)))
  373628931263661771129235030632654204093369407865922313759177133606244775333113102937375625255 (.node (.node (.node (.node .nil
  373628931263661771129235030632654204093369407865922313759177148387731386575124496572047556641 .nil)
  373628931263901185770776657538855713237357846063049259304735658937613427661127290767769064657 (.node .nil
  373628931263901185770776657538855713404727939063109363517797470956120870494463506231310144721 .nil))
  373628931263901185770776657539050383564424291675473379619886726040225941693407552617801594065 (.node (.node .nil
  373628931263901185770776657539050383564425380870685010581622806461222521942801251442610681041 .nil)
  373628931263901185770776657539050383731795476649304374266638095383086876158291418644308833489 .nil))
  373628931263901185770776657539050383731795476656392535525169447788858045700801371487517553873 (.node (.node (.node .nil
  373628931263901185770776687442569877396952742573536038590615420167040204515049906247470536535 .nil)
  373628931263901185770776687442569877396953831768747669552351500588036784764443605072279623511 (.node .nil
  373628931263901185770776687442569878663809827293741242308599561872755938925933602365376162007 .nil))
  373628931263901185770776687442569878663809827300829403567130914278527108468443555208584882391 (.node (.node .nil
  373628931263901185770776687442569878663810916496059116573194045625419821559045228275583019223 .nil)
  373628931263901185770776687442569878663810916496059162700857379466478272277297665475921701079 .nil)))))
  373628931263937856453675171939135999569143197123080705264729992475804893416770782315036147745 (.node (.node (.node (.node (.node (.node .nil
  373628931263937856454282459323890594766936266722561220409602694129019791690059645262344880161 .nil)
  373628931263938469245255784838361105286977305879791691559959282246434540512472622662645573847 (.node .nil
  373628931263938469245255784838361105286977305886879852818490634652205710054982575505854294231 .nil))
  373628931263938469245255784838361105286978395082109565824553765999098423145584248572852431063 (.node (.node .nil
  373628931263938469245255784838361105286978395082109611952217099840156873863836685773191112919 .nil)
  373628931263938562797512917557105297998351831332540964062809155892823860109293302139209252897 .nil))
  373628931263938562797512921509152522817406377570238794917890013300555360102123589577144926241 (.node (.node (.node .nil
  373628931263938562798120208903988871307107944624467418946373202628930077484240581986560901153 .nil)
  373628931263938562798120208904014590065078705860321214876655214556625619260453571563087855649 (.node .nil
  373645598653944694552798976791505229750605392826734710458548054180554409946177457217251961047 .nil))
  373645598653944694552798976791505229750605392826734710458843183177469644564463815427580874145 (.node (.node .nil
  373645598653944694552798976791505229750605392826734710574239386712281719011816583878653718567 .nil)
  373645598653944694552798976791505229750605392826734710574239386712281719637815871558320119201 .nil)))
  373645598653944694552798976791505229750605392826734755811821786984955956262813392019025468247 (.node (.node (.node (.node .nil
  373645598653944694552798976791505229750605392826734755811821786984955956345752244828384906657 .nil)
  373645598653944694552798976791505229750605392826734755811821787022663829643487605983031799847 (.node .nil
  373645598653944694552798976791505229750605392826734755811821787022759991394726413123007503777 .nil))
  373645598653944694552798976791505229750605392826752837853577270359042780427951464618746854615 (.node (.node .nil
  373645598653944694552798976791505229750605392826752837853577270359055279835048182772326583713 .nil)
  373645598653944694552798976791505229750605392826752837853577270364038740855680428666784002087 .nil))
  373645598653944694552798976791505229750605392826752837853577270364038741481679716346450402721 (.node (.node (.node .nil
  373645598653944694552798976791505229750605392826752837855848652679868637817768774551788755799 .nil)
  373645598653944694552798976791505229750605392826752837855848652679868637900707627361148194209 (.node .nil
  373645598653944694552798976791505229750605392826752837855854445106810842961635784278212292647 .nil))
  373645598653944694552798976791505229750605392826752837855854459883397718426634327784629951905 (.node (.node .nil
  373645598653944694552798976791505229750613634319794253677162964948585562273340239498929451047 .nil)
  373645598653944694552798976791505229750613634319794253677162964948585562899339527178595851681 .nil))))
  373645598653944694552798976791505229750613652619478266346522425893992619416306182533639956695 (.node (.node (.node (.node (.node .nil
  373645598653944694552798976791505229750613652626447036526370423875609189581354423005499739553 .nil)
  373645598653944694552798976791505229750613655351235827935206647284372576153503986275710087207 (.node .nil
  373645598653944694552798976791505229750613655351235827935206647284372576779503273955376487841 .nil))
  373645598653944694552798976791505295353228754242003453276237622580369781294137566652281335847 (.node (.node .nil
  373645598653944694552798976791505295353228754242003453276237622580369781920136854331947736481 .nil)
  373645598653944694552798976791505295353228754242122495207554668044560055482189676220743542999 .nil))
  373645598653944694552798976791505295353228754242122540558256069504659753592242416737851395489 (.node (.node (.node .nil
  373645598653944694552798976791505295353228754242140272680538611995377997811063234331559538727 .nil)
  373645598653944694552798976791505295353228754242140272680538611995377998437062522011225939361 (.node .nil
  373645598653944694552798976791505295523814121434059212322533199641438547061826997897182963927 .nil))
  373645598653944694552798976791505295523814121434059212322828328638353781680113356107511877025 (.node (.node .nil
  373645598653944694552798976791505295523814121434059212438224532173165856127466124558584721447 .nil)
  373645598653944694552798976791505295523814121434059212438224532173165856753465412238251122081 .nil)))
  373645598653944694552798976791505295524250419391479167166512388116257636457618908883511557335 (.node (.node (.node (.node .nil
  373645598653944694552798976791505295524250419391479167166512388116270135864715627037091286433 .nil)
  373645598653944694552798976791505295524250419391479167166512388121253596885347872931548704807 (.node .nil
  373645598653944694552798976791505295524250419391479167166512388121253597511347160611215105441 .nil))
  373645598653944694552798976791505295524250419445112815823358209977319516511592846801135115095 (.node (.node .nil
  373645598653944694552798976791505295524250419445112815823358209977319516594531699610494553505 .nil)
  373645598653944694552798976791505295524250419445249590230259159048418043218570255928721092647 .nil))
  373645598653944694552798976791505295524250419445249939144262307379275935616728822037021482401 (.node (.node (.node .nil
  373645598653944694552799006695024292748800568095491737111787685335863584813668505387922567207 .nil)
  373645598653944694552799006695024292748800568095491737111787685335863585439667793067588967841 .nil)
  373645598653944694552799006695024292748800568095610779043104730800053859001720614956384774359 (.node (.node .nil
  373645598653944694552799006695024292748800568095610824393806132260153557111773355473492626849 .nil)
  373645598653944694552799006695024292748800568095628556516088674750871801330594173067200770087 .nil))))))
  373645598653944694552799006695024292748800568095628556516088674750871801956593460746867170721 (.node (.node (.node (.node (.node (.node (.node .nil
  373645598653944694552799006695024292748801657183573682139373814326367593923945371652888062167 .nil)
  373645598653944694552799006695024292748801657183573682139668943323282828542231729863216975265 (.node .nil
  373645598653944694552799006695024292748801657183573682255065146858094902989584498314289819687 .nil))
  373645598653944694552799006695024292748801657183573682255065146858094903615583785993956220321 (.node (.node .nil
  373645598653944694552799006695024292748801660022735268314610397199387903996713406977926905047 .nil)
  373645598653944694552799006695024292748801660022735268314610397199400403403810125131506634145 .nil))
  373645598653944694552799006695024292748801660022735268314610397204383864424442371025964052519 (.node (.node (.node .nil
  373645598653944694552799006695024292748801660022735268314610397204383865050441658705630453153 .nil)
  373645598653944694552799006695024292748801660022735617346574723035629974780224175478033783639 (.node .nil
  373645598653944694552799006695024292748801660022735617346574723035629974863163028287393222049 .nil))
  373645598653944694552799006695024292748801660022735618236662231464102388003474105273545863207 (.node (.node .nil
  373645598653944694552799006695024292748801660022735618238932860909830034930347325078753795489 .nil)
  373645598653944694552799006771334993915978802199333542953553417857025067110511625959979477207 .nil)))
  373645598653944694552799006771334993915978802199333542953848546853940301728797984170308390305 (.node (.node (.node (.node .nil
  373645598653944694552799006771334993915978802199333543069244750388752376176150752621381234727 .nil)
  373645598653944694552799006771334993915978802199333543069244750388752376802150040301047635361 (.node .nil
  373645598653944694552799006771334993915978802199333588306827150661426613427147560761752984407 .nil))
  373645598653944694552799006771334993915978802199333588306827150661426613510086413571112422817 (.node (.node .nil
  373645598653944694552799006771334993915978802199333588306827150699134486807821774725759316007 .nil)
  373645598653944694552799006771334993915978802199333588306827150699230648559060581865735019937 .nil))
  373645598653944694552799006771334993915978802199351670348582634035513437592285633361474370775 (.node (.node (.node .nil
  373645598653944694552799006771334993915978802199351670348582634035525936999382351515054099873 .nil)
  373645598653944694552799006771334993915978802199351670348582634040509398020014597409511518247 (.node .nil
  373645598653944694552799006771334993915978802199351670348582634040509398646013885089177918881 .nil))
  373645598653944694552799006771334993915978802199351670350854016356339294982102943294516271959 (.node (.node .nil
  373645598653944694552799006771334993915978802199351670350854016356339295065041796103875710369 .nil)
  373645598653944694552799006771334993915978802199351670350859808783281500125969953020939808807 .nil))))
  373645598653944694552799006771334993915978802199351670350859823559868375590968496527357468065 (.node (.node (.node (.node (.node .nil
  373645598653944694552799006771529664242610041781444115772438175716982175892272129875875409959 .nil)
  373645598653944694552799006771529664242610041781444115772438175716982176518271417555541810593 (.node .nil
  373645598653944694552799006771530096346620646282331118229850506170249277886529310632754931927 .nil))
  373645598653944694552799006771530096511171602525493875546965946023730209956393630167153364385 (.node (.node .nil
  373645598653944694552799006771530160850587252048250673592797482308986547976792924232416964647 .nil)
  373645598653944694552799006771530160850587252048250673592797482308986548602792211912083365281 .nil))
  373645598653944694790855631691565448243459521762939095158738028642642076361062021624198981847 (.node (.node (.node .nil
  373645598653944694790855631691565448243459521762939095159033157639557310979348379834527894945 .nil)
  373645598653944694790855631691565448243459521762939095274429361174369385426701148285600739367 (.node .nil
  373645598653944694790855631691565448243459521762939095274429361174369386052700435965267140001 .nil))
  373645598653944694790855631691565448243459521762939140512011761447043622677697956425972489047 (.node (.node .nil
  373645598653944694790855631691565448243459521762939140512011761447043622760636809235331927457 .nil)
  373645598653944694790855631691565448243459521762939140512011761484751496058372170389978820647 .nil)))
  373645598653944694790855631691565448243459521762939140512011761484847657809610977529954524577 (.node (.node (.node (.node .nil
  373645598653944694790855631691565448243459521762957222553767244821130446842836029025693875415 .nil)
  373645598653944694790855631691565448243459521762957222553767244821142946249932747179273604513 (.node .nil
  373645598653944694790855631691565448243459521762957222553767244826126407270564993073731022887 .nil))
  373645598653944694790855631691565448243459521762957222553767244826126407896564280753397423521 (.node (.node .nil
  373645598653944694790855631691565448243459521762957222556038627141956304232653338958735776599 .nil)
  373645598653944694790855631691565448243459521762957222556038627141956304315592191768095215009 .nil))
  373645598653944694790855631691565448243459521762957222556044419568898509376520348685159313447 (.node (.node (.node .nil
  373645598653944694790855631691565448243459521762957222556044434345485384841518892191576972705 .nil)
  373645598653944694791451200838644925492013046427020757920767404545351674372103040501858035927 .nil)
  373645598653944694791451200838644925492013046427020757921062533542266908990389398712186949025 (.node (.node .nil
  373645598653944694791451200838644925492013046427020758036458737077078983437742167163259793447 .nil)
  373645598653944694791451200838644925492013046427020758036458737077078984063741454842926194081 .nil)))))
  373645598653944694791451200838644925492013046427020803274041137349753220688738975303631543127 (.node (.node (.node (.node (.node (.node .nil
  373645598653944694791451200838644925492013046427020803274041137349753220771677828112990981537 .nil)
  373645598653944694791451200838644925492013046427020803274041137387461094069413189267637874727 (.node .nil
  373645598653944694791451200838644925492013046427020803274041137387557255820651996407613578657 .nil))
  373645598653944694791451200838644925492013046427038885315796620723840044853877047903352929495 (.node (.node .nil
  373645598653944694791451200838644925492013046427038885315796620723852544260973766056932658593 .nil)
  373645598653944694791451200838644925492013046427038885315796620728836005281606011951390076967 .nil))
  373645598653944694791451200838644925492013046427038885315796620728836005907605299631056477601 (.node (.node (.node .nil
  373645598653944694791451200838644925492013046427038885318068003044665902243694357836394830679 .nil)
  373645598653944694791451200838644925492013046427038885318068003044665902326633210645754269089 (.node .nil
  373645598653944694791451200838644925492013046427038885318073795471608107387561367562818367527 .nil))
  373645598653944694791451200838644925492013046427038885318073810248194982852559911069236026785 (.node (.node .nil
  373645598653944694796047848270242495132344251665552070658315307896736919188276513800131391527 .nil)
  373645598653944694796047848270242495132344251665552070658315307896736919814275801479797792161 .nil)))
  373645598653944694796058051379965922299896213076390304075362573451290656945180514705017006295 (.node (.node (.node (.node .nil
  373645598653944694796058055265445928347816026021488893930709084134671961436091171891765431713 .nil)
  373645598653944694796059574487933689630089983879522879961461721712885370125012628339500986407 (.node .nil
  373645598653944694796059574487933689630089983879522879961461721712885370751011916019167387041 .nil))
  373645598653944696592741454771276700457276402992898115334657422421513355485575928674938899873 (.node (.node .nil
  373645598653944696592741458647065089927010683979496564429193306098730548254201052588274994593 .nil)
  373645598653944696596741077658648043166338383113388988015172975730725039052983818498853169367 .nil))
  373645598653944696596741077658648043166339451291453408435539728505146501676588011127692716247 (.node (.node (.node .nil
  373645598653944696596741077658648043333709547070072772120555783200690575063264799310857496791 .nil)
  373645598653944696596741077658648043333709547077024159982517077757338680159205446464339306711 (.node .nil
  373645598653944696597338132106419481422111890784775364187526320688855753796160018124619238817 .nil))
  373645598653944696597338132106444703910069185494538136199507621031705589913876390372666363297 (.node (.node .nil
  373645598653944696597338136058491994338201276951026531463209308547200953272991695516297186721 .nil)
  373645598653944696597338136058491994502341791042126006699907637246833546787647813516428955041 .nil))))
  373645598653945402465082914193500680819260805964205772535245186473126196571395684394070567127 (.node (.node (.node (.node (.node .nil
  373645598653945402465082914193500680819260805964205772535245186478122125195609868621653589207 .nil)
  373645598653945402465082914193500680819260805964205772537516564892080982193895234562102009047 (.node .nil
  373645598653945402465082914193500680819260805964205772537522361215898298677351040005498857687 .nil))
  373645598653945402465082914193500680819260805964223852800781222551206194345465757284058668247 (.node (.node .nil
  373645598653945402465082914193500680819260805964223852800781222588914002867329090731257751767 .nil)
  373645598653945402465082914193500680819260805964223899814583070124883218415259529182200850647 .nil))
  373645598653945402465082914193500680819260805964223899934828001177786235322391613411842768087 (.node (.node (.node .nil
  373645598653945402465082914193500680819269047457265315637868609003686085738387050744860777687 .nil)
  373645598653945402465082914193500680819269047457265315637868609041393894260250384192059861207 (.node .nil
  373645598653945402465082914193500680819269047457265315638168764709430039832919340014346299607 .nil))
  373645598653945402465082914193500680819269047457265315638169547190263052705056832694394731735 (.node (.node .nil
  373645598653945402465082914193500680819269068488706889896212447045217053713083086791126935767 .nil)
  373645598653945402465082914193500680819269068488706889896212447050212982337297271018709957847 .nil)))
  373645598653945402465082914193500680819269068542358573581011904706688733862401325410329697495 (.node (.node (.node (.node .nil
  373645598653945402465082914193500680819269068542495440121330113013379646961611917503303903447 .nil)
  373645598653945402465082914193500746428337283004931916523499263806468597314076509470926170327 (.node .nil
  373645598653945402465082914193500746428337283004931916523499263811464525938290693698509192407 .nil))
  373645598653945402465082914193500746592477797096031391760197592506101190828732627471057938647 (.node (.node .nil
  373645598653945402465082914193500746592477797096031391760197592511097119452946811698640960727 .nil)
  373645598653945402465082914193500747859326619298823290346347256693397621275679345420913482967 .nil))
  373645598653945402465082914193500747862558397522418807746426519967975466102593900640842934487 (.node (.node (.node .nil
  373645598653945402465082914193526399744601681277988297092135093491222778179447440636853230807 .nil)
  373645598653945402465082914193526464084453628804829533183613048352811477428231589534852324567 .nil)
  373645598653945402465082914193526464087684294077082965321868537724928903453378626169279225047 (.node (.node .nil
  373645598653945402465082914193526960692422576554377732795664719561435797836317746238520420567 .nil)
  373645598653945402465082914193526960692422597578594675302902187384018654702116014844287772887 .nil)))))))))
  373645598653945402465082914203582499720245783238239284878769601316915927453185415705648556247 (.node (.node (.node (.node (.node (.node (.node
  (.node (.node (.node .nil 373645598653945402465082914203582499720245783292009357902492535558251387228130371501426338007 .nil)
  373645598653945402465082914203582499720672747761335395393555030917065170883011156808477305047 (.node .nil
  373645598653945402465082914203582499720673815939399815813921783691486633506615349437316851927 .nil))
  373645598653945402465082914203607720938978548494975079486690071498549385020611000288638789847 (.node (.node .nil
  373645598653945402465082914203607720942210323933041867511092517874250266502595707508313680087 .nil)
  373645598653945402465082914203607722208631110649162633063485484344718580256002743789742057687 .nil))
  373645598653945402465082914203607722208631110649162982983265157677016589779767418306582669527 (.node (.node (.node .nil
  373645598653945402465082914203607722208631113427721847297857326711373100177672294404987676887 .nil)
  373645598653945402465082914203607722208631113434673235159818621268021205273612941558469486807 (.node .nil
  373645598654221488023580117350427762249350406570719651869882056259561396296431731941512590545 .nil))
  373645598654221488023580117350427762249350406570719651870177200070758602449543594761883014353 (.node (.node .nil
  373645598654221488023580117350427762249350406570719651987849795834785141517402620271683253457 .nil)
  373645598654221488023580117350427762249350406570719651987849810616271506660559544856781837521 .nil)))
  373645598654221488023580117350427762249350406624471992771629163761908713426956883509918840017 (.node (.node (.node (.node .nil
  373645598654221488023580117350427762249777329098842148927293677803230226927607724878057977041 .nil)
  373645598654221488023580117350427762249778439218110109781311304392796642574916709877403104465 (.node .nil
  373645598654221488023580117350427762249778442057408562378893325452117484908541922043368649937 .nil))
  373645598654221488023580117350427762249778442057408911410863447574552544840476075885990040785 (.node (.node .nil
  373645598654221488023580117350622365533548385246110562402693482247099679068665614370318595281 .nil)
  373645598654221488023580117350622365533548385253198025717833956677096705888684815083396412625 .nil))
  373645598654221488023580117350622365533548385253216502144232950204883800573027677291820430545 (.node (.node (.node .nil
  373645598654221488023580117350622365533548385253216502146504347307170843924570389657131472081 .nil)
  373645598654221488023580117350622862141089300348113007495353832377348753586735019205730251985 (.node .nil
  373645598654221488023580117350622862141089300348113007495648976188545959739846882026100675793 .nil))
  373645598654221488023580117350622862141089300348113007613321571952572498807705907535900914897 (.node (.node .nil
  373645598654221488023580117350622862141089300348113007613321586734058863950862832120999498961 .nil)
  373645598654221488023580117350622863410759458568648241254286263639057220045425588211131626705 .nil))))
  373645598654221488023581666552940387589172960025848609884672118928595536288013461458929857745 (.node (.node (.node (.node (.node .nil
  373645598654221488023581666552940387589172960025848609884967262739792742441125324279300281553 .nil)
  373645598654221488023581666552940387589172960025848610002639858503819281508984349789100520657 (.node .nil
  373645598654221488023581666552940387589172960025848610002639873285305646652141274374199104721 .nil))
  373645598654221488023581670428728777058907241012447058979208002605812729056638585372265952465 (.node (.node .nil
  373645598654221488023581670428728777058907241012447058979503146417009935209750448192636376273 .nil)
  373645598654221488023581670428728777058907241012447059097175742181036474277609473702436615377 .nil))
  373645598654221488023581670428728777058907241012447059097175756962522839420766398287535199441 (.node (.node (.node .nil
  373645598654221488023581700408778930647274430484148918023200152013290032817131906526037685457 .nil)
  373645598654221488023593392694542062094927162811675023091540192285170804119415131515344114897 (.node .nil
  373645598654221488023593392694567284582884457521437795103521492628020640237131503763391239377 .nil))
  373645598654221488023593422608362704163212283825626188473469940755198054108991809098183619793 (.node (.node .nil
  373645598654221488023593422608362704327352797916725663710168269454830647623647927098315388113 .nil)
  373645598654221488023593422608388423085750523682626958017197005539323537925627304931152901329 .nil)))
  373645598654221488023593422608388423085751591860691378437563758313745000549231497559992448209 (.node (.node (.node (.node .nil
  373645598654222194366810609429153644770227907432900561630025224023546576696911373462640650455 .nil)
  373645598654222194366810609429153644770227907432900561630025225944255468807009725138132765527 (.node .nil
  373645598654222194366810609429153644770227907432900561630025991722809743240442851042869787863 .nil))
  373645598654222194366810609429153644770227907432900561630025991722905936794984859300656810839 (.node (.node .nil
  373645598654222194366810609429153644770227907432900911434409476334481488890509942581963122903 .nil)
  373645598654222194366810609429153644770227910211186484959478169486514764879118208999870818519 .nil))
  373645598654222194366810609429153644770227910218410813806578687614551192190756896714527467735 (.node (.node (.node .nil
  373645598654222194366810609429153644770227910218429291123664000908628265030474290672853204183 .nil)
  373645598654222194366810609429153644770227910218429291125935398048635829815068808153550326615 (.node .nil
  373645598654222194366810609429153646036648696934531883155630003356545766736756569695215806679 .nil))
  373645598654222194366810609429153646036648696934531929278751327417317515467928607512796457175 (.node (.node .nil
  373645598654222194366810609429153646036648696934531929398990462146294554898730124737795210455 .nil)
  373645598654222194366810609429153646036648696934531929398990476927877113513912285443701377879 .nil)))))
  373645598654222194366810609429153646039880472372598717303153773793018396949913314732471347415 (.node (.node (.node (.node (.node (.node .nil
  373645598654222194366810609429153646039880472372598717303153775713727289060011666407963462487 .nil)
  373645598654222194366810609429153646039880472372598717303154541492281563493444792312700484823 (.node .nil
  373645598654222194366810609429153646039880472372598717303154541492377757047986800570487507799 .nil))
  373645598654222194366810609429153646039888735011591718495585045479498390367151306002833991895 (.node (.node .nil
  373645598654222194366810609439235397897995893575090372704564574750214300003215983402050775255 .nil)
  373645598654222194366810609439235397897995893575090372704564576670923192113314335077542890327 .nil))
  373645598654222194366810609439235397897995893575090372704565342449477466546747460982279912663 (.node (.node (.node .nil
  373645598654222194366810609439235397897995893575090372704565342449573660101289469240066935639 .nil)
  373645598654222194366810609439260620385953188284853144716545875093064136120932355650097899735 (.node .nil
  373645598654222194366810609439260620385953188284853144716545877013773028231030707325590014807 .nil))
  373645598654222194366810609439260620385953188284853144716546642792327302664463833230327037143 (.node (.node .nil
  373645598654222194366810609439260620385953188284853144716546642792423496219005841488114060119 .nil)
  373645598654222194366810609439455721711921459104234858728019245512612029429083649989182875863 .nil)))
  373645598654222194366810609515545669670659014112124328780244023860437622155885648396259284823 (.node (.node (.node (.node .nil
  373645598654222194366810609515545669834799528203223804016942352560070215670541766396391053143 .nil)
  373645598654222194366810609515740339994495880815587820236703454369525437306148491851314358487 (.node .nil
  373645598654222194366810609515740339994496948993652240657070207143946899929752684480153905367 .nil))
  373645598654222194366810609515740340161867044772271604342086261839490973316429472663318685911 (.node (.node .nil
  373645598654222194366810609515740340161867044779222992204047556396139078412370119816800495831 .nil)
  373645598654222194367417896824210249866416937145502338661710613670977658171174296689719240919 .nil))
  373645598654222194367417896824210249866416937145502338661710613675973586795388480917302262999 (.node (.node (.node .nil
  373645598654222194367417896824210249866416937145502338663981992089932443793673846857750682839 .nil)
  373645598654222194367417896824210249866416937145502338663987788413749760277129652301147531479 (.node .nil
  373645598654222194367417896824210249866416937145520418927246649749057655945244369579707342039 .nil))
  373645598654222194367417896824210249866416937145520418927246649786765464467107703026906425559 (.node (.node .nil
  373645598654222194367417896824210249866416937145520465941048497322734680015038141477849524439 .nil)
  373645598654222194367417896824210249866416937145520466061293428375637696922170225707491441879 .nil))))
  373645598654222194367417896824210249866425178638561881764334036201537547338165663040509451479 (.node (.node (.node (.node (.node .nil
  373645598654222194367417896824210249866425178638561881764334036239245355860028996487708534999 .nil)
  373645598654222194367417896824210249866425178638561881764634191907281501432697952309994973399 (.node .nil
  373645598654222194367417896824210249866425178638561881764634974388114514304835444990043405527 .nil))
  373645598654222194367417896824210249866425199670003456022677874243068515312861699086775609559 (.node (.node .nil
  373645598654222194367417896824210249866425199670003456022677874248064443937075883314358631639 .nil)
  373645598654222194367417896824210249866425199723655139707477331904540195462179937705978371287 .nil))
  373645598654222194367417896824210249866425199723792006247795540211231108561390529798952577239 (.node (.node (.node .nil
  373645598654222194367417896824210315475493414186228482649964691004320058913855121766574844119 .nil)
  373645598654222194367417896824210315475493414186228482649964691009315987538069305994157866199 (.node .nil
  373645598654222194367417896824210315639633928277327957886663019703952652428511239766706612439 .nil))
  373645598654222194367417896824210315639633928277327957886663019708948581052725423994289634519 (.node (.node .nil
  373645598654222194367417896824210316906482750480119856472812683891249082875457957716562156759 .nil)
  373645598654222194367417896824210316909714528703715373872891947165826927702372512936491608279 .nil)))
  373645598654222194367419416133258987778701656711439891392752754327254578078520688030480197847 (.node (.node (.node (.node .nil
  373645598654222194367419416133258987778701656765209964416475688568590037853465643826257979607 .nil)
  373645598654222194367419416133258987779128621234536001907538183927403821508346429133308946647 (.node .nil
  373645598654222194367419416133258987779129689412600422327904936701825284131950621762148493527 .nil))
  373645598654222194367419420008657738242613445679300676457462923646722387202080840565106796759 (.node (.node .nil
  373645598654222194367419420008658234850162602281551088863816294527767809301280283225865447639 .nil)
  373645598654222194367419420008852839400355531508114287448196217183656913988432080336086231255 .nil))
  373645598654222194367419420008852839400355531508114637367975890515954923512196754852926843095 (.node (.node (.node .nil
  373645598654222194367419420008852839400355534286673501682568059550311433910101630951331850455 .nil)
  373645598654222194367419420008852839400355534293624889544529354106959539006042278104813660375 .nil)
  380164703385978490656433378345824642329466658740462052945835157058351099009774710124167424215 (.node (.node .nil
  380164703385978490656433378345824642329466658740462099187218615466687556168053736386249903137 .nil)
  380164703385978490656433378345824642329466658740479831429438588829295434182267538456511696935 .nil))))))
  380164703385978490656433378345824642329466658740479831429438588829391627738407010301602188321 (.node (.node (.node (.node (.node (.node (.node .nil
  380164703385978490656433378345824642329466658747431219291394089043288125883153003193949395799 .nil)
  380164703385978490656433378345824642329466658747431219291394089043301116073269181537101827105 (.node .nil
  380164703385978490656433378345824642329466658747431219291399883385943539278208185609993506855 .nil))
  380164703385978490656433378345824642329466658747431219291399898162542881639866006423865674785 (.node (.node .nil
  380164703385978490656433378345824642329466661525990083605991284683316329813709266019907681495 .nil)
  380164703385978490656433378345824642329466661525990083605991286641745775244277399390964960289 .nil))
  380164703385978490656433378345824642329466661525990083605992052420300049676113061708398514215 (.node (.node (.node .nil
  380164703385978490656433378345824642329466661525990083605992052420396243232252533553489005601 .nil)
  380164703385978490656433378345824642329466661525990432635684232105586586547054517731767786327 (.node .nil
  380164703385978490656433378345824642329466661525990432635684232105599576737170696074920217633 .nil))
  380164703385978490656433378345824642329466661525990433525771725752598059199877736225239126055 (.node (.node .nil
  380164703385978490656433378345824642329466661525990433528042355198229512737664569975734815777 .nil)
  380164703385978490656433378345824643595887448242111199078164692223066372953284772506667503655 .nil)))
  380164703385978490656433378345824643595887448242111199078164692223162566509424244351757995041 (.node (.node (.node (.node .nil
  380164703385978490656433378345824643598699429854911141399262053459206919383269444406974474455 .nil)
  380164703385978490656433378345824643598700521735334939693133254381733031646376589710783958049 (.node .nil
  380164703385978490656433378345824643599119223680177987102567138598767254435269479726342393895 .nil))
  380164703385978490656433378345824643599119223680177987102567138598863447991408951571432885281 (.node (.node .nil
  380164703385978490656433378345825074266096729318983989948514219897629817274003512030065317073 .nil)
  380164703385978490656433378345825074266096729372635627507921724118147545089932895159736612049 .nil))
  380164703385978490656433378345825074266096729372635673635585057959205995808185332360075293905 (.node (.node (.node .nil
  380164703385978490656433378345825074266104970865813909751581478437315276197806917478528964439 .nil)
  380164703385978490656433378345825074266104970865814258900618073915138452203428376827388356823 (.node .nil
  380164703385978490656433378345825074266104970865814258900918259146121903489680968536814119127 .nil))
  380164703385978490656433378345825138769645722342533715135614668239238630212158903598422445089 (.node (.node .nil
  380164703385978490656433378345825139868720090788023458499692731546922671224225703980740241623 .nil)
  380164703385978490656433378345825139868720090788023458499992916777906122510478295690166003927 .nil))))
  380164703385978490656433378345825140036501715088968028302236642075004487677757719645279767585 (.node (.node (.node (.node (.node .nil
  380164703385978490656433378345825140036502804284179659263972722496001067927151418470088854561 .nil)
  380164703385978490656433382231499750805208089877152925526400236781496284116903983966357042385 (.node .nil
  380164703385978490656433382231499750805208089877152925528671615233259388417652324558252402903 .nil))
  380164703385978490656433382231499750805208089877171005791936272892384600569222847280209062103 (.node (.node .nil
  380164703385978490656433382231499750805208089877171052033319731300721057727501873542291541025 .nil)
  380164703385978490656433382231499750973007310283802145677098442150869872488115884683549005009 .nil))
  380164703385978490656433382231499750973007310283802145677098442150869873114114095626815187799 (.node (.node (.node .nil
  380164703385978490656433382231499750973007310283802145677098442155852843977726169011366304599 .nil)
  380164703385978490656433382231499750973007310283802145677098442155865834167842347354518735905 (.node .nil
  380164703385978490656433382231499750973007310283802495719088487815078831688302982335238884385 .nil))
  380164703385978490656433382231499750973007310283938966209386314150396614573455220376350674983 (.node (.node .nil
  380164703385978490656433382231499750973007310283939315123389477230087048205228650014517087265 .nil)
  380164703385978490656433382231499750973007310283939315123689632898026967959508730984613563425 .nil)))
  380164703385978490656433382231499816582075524800008695995653830640818339855444094271713522897 (.node (.node (.node (.node .nil
  380164703385978490656433382231499816582075524800008695995653830640914533246126867177329016023 .nil)
  380164703385978490656433382231499816582075524800008695995654596344149319331771430840140971223 (.node .nil
  380164703385978490656433382231499816582075524800008695995654598302578764762339564211198250017 .nil))
  380164703385978490656433382231499816582083766307362997197328753405787463155912346391652390097 (.node (.node .nil
  380164703385978490656433382231499816582083766307362997197328753405787463781910557334918572887 .nil)
  380164703385978490656433382231499816582083766307362997197328753410770434645522630719469689687 .nil))
  380164703385978490656433382231499816582083766307362997197328753410783424835638809062622120993 (.node (.node (.node .nil
  380164703385978490656433382231499816582083787324665110197640391483739015316136045453206278183 .nil)
  380164703385978490656433382231499816582083787378280585451733395294293885449563063213097077793 (.node .nil
  380164703385978490656433382231499816582083787378280631575154138812273140477412196906446900257 .nil))
  380164703385978490656434927405848922397819388031129222230153887132905999345260450108424245287 (.node (.node .nil
  380164703385978490656434927405848922397819388031129222230153887133002192901399921953514736673 .nil)
  380164703385978490656434927405848922397819406323451690484967414008354958429950575096766261463 .nil)))))
  380164703385978490656434927405848922397819406330557326312782061227209215330541462733372541985 (.node (.node (.node (.node (.node (.node .nil
  380164703385978490656434927405848922397819409055346164737391354955488856211058718714191597607 .nil)
  380164703385978490656434927405848922397819409055346164737391354955585049767198190559282088993 (.node .nil
  380164703385978490656434931433817276256095455907590629214560875930062375694962649303473580247 .nil))
  380164703385978490656434931433817276256095455907590675455944334338398832853241675565556059169 (.node (.node .nil
  380164703385978490656434931433817276256095455907608407698164307701006710867455477635817852967 .nil)
  380164703385978490656434931433817276256095455907608407698164307701102904423594949480908344353 .nil))
  380164703385978490656434931434011879874590215054702620718096340612244281306376659637140993233 (.node (.node (.node .nil
  380164703385978490656434931434011879874590215054702620720367719064007385607125000229036353751 .nil)
  380164703385978490656434931434011879874590215054720700983632376723132597758695522950993012951 (.node .nil
  380164703385978490656434931434011879874590215054720747225015835131469054916974549213075491873 .nil))
  380164703385978490656434931434037664409863617243725825319850394194890459883927950964125390033 (.node (.node .nil
  380164703385978490656434931434037664409863617243725825319850394194890460509926161907391572823 .nil)
  380164703385978490656434931434037664409863617243725825319850394199873431373538235291942689623 .nil)))
  380164703385978490656434931434037664409863617243725825319850394199886421563654413635095120929 (.node (.node (.node (.node .nil
  380164703385978490656434931434037664409863617297514632443221531212098099065306302117910268961 .nil)
  380164703385978490656434931434037664409863638268116053568701897557921452089335661756489060391 (.node .nil
  380164703385978490656434931434037664409863638321731574950458999034680955931104570723677621281 .nil))
  380164703385978490656434931434037664409863638321731621073579559270210295853798279682109230113 (.node (.node .nil
  380164703385978490656434931444119416267970794106807835217176445993497288270720542339232578775 .nil)
  380164703385978490656434931444119416267970794106807835217176447951926733701288675710289857569 .nil))
  380164703385978490656434931444119416267970794106807835217177213730481008133124338027723411495 (.node (.node (.node .nil
  380164703385978490656434931444119416267970794106807835217177213730577201689263809872813902881 .nil)
  380164703385978490656434931444119416267979035614024922512540221525500533145469359081826366673 (.node .nil
  380164703385978490656434931444119416267979035614024922512540221525596726536152131987441859799 .nil))
  380164703385978490656434931444119416267979035614024922512540987228831512621796695650253814999 (.node (.node .nil
  380164703385978490656434931444119416267979035614024922512540989187260958052364829021311093793 .nil)
  380164703385978490656434931444119417534402021644780531253627312225973203693488505989844343639 .nil))))
  380164703385978490656434931444119417534402021644780531253627312225986193883604684332996774945 (.node (.node (.node (.node (.node .nil
  380164703385978490656434931444119417534402021698413829990399069851542836159419864962691552465 .nil)
  380164703385978490656434931444119417534402021698413829990399069851542836785418075905957735255 (.node .nil
  380164703385978490656434931444119417534402021698413829990399069856525807649030149290508852055 .nil))
  380164703385978490656434931444119417534402021698413829990399069856538797839146327633661283361 (.node (.node .nil
  380164703385978490656434931444119417537631624410305515613548302820735373902746975011943927847 .nil)
  380164703385978490656434931444119417537631624410305864643241248284589175395640271695899185191 .nil))
  380164703385978490656434931444119417537639863178695309590284417314119269334374317319342115873 (.node (.node (.node .nil
  380164703385978490656434931444119417537639863185782818913144983673250728906326247691158572065 .nil)
  380164703385978490656434931444119417537639863185782818915416365994064086971985692279980182561 (.node .nil
  380164703385979198325458241159359467892128843186490556616899103575035908167188096059993352407 .nil))
  380164703385979198325458241159359467892128843186490602858282561983372365325467122322075831329 (.node (.node .nil
  380164703385979198325458241159359467892128843186508335100502535345980243339680924392337625127 .nil)
  380164703385979198325458241159359467892128843186508335100502535346076436895820396237428116513 .nil)))
  380164703385979198325458241159359467892128843193459722962458035559972935040566389129775323991 (.node (.node (.node (.node .nil
  380164703385979198325458241159359467892128843193459722962458035559985925230682567472927755297 .nil)
  380164703385979198325458241159359467892128843193459722962463829902628348435621571545819435047 (.node .nil
  380164703385979198325458241159359467892128843193459722962463844679227690797279392359691602977 .nil))
  380164703385979198325458241159359467892128845972018587277055231200001138971122651955733609687 (.node (.node .nil
  380164703385979198325458241159359467892128845972018587277055233158430584401690785326790888481 .nil)
  380164703385979198325458241159359467892128845972018587277055998936984858833526447644224442407 .nil))
  380164703385979198325458241159359467892128845972018587277055998937081052389665919489314933793 (.node (.node (.node .nil
  380164703385979198325458241159359467892128845972018936306748178622271395704467903667593714519 .nil)
  380164703385979198325458241159359467892128845972018936306748178622284385894584082010746145825 .nil)
  380164703385979198325458241159359467892128845972018937196835672269282868357291122161065054247 (.node (.node .nil
  380164703385979198325458241159359467892128845972018937199106301714914321895077955911560743969 .nil)
  380164703385979198325458271073180539354927988625552198615012172449923821414995358985280475175 .nil)))))))
  380164703385979198325458271073180539354927988625552198615012172450020014971134830830370966561 (.node (.node (.node (.node (.node (.node (.node
  (.node .nil 380164703385979198325458271139578873435719730502391551051564882940791741040920517423909169367 .nil)
  380164703385979198325458271139604655598598162287838191650308588579830250582813581508172860449 (.node .nil
  380164703385979198325458271149491307564966427188453106307500326209755817218339362586740052007 .nil))
  380164703385979198325458271149491307564966427188453106307500326209852010774478834431830543393 (.node (.node .nil
  380164703385979198325468440327286242284253728874820017999522419776790779397338345082101945553 .nil)
  380164703385979198325468440327286243551109724460516574442337901914223516061544207960001754321 .nil))
  380164703385979198325468440327286243551110813655746682485518943555139928242444965080835306705 (.node (.node (.node .nil
  380164703385979198325468440327480846838111445933671627432361399471843562489222909838319277911 .nil)
  380164703385979198325468440327480846838119690258924033308535668106540937494016903264644753623 (.node .nil
  380164703385979198325468440327480846838119690266012194687310418087288808930476847693770123479 .nil))
  380164703385979198325469963425393008264983659872100091326569097079910995158410320538653183009 (.node (.node .nil
  380164703385979198325469989377423870219302220032267512667480119056936646405510428141648734423 .nil)
  380164703385979198325469989377423870219302220039355674046254869037684517841970372570774104279 .nil)))
  380164703385979198325469993339188429278668270035194145179156628362550345018269553247569071137 (.node (.node (.node (.node .nil
  380164703385979198325469993339214148037075323664380652064672194880285218314913172542127623201 .nil)
  380164703386255283883957027374637651946505682641818520578807031550134924411391752524977157329 (.node .nil
  380164703386255283883957027374637651946505682641818520581078410001898028712140093116872517847 .nil))
  380164703386255283883957027374637651946505682641836600844343067661023240863710615838829177047 (.node (.node .nil
  380164703386255283883957027374637651946505682641836647085726526069359698021989642100911655969 .nil)
  380164703386255283883957027374637651946506774576031217239078949832478629004989537591475360977 .nil))
  380164703386255283883957027374637651946506774576031217239078949832478629630987748534741543767 (.node (.node (.node .nil
  380164703386255283883957027374637651946506774576031217239078949837461600494599821919292660567 .nil)
  380164703386255283883957027374637651946506774576031217239078949837474590684716000262445091873 (.node .nil
  380164703386255283883957027374637651946506774576031217241356905102759410921602264092630109217 .nil))
  380164703386255283883957027374637651946506774576031218129466613933982871576883814178620100647 (.node (.node .nil
  380164703386255283883957027374637651946506774576031218131737243379710518586484845085365423137 .nil)
  380164703386255283883957027374637651946506774576031218131737245333035097122417611829403208737 .nil))))
  380164703386255283883957027374637651946933739045357254612174454664711701540953767469553628369 (.node (.node (.node (.node (.node .nil
  380164703386255283883957027374637651946933739045357254612174454664807894931636540375169121495 .nil)
  380164703386255283883957027374637651946933739045357254612175220368042681017281104037981076695 (.node .nil
  380164703386255283883957027374637651946933739045357254612175222326472126447849237409038355489 .nil))
  380164703386255283883957027374637651946933739098990554239622474863138086767319476916637455569 (.node (.node .nil
  380164703386255283883957027374637651946933739098990554239622474863138087393317687859903638359 .nil)
  380164703386255283883957027374637651946933739098990554239622474868121058256929761244454755159 .nil))
  380164703386255283883957027374637651946933739098990554239622474868134048447045939587607186465 (.node (.node (.node .nil
  380164703386255283883957027374637651946933739099127328644252043534132115006709555281448849447 .nil)
  380164703386255283883957027374637651946933739099127677557955019462059437050388194825143110689 (.node .nil
  380164703386255283883957027374637651946933739099127677558255177083516109240887246249084603425 .nil))
  380164703386255990227185936405314441741491904768306607598491829119672471493677845408333293783 (.node (.node .nil
  380164703386255990227185936405314441741491904768306653839875287528008928651956871670415772705 .nil)
  380164703386255990227185936405314441741491904768324386082095260890616806666170673740677566503 .nil)))
  380164703386255990227185936405314441741491904768324386082095260890713000222310145585768057889 (.node (.node (.node (.node .nil
  380164703386255990227185936405314441741491904775275773944050761104609498367056138478115265367 .nil)
  380164703386255990227185936405314441741491904775275773944050761104622488557172316821267696673 (.node .nil
  380164703386255990227185936405314441741491904775275773944056555447264911762111320894159376423 .nil))
  380164703386255990227185936405314441741491904775275773944056570223864254123769141708031544353 (.node (.node .nil
  380164703386255990227185936405314441741491907553834638258647956744637702297612401304073551063 .nil)
  380164703386255990227185936405314441741491907553834638258647958703067147728180534675130829857 .nil))
  380164703386255990227185936405314441741491907553834638258648724481621422160016196992564383783 (.node (.node (.node .nil
  380164703386255990227185936405314441741491907553834638258648724481717615716155668837654875169 .nil)
  380164703386255990227185936405314441741491907553834987288340904166907959030957653015933655895 (.node .nil
  380164703386255990227185936405314441741491907553834987288340904166920949221073831359086087201 .nil))
  380164703386255990227185936405314441741491907553834988178428397813919431683780871509404995623 (.node (.node .nil
  380164703386255990227185936405314441741491907553834988180699027259550885221567705259900685345 .nil)
  380164703386255990227793223790069036939284974367787122743364530772887369766966708355642026199 .nil)))))
  380164703386255990227793223790069036939284974367787168984747989181223826925245734617724505121 (.node (.node (.node (.node (.node (.node .nil
  380164703386255990227793223790069036939284974367804901226967962543831704939459536687986298919 .nil)
  380164703386255990227793223790069036939284974367804901226967962543927898495599008533076790305 (.node .nil
  380164703386255990227793223790069036939284974374756289088923462757824396640345001425423997783 .nil))
  380164703386255990227793223790069036939284974374756289088923462757837386830461179768576429089 (.node (.node .nil
  380164703386255990227793223790069036939284974374756289088929257100479810035400183841468108839 .nil)
  380164703386255990227793223790069036939284974374756289088929271877079152397058004655340276769 .nil))
  380164703386255990227793223790069036939284977153315153403520658397852600570901264251382283479 (.node (.node (.node .nil
  380164703386255990227793223790069036939284977153315153403520660356282046001469397622439562273 .nil)
  380164703386255990227793223790069036939284977153315153403521426134836320433305059939873116199 (.node .nil
  380164703386255990227793223790069036939284977153315153403521426134932513989444531784963607585 .nil))
  380164703386255990227793223790069036939284977153315502433213605820122857304246515963242388311 (.node (.node .nil
  380164703386255990227793223790069036939284977153315502433213605820135847494362694306394819617 .nil)
  380164703386255990227793223790069036939284977153315503323301099467134329957069734456713728039 .nil)))
  380164703386255990227793223790069036939284977153315503325571728912765783494856568207209417761 (.node (.node (.node (.node .nil
  380164703386255990232389871297925441928509483112898699326683790449348160132935410752333467687 .nil)
  380164703386255990232389871297925441928509483112898699326683790449444353689074882597423959073 (.node .nil
  380164703386255990232400074331339094865874182531040115790675654472281813746421698632037820631 .nil))
  380164703386255990232400078293129371417224300125309834097699602740011079881017939975660915745 (.node (.node .nil
  380164703386255990232401597515617132696268679074401273196415040235756651196474381614127435815 .nil)
  380164703386255990232401597515617132696268679074401273196415040235852844752613853459217927201 .nil))
  380164703386255991795038134196465835826838229100613855596466685268857149914185911837537850577 (.node (.node (.node .nil
  380164703386255991795038134196465835994208322100673959809528497287364592747522127301078930641 .nil)
  380164703386255991795038134196660506153904674713037975911617752371469663946466173687570379985 (.node .nil
  380164703386255991795038134196660506153905763908249606873353832792466244195859872512379466961 .nil))
  380164703386255991795038134196660506321275859686868970558369121714330598411350039714077619409 (.node (.node .nil
  380164703386255991795038134196660506321275859693957131816900474120101767953859992557286339793 .nil)
  380164703386255991795038164100179999986433125611100634882346446498283926768108527317239322455 .nil))))
  380164703386255991795038164100179999986434214806312265844082526919280507017502226142048409431 (.node (.node (.node (.node (.node .nil
  380164703386255991795038164100180001253290210331305838600330588203999661178992223435144947927 .nil)
  380164703386255991795038164100180001253290210338393999858861940609770830721502176278353668311 (.node .nil
  380164703386255991795038164100180001253291299533623712864925071956663543812103849345351805143 .nil))
  380164703386255991795038164100180001253291299533623758992588405797721994530356286545690486999 (.node (.node .nil
  380164703386255992029083477722700811904121369189127280318392247342553751103527806280215317537 .nil)
  380164703386255992029083481674748036723175915426825111173473104750285251096358093718150990881 .nil))
  380164703386255992033071374544924847285545301383718051440441429810213836919998923374850599127 (.node (.node (.node .nil
  380164703386255992033071374544924847285545301390806212698972782215985006462508876218059319511 .nil)
  380164703386255992033071374544924847285546390586035925705035913562877719553110549285057456343 (.node .nil
  380164703386255992033071374544924847285546390586035971832699247403936170271362986485396138199 .nil))
  380164703386255992033680155134102428218277119453562733386507082822324009713004928589408259105 (.node (.node .nil
  380164703386255992033680155134128146976247880689416529316789094750019551489217918165935213601 .nil)
  380164703386255992033680159086175437404379972145886842653836343833665222399238366136783359009 .nil)))
  380164703386255992033680159086175437571750065145946946866898155852172665232574581600324439073 (.node (.node (.node (.node .nil
  380181382003691256725530964243441230342038834415300349226036157898756206400389122547457321175 .nil)
  380181382003691256725530964243441230342038834415300349226331286895671441018675480757786234273 (.node .nil
  380181382003691256725530964243441230342038834415300349341727490430483515466028249208859078695 .nil))
  380181382003691256725530964243441230342038834415300349341727490430483516092027536888525479329 (.node (.node .nil
  380181382003691256725530964243441230342038834415300394579309890703157752717025057349230828375 .nil)
  380181382003691256725530964243441230342038834415300394579309890703157752799963910158590266785 .nil))
  380181382003691256725530964243441230342038834415300394579309890740865626097699271313237159975 (.node (.node (.node .nil
  380181382003691256725530964243441230342038834415300394579309890740961787848938078453212863905 .nil)
  380181382003691256725530964243441230342038834415318476621065374077244576882163129948952214743 .nil)
  380181382003691256725530964243441230342038834415318476621065374077257076289259848102531943841 (.node (.node .nil
  380181382003691256725530964243441230342038834415318476621065374082240537309892093996989362215 .nil)
  380181382003691256725530964243441230342038834415318476621065374082240537935891381676655762849 .nil))))))
  380181382003691256725530964243441230342038834415318476623336756398070434271980439881994115927 (.node (.node (.node (.node (.node (.node (.node .nil
  380181382003691256725530964243441230342038834415318476623336756398070434354919292691353554337 .nil)
  380181382003691256725530964243441230342038834415318476623342548825012639415847449608417652775 (.node .nil
  380181382003691256725530964243441230342038834415318476623342563601599514880845993114835312033 .nil))
  380181382003691256725530964243441230342047075908359892444651068666787358727551904829134811175 (.node (.node .nil
  380181382003691256725530964243441230342047075908359892444651068666787359353551192508801211809 .nil)
  380181382003691256725530964243441230342047094208043905114010529612194415870517847863845316823 .nil))
  380181382003691256725530964243441230342047094215012675293858527593810986035566088335705099681 (.node (.node (.node .nil
  380181382003691256725530964243441230342047096939801466702694751002574372607715651605915447335 .nil)
  380181382003691256725530964243441230342047096939801466702694751002574373233714939285581847969 (.node .nil
  380181382003691256725530964243441230345269520711788805023498797802928655142178995602949787041 .nil))
  380181382003691256725530964243441230345276694195009630001971483187264542131380561750277089495 (.node (.node .nil
  380181382003691256725530964243441230345276694195009630002271668418247993417633153459702851799 .nil)
  380181382003691256725530964243441230345277765037022733818227339439055762114908233412820979105 .nil)))
  380181382003691256725530964243441230345277765044110895076758691844826931657418186256029699489 (.node (.node (.node (.node .nil
  380181382003691256725530964243466517169848052849228508775135791522219307930360745361760970967 .nil)
  380181382003691256725530964243466517169848052849228508775430920519134542548647103572089884065 (.node .nil
  380181382003691256725530964243466517169849144837074761841169439487213306162972674052985887575 .nil))
  380181382003691256725530964243466517169849144837074761841169439487213306245911526862345325985 (.node (.node .nil
  380181382003691256725530964243466517169849144837074762731557118370178701724230503397751205927 .nil)
  380181382003691256725530964243466517169849144837074762733827749769327153087942136936166325665 .nil))
  380181382003691256725530964243466517170276109306400799211993565867850449649952059445547515095 (.node (.node (.node .nil
  380181382003691256725530964243466517170276109306400799211993565867862949057048777599127244193 .nil)
  380181382003691256725530964243466517170276109360034098841712964517872763925302613378147982167 (.node .nil
  380181382003691256725530964243466517170276109360034098841712964517872764008241466187507420577 .nil))
  380181382003691256725530964243466517170276109360170873246342547970327945154056244500579954727 (.node (.node .nil
  380181382003691256725530964243466517170276109360171222160345681519808165206411771355847720353 .nil)
  380181382003691256725530964253522056197672348789059269123789656684767561244903997548819329063 .nil))))
  380181382003691256725530964253522056197672348789059269123789656684767561870903285228485729697 (.node (.node (.node (.node (.node .nil
  380181382003691256725530964253522056197672348789178311055106702148957835432956107117281536215 .nil)
  380181382003691256725530964253522056197672348789178356405808103609057533543008847634389388705 (.node .nil
  380181382003691256725530964253522056197672348789196088528090646099775777761829665228097531943 .nil))
  380181382003691256725530964253522056197672348789196088528090646099775778387828952907763932577 (.node (.node .nil
  380181382003691256725530964253548269027963492297414358548820080780621000439830274593084008663 .nil)
  380181382003691256725530964253548269027963492297414358549115209777536235058116632803412921761 .nil))
  380181382003691256725530964253548269027963492297414358664511413312348309505469401254485766183 (.node (.node (.node .nil
  380181382003691256725530964253548269027963492297414358664511413312348310131468688934152166817 .nil)
  380181382003691256725530964253548270294386457303916513445684467178871684205852659360327133399 (.node .nil
  380181382003691256725530964253548270294386457303916513445979596175786918824139017570656046497 .nil))
  380181382003691256725530964253548270462184609593341421069613595255331043698032257378073615191 (.node (.node .nil
  380181382003691256725530964253548270462184609593341421069613595255331043780971110187433053601 .nil)
  380181382003691256725530964253548270462184609593478241601607093091540943529972354972885135399 .nil)))
  380181382003691256725530964253548270462184609593478590515910409923471078687483306563071114657 (.node (.node (.node (.node .nil
  380181382003691256725530964253548336071252824055914717886108658028991961962328015747033218263 .nil)
  380181382003691256725530964253548336071252824055914717886108658029004461369424733900612947361 (.node .nil
  380181382003691256725530964253548336071252824055914717886108658033987922390056979795070365735 .nil))
  380181382003691256725530964253548336071252824055914717886108658033987923016056267474736766369 (.node (.node .nil
  380181382003691256725530964253548336071252824109548016622880415659544565917869659047697726679 .nil)
  380181382003691256725530964253548336071252824109548016622880415659557065324966377201277455777 .nil))
  380181382003691256725530964253548336071261065616901923560150961046394832872935422402221742935 (.node (.node (.node .nil
  380181382003691256725530964253548336071261065616901923560150961046394832955874275211581181345 .nil)
  380181382003691256725530964253548336071261065616902272589843906510248634365828719086177000279 .nil)
  380181382003691256725530964253548336071261065616902272589843906510248634448767571895536438689 (.node (.node .nil
  380181382003691256725530964253548336071261086634204385587589788104069986206993735460919128103 .nil)
  380181382003691256725530964253548336071261086634204385589861170424883344272653180049740738599 .nil)))))
  380181382003691256725530964253548336071261086687819906967374901056230886062229847899805867425 (.node (.node (.node (.node (.node (.node .nil
  380181382003691256725530964253548336071261086687819906967374915837717251205386772484904451489 .nil)
  380181382003691256730136265581834175565549628499695171881333892331977498861923101966097574103 (.node .nil
  380181382003691256730136265581834175565549628499695171881629021328892733480209460176426487201 .nil))
  380181382003691256730136265581834175565549628499695171997025224863704807927562228627499331623 (.node (.node .nil
  380181382003691256730136265581834175565549628499695171997025224863704808553561516307165732257 .nil)
  380181382003691256730136265581834175565549628499695217234607625136379045178559036767871081303 .nil))
  380181382003691256730136265581834175565549628499695217234607625136379045261497889577230519713 (.node (.node (.node .nil
  380181382003691256730136265581834175565549628499695217234607625174086918559233250731877412903 .nil)
  380181382003691256730136265581834175565549628499695217234607625174183080310472057871853116833 (.node .nil
  380181382003691256730136265581834175565549628499713299276363108510465869343697109367592467671 .nil))
  380181382003691256730136265581834175565549628499713299276363108510478368750793827521172196769 (.node (.node .nil
  380181382003691256730136265581834175565549628499713299276363108515461829771426073415629615143 .nil)
  380181382003691256730136265581834175565549628499713299276363108515461830397425361095296015777 .nil)))
  380181382003691256730136265581834175565549628499713299278634490831291726733514419300634368855 (.node (.node (.node (.node .nil
  380181382003691256730136265581834175565549628499713299278634490831291726816453272109993807265 .nil)
  380181382003691256730136265581834175565549628499713299278640283258233931877381429027057905703 (.node .nil
  380181382003691256730136265581834175565549628499713299278640298034820807342379972533475564961 .nil))
  380181382003691256730136265582028845892180868081805744700218650191934607643683605881993506855 (.node (.node .nil
  380181382003691256730136265582028845892180868081805744700218650191934608269682893561659907489 .nil)
  380181382003691256730136265582029277996191472582692747157630980645201709637940786638873028823 .nil))
  380181382003691256730136265582029278160742428825855504474746420498682641707805106173271461281 (.node (.node (.node .nil
  380181382003691256730136265582029342500158078348612302520577956783938979728204400238535061543 .nil)
  380181382003691256730136265582029342500158078348612302520577956783938980354203687918201462177 (.node .nil
  380181382003691256730136265658119226283612238185872061780944855138601556227436090637681020321 .nil))
  380181382003691256730136265658288611052539623570846370099988651363335316096874587053236021463 (.node (.node .nil
  380181382003691256730136265658288611052539623577934531478763401344083187533334531482361391319 .nil)
  380181382003691256730136265658313896443317918661521290579192021602648324757149360233895546273 .nil))))
  380181382003691256730136265658313896610688014500843637950774731382209690691091576000889081249 (.node (.node (.node (.node (.node .nil
  380181382003691258526819668973560378698255105233604580370272273761356442448792482709276059863 .nil)
  380181382003691258526819668973560378698255105233604580370567402758271677067078840919604972961 (.node .nil
  380181382003691258526819668973560378698255105240710566122403573575273499889261960246583008087 .nil))
  380181382003691258526819668973560378698255105240710566122403573575273499972200813055942446497 (.node (.node .nil
  380181382003691258526819668973560378698255105240710566122409367955636477040875933873293963303 .nil)
  380181382003691258526819668973560378698255105240710566122409382732236064792239584021240544673 .nil))
  380181382003691258526819668973560378698255108019269430436994974920224615969725627162600291543 (.node (.node (.node .nil
  380181382003691258526819668973560378698255108019269430436994974920237115376822345316180020641 .nil)
  380181382003691258526819668973560378698255108019269779466693716637571960553163474784401398615 (.node .nil
  380181382003691258526819668973560378698255108019269779466693716637571960636102327593760837025 .nil))
  380181382003691258526819668973560378698255108019269780356781210322290996962545484488539582503 (.node (.node .nil
  380181382003691258526819668973560378698255108019269780359051839767922695890038147573109685665 .nil)
  380181382003691258531416342422833016901020847282634453795451588036407584220649456152825424087 .nil)))
  380181382003691258531416342422833016901020847282634453795746717033322818838935814363154337185 (.node (.node (.node (.node .nil
  380181382003691258531416342422833016901020847282634453911142920568134893286288582814227181607 .nil)
  380181382003691258531416342422833016901020847282634453911142920568134893912287870493893582241 (.node .nil
  380181382003691258531416342422833016901020847282634499148725320840809130537285390954598931287 .nil))
  380181382003691258531416342422833016901020847282634499148725320840809130620224243763958369697 (.node (.node .nil
  380181382003691258531416342422833016901020847282634499148725320878517003917959604918605262887 .nil)
  380181382003691258531416342422833016901020847282634499148725320878613165669198412058580966817 .nil))
  380181382003691258531416342422833016901020847282652581190480804214895954702423463554320317655 (.node (.node (.node .nil
  380181382003691258531416342422833016901020847282652581190480804214908454109520181707900046753 .nil)
  380181382003691258531416342422833016901020847282652581190480804219891915130152427602357465127 .nil)
  380181382003691258531416342422833016901020847282652581190480804219891915756151715282023865761 (.node (.node .nil
  380181382003691258531416342422833016901020847282652581192752186535721812092240773487362218839 .nil)
  380181382003691258531416342422833016901020847282652581192752186535721812175179626296721657249 .nil))))))))
  380181382003691258531416342422833016901020847282652581192757978962664017236107783213785755687 (.node (.node (.node (.node (.node (.node (.node
  (.node (.node .nil 380181382003691258531416342422833016901020847282652581192757993739250892701106326720203414945 .nil)
  380181382003691258531416346374880241720075393520332284650532445444139084213479743590761097431 (.node .nil
  380181382003691258531416346374880241720075393520332284650827574441054318831766101801090010529 .nil))
  380181382003691258531416346374880241720075393520332284766223777975866393279118870252162854951 (.node (.node .nil
  380181382003691258531416346374880241720075393520332284766223777975866393905118157931829255585 .nil)
  380181382003691258531416346374880241720075393520332330003806178248540630530115678392534604631 .nil))
  380181382003691258531416346374880241720075393520332330003806178248540630613054531201894043041 (.node (.node (.node .nil
  380181382003691258531416346374880241720075393520332330003806178286248503910789892356540936231 .nil)
  380181382003691258531416346374880241720075393520332330003806178286344665662028699496516640161 (.node .nil
  380181382003691258531416346374880241720075393520350412045561661622627454695253750992255990999 .nil))
  380181382003691258531416346374880241720075393520350412045561661622639954102350469145835720097 (.node (.node .nil
  380181382003691258531416346374880241720075393520350412045561661627623415122982715040293138471 .nil)
  380181382003691258531416346374880241720075393520350412045561661627623415748982002719959539105 .nil)))
  380181382003691258531416346374880241720075393520350412047833043943453312085071060925297892183 (.node (.node (.node (.node .nil
  380181382003691258531416346374880241720075393520350412047833043943453312168009913734657330593 .nil)
  380181382003691258531416346374880241720075393520350412047838836370395517228938070651721429031 (.node .nil
  380181382003691258531416346374880241720075393520350412047838851146982392693936614158139088289 .nil))
  380181382003691258531416376288506776604010402530306937865180590995362862956175262613900570663 (.node (.node .nil
  380181382003691258531416376288506776604010402530306937865180590995362863582174550293566971297 .nil)
  380181382003691258531416376354905606023545497250118244329471094531056521084789928142050027735 .nil))
  380181382003691258531416376354930891581685646665673792893910618951242513771719218810964528545 (.node (.node (.node .nil
  380181382003691258531416376364817543548062150234362289167853108509222884877321813133025816615 .nil)
  380181382003691258531416376364817543548062150234362289167853108509222885503321100812692217249 (.node .nil
  380181382003691258531428068640693526756095312541019116570544187598711033025879090413072403873 .nil))
  380181382003691258531428068640719245514066073776872912500826199526406574802092079989599358369 (.node (.node .nil
  380181382003691258531428094669060376705818940881346246429507549860753505517833494827239074007 .nil)
  380181382003691258531428094669060376705818940888434407688038902266524675060343447670447794391 .nil))))
  380181382003691258531428094669060376705820030083664120694102033613417388150945120737445931223 (.node (.node (.node (.node (.node .nil
  380181382003691258531428094669060376705820030083664166821765367454475838869197557937784613079 .nil)
  380181382003691258531428098554514665094393900081043223944119443448067289340036013811671354785 (.node .nil
  380181382003691258531428098554514665261763993081103328157181255466574732173372229275212434849 .nil))
  380181382003691258531428098554540384020161718847004622346538144830700901254425111020110204321 (.node (.node .nil
  380181382003691258531428098554540384020162808042216253308274225251697481503818809844919291297 .nil)
  380181382018030905950419321019815090881130579703822541193810994061474858726743044467613886679 .nil))
  380181382018030905950419321019815090881130579703822541194106123058390093345029402677942799777 (.node (.node (.node .nil
  380181382018030905950419321019815090881130579703822541309502326593202167792382171129015644199 .nil)
  380181382018030905950419321019815090881130579703822541309502326593202168418381458808682044833 (.node .nil
  380181382018030905950419321019815090881130579703822586547084726865876405043378979269387393879 .nil))
  380181382018030905950419321019815090881130579703822586547084726865876405126317832078746832289 (.node (.node .nil
  380181382018030905950419321019815090881130579703822586547084726903584278424053193233393725479 .nil)
  380181382018030905950419321019815090881130579703822586547084726903680440175292000373369429409 .nil)))
  380181382018030905950419321019815090881130579703840668588840210239963229208517051869108780247 (.node (.node (.node (.node .nil
  380181382018030905950419321019815090881130579703840668588840210239975728615613770022688509345 .nil)
  380181382018030905950419321019815090881130579703840668588840210244959189636246015917145927719 (.node .nil
  380181382018030905950419321019815090881130579703840668588840210244959190262245303596812328353 .nil))
  380181382018030905950419321019815090881130579703840668591111592560789086598334361802150681431 (.node (.node .nil
  380181382018030905950419321019815090881130579703840668591111592560789086681273214611510119841 .nil)
  380181382018030905950419321019815090881130579703840668591117384987731291742201371528574218279 .nil))
  380181382018030905950419321019815090881130579703840668591117399764318167207199915034991877537 (.node (.node (.node .nil
  380181382018030905950419321019815090881138821196882084412425904829506011053905826749291376679 .nil)
  380181382018030905950419321019815090881138821196882084412425904829506011679905114428957777313 (.node .nil
  380181382018030905950419321019815090881138839496566097081785365774913068196871769784001882327 .nil))
  380181382018030905950419321019815090881138839503534867261633363756529638361920010255861665185 (.node (.node .nil
  380181382018030905950419321019815090881138842228323658670469587165293024934069573526072012839 .nil)
  380181382018030905950419321019815090881138842228323658670469587165293025560068861205738413473 .nil)))))
  380181382018030905950419321019815156483753941119091284011500562461290230074703153902643261479 (.node (.node (.node (.node (.node (.node .nil
  380181382018030905950419321019815156483753941119091284011500562461290230700702441582309662113 .nil)
  380181382018030905950419321019815156483753941119210325942817607925480504262755263471105468631 (.node .nil
  380181382018030905950419321019815156483753941119210371293519009385580202372808003988213321121 .nil))
  380181382018030905950419321019815156483753941119228103415801551876298446591628821581921464359 (.node (.node .nil
  380181382018030905950419321019815156483753941119228103415801551876298447217628109261587864993 .nil)
  380181382018030905950419321019815156654339308311147043057796139522358995842392585147544889559 .nil))
  380181382018030905950419321019815156654339308311147043058091268519274230460678943357873802657 (.node (.node (.node .nil
  380181382018030905950419321019815156654339308311147043173487472054086304908031711808946647079 .nil)
  380181382018030905950419321019815156654339308311147043173487472054086305534030999488613047713 (.node .nil
  380181382018030905950419321019815156654775606268566997901775327997178085238184496133873482967 .nil))
  380181382018030905950419321019815156654775606268566997901775327997190584645281214287453212065 (.node (.node .nil
  380181382018030905950419321019815156654775606268566997901775328002174045665913460181910630439 .nil)
  380181382018030905950419321019815156654775606268566997901775328002174046291912747861577031073 .nil)))
  380181382018030905950419321019815156654775606322200646558621149858239965292158434051497040727 (.node (.node (.node (.node .nil
  380181382018030905950419321019815156654775606322200646558621149858239965375097286860856479137 .nil)
  380181382018030905950419321019815156654775606322337420965522098929338491999135843179083018279 (.node .nil
  380181382018030905950419321019815156654775606322337769879525247260196384397294409287383408033 .nil))
  380181382018030905950419350923334153879325754972579567847050625216784033594234092638284492839 (.node (.node .nil
  380181382018030905950419350923334153879325754972579567847050625216784034220233380317950893473 .nil)
  380181382018030905950419350923334153879325754972698609778367670680974307782286202206746699991 .nil))
  380181382018030905950419350923334153879325754972698655129069072141074005892338942723854552481 (.node (.node (.node .nil
  380181382018030905950419350923334153879325754972716387251351614631792250111159760317562695719 .nil)
  380181382018030905950419350923334153879325754972716387251351614631792250737159047997229096353 (.node .nil
  380181382018030905950419350923334153879326844060661512874636754207288042704510958903249987799 .nil))
  380181382018030905950419350923334153879326844060661512874931883204203277322797317113578900897 (.node (.node .nil
  380181382018030905950419350923334153879326844060661512990328086739015351770150085564651745319 .nil)
  380181382018030905950419350923334153879326844060661512990328086739015352396149373244318145953 .nil))))
  380181382018030905950419350923334153879326846899823099049873337080308352777278994228288830679 (.node (.node (.node (.node (.node .nil
  380181382018030905950419350923334153879326846899823099049873337080320852184375712381868559777 .nil)
  380181382018030905950419350923334153879326846899823099049873337085304313205007958276325978151 (.node .nil
  380181382018030905950419350923334153879326846899823099049873337085304313831007245955992378785 .nil))
  380181382018030905950419350923334153879326846899823448081837662916550423560789762728395709271 (.node (.node .nil
  380181382018030905950419350923334153879326846899823448081837662916550423643728615537755147681 .nil)
  380181382018030905950419350923334153879326846899823448971925171345022836784039692523907788839 .nil))
  380181382018030905950419350923334153879326846899823448974195800790750483710912912329115721121 (.node (.node (.node .nil
  380181382018030905950419350999644855046503989076421373688816357737945515891077213210341402839 .nil)
  380181382018030905950419350999644855046503989076421373689111486734860750509363571420670315937 (.node .nil
  380181382018030905950419350999644855046503989076421373804507690269672824956716339871743160359 .nil))
  380181382018030905950419350999644855046503989076421373804507690269672825582715627551409560993 (.node (.node .nil
  380181382018030905950419350999644855046503989076421419042090090542347062207713148012114910039 .nil)
  380181382018030905950419350999644855046503989076421419042090090542347062290652000821474348449 .nil)))
  380181382018030905950419350999644855046503989076421419042090090580054935588387361976121241639 (.node (.node (.node (.node .nil
  380181382018030905950419350999644855046503989076421419042090090580151097339626169116096945569 .nil)
  380181382018030905950419350999644855046503989076439501083845573916433886372851220611836296407 (.node .nil
  380181382018030905950419350999644855046503989076439501083845573916446385779947938765416025505 .nil))
  380181382018030905950419350999644855046503989076439501083845573921429846800580184659873443879 (.node (.node .nil
  380181382018030905950419350999644855046503989076439501083845573921429847426579472339539844513 .nil)
  380181382018030905950419350999644855046503989076439501086116956237259743762668530544878197591 .nil))
  380181382018030905950419350999644855046503989076439501086116956237259743845607383354237636001 (.node (.node (.node .nil
  380181382018030905950419350999644855046503989076439501086122748664201948906535540271301734439 .nil)
  380181382018030905950419350999644855046503989076439501086122763440788824371534083777719393697 .nil)
  380181382018030905950419350999839525373135228658531946507701115597902624672837717126237335591 (.node (.node .nil
  380181382018030905950419350999839525373135228658531946507701115597902625298837004805903736225 .nil)
  380181382018030905950419350999839957477145833159418948965113446051169726667094897883116857559 .nil))))))
  380181382018030905950419350999839957641696789402581706282228885904650658736959217417515290017 (.node (.node (.node (.node (.node (.node (.node .nil
  380181382018030905950419350999840021981112438925338504328060422189906996757358511482778890279 .nil)
  380181382018030905950419350999840021981112438925338504328060422189906997383357799162445290913 (.node .nil
  380181382018066780825086714846507309534182151937317466055237795789479696005321441076908255447 .nil))
  380181382018066780825086714846507309534182151937317466055532924786394930623607799287237168545 (.node (.node .nil
  380181382018066780825086714846507309534182151937317466170929128321207005070960567738310012967 .nil)
  380181382018066780825086714846507309534182151937317466170929128321207005696959855417976413601 .nil))
  380181382018066780825086714846507309534182151937317511408511528593881242321957375878681762647 (.node (.node (.node .nil
  380181382018066780825086714846507309534182151937317511408511528593881242404896228688041201057 .nil)
  380181382018066780825086714846507309534182151937317511408511528631589115702631589842688094247 (.node .nil
  380181382018066780825086714846507309534182151937317511408511528631685277453870396982663798177 .nil))
  380181382018066780825086714846507309534182151937335593450267011967968066487095448478403149015 (.node (.node .nil
  380181382018066780825086714846507309534182151937335593450267011967980565894192166631982878113 .nil)
  380181382018066780825086714846507309534182151937335593450267011972964026914824412526440296487 .nil)))
  380181382018066780825086714846507309534182151937335593450267011972964027540823700206106697121 (.node (.node (.node (.node .nil
  380181382018066780825086714846507309534182151937335593452538394288793923876912758411445050199 .nil)
  380181382018066780825086714846507309534182151937335593452538394288793923959851611220804488609 (.node .nil
  380181382018066780825086714846507309534182151937335593452544186715736129020779768137868587047 .nil))
  380181382018066780825086714846507309534182151937335593452544201492323004485778311644286246305 (.node (.node .nil
  380181382018066872338030582422394590637276585211828969911887461844469229067072131078159984855 .nil)
  380181382018066872338030582422394590637276585211828969912182590841384463685358489288488897953 .nil))
  380181382018066872338030582422394590637276585211828970027578794376196538132711257739561742375 (.node (.node (.node .nil
  380181382018066872338030582422394590637276585211828970027578794376196538758710545419228143009 .nil)
  380181382018066872338030582422394590637276585211829015265161194648870775383708065879933492055 (.node .nil
  380181382018066872338030582422394590637276585211829015265161194648870775466646918689292930465 .nil))
  380181382018066872338030582422394590637276585211829015265161194686578648764382279843939823655 (.node (.node .nil
  380181382018066872338030582422394590637276585211829015265161194686674810515621086983915527585 .nil)
  380181382018066872338030582422394590637276585211847097306916678022957599548846138479654878423 .nil))))
  380181382018066872338030582422394590637276585211847097306916678022970098955942856633234607521 (.node (.node (.node (.node (.node .nil
  380181382018066872338030582422394590637276585211847097306916678027953559976575102527692025895 .nil)
  380181382018066872338030582422394590637276585211847097306916678027953560602574390207358426529 (.node .nil
  380181382018066872338030582422394590637276585211847097309188060343783456938663448412696779607 .nil))
  380181382018066872338030582422394590637276585211847097309188060343783457021602301222056218017 (.node (.node .nil
  380181382018066872338030582422394590637276585211847097309193852770725662082530458139120316455 .nil)
  380181382018066872338030582422394590637276585211847097309193867547312537547529001645537975713 .nil))
  380181382018067578677261481537871849291271561003525385093696232654104059283685141611322486823 (.node (.node (.node .nil
  380181382018067578677261481537871849291271561003525385093696232654104059909684429290988887457 .nil)
  380181382018067580245112134078389584881358167832264384791766181942927688634802111045052262615 (.node .nil
  380181382018067580245709192478038932431502802237434393826492054200877283963142643021011340705 .nil))
  380181382018067580479158996837388613042958052501440773924117749398486793889868792863029145639 (.node (.node .nil
  380181382018067580479158996837388613042958052501440773924117749398486794515868080542695546273 .nil)
  380181382018343665803610886351462852866126885934615818637137962085255222345203143904525143457 .nil)))
  380181382018343665804206425605078376913926650970234275214500627704177383616112802319573568929 (.node (.node (.node (.node .nil
  380181382018344280401662221487810405850982971973491789003602882600013608867573756346464069847 .nil)
  380181382018344280401662221487810406015115247342747959399658193734309827019441928860917688535 (.node .nil
  380181382018344280401662221487836124773512973108649253706687695592482436492607927675221829847 .nil))
  380181382018344280401662221487836124773514041233098501781515866506366848561915975547023386839 (.node (.node .nil
  380181382018344372147436883838293080145769180110261517244153641221848230123905109786604981665 .nil)
  380181382018344372147436887713886931766995022205775337126862521393297749348715546256164638113 .nil))
  380181382018344372148044175108723280256696592038563220509627340904662656892059994315797941665 (.node (.node (.node .nil
  380181382018344372148044175108748501478658933418730959952957481398728745562921255316660014497 .nil)
  380181382126810833281631513083717243636671312111481203740619568221832639416512545459024816343 .nil)
  380181382126810833281631513083717243636671312111481203740619568226828568040726729686607838423 (.node (.node .nil
  380181382126810833281631513083717243636671312111481203742890946640787425039012095627056258263 .nil)
  380181382126810833281631513083717243636671312111481203742896742964604741522467901070453106903 .nil)))))
  380181382126810833281631513083717243636671312111499284006155604299912637190582618349012917463 (.node (.node (.node (.node (.node (.node .nil
  380181382126810833281631513083717243636671312111499284006155604337620445712445951796212000983 .nil)
  380181382126810833281631513083717243636671312111499331019957451873589661260376390247155099863 (.node .nil
  380181382126810833281631513083717243636671312111499331140202382926492678167508474476797017303 .nil))
  380181382126810833281631513083717243636679553604540746843242990752392528583503911809815026903 (.node (.node .nil
  380181382126810833281631513083717243636679553604540746843242990790100337105367245257014110423 .nil)
  380181382126810833281631513083717243636679553604540746843543146458136482678036201079300548823 .nil))
  380181382126810833281631513083717243636679553604540746843543928938969495550173693759348980951 (.node (.node (.node .nil
  380181382126810833281631513083717243636679574635982321101586828793923496558199947856081184983 .nil)
  380181382126810833281631513083717243636679574635982321101586828798919425182414132083664207063 (.node .nil
  380181382126810833281631513083717243636679574689634004786386286455395176707518186475283946711 .nil))
  380181382126810833281631513083717243636679574689770871326704494762086089806728778568258152663 (.node (.node .nil
  380181382126810833281631513093604458915930859355653124905313068697393207636214830062249830615 .nil)
  380181382126810833281631513093604458915930859355653124905313068702389136260429014289832852695 .nil)))
  380181382126810833281631513093629680137893200735820864348643209191459296307076091063111903447 (.node (.node (.node (.node .nil
  380181382126810833281631513093629680137893200735820864348643209196455224931290275290694925527 .nil)
  380181382126810833281631513093824349195299931828281901727669713149368473198899866453865012439 (.node .nil
  380181382126810833281631513093824845803268882356252495162043721797442053405338553800481958103 .nil))
  380181382126810833281631517035595649368418848851890532499758468039492742590645481259483143383 (.node (.node .nil
  380181382126810833281631517045482367112088662771581247338279265320160298986939390752020634839 .nil)
  380181382126810833281631517045482863549045296991187787496180031848466081510248747059376168151 .nil))
  380181382126810833281631517121793134052475649292511261300746051285857584346348475313702955223 (.node (.node (.node .nil
  380181382126810833281631517121793134055706314618379516757718132585098319364196008303578966231 .nil)
  380181382126810833281633062296142306743710710299104114403744281544564694775793708600329365719 (.node .nil
  380181382126810833281633062296142306743710710352874187427467215785900154550738664396107147479 .nil))
  380181382126810833281633062296142371086792234010235180703731036370031138188487766429649201367 (.node (.node .nil
  380181382126810833281633062296142371250924509379491351099786347504327356340355938944102820055 .nil)
  380181382126810833281633066171735660829347929243193191020426115908118671584938832702799997143 .nil))))
  380181382126810833281633066171736157436888844391722996116662583535494028275689533180582947031 (.node (.node (.node (.node (.node .nil
  380181382126810833281633066171930760720667029094884492897220934234452209095322525512686495959 .nil)
  380181382126810833281633066171930760720667029094884842817000607566750218619087200029527107799 (.node .nil
  380181382126810833281633066171930760721085754896137298571069721112021616805934072095216101591 .nil))
  380181382126810833281633066171930760721086823020586546645897892025906028875242119967017658583 (.node (.node .nil
  380181424551222000882242277365262224933749105761136227719927886909478192316220906277561971921 .nil)
  380181424551222000882242277365262224933749105761136227720223030720675398469332769097932395729 .nil))
  380181424551222000882242277365262224933749105761136227837895626484701937537191794607732634833 (.node (.node (.node .nil
  380181424551222000882242277365262224933749105761136227837895641266188302680348719192831218897 .nil)
  380181424551222000882242277365262224933749105814888568621674994411825509446746057845968221393 (.node .nil
  380181424551222000882242277365262224933749126785489989749133147526870081484888411376445543633 .nil))
  380181424551222000882242277365262224933749126839141627308540651747387809300817794506116838609 (.node (.node .nil
  380181424551222000882242277365262224933749126839141673436203985588446260019070231706455520465 .nil)
  380181424551222000882242277365262225098308324636204128647663394898555812728949521773857879249 .nil)))
  380181424551222000882242277365262225098308324643310463548831305004494536690083536666241848529 (.node (.node (.node (.node .nil
  380181424551222000882242277365262225098308327421869327863422691563001282900274675366592853201 .nil)
  380181424551222000882242277365262225098308327421869676893121448066792997353985051204060239057 (.node .nil
  380181424551222000882242277365262290536791169182070043564935041980390789841291998617777485009 .nil))
  380181424551222000882242277365262290707376539152547892872529164918139179045669830170940028113 (.node (.node .nil
  380181424551222000882242277365262290707384780659764980167893706153473403396745983481961264337 .nil)
  380181424551222000882242277365262290707385872640660241419114705437619849826130594269735998673 .nil))
  380181424551222000882242277365262290707812837109985929760540260512736817192706945618286818513 (.node (.node (.node .nil
  380181424551222000882242277365262290707812837109986278790233205976590618685600242302242075857 .nil)
  380181424551222000882242277365262290707812837163619578417386848147465949522801089006076482769 .nil)
  380181424551222000882242277365262290707812837163619578419658230468279307588460533594898093265 (.node (.node .nil
  380181424551222000882242307335205337132736659845333465816181110161081907052870098892484261073 .nil)
  380181424551222000882242307335205337132736659845333465816476253972279113205981961712854684881 .nil)))))))
  380181424551222000882242307335205337132736659845333465934148849736305652273840987222654923985 (.node (.node (.node (.node (.node (.node (.node
  (.node .nil 380181424551222000882242307335205337132736659845333465934148864517792017416997911807753508049 .nil)
  380181424551222000882242307335205338402406818065868699575113541422790373511560667897885635793 (.node .nil
  380181424551222000882242307335205833573352015833786754659956485758709260947228876658457171153 .nil))
  380181424551222000882242307335205834840208011419483311102771967896141997611434739536356979921 (.node (.node .nil
  380181424551222000882242307335205834840209100614713419145953009537058409792335496657190532305 .nil)
  380181424551222000882253999620993756841992781679183514685197203314855265672609184620961608913 .nil))
  380181424551222000882253999620993756841992781679183560928857083548161811134284691714178864337 (.node (.node (.node .nil
  380181424551222000882253999620993756841992781679201642970612566884540826151565281973005006033 .nil)
  380181424551222000882253999620993756841992781679201642972883949243074492689240074246942151889 (.node .nil
  380181424551222000882254029534789110813243059986022130300262704533841333008756700349912069329 .nil))
  380181424551222000882254029534789110813243059986022130300557848345038539161868563170282493137 (.node (.node .nil
  380181424551222000882254029534789110813243059986022130418230444109065078229727588680082732241 .nil)
  380181424551222000882254029534789110813243059986022130418230458890551443372884513265181316305 .nil)))
  380181424551222000882254029534814829571213821221875926230544716461536874784969689926439023825 (.node (.node (.node (.node .nil
  380181424551222000882254029534814829571213821221875926230839860272734080938081552746809447633 .nil)
  380181424551222000882254029534814829571213821221875926348512456036760620005940578256609686737 (.node .nil
  380181424551222000882254029534814829571213821221875926348512470818246985149097502841708270801 .nil))
  380181424551222000882254029535009930900411691967484171112288280881599545210020059258989327569 (.node (.node .nil
  380181424551222000882254029611099878855919647049129028367882802913881976153632448366858458321 .nil)
  380181424551222000882254029611099879023289740049189132580944614932389418986968663830399538385 .nil))
  380181424551222000882254029611294549182986092661553148683033870016494490185912710216890987729 (.node (.node (.node .nil
  380181424551222000882254029611294549182987181856764779644769950437491070435306409041700074705 .nil)
  380181424551222000882254029611294549350357277635384143329785239359355424650796576243398227153 (.node .nil
  380181424551222000882254029611294549350357277642472304588316591765126594193306529086606947537 .nil))
  380181424551222094200450998265126710915244700641819331909536173657422816422402746877324571857 (.node (.node .nil
  380181424551222094200450998265126710915244700641819331909831317468620022575514609697694995665 .nil)
  380181424551222094200450998265126710915244700641819332027503913232646561643373635207495234769 .nil))))
  380181424551222094200450998265126710915244700641819332027503928014132926786530559792593818833 (.node (.node (.node (.node (.node .nil
  380181424551222094200450998265126710915244700695571672811283281159770133552927898445730821329 .nil)
  380181424551222094200450998265126710915671623169941828966947795201091647053578739813869958353 (.node .nil
  380181424551222094200450998265126710915672733289209789820965421790658062700887724813215085777 .nil))
  380181424551222094200450998265126710915672736128508242418547442849978905034512936979180631249 (.node (.node .nil
  380181424551222094200450998265126710915672736128508591450517564972413964966447090821802022097 .nil)
  380181424551222094200450998265321314199442679317210242442347599644961099194636629306130576593 .nil))
  380181424551222094200450998265321314199442679324297705757488074074958126014655830019208393937 (.node (.node (.node .nil
  380181424551222094200450998265321314199442679324316182183887067602745220698998692227632411857 .nil)
  380181424551222094200450998265321314199442679324316182186158464705032264050541404592943453393 (.node .nil
  380181424551222094200450998265321810806983594419212687535007949775210173712706034141542233297 .nil))
  380181424551222094200450998265321810806983594419212687535303093586407379865817896961912657105 (.node (.node .nil
  380181424551222094200450998265321810806983594419212687652975689350433918933676922471712896209 .nil)
  380181424551222094200450998265321810806983594419212687652975704131920284076833847056811480273 .nil)))
  380181424551222094200450998265321812076653752639747921293940381036918640171396603146943608017 (.node (.node (.node (.node .nil
  380181424551222094433914103920282288618666797239410397448145486357871379552591200766307087569 .nil)
  380181424551222094433914103920282288618666797239410397448440630169068585705703063586677511377 (.node .nil
  380181424551222094433914103920282288618666797239410397566113225933095124773562089096477750481 .nil))
  380181424551222094433914103920282288618666797239410397566113240714581489916719013681576334545 (.node (.node .nil
  380181424551222094434509643173897812666466562275028854025508151976793540823500859181355513041 .nil)
  380181424551222094434509643173897812666466562275028854025803295787990746976612722001725936849 .nil))
  380181424551222094434509643173897812666466562275028854143475891552017286044471747511526175953 (.node (.node (.node .nil
  380181424551222094434509643173897812666466562275028854143475906333503651187628672096624760017 .nil)
  380181424551222094439116497600504276407757913705533237650976149096895578339251313316050253009 (.node .nil
  380181424551222096235799897106529587631729921619447343631718617377741348187350946675203232977 .nil))
  380181424551222096235799900982123439252955763714961163514427497549190867412161383144762889425 (.node (.node .nil
  380181424551222096240396574441477830748056970520258045199415716344832772288036720193827517649 .nil)
  380181424551222096240396574441503051970019311900425784642745856838898860958897981194689590481 .nil)))))
  380181424551222096240396578393550342398151403356914180024119391074760945538939782426260157649 (.node (.node (.node (.node (.node (.node .nil
  380181424551222096240396578393550342562283678726170350420174702209057163690807954940713776337 .nil)
  380181424551258673371049678378550288078041399489721206424083194672842414240890481604389229777 (.node .nil
  380181424551258673371645213604054354139381919966263170494467218995323828032867061511345132753 .nil))
  380181424551258673375644772721766081225245381913368512388926454872666439443060355178564932817 (.node (.node .nil
  380181424551259379714875671837269057371224449106308494450775436718511373874575740491096929489 .nil)
  380181424551259379714875675712836695230879679612611054204290055523334380443543045628148593873 .nil))
  380181424551259379714875701740788054766796262959796778286325499474005177394106679226738160849 (.node (.node (.node .nil
  380181424551259379715482963107673043720581249445398937704726721755066009207813989775721641169 .nil)
  380181424551259379715482963107698264771952160362923577845291548354782304651161611647501219025 (.node .nil
  380181424551259379715482963107867647004352305592667351180126526198935461348871879267982259409 .nil))
  380181424659761620365584946969284128765642473841690567609845397741139259875596573773077801175 (.node (.node .nil
  380181424659761620365584946969284128765642473841690567609845399661848151985694925448569916247 .nil)
  380181424659761620365584946969284128765642473841690567609846165440402426419128051353306938583 .nil)))
  380181424659761620365584946969284128765642473841690567609846165440498619973670059611093961559 (.node (.node (.node (.node .nil
  380181424659761620365584946969284128765642473841690917414229650052074172069195142892400273623 .nil)
  380181424659761620365584946969284128765642473841827387904527491173957729991493391944575997783 (.node .nil
  380181424659761620365584946969284128765642473841827737053564086651780905997114851293435390167 .nil))
  380181424659761620365584946969284128765642473841827737053864271882764357283367443002861152471 (.node (.node .nil
  380181424659761620365584946969284128765643544744562255629817074487208534901760234283122419927 .nil)
  380181424659761620365584946969284128765643544744562301875749115615319907368466561946172271447 .nil))
  380181424659761620365584946969284128765643544744580383917504598951602696484630466251271060695 (.node (.node (.node .nil
  380181424659761620365584946969284128765643544744580383919775981310232588923421944478935558999 .nil)
  380181424659761620365584946969284128766069399094602251112916025911400810483400126141181847767 (.node .nil
  380181424659761620365584946969284128766070509213888293893588841887315388708548530307620006103 .nil))
  380181424659761620365584946969284128766070509267521592630360599517867992664090173608284514519 (.node (.node .nil
  380181424659761620365584946969284128766070509274627882296523469292176120439277786742205197143 .nil)
  380181424659761620365584946969284128766070512053186746608843475445569726729413189805716159703 .nil))))
  380181424659761620365584946969284128766070512053186746611114857766383084795072634394537770199 (.node (.node (.node (.node (.node .nil
  380181424659761620365584946969284128766070512053187095640813597572988215960022376694925003607 .nil)
  380181424659761620365584946969284128766070512053187095640813612354474581103179301280023587671 (.node .nil
  380181424659761620365584946969479164317965717981854068476919639289083160878529834974091798743 .nil))
  380181424659761620365584946969479164317965717981854068476919641209792052988628186649583913815 (.node (.node .nil
  380181424659761620365584946969479164317965717981854068476920406988346327422061312554320936151 .nil)
  380181424659761620365584946969479164317965717981854068476920406988442520976603320812107959127 .nil))
  380181424659761620365584946969479164317973980620847069669350910975563154295767826244454443223 (.node (.node (.node .nil
  380181424659761620365584946969479164321196407117604722197302056611133853476365986309328197463 .nil)
  380181424659761620365584946969479164321204651442857128073476325245831228481159979735653673175 (.node .nil
  380181424659761620365584946969479164321204651449945289452251075226579099917619924164779043031 .nil))
  380181424659761620365584947045569112441271822574483661940898639029381173252011065054564313303 (.node (.node .nil
  380181424659761620365584947045569112441271822574483661941199579131683816073657395200252914519 .nil)
  380181424659761620365584947045569112441271822574483662058872174895710109668871741309883399383 .nil)))
  380181424659761620365584947045569112441271822574483662058872189677196720284673345295151737687 (.node (.node (.node (.node .nil
  380181424659761620365584947045763782600541210656782097739886138154102767028480089338168338647 .nil)
  380181424659761620365584947045763782600541210656782097739886140074811659138578441013660453719 (.node .nil
  380181424659761620365584947045763782600541210656782097739886905853365933572011566918397476055 .nil))
  380181424659761620365584947045763782600541210656782097739886905853462127126553575176184499031 (.node (.node .nil
  380181424659761620365584947045763782767911303656842201952947950172610209861816304801709418711 .nil)
  380181424659761620365584947045763782767911303656842201952947952093319101971914656477201533783 .nil))
  380181424659761620365584947045763782767911303656842201952948717871873376405347782381938556119 (.node (.node (.node .nil
  380181424659761620365584947045763782767911303656842201952948717871969569959889790639725579095 .nil)
  380181424659761620365584947045763784037573223155688682639672763684977583239252952620127086807 .nil)
  380181424659761620365584947045764279208517331782010278100270272499807551757780022150980818775 (.node (.node .nil
  380181424659761620365584947045764279208518420977221909062006352920804132007173720975789905751 .nil)
  380181424659761620365584947045764280475374416502215481818254414205523286168663718268886444247 .nil))))))
  380181424659761620365584947045764280475374416509303643076785766611294455711173671112095164631 (.node (.node (.node (.node (.node (.node (.node .nil
  380181424659761620365584947045764280475375505704533356082848897958187168801775344179093301463 .nil)
  380181424659761620365584947045764280475375505704533402210512231799245619520027781379431983319 (.node .nil
  380181424659761620366192234354233758246106222641636427948663791172826238898816756651569834199 .nil))
  380181424659761620366192234354233758246106222641636427948663793093535131008915108327061949271 (.node (.node .nil
  380181424659761620366192234354233758246106222641636427948664558872089405442348234231798971607 .nil)
  380181424659761620366192234354233758246106222641636427948664558872185598996890242489585994583 .nil))
  380181424659761620366192234354233758246106222641636777753048043483761151092415325770892306647 (.node (.node (.node .nil
  380181424659761620366192234354233758246106225419922351278116736635794427081023592188800002263 .nil)
  380181424659761620366192234354233758246106225427146680125217254763830854392662279903456651479 (.node .nil
  380181424659761620366192234354233758246106225427165157442302568057907927232379673861782387927 .nil))
  380181424659761620366192234354233758246106225427165157444573965197915492016974191342479510359 (.node (.node .nil
  380181424659761620366192234354233759512527012143267749474268570505825428938661952884144990423 .nil)
  380181424659761620366192234354233759512527012143267795597389894566597177669833990701725640919 .nil)))
  380181424659761620366192234354233759512527012143267795717629029295574217100635507926724394199 (.node (.node (.node (.node .nil
  380181424659761620366192234354233759512527012143267795717629044077156775715817668632630561623 .nil)
  380181424659761620366192234354233759515758787581334583621792340942298059151818697921400531159 (.node .nil
  380181424659761620366192234354233759515758787581334583621792342863006951261917049596892646231 .nil))
  380181424659761620366192234354233759515758787581334583621793108641561225695350175501629668567 (.node (.node .nil
  380181424659761620366192234354233759515758787581334583621793108641657419249892183759416691543 .nil)
  380181424659761620366192234354233759515767050220327584814223612628778052569056689191763175639 .nil))
  380181424659761620366193753663282430385173951075730279410720867711981151230678026620162926807 (.node (.node (.node .nil
  380181424659761620366193753663282430385173951075730279410720869632690043340776378295655041879 .nil)
  380181424659761620366193753663282430385173951075730279410721635411244317774209504200392064215 (.node .nil
  380181424659761620366193753663282430385173951075730279410721635411340511328751512458179087191 .nil))
  380181424659761620366193757538876282006399793171244099293429747883430670455488463089722583255 (.node (.node .nil
  380181424659761620366193757538876282006399793171244099293429749804139562565586814765214698327 .nil)
  380181424659761620366193757538876282006399793171244099293430515582693836999019940669951720663 .nil))))
  380181424659761620366193757538876282006399793171244099293430515582790030553561948927738743639 (.node (.node (.node (.node (.node .nil
  380181424659761620366193787518926434328763790537910530626621812830309055126182417109233559767 .nil)
  380181424659761620366205479804689567042419714970490145332121999877817130184555543538542696279 (.node .nil
  380181424659761620366205479804714788264382056350657884775452140371883218855416804539404769111 .nil))
  380181424659761620366205509718510207844709882654846278263072435224410783163939788942629005527 (.node (.node .nil
  380181424659761620366205509718510208008842158024102448659127746358707001315807961457082624215 .nil)
  380181424659761620366205509718535926767239883790003742966157248216879610788973960271386765527 .nil))
  380181424659761620366205509718535926767240951914452991040985419130764022858282008143188322519 (.node (.node (.node .nil
  380181424659761620604238690249434413074674806022902358172232841484031305925562243478248347479 .nil)
  380181424659761620604238694125002050934330036529204917925747460288854312494529548615300011863 (.node .nil
  380181424659761620604238720152953410470246619876390642007782904239525109445093182213889578839 .nil))
  380181424659761620608835367584356442429431243334501799728407525809846367807067564732796496087 (.node (.node .nil
  380181424659761620608835367584381663480802154252026439868972352409562663250415186604576073943 .nil)
  380181424659761620608835367584551045713202299481770213203807330253715819948125454225057114327 .nil)))
  380181424659761620608835371536428953908934245708514835250346652419104467001643608817613269207 (.node (.node (.node (.node .nil
  380181424659761620608835371536428954073065410919045066954845692954471239416102710153136695511 .nil)
  380181424659761620608835371536428955175355032431860233446498486289135468859281969512958257367 (.node .nil
  380181424659761713684402474486888079748133008158948906923996263118141789467726605651421030615 .nil))
  380181424659761713684402474486888079748133008158948906923996263123137718091940789879004052695 (.node (.node .nil
  380181424659761713684402474486888079748133008158948906926267641537096575090226155819452472535 .nil)
  380181424659761713684402474486888079748133008158948906926273437860913891573681961262849321175 .nil))
  380181424659761713684402474486888079748133010937252562377996569407089051489521751406340611287 (.node (.node (.node .nil
  380181424659761713684402474486888079748133010937252562377996569444796860011385084853539694807 .nil)
  380181424659761713684402474486888079748133010944476891342768934293200008543950268656136087767 .nil)
  380181424659761713684402474486888079748133010944495368659855013365940229853318277677957954775 (.node (.node .nil
  380181424659761713684402474486888081017366871153821747429910902033187264946049458975955085527 .nil)
  380181424659761713684402474486888081017366871153821747429910902038183193570263643203538107607 .nil)))))
  380181424659761713684402474486888081017366871207473431114710359694658945095367697595157847255 (.node (.node (.node (.node (.node (.node .nil
  380181424659761713684402474486888081017366871207610297655028568001349858194578289688132053207 .nil)
  380181424659761713684402474486888577455168064507454836039014289726458720977430588910450895063 (.node .nil
  380181424659761713684402474486888577455168064507454836039014289731454649601644773138033917143 .nil))
  380181424659761713684402474486888577455169153702666467000750370147455301226824287735259982039 (.node (.node .nil
  380181424659761713684402474486888577455169153702666467000750370152451229851038471962843004119 .nil)
  380181424659761713684402474486888577455177397981373385596576392163978555301919551372480617687 .nil))
  380181424659761713684402474486888577455177419012833088144283055068467212617631175190317230295 (.node (.node (.node .nil
  380181424659761713684402478438935305836413154867018460924024498868827907797192344016834390231 .nil)
  380181424659761713684402478438935305836413154867018460924024498873823836421406528244417412311 (.node .nil
  380181424659761713684402478438935305836413154867018460926295877287782693419691894184865832151 .nil))
  380181424659761713684402478438935305836413154867018460926301673611600009903147699628262680791 (.node (.node .nil
  380181424659761713684402478438935305836413154867036541189560534946907905571262416906822491351 .nil)
  380181424659761713684402478438935305836413154867036541189560534984615714093125750354021574871 .nil)))
  380181424659761713684402478438935305836413154867036588203362382520584929641056188804964673751 (.node (.node (.node (.node .nil
  380181424659761713684402478438935305836413154867036588323607313573487946548188273034606591191 .nil)
  380181424659761713684402478438935305836421396360078004026647921399387796964183710367624600791 (.node .nil
  380181424659761713684402478438935305836421396360078004026647921437095605486047043814823684311 .nil))
  380181424659761713684402478438935305836421396360078004026948077105131751058715999637110122711 (.node (.node .nil
  380181424659761713684402478438935305836421396360078004026948859585964763930853492317158554839 .nil)
  380181424659761713684402478438935305836421417391519578284991759440918764938879746413890758871 .nil))
  380181424659761713684402478438935305836421417391519578284991759445914693563093930641473780951 (.node (.node (.node .nil
  380181424659761713684402478438935305836421417445171261969791217102390445088197985033093520599 .nil)
  380181424659761713684402478438935305836421417445308128510109425409081358187408577126067726551 (.node .nil
  380181424659761713684402478448822521115672702111190382088717999344388476016894628620059404503 .nil))
  380181424659761713684402478448822521115672702111190382088717999349384404641108812847642426583 (.node (.node .nil
  380181424659761713684402478448847742337635043491358121532048139838454564687755889620921477335 .nil)
  380181424659761713684402478448847742337635043491358121532048139843450493311970073848504499415 .nil))))
  380181424659761713684402478449042411395041774583819158911074643796363741579579665011674586327 (.node (.node (.node (.node (.node .nil
  380181424659761713684402478449042908003010725111789752345448652444437321786018352358291531991 .nil)
  380181424659761713917853832010735832823757145849492207368852655871943221288780142209837689047 (.node .nil
  380181424659761713917853835886303403811144694272173382075747013554080871093158956823940294871 .nil))
  380181424659761713917853861924530690357197992027357646527257239889672710422751830589672384727 (.node (.node .nil
  380181424659761713917865584103977602549073075215307430136882143838474759276921590171036149975 .nil)
  380181424659761713917865584103977602549081335015019756204409384536614304293812197748955015383 .nil))
  380181424659761713917865584103977602552312005837029814728778196381859080373154342826070894807 (.node (.node (.node .nil
  380181424659761713917865584103977602552312005844117975987309548787630249915664295669279615191 .nil)
  380181424659761713917865584104003321307052096197103479110968462222974386295080231529704188119 (.node .nil
  380181424659761713917865584104003321307052096250873552134691396464309846070025187325481969879 .nil))
  380181424659761713917865584104003385650133619908234545410955217048440829707774289359024023767 (.node (.node .nil
  380181424659761713917865584104003385814265895277490715807010528182737047859642461873477642455 .nil)
  380181424659761713918461093377594540973112405428165256339748301509408294298678614174510737623 .nil)))
  380181424659761713918461093377594606582188861451726107859978612764325884966475075882614122711 (.node (.node (.node (.node .nil
  380181424659761713918461093453905309015788989712712941063078269655190645342332595055392057559 .nil)
  380181424659761713918461123281139752300846264104961265576184445559492219028616521952979970263 (.node .nil
  380181424659761713918461123281164973351781990023513578942846167852011495746974786600617765079 .nil))
  380181424659761713918461123281334422456884981311634122363975720058294916664296537907844999383 (.node (.node .nil
  380181424659761713918461123357618909694703805988091769892242650666010118676796890428666931415 .nil)
  380181424659761713918461123357618909694703806041844110793989758168357435807322041997073180887 .nil))
  380181424659761713918461123357618909694703827066097169480855415503919735661393778657221798103 (.node (.node (.node .nil
  380181424659761713918461123357618909694703827066097215608518749344978186379646215857560479959 .nil)
  380181424659761713918461123357618909862073899041903865087271896854566869116893582943773649111 .nil)
  380181424659761713918461123357618909862073899041904215007051570186864878640658257460614260951 (.node (.node .nil
  380181424659761713918461123357618909862492624843156670761120683732136276827505129526303254743 .nil)
  380181424659761713918461123357618909862493692967605918835948854646020688896813177398104811735 .nil)))))))))

def side6aFront0 : List (ℕ × ℕ × ℕ × ℕ) := [
  (558517274771456, 18, 6, 35786286831218710898254), (558517274771456, 18, 7, 35786286831218710898255),
  (558517207924736, 26, 0, 35786286831218710898312), (558517207924736, 26, 1, 35786286831218710898313),
  (558517074231296, 26, 6, 35786286831218710921054), (558517074231296, 26, 7, 35786286831218710921055),
  (558499961470976, 34, 0, 35786286831218710921112), (558499961470976, 34, 1, 35786286831218710921113),
  (558517274771456, 20, 0, 35786286841611087870696), (558517274771456, 20, 1, 35786286841611087870697)]

def side6aFront1 : List (ℕ × ℕ × ℕ × ℕ) := [
  (558517271932928, 22, 0, 35786286841634163448552), (558517271932928, 22, 1, 35786286841634163448553),
  (558517158785024, 26, 0, 35786286841634172236048), (558517158785024, 26, 1, 35786286841634172236049),
  (558512930926592, 32, 0, 35786286841634172236488), (558512930926592, 32, 1, 35786286841634172236489),
  (558517250994176, 16, 6, 35786286841634172385718), (558517250994176, 16, 7, 35786286841634172385719),
  (558517246865408, 22, 6, 35786286841634172386158), (558517246865408, 22, 7, 35786286841634172386159),
  (558516177317888, 30, 0, 35786286841634172386216), (558516177317888, 30, 1, 35786286841634172386217),
  (558510816997376, 32, 0, 35786286841634172408576), (558510816997376, 32, 1, 35786286841634172408577),
  (558514038222848, 30, 6, 35786286841634172408958), (558514038222848, 30, 7, 35786286841634172408959),
  (558240234057728, 38, 0, 35786286841634172409016), (558240234057728, 38, 1, 35786286841634172409017),
  (558517175164928, 12, 6, 35786286841637608146518), (558517175164928, 12, 7, 35786286841637608146519),
  (558517174120448, 20, 0, 35786286841637608146576), (558517174120448, 20, 1, 35786286841637608146577),
  (558517040427008, 20, 6, 35786286841637608169318), (558517040427008, 20, 7, 35786286841637608169319),
  (558499861606400, 34, 0, 35786286841637608169816), (558499861606400, 34, 1, 35786286841637608169817),
  (558491405889536, 34, 0, 35786286841637608341904), (558491405889536, 34, 1, 35786286841637608341905),
  (558504290791424, 32, 6, 35786286841637608342286), (558504290791424, 32, 7, 35786286841637608342287),
  (557409074130944, 40, 0, 35786286841637608342344), (557409074130944, 40, 1, 35786286841637608342345),
  (558517225828352, 16, 6, 35786286841637666840318), (558517225828352, 16, 7, 35786286841637666840319),
  (558504290791424, 26, 6, 35786286841637675800342), (558504290791424, 26, 7, 35786286841637675800343),
  (558487178031104, 34, 0, 35786286841637675800400), (558487178031104, 34, 1, 35786286841637675800401),
  (557404846272512, 40, 0, 35786286841637675800840), (557404846272512, 40, 1, 35786286841637675800841),
  (558510783574016, 24, 6, 35786286841637675950070), (558510783574016, 24, 7, 35786286841637675950071),
  (558509726609408, 30, 6, 35786286841637675950510), (558509726609408, 30, 7, 35786286841637675950511),
  (558235922444288, 38, 0, 35786286841637675950568), (558235922444288, 38, 1, 35786286841637675950569),
  (556863680393216, 40, 0, 35786286841637675972928), (556863680393216, 40, 1, 35786286841637675972929),
  (557688314114048, 38, 6, 35786286841637675973310), (557688314114048, 38, 7, 35786286841637675973311),
  (487594447843328, 46, 0, 35786286841637675973368), (487594447843328, 46, 1, 35786286841637675973369),
  (558517275164672, 20, 0, 35786290905056986346856), (558517275164672, 20, 1, 35786290905056986346857),
  (558517247031296, 24, 0, 35786290914102621803648), (558517247031296, 24, 1, 35786290914102621803649),
  (558516190066688, 30, 0, 35786290914102621804088), (558516190066688, 30, 1, 35786290914102621804089),
  (558515661584384, 30, 0, 35786290914102621976176), (558515661584384, 30, 1, 35786290914102621976177)]

def side6aFront2 : List (ℕ × ℕ × ℕ × ℕ) := [
  (558448015849472, 36, 0, 35786290914102621976616), (558448015849472, 36, 1, 35786290914102621976617),
  (558517225889792, 12, 0, 35786290915452934641104), (558517225889792, 12, 1, 35786290915452934641105),
  (558517158520832, 12, 6, 35786290915452943578710), (558517158520832, 12, 7, 35786290915452943578711),
  (558517157476352, 20, 0, 35786290915452943578768), (558517157476352, 20, 1, 35786290915452943578769),
  (558517158262784, 18, 6, 35786290915452943579150), (558517158262784, 18, 7, 35786290915452943579151),
  (558517023782912, 20, 6, 35786290915452943601510), (558517023782912, 20, 7, 35786290915452943601511),
  (558499844962304, 34, 0, 35786290915452943602008), (558499844962304, 34, 1, 35786290915452943602009),
  (558491389245440, 34, 0, 35786290915452943774096), (558491389245440, 34, 1, 35786290915452943774097),
  (558504274147328, 32, 6, 35786290915452943774478), (558504274147328, 32, 7, 35786290915452943774479),
  (557409057486848, 40, 0, 35786290915452943774536), (557409057486848, 40, 1, 35786290915452943774537),
  (558504274147328, 26, 6, 35786290915453011232534), (558504274147328, 26, 7, 35786290915453011232535),
  (558487161387008, 34, 0, 35786290915453011232592), (558487161387008, 34, 1, 35786290915453011232593),
  (557404829628416, 40, 0, 35786290915453011233032), (557404829628416, 40, 1, 35786290915453011233033),
  (558509709965312, 30, 6, 35786290915453011382702), (558509709965312, 30, 7, 35786290915453011382703),
  (558235905800192, 38, 0, 35786290915453011382760), (558235905800192, 38, 1, 35786290915453011382761),
  (556863663749120, 40, 0, 35786290915453011405120), (556863663749120, 40, 1, 35786290915453011405121),
  (557688297469952, 38, 6, 35786290915453011405502), (557688297469952, 38, 7, 35786290915453011405503),
  (487594431199232, 46, 0, 35786290915453011405560), (487594431199232, 46, 1, 35786290915453011405561),
  (558517247031296, 22, 0, 35786290915475942611176), (558517247031296, 22, 1, 35786290915475942611177),
  (558510783444992, 18, 6, 35786290915479454940166), (558510783444992, 18, 7, 35786290915479454940167),
  (558510716598272, 26, 0, 35786290915479454940224), (558510716598272, 26, 1, 35786290915479454940225),
  (558502160218112, 26, 6, 35786290915479454962966), (558502160218112, 26, 7, 35786290915479454962967),
  (558485047457792, 34, 0, 35786290915479454963024), (558485047457792, 34, 1, 35786290915479454963025),
  (557402715699200, 40, 0, 35786290915479454963464), (557402715699200, 40, 1, 35786290915479454963465),
  (556861549819904, 40, 0, 35786290915479455135552), (556861549819904, 40, 1, 35786290915479455135553),
  (557686183540736, 38, 6, 35786290915479455135934), (557686183540736, 38, 7, 35786290915479455135935),
  (487592317270016, 46, 0, 35786290915479455135992), (487592317270016, 46, 1, 35786290915479455135993),
  (558514030032896, 16, 6, 35786290915479513633526), (558514030032896, 16, 7, 35786290915479513633527),
  (558514025904128, 22, 6, 35786290915479513633966), (558514025904128, 22, 7, 35786290915479513633967),
  (558513497421824, 22, 6, 35786290915479513806054), (558513497421824, 22, 7, 35786290915479513806055),
  (558444782139392, 36, 0, 35786290915479513806552), (558444782139392, 36, 1, 35786290915479513806553),
  (558101721626624, 38, 0, 35786290915479513828912), (558101721626624, 38, 1, 35786290915479513828913),
  (558307880056832, 36, 6, 35786290915479513829294), (558307880056832, 36, 7, 35786290915479513829295),
  (540784413489152, 44, 0, 35786290915479513829352), (540784413489152, 44, 1, 35786290915479513829353),
  (557686183540736, 32, 6, 35786290915479522593990), (557686183540736, 32, 7, 35786290915479522593991),
  (556590966880256, 40, 0, 35786290915479522594048), (556590966880256, 40, 1, 35786290915479522594049),
  (487321734330368, 46, 0, 35786290915479522594488), (487321734330368, 46, 1, 35786290915479522594489),
  (558101721626624, 30, 6, 35786290915479522743718), (558101721626624, 30, 7, 35786290915479522743719),
  (558034075891712, 36, 6, 35786290915479522744158), (558034075891712, 36, 7, 35786290915479522744159),
  (540510609324032, 44, 0, 35786290915479522744216), (540510609324032, 44, 1, 35786290915479522744217),
  (452687118055424, 46, 0, 35786290915479522766576), (452687118055424, 46, 1, 35786290915479522766577),
  (505463676188672, 44, 6, 35786290915479522766958), (505463676188672, 44, 7, 35786290915479522766959),
  (558517247031296, 10, 6, 35787887323085174077894), (558517247031296, 10, 7, 35787887323085174077895),
  (558517246770176, 18, 0, 35787887323085174077952), (558517246770176, 18, 1, 35787887323085174077953),
  (558517213346816, 18, 6, 35787887323085174100694), (558517213346816, 18, 7, 35787887323085174100695),
  (558517146500096, 26, 0, 35787887323085174100752), (558517146500096, 26, 1, 35787887323085174100753),
  (558512918641664, 32, 0, 35787887323085174101192), (558512918641664, 32, 1, 35787887323085174101193),
  (558510804712448, 32, 0, 35787887323085174273280), (558510804712448, 32, 1, 35787887323085174273281),
  (558514025937920, 30, 6, 35787887323085174273662), (558514025937920, 30, 7, 35787887323085174273663),
  (558240221772800, 38, 0, 35787887323085174273720), (558240221772800, 38, 1, 35787887323085174273721),
  (558446933851136, 36, 0, 35787887323085241881944), (558446933851136, 36, 1, 35787887323085241881945),
  (558515636550656, 24, 0, 35787887323111685439408)]

def side6aFront3 : List (ℕ × ℕ × ℕ × ℕ) := [
  (558515636550656, 24, 1, 35787887323111685439409), (558309503286272, 30, 6, 35787887323111753093174),
  (558309503286272, 30, 7, 35787887323111753093175), (558035699121152, 38, 0, 35787887323111753093232),
  (558035699121152, 38, 1, 35787887323111753093233), (540718390983680, 44, 0, 35787887323111753093672),
  (540718390983680, 44, 1, 35787887323111753093673), (558517275459584, 20, 0, 36412289126392629651816),
  (558517275459584, 20, 1, 36412289126392629651817), (558517259350016, 24, 0, 36412289126392697432568),
  (558517259350016, 24, 1, 36412289126392697432569), (558517276123136, 12, 0, 36412289126419140990032),
  (558517276123136, 12, 1, 36412289126419140990033), (558517225797632, 18, 6, 36412289126419208643798),
  (558517225797632, 18, 7, 36412289126419208643799), (558517158950912, 26, 0, 36412289126419208643856),
  (558517158950912, 26, 1, 36412289126419208643857), (558512931092480, 32, 0, 36412289126419208644296),
  (558512931092480, 32, 1, 36412289126419208644297), (558517247031296, 22, 6, 36412289126419208793966),
  (558517247031296, 22, 7, 36412289126419208793967), (558516177483776, 30, 0, 36412289126419208794024),
  (558516177483776, 30, 1, 36412289126419208794025), (558510817163264, 32, 0, 36412289126419208816384),
  (558510817163264, 32, 1, 36412289126419208816385), (558514038388736, 30, 6, 36412289126419208816766),
  (558514038388736, 30, 7, 36412289126419208816767), (558240234223616, 38, 0, 36412289126419208816824),
  (558240234223616, 38, 1, 36412289126419208816825)]

def side6aFront4 : List (ℕ × ℕ × ℕ × ℕ) := [
  (558517263933440, 12, 0, 36413886609391384581920), (558517263933440, 12, 1, 36413886609391384581921),
  (558517263675392, 18, 0, 36413886609391384582360), (558517263675392, 18, 1, 36413886609391384582361),
  (558517263546368, 18, 0, 36413886609391384754448), (558517263546368, 18, 1, 36413886609391384754449),
  (558517247031296, 24, 0, 36413886609391384754888), (558517247031296, 24, 1, 36413886609391384754889),
  (558517247031296, 10, 0, 36413886610764840478528), (558517247031296, 10, 1, 36413886610764840478529),
  (558517213406720, 12, 0, 36413886610768276411856), (558517213406720, 12, 1, 36413886610768276411857),
  (558517213409792, 10, 6, 36413886610768276412238), (558517213409792, 10, 7, 36413886610768276412239),
  (558517212884480, 12, 6, 36413886610768276434598), (558517212884480, 12, 7, 36413886610768276434599),
  (558517211840000, 20, 0, 36413886610768276434656), (558517211840000, 20, 1, 36413886610768276434657),
  (558517145779712, 26, 0, 36413886610768276435096), (558517145779712, 26, 1, 36413886610768276435097),
  (558517213280768, 10, 6, 36413886610768276584326), (558517213280768, 10, 7, 36413886610768276584327),
  (558517213216256, 16, 6, 36413886610768276584766), (558517213216256, 16, 7, 36413886610768276584767),
  (558517146037760, 12, 6, 36413886610768285349462), (558517146037760, 12, 7, 36413886610768285349463),
  (558517144993280, 20, 0, 36413886610768285349520), (558517144993280, 20, 1, 36413886610768285349521),
  (558517145779712, 18, 6, 36413886610768285349902), (558517145779712, 18, 7, 36413886610768285349903),
  (558517011299840, 20, 6, 36413886610768285372262), (558517011299840, 20, 7, 36413886610768285372263),
  (558499832479232, 34, 0, 36413886610768285372760), (558499832479232, 34, 1, 36413886610768285372761),
  (558491376762368, 34, 0, 36413886610768285544848), (558491376762368, 34, 1, 36413886610768285544849),
  (558504261664256, 32, 6, 36413886610768285545230), (558504261664256, 32, 7, 36413886610768285545231),
  (557409045003776, 40, 0, 36413886610768285545288), (557409045003776, 40, 1, 36413886610768285545289),
  (558504261664256, 26, 6, 36413886610768353003286), (558504261664256, 26, 7, 36413886610768353003287),
  (558487148903936, 34, 0, 36413886610768353003344), (558487148903936, 34, 1, 36413886610768353003345),
  (557404817145344, 40, 0, 36413886610768353003784), (557404817145344, 40, 1, 36413886610768353003785),
  (558509697482240, 30, 6, 36413886610768353153454), (558509697482240, 30, 7, 36413886610768353153455),
  (558235893317120, 38, 0, 36413886610768353153512), (558235893317120, 38, 1, 36413886610768353153513),
  (556863651266048, 40, 0, 36413886610768353175872), (556863651266048, 40, 1, 36413886610768353175873),
  (557688284986880, 38, 6, 36413886610768353176254), (557688284986880, 38, 7, 36413886610768353176255),
  (487594418716160, 46, 0, 36413886610768353176312), (487594418716160, 46, 1, 36413886610768353176313),
  (558510770961920, 18, 6, 36413886610794796710918), (558510770961920, 18, 7, 36413886610794796710919),
  (558510704115200, 26, 0, 36413886610794796710976), (558510704115200, 26, 1, 36413886610794796710977),
  (558502147735040, 26, 6, 36413886610794796733718), (558502147735040, 26, 7, 36413886610794796733719),
  (558485034974720, 34, 0, 36413886610794796733776), (558485034974720, 34, 1, 36413886610794796733777),
  (557402703216128, 40, 0, 36413886610794796734216), (557402703216128, 40, 1, 36413886610794796734217),
  (556861537336832, 40, 0, 36413886610794796906304), (556861537336832, 40, 1, 36413886610794796906305),
  (557686171057664, 38, 6, 36413886610794796906686), (557686171057664, 38, 7, 36413886610794796906687),
  (487592304786944, 46, 0, 36413886610794796906744), (487592304786944, 46, 1, 36413886610794796906745),
  (558444769656320, 36, 0, 36413886610794855577304), (558444769656320, 36, 1, 36413886610794855577305),
  (557686171057664, 32, 6, 36413886610794864364742), (557686171057664, 32, 7, 36413886610794864364743),
  (556590954397184, 40, 0, 36413886610794864364800), (556590954397184, 40, 1, 36413886610794864364801),
  (487321721847296, 46, 0, 36413886610794864365240), (487321721847296, 46, 1, 36413886610794864365241),
  (558101709143552, 30, 6, 36413886610794864514470), (558101709143552, 30, 7, 36413886610794864514471),
  (558034063408640, 36, 6, 36413886610794864514910), (558034063408640, 36, 7, 36413886610794864514911),
  (540510596840960, 44, 0, 36413886610794864514968), (540510596840960, 44, 1, 36413886610794864514969),
  (452687105572352, 46, 0, 36413886610794864537328), (452687105572352, 46, 1, 36413886610794864537329),
  (505463663705600, 44, 6, 36413886610794864537710), (505463663705600, 44, 7, 36413886610794864537711),
  (558034617056768, 38, 0, 36413886621183814491248), (558034617056768, 38, 1, 36413886621183814491249),
  (540717308919296, 44, 0, 36413886621183814491688), (540717308919296, 44, 1, 36413886621183814491689)]

def side6aFront5 : List (ℕ × ℕ × ℕ × ℕ) := [
  (558515653326848, 10, 0, 36413890684606619641152), (558515653326848, 10, 1, 36413890684606619641153),
  (558515636484608, 10, 6, 36413890684606628578758), (558515636484608, 10, 7, 36413890684606628578759),
  (558515636223488, 18, 0, 36413890684606628578816), (558515636223488, 18, 1, 36413890684606628578817),
  (558515636420096, 16, 6, 36413890684606628579198), (558515636420096, 16, 7, 36413890684606628579199),
  (558515602800128, 18, 6, 36413890684606628601558), (558515602800128, 18, 7, 36413890684606628601559),
  (558515535953408, 26, 0, 36413890684606628601616), (558515535953408, 26, 1, 36413890684606628601617),
  (558511308094976, 32, 0, 36413890684606628602056), (558511308094976, 32, 1, 36413890684606628602057),
  (558509194165760, 32, 0, 36413890684606628774144), (558509194165760, 32, 1, 36413890684606628774145),
  (558238611226112, 38, 0, 36413890684606628774584), (558238611226112, 38, 1, 36413890684606628774585),
  (558513489067520, 16, 6, 36413890684610123377974), (558513489067520, 16, 7, 36413890684610123377975),
  (558509185515008, 18, 6, 36413890684610132143110), (558509185515008, 18, 7, 36413890684610132143111),
  (558509118668288, 26, 0, 36413890684610132143168), (558509118668288, 26, 1, 36413890684610132143169),
  (558509168999936, 24, 6, 36413890684610132143550), (558509168999936, 24, 7, 36413890684610132143551),
  (558500562288128, 26, 6, 36413890684610132165910), (558500562288128, 26, 7, 36413890684610132165911),
  (558483449527808, 34, 0, 36413890684610132165968), (558483449527808, 34, 1, 36413890684610132165969),
  (557401117769216, 40, 0, 36413890684610132166408), (557401117769216, 40, 1, 36413890684610132166409),
  (556859951889920, 40, 0, 36413890684610132338496), (556859951889920, 40, 1, 36413890684610132338497),
  (557684585610752, 38, 6, 36413890684610132338878), (557684585610752, 38, 7, 36413890684610132338879),
  (487590719340032, 46, 0, 36413890684610132338936), (487590719340032, 46, 1, 36413890684610132338937),
  (557684585610752, 32, 6, 36413890684610199796934), (557684585610752, 32, 7, 36413890684610199796935),
  (556589368950272, 40, 0, 36413890684610199796992), (556589368950272, 40, 1, 36413890684610199796993),
  (487320136400384, 46, 0, 36413890684610199797432), (487320136400384, 46, 1, 36413890684610199797433),
  (558032477961728, 36, 6, 36413890684610199947102), (558032477961728, 36, 7, 36413890684610199947103),
  (540509011394048, 44, 0, 36413890684610199947160), (540509011394048, 44, 1, 36413890684610199947161),
  (452685520125440, 46, 0, 36413890684610199969520), (452685520125440, 46, 1, 36413890684610199969521),
  (505462078258688, 44, 6, 36413890684610199969902), (505462078258688, 44, 7, 36413890684610199969903),
  (558309494898176, 16, 6, 36413890695002576896246), (558309494898176, 16, 7, 36413890695002576896247),
  (558309478186496, 24, 0, 36413890695002576896304), (558309478186496, 24, 1, 36413890695002576896305),
  (558307339091456, 24, 6, 36413890695002576919046), (558307339091456, 24, 7, 36413890695002576919047),
  (558303060901376, 32, 0, 36413890695002576919104), (558303060901376, 32, 1, 36413890695002576919105),
  (558032477961728, 38, 0, 36413890695002576919544), (558032477961728, 38, 1, 36413890695002576919545),
  (558033534926336, 24, 6, 36413890695002585833910), (558033534926336, 24, 7, 36413890695002585833911),
  (558029256736256, 32, 0, 36413890695002585833968), (558029256736256, 32, 1, 36413890695002585833969),
  (558032477961728, 30, 6, 36413890695002585834350), (558032477961728, 30, 7, 36413890695002585834351),
  (557481648406016, 32, 6, 36413890695002585856710), (557481648406016, 32, 7, 36413890695002585856711)]

def side6aFront6 : List (ℕ × ℕ × ℕ × ℕ) := [
  (556386431745536, 40, 0, 36413890695002585856768), (556386431745536, 40, 1, 36413890695002585856769),
  (487117199195648, 46, 0, 36413890695002585857208), (487117199195648, 46, 1, 36413890695002585857209),
  (452482582920704, 46, 0, 36413890695002586029296), (452482582920704, 46, 1, 36413890695002586029297),
  (505259141053952, 44, 6, 36413890695002586029678), (505259141053952, 44, 7, 36413890695002586029679)]

theorem side6a_fronts : side6aEnum.fronts 8 = side6aFront0 ++ (side6aFront1 ++ (side6aFront2 ++ (side6aFront3 ++ (side6aFront4 ++ (side6aFront5 ++ (side6aFront6)))))) := by decide +kernel

end MinCert
end Peano
