import Verif.Lemmas.MinRun
import Verif.Lemmas.MinFast

set_option autoImplicit false

/-
Median, grid 5: no curve has less dilation.  This file is generated.
-/
namespace Peano
namespace MinCert

/-- Table of links and of their specs. -/
def med5Env : Env where
  N := 5
  G := 25
  m := 1
  S := 2
  W := 6
  B := 576
  L := 16
  links := [([0, 0], [1, 2]), ([0, 0], [2, 1]), ([0, 1], [2, 0]), ([0, 1], [2, 2]), ([0, 2], [1, 0]), ([0, 2], [2, 1]), ([1, 0], [0, 2]), ([1, 0], [2, 2]), ([1, 2], [0, 0]), ([1, 2], [2, 0]), ([2, 0], [0, 1]), ([2, 0], [1, 2]), ([2, 1], [0, 0]), ([2, 1], [0, 2]), ([2, 2], [0, 1]), ([2, 2], [1, 0])]
  doms := [
    [⟨[(1, false), (0, false)], false, 0⟩], [⟨[(0, false), (1, false)], false, 0⟩], [⟨[(0, true), (1, false)], true, 0⟩],
    [⟨[(0, true), (1, true)], true, 0⟩], [⟨[(1, false), (0, true)], false, 0⟩], [⟨[(0, false), (1, true)], false, 0⟩],
    [⟨[(1, false), (0, true)], true, 0⟩], [⟨[(1, true), (0, true)], true, 0⟩], [⟨[(1, false), (0, false)], true, 0⟩],
    [⟨[(1, true), (0, false)], true, 0⟩], [⟨[(0, true), (1, false)], false, 0⟩], [⟨[(1, true), (0, false)], false, 0⟩],
    [⟨[(0, false), (1, false)], true, 0⟩], [⟨[(0, false), (1, true)], true, 0⟩], [⟨[(0, true), (1, true)], false, 0⟩],
    [⟨[(1, true), (0, true)], false, 0⟩]]

/-- Data of the search of paths. -/
def med5Enum : Enum where
  L := 16
  B := 576
  ones := 7
  offs := [1, 5, 6, 7]
  trans := [
    [(8, 6), (8, 7)], [(13, 2), (13, 3)], [(6, 14), (6, 15), (12, 4), (12, 5), (13, 0), (13, 1)],
    [(8, 10), (8, 11), (13, 4), (13, 5), (14, 0), (14, 1)], [(6, 8), (6, 9)], [(13, 2), (13, 3)],
    [(1, 14), (1, 15), (2, 10), (2, 11), (8, 0), (8, 1)], [(8, 10), (8, 11), (13, 4), (13, 5), (14, 0), (14, 1)],
    [(0, 14), (0, 15), (1, 10), (1, 11), (6, 4), (6, 5)], [(6, 14), (6, 15), (12, 4), (12, 5), (13, 0), (13, 1)], [(1, 12), (1, 13)],
    [(8, 6), (8, 7)], [(0, 14), (0, 15), (1, 10), (1, 11), (6, 4), (6, 5)], [(1, 14), (1, 15), (2, 10), (2, 11), (8, 0), (8, 1)], [(1, 12), (1, 13)],
    [(6, 8), (6, 9)]]
  U := 67628691328
  F := 8589934592
  starts := [(7, 0), (7, 1)]
  finals := [(33, 1), (33, 5)]

def med5Tab : Tab := ⟨med5Env, [([0, 0], [2, 1])], [med5Enum]⟩

theorem med5_ok : med5Tab.Ok 2 5 1 2 := Fast.ok_sound (by decide +kernel)

def med5Paths0 : List ℕ := [
  199645929281925763957070130993594779786215841874155191448061905214485, 199645929281925763957070130993594779786215841874158344954002494670485,
  199645929281925763957156309276392880293958723739339438428361846168597, 199645929281925763957156309276392880293958723739342591934302435624597,
  199645929281925763957168986634857081495316117588929963154046761573397, 199645929281925763957168986634857081495316117588933116659987351029397,
  199645929281925768163114447892513738766459029812512197799676577586197, 199645929281925768163114447930724334060275343703169560481493348260885,
  199645929281925768163114447930724334060275343703190997925438313470997, 199645929281925768163128891078124907421665991252656423728977465020305,
  199645929281925768163128891078124907421665991252656423738351993252305, 199645929281925768163128891078124907421665991266377525310285066396305,
  199645929281925768163128891078124907421665991266377525310285066396885, 199645929281925768163128891078124907421665991266377525311608832721105,
  199645929281925768163128891078124907424025724630028858085445717168017, 199645929281925768163128891078124907424025724630028858094820245400017,
  199645929281925768163128891078124907424025724643749959666753318544017, 199645929281925768163128891078124907424025724643749959666753318544597,
  199645929281925768163128891078124907424025724643749959668077084868817, 199645929281925768163128891078124907424368085658110619271906970800017,
  199645929281925768163128891078124907424368085658110619281281499032017, 199645929281925768163128891078124907424372855120019740273104381513617,
  199645929281925768163128891078124907424372856019934098389103639388817, 199645929281925768163128891078124907424372856019934098389103639389397,
  199645929281925768163128891078124907424421199526125587989720773398417, 199645929281925768163128891078124907424421200571754379398908834808017,
  199645929281925768749071328303591085445051359909637650748776895170197, 199645929281925768749071328303591200614910824778446397184211290113685,
  199645929281925768749071328303591200614910824778446397248825499534997, 199645929281925768749071328308914206389996581430808621492489080508305,
  199645929281925768749071328308914206389996581430808621501863608740305, 199645929281925768749071328308914206389996581444529723073796681884305,
  199645929281925768749071328308914206389996581444529723073796681884885, 199645929281925768749071328308914206389996581444529723075120448209105,
  199645929281925768749071328308914206392356314808181055848957332656017, 199645929281925768749071328308914206392356314808181055858331860888017,
  199645929281925768749071328308914206392356314821902157430264934032017, 199645929281925768749071328308914206392356314821902157430264934032597,
  199645929281925768749071328308914206392356314821902157431588700356817, 199645929281925768749071328308914206392698675836262817035418586288017,
  199645929281925768749071328308914206392698675836262817044793114520017, 199645929281925768749071328308914206392703445298171938036615997001617,
  199645929281925768749071328308914206392703446198086296152615254876817, 199645929281925768749071328308914206392703446198086296152615254877397,
  199645929281925768749071328308914206392751789704277785753232388886417, 199645929281925768749071328308914206392751790749906577162420450296017,
  199645929281925796999997824216886746438878869200712878817025268336277, 199645929281925796999997824216886861608738334069521625252459663279765,
  199645929281925796999997824216886861608738334069521625317073872701077, 199645929281925796999997824222209867383824090721883849560737453674385,
  199645929281925796999997824222209867383824090721883849570111981906385, 199645929281925796999997824222209867383824090735604951142045055050385,
  199645929281925796999997824222209867383824090735604951142045055050965, 199645929281925796999997824222209867383824090735604951143368821375185,
  199645929281925796999997824222209867386183824099256283917205705822097, 199645929281925796999997824222209867386183824099256283926580234054097,
  199645929281925796999997824222209867386183824112977385498513307198097, 199645929281925796999997824222209867386183824112977385498513307198677,
  199645929281925796999997824222209867386183824112977385499837073522897, 199645929281925796999997824222209867386526185127338045103666959454097,
  199645929281925796999997824222209867386526185127338045113041487686097, 199645929281925796999997824222209867386530954589247166104864370167697,
  199645929281925796999997824222209867386530955489161524220863628042897, 199645929281925796999997824222209867386530955489161524220863628043477,
  199645929281925796999997824222209867386579298995353013821480762052497, 199645929281925796999997824222209867386579300040981805230668823462097,
  199645935351962580616059640395330652183299537746634571739544991308821, 199645935351962580671121571589213767047062004883473647070980043447317,
  199645935351962580671121571589213767047062004883473647134823725669397, 199645935351962580671121571589213767047062011911087025819141847653397,
  199645935351962580671121571589213767047062011911087025882985529875477, 199645935351962580671121571589213767047062012056801019917110708018197,
  199645935351962580671121571589213767047409136273989654745214676059797, 199645935351962580671121571589213767047409136273990093939110660474517,
  199645935351962580671121571589213767047409136273990093939110852904597, 199645935351962580671121571589213767047409136274011275740623573288597,
  199645935351962580671121571589213767047409136274011275740623765718677, 199645935353358044886990291677505532701309103015936927038322261892117,
  199645935353358044886990291677505532701309103015936927102165944114197, 199645935353358044886990291677505532701309110043550305786484066098197,
  199645935353358044886990291677505532701309110043550305850327748320277, 199645935353358044886990291677505532701309110189264299884452926462997,
  199645935353358044886990291677505532701656234406452934712556894504597, 199645935353358044886990291677505532701656234406453373906452878919317,
  199645935353358044886990291677505532701656234406453373906453071349397, 199645935353358044886990291677505532701656234406474555707965791733397,
  199645935353358044886990291677505532701656234406474555707965984163477, 199645935361706006460334835273298931683277735578161185469465565564817,
  199645935361706006460334835273298931683277736623789976878653626974417, 199645935361706006460419811996254581948404619542968873462613138706321,
  199645935361706006460419985876404380225851622259263167153577943338897, 199645935361706006460419985876404380225851623304891958562766004748497,
  199645935363119742807054880016951060123169293388524240368324778364817, 199645935363119742807054880016951060123169294434153031777512839774417,
  199645935363119742807054880273601942361331615478990944114170421546897, 199645935363119742807054880273601942361331616524619735523358482956497,
  199649076542754993325476276632801538259374834229246804470378157054997, 199649076542754993325476276632801538259374834229249957976318746510997,
  199649076542754993325562454915599638767117716094431051450678098009109, 199649076542754993325562454915599638767117716094434204956618687465109]

def med5Paths1 : List ℕ := [
  199649076542754993325575132274063839968475109944021576176363013413909, 199649076542754993325575132274063839968475109944024729682303602869909,
  199649076542754997531520593531720497239618022167603810821992829426709, 199649076542754997531520593569931092533434336058261173503809600101397,
  199649076542754997531520593569931092533434336058282610947754565311509, 199649076542754997531535036717331665894824983607748036751293716860817,
  199649076542754997531535036717331665894824983607748036760668245092817, 199649076542754997531535036717331665894824983621469138332601318236817,
  199649076542754997531535036717331665894824983621469138332601318237397, 199649076542754997531535036717331665894824983621469138333925084561617,
  199649076542754997531535036717331665897184716985120471107761969008529, 199649076542754997531535036717331665897184716985120471117136497240529,
  199649076542754997531535036717331665897184716998841572689069570384529, 199649076542754997531535036717331665897184716998841572689069570385109,
  199649076542754997531535036717331665897184716998841572690393336709329, 199649076542754997531535036717331665897527078013202232294223222640529,
  199649076542754997531535036717331665897527078013202232303597750872529, 199649076542754997531535036717331665897531847475111353295420633354129,
  199649076542754997531535036717331665897531848375025711411419891229329, 199649076542754997531535036717331665897531848375025711411419891229909,
  199649076542754997531535036717331665897580191881217201012037025238929, 199649076542754997531535036717331665897580192926845992421225086648529,
  199649076542754998117477473942797843918210352264729263771093147010709, 199649076542754998117477473942797959088069817133538010206527541954197,
  199649076542754998117477473942797959088069817133538010271141751375509, 199649076542754998117477473948120964863155573785900234514805332348817,
  199649076542754998117477473948120964863155573785900234524179860580817, 199649076542754998117477473948120964863155573799621336096112933724817,
  199649076542754998117477473948120964863155573799621336096112933725397, 199649076542754998117477473948120964863155573799621336097436700049617,
  199649076542754998117477473948120964865515307163272668871273584496529, 199649076542754998117477473948120964865515307163272668880648112728529,
  199649076542754998117477473948120964865515307176993770452581185872529, 199649076542754998117477473948120964865515307176993770452581185873109,
  199649076542754998117477473948120964865515307176993770453904952197329, 199649076542754998117477473948120964865857668191354430057734838128529,
  199649076542754998117477473948120964865857668191354430067109366360529, 199649076542754998117477473948120964865862437653263551058932248842129,
  199649076542754998117477473948120964865862438553177909174931506717329, 199649076542754998117477473948120964865862438553177909174931506717909,
  199649076542754998117477473948120964865910782059369398775548640726929, 199649076542754998117477473948120964865910783104998190184736702136529,
  199649076542755026368403969856093504912037861555804491839341520176789, 199649076542755026368403969856093620081897326424613238274775915120277,
  199649076542755026368403969856093620081897326424613238339390124541589, 199649076542755026368403969861416625856983083076975462583053705514897,
  199649076542755026368403969861416625856983083076975462592428233746897, 199649076542755026368403969861416625856983083090696564164361306890897,
  199649076542755026368403969861416625856983083090696564164361306891477, 199649076542755026368403969861416625856983083090696564165685073215697,
  199649076542755026368403969861416625859342816454347896939521957662609, 199649076542755026368403969861416625859342816454347896948896485894609,
  199649076542755026368403969861416625859342816468068998520829559038609, 199649076542755026368403969861416625859342816468068998520829559039189,
  199649076542755026368403969861416625859342816468068998522153325363409, 199649076542755026368403969861416625859685177482429658125983211294609,
  199649076542755026368403969861416625859685177482429658135357739526609, 199649076542755026368403969861416625859689946944338779127180622008209,
  199649076542755026368403969861416625859689947844253137243179879883409, 199649076542755026368403969861416625859689947844253137243179879883989,
  199649076542755026368403969861416625859738291350444626843797013893009, 199649076542755026368403969861416625859738292396073418252985075302609,
  199649468416554973677554970379028165098139460303757368858134602849301, 199649468416554973677554970379028165098139460303760522364075192305301,
  199649468416554973677554970417739763751004028718501063317715361995797, 199649468416554973677554970417739763751004028718501063381559044217877,
  199649468416554973677554970417739763751047829954350543736599551155221, 199649468416554973677554970417739878918532111958903801448418149877397,
  199649468416554973677554970417739878918532112090924308807239821379221, 199649468416554973677554970417739878918532119118537687555401625585301,
  199649533183594127569442288352816821112384983354063998771279554944021, 199649533183594127569442288352816821112384983354067152277220144400021,
  199649533184813515214849423005856798426333568380535412064744159845397, 199649533184813515214849423005856798426333568380535412128587842067477,
  199649533184813520006739094983305684485881217884727201993860486500241, 199649533184813520006739094983305684485881217884727202003235014732241,
  199649533184813520006739094983305684485881217898448303575168087876241, 199649533184813520006739094983305684485881217898448303575168087876821,
  199649533184813520006739094983305684485881217898448303576491854201041, 199649533184813520006739095239956566724043539975193905739706129682321,
  199649533184813520006739095239956566724043539975193905749080657914321, 199649533184813520006739095239956566724043539988915007321013731058321,
  199649533184813520006739095239956566724043539988915007321013731058901, 199649533184813520006739095239956566724043539988915007322337497383121,
  199649533185007921644792011283374829167702800460262528860435626280597, 199649533185007921644793777333760201335768164508292388823600633188241,
  199649533185007921644793777333760201335768164508292388832975161420241, 199649533185007921644793777333760201335768164522013490404908234564241,
  199649533185007921644793777333760201335768164522013490404908234564821, 199649533185007921644793777333760201335768164522013490406232000889041,
  201660349274237521853747451705499785077173975455430829730467191164817, 201660349274237521853747451705499785077173975455430829739841719396817,
  201660349274237521853747451710822889913322095349108911710690384252817, 201660349274237521853747451710822889913322095349108911720064912484817,
  201660349274237521853747451967473772151484417439575615456536027434897, 201660349274237521853747451967473772151484417439575615465910555666897,
  201660349274237521908980364587094774459029891787881312329506160611217, 201660349274237521908980364587094774459029891787881312338880688843217,
  201660349274237521908980364587095548025780464952673492796760410001297, 201660349274237521908980364587095548025780464952673492806134938233297,
  201660349274237521908993207942185813438465637645115026756495933411217, 201660349274237521908993207942185813438465637645115026765870461643217,
  201660349274237521908993207942185813440797231101462576887248209809297]

def med5Paths2 : List ℕ := [
  201660349274237521908993207942185813440797231101462576896622738041297, 201660349274451039116804416982379944484975034761579753620020487753617,
  201660349274451039116804416982379944484975034761579753629395015985617, 201660349274451039116804416982380718051725607926371934087274737143697,
  201660349274451039116804416982380718051725607926371934096649265375697, 201660349274451039702746854213169243453305624939731951383532103241617,
  201660349274451039702746854213169243453305624939731951392906631473617, 201660349286494572504744763476426448638503732307125438593197979212821,
  201660349286494572504744937362422756583254518050337882142060939058197, 201660349286494572504744937362422756583254518050337882205904621280277,
  201660355347453947808623641789608465260625025299068767692305114602517, 201660355347453947808623641789608465260625025299071921198245704058517,
  201660355347453947808623641789608465260972148456235034452138042858517, 201660355347453947808623641789608465260972149648253448477843678945937,
  201660355347453947808623641789608465260972149648253448477843678946517, 201660355347453947808623641789608465261020508400403713711364436346517,
  201660355347453947808623641789608465261020508400404153035589969633937, 201660355347453947808623641789608465261020508400404153035589969634517,
  201660355347453947808623641789608465263352101856751263842116712744597, 201660355347453947808623641789608465263352101856751703166342246032017,
  201660355347453947808623641789608465263352101856751703166342246032597, 201660355347453947808623641790109566170367212612051911550009381231637,
  201660355347453947808623641790109566170367212612051911613853063453717, 201660355347453947808623641790109566170367219639665290298171185437717,
  201660355347453947808623641790109566170367219639665290362014867659797, 201660355347453947808623641790109566170367219785379284396140045802517,
  201660355347453947808623641790109566170714344002567919224244013844117, 201660355347453947808623641790109566170714344002568358418139998258837,
  201660355347453947808623641790109566170714344002568358418140190688917, 201660355347453947808623641790109566170714344002589540219652911072917,
  201660355347453947808623641790109566170714344002589540219653103502997, 201660355347453947808623641790110239099139740920029060695077315348117,
  201660355347453947808623641790110239099139740920029060696401081672337, 201660355347453947808623641790110239099139740920029060696401081672917,
  201660355347453947808623641790110239099139747933266891144895524248597, 201660355347453947808623641790110239099139747933266891154270052480597,
  201660355347453947808623641790110239099139747947642439443239119554197, 201660355347453947808623641790110239099139747947642439444562885878417,
  201660355347453947808623641790110239099139747947642439444562885878997, 201660355347453947808623641790110339737117785776844092017263630621717,
  201660355347453947808623641790110339737117785776844092081107312843797, 201660355347453947808623641790110339737117792804457470765425434827797,
  201660355347453947808623641790110339737117792804457470829269117049877, 201660355347453947808623641790110339737117792950171464863394295192597,
  201660355347453947808623641790110339737464917167360099691498263234197, 201660355347453947808623641790110339737464917167360538885394247648917,
  201660355347453947808623641790110339737464917167360538885394440078997, 201660355347453947808623641790110339737464917167381720686907160462997,
  201660355347453947808623641790110339737464917167381720686907352893077, 201660355347453947808623641790110354266272339928587401474500586904597,
  201660355347453947808623641790110354266272339928587401483875115136597, 201660355347453947808623641790110355776631465950576120137297602026517,
  201660355347453947808623641790110355776631465950576120201141284248597, 201660355347453947808623641790110355777026941892912848015233414472337,
  201660355347453947808623641790110355777026941892912848015233414472917, 201660355347453947808623641790110355777026941892934029816746327286417,
  201660355347453947808623641790110355777026941892934029816746327286997, 201660355347453947808708792392713913803198911980170749376417492376597,
  201660355347453947808708792392713913803198911980173902882358081832597, 201660355347453947808708792392713913803546035137337016136250420632597,
  201660355347453947808708792392713913803546036329355430161956056720017, 201660355347453947808708792392713913803546036329355430161956056720597,
  201660355347453947808708792392713913803594395081505695395476814120597, 201660355347453947808708792392713913803594395081506134719702347408017,
  201660355347453947808708792392713913803594395081506134719702347408597, 201660355347453947808708792392713913805925988537853245526229090518677,
  201660355347453947808708792392713913805925988537853684850454623806097, 201660355347453947808708792392713913805925988537853684850454623806677,
  201660355347453947808708792393215014712941099293153893234121759005717, 201660355347453947808708792393215014712941099293153893297965441227797,
  201660355347453947808708792393215014712941106320767271982283563211797, 201660355347453947808708792393215014712941106320767272046127245433877,
  201660355347453947808708792393215014712941106466481266080252423576597, 201660355347453947808708792393215014713288230683669900908356391618197,
  201660355347453947808708792393215014713288230683670340102252376032917, 201660355347453947808708792393215014713288230683670340102252568462997,
  201660355347453947808708792393215014713288230683691521903765288846997, 201660355347453947808708792393215014713288230683691521903765481277077,
  201660355347453947808708792393215687641713627601131042379189693122197, 201660355347453947808708792393215687641713627601131042380513459446417,
  201660355347453947808708792393215687641713627601131042380513459446997, 201660355347453947808708792393215687641713634614368872829007902022677,
  201660355347453947808708792393215687641713634614368872838382430254677, 201660355347453947808708792393215687641713634628744421127351497328277,
  201660355347453947808708792393215687641713634628744421128675263652497, 201660355347453947808708792393215687641713634628744421128675263653077,
  201660355347453947808708792393215788279691672457946073701376008395797, 201660355347453947808708792393215788279691672457946073765219690617877,
  201660355347453947808708792393215788279691679485559452449537812601877, 201660355347453947808708792393215788279691679485559452513381494823957,
  201660355347453947808708792393215788279691679631273446547506672966677, 201660355347453947808708792393215788280038803848462081375610641008277,
  201660355347453947808708792393215788280038803848462520569506625422997, 201660355347453947808708792393215788280038803848462520569506817853077,
  201660355347453947808708792393215788280038803848483702371019538237077, 201660355347453947808708792393215788280038803848483702371019730667157,
  201660355347453947808708792393215802808846226609689383158612964678677, 201660355347453947808708792393215802808846226609689383167987492910677,
  201660355347453947808708792393215804319205352631678101821409979800597, 201660355347453947808708792393215804319205352631678101885253662022677]

def med5Paths3 : List ℕ := [
  201660355347453947808708792393215804319600828574014829699345792246417, 201660355347453947808708792393215804319600828574014829699345792246997,
  201660355347453947808708792393215804319600828574036011500858705060497, 201660355347453947808708792393215804319600828574036011500858705061077,
  201660355347453947808710557947722590086476357039559935410481833450517, 201660355347453947808710557947722590086476357039559935474325515672597,
  201660355347453947808710557947722590086476364067173314158643637656597, 201660355347453947808710557947722590086476364067173314222487319878677,
  201660355347453947808710557947722590086476364212887308256612498021397, 201660355347453947808710557947722590086823488430075943084716466062997,
  201660355347453947808710557947722590086823488430076382278612450477717, 201660355347453947808710557947722590086823488430076382278612642907797,
  201660355347453947808710557947722590086823488430097564080125363291797, 201660355347453947808710557947722590086823488430097564080125555721877,
  201660355347453947808710732097263537315941119384259385305525382552597, 201660355347453947808710732097263537315941119384262538811465972008597,
  201660355347453947808710732130652804699769353721552123958119676517397, 201660355347453947808710732130652804699769353721552124021963358739477,
  201660355347453947808710732130652935911623895352188632084845919068817, 201660355347453947808710732130652935911623895352188632084845919069397,
  201660355347453947808710732130652935911623902379802010833007723274897, 201660355347453947808710732130652935911623902379802010833007723275477,
  201660355347453947808710732135976040747723656201633574724678459278997, 201660355347453947808710732135976040747772015245866714065069112156817,
  201660355347453947808710732135976040747772015245866714065069112157397, 201660355347453947808723401793871776156126466179487805159892577688597,
  201660355347453947808723401793871776156126466179487805223736259910677, 201660355347453947808723401793871790685676285416066952212016105266197,
  201660355347453947808723401832081597950822644338375421227003918632597, 201660355347453947808723401832081597950866437589904273763495563970197,
  201660355347453947808723401832081597953198031046251823894247840368277, 201660355347453948394479170257870160941070710529724437899111094878417,
  201660355347453948394479170257870160941119069281875142456857385566417, 201660355347453948394479170257870160943450662738222692587609661964497,
  201660355347453948394481109995809183049148569552557639822000764797137, 201660355347453948394481109995809183049148569552557639822000957227217,
  201660355347453948394481109995809183049148576580171018570162569003217, 201660355347453948394481109995809183049148576580171018570162761433297,
  201660355347453948394481110001132287885296689446235721802223957885137, 201660355347453948394481110001132287885296689446235721802224150315217,
  201660355347453948394567852505081371755379855217812228026273976598737, 201660355347453948394567852505081371755379855217812228026274169028817,
  201660355347453948394567852505082145322130428382604408493528225988817, 201660355347453948394567852505082145322130428382604408493528418418897,
  201660355347453948394580695860172410734815601075045942453263749398737, 201660355347453948394580695860172410734815601075045942453263941828817,
  201660355347453948394580695860172410737147194531393492584016025796817, 201660355347453948394580695860172410737147194531393492584016218226897,
  201663060521681010058624752442050787945572080769394496894447117897617, 201663060521681010058624752442050787945572080769397648560809449668817,
  201663060521681010058626518520480905824197925708721567424557082185617, 201663060521681010058626518520480905824197925708724719090919413956817,
  201663060521681010058711669123586354366771812389823549108669459959697, 201663060521681010058711669123586354366771812389826700775031791730897,
  201663060521699335013528956501247942574069195860709275647574166704017, 201663060521699335013528956501247942574069195860712427313936498475217,
  201663060521699335013528956757898824812231517951175979393419809886097, 201663060521699335013528956757898824812231517951179131059782141657297,
  201663060521699339274645935185796383848086725433547004606434659504017, 201663060521699339274645935185796383848086725433550156272796991275217,
  201663060521699339274645935185797157414837298598339185073688908894097, 201663060521699339274645935185797157414837298598342336740051240665297,
  201663465077063748547423581262759947227289787762362013949448940952597, 201663465077063748547423581262759947227289787762365167455389530408597,
  201663465077063748547423581262759947227636910919528280709281869208597, 201663465077063748547423581262759947227636912111546694734987505296017,
  201663465077063748547423581262759947227636912111546694734987505296597, 201663465077063748547423581262759947227685270863696959968508262696597,
  201663465077063748547423581262759947227685270863697399292733795984017, 201663465077063748547423581262759947227685270863697399292733795984597,
  201663465077063748547423581262759947230016864320044510099260539094677, 201663465077063748547423581262759947230016864320044949423486072382097,
  201663465077063748547423581262759947230016864320044949423486072382677, 201663465077063748547423581263261048137031975075345157807153207581717,
  201663465077063748547423581263261048137031975075345157870996889803797, 201663465077063748547423581263261048137031982102958536555315011787797,
  201663465077063748547423581263261048137031982102958536619158694009877, 201663465077063748547423581263261048137031982248672530653283872152597,
  201663465077063748547423581263261048137379106465861165481387840194197, 201663465077063748547423581263261048137379106465861604675283824608917,
  201663465077063748547423581263261048137379106465861604675284017038997, 201663465077063748547423581263261048137379106465882786476796737422997,
  201663465077063748547423581263261048137379106465882786476796929853077, 201663465077063748547423581263261721065804503383322306952221141698197,
  201663465077063748547423581263261721065804503383322306953544908022417, 201663465077063748547423581263261721065804503383322306953544908022997,
  201663465077063748547423581263261721065804510396560137402039350598677, 201663465077063748547423581263261721065804510396560137411413878830677,
  201663465077063748547423581263261721065804510410935685700382945904277, 201663465077063748547423581263261721065804510410935685701706712228497,
  201663465077063748547423581263261721065804510410935685701706712229077, 201663465077063748547423581263261821703782548240137338274407456971797,
  201663465077063748547423581263261821703782548240137338338251139193877, 201663465077063748547423581263261821703782555267750717022569261177877,
  201663465077063748547423581263261821703782555267750717086412943399957, 201663465077063748547423581263261821703782555413464711120538121542677,
  201663465077063748547423581263261821704129679630653345948642089584277, 201663465077063748547423581263261821704129679630653785142538073998997,
  201663465077063748547423581263261821704129679630653785142538266429077, 201663465077063748547423581263261821704129679630674966944050986813077,
  201663465077063748547423581263261821704129679630674966944051179243157, 201663465077063748547423581263261836232937102391880647731644413254677]

def med5Paths4 : List ℕ := [
  201663465077063748547423581263261836232937102391880647741018941486677, 201663465077063748547423581263261837743296228413869366394441428376597,
  201663465077063748547423581263261837743296228413869366458285110598677, 201663465077063748547423581263261837743691704356206094272377240822417,
  201663465077063748547423581263261837743691704356206094272377240822997, 201663465077063748547423581263261837743691704356227276073890153636497,
  201663465077063748547423581263261837743691704356227276073890153637077, 201663465077063748547508731865865395769863674443463995633561318726677,
  201663465077063748547508731865865395769863674443467149139501908182677, 201663465077063748547508731865865395770210797600630262393394246982677,
  201663465077063748547508731865865395770210798792648676419099883070097, 201663465077063748547508731865865395770210798792648676419099883070677,
  201663465077063748547508731865865395770259157544798941652620640470677, 201663465077063748547508731865865395770259157544799380976846173758097,
  201663465077063748547508731865865395770259157544799380976846173758677, 201663465077063748547508731865865395772590751001146491783372916868757,
  201663465077063748547508731865865395772590751001146931107598450156177, 201663465077063748547508731865865395772590751001146931107598450156757,
  201663465077063748547508731866366496679605861756447139491265585355797, 201663465077063748547508731866366496679605861756447139555109267577877,
  201663465077063748547508731866366496679605868784060518239427389561877, 201663465077063748547508731866366496679605868784060518303271071783957,
  201663465077063748547508731866366496679605868929774512337396249926677, 201663465077063748547508731866366496679952993146963147165500217968277,
  201663465077063748547508731866366496679952993146963586359396202382997, 201663465077063748547508731866366496679952993146963586359396394813077,
  201663465077063748547508731866366496679952993146984768160909115197077, 201663465077063748547508731866366496679952993146984768160909307627157,
  201663465077063748547508731866367169608378390064424288636333519472277, 201663465077063748547508731866367169608378390064424288637657285796497,
  201663465077063748547508731866367169608378390064424288637657285797077, 201663465077063748547508731866367169608378397077662119086151728372757,
  201663465077063748547508731866367169608378397077662119095526256604757, 201663465077063748547508731866367169608378397092037667384495323678357,
  201663465077063748547508731866367169608378397092037667385819090002577, 201663465077063748547508731866367169608378397092037667385819090003157,
  201663465077063748547508731866367270246356434921239319958519834745877, 201663465077063748547508731866367270246356434921239320022363516967957,
  201663465077063748547508731866367270246356441948852698706681638951957, 201663465077063748547508731866367270246356441948852698770525321174037,
  201663465077063748547508731866367270246356442094566692804650499316757, 201663465077063748547508731866367270246703566311755327632754467358357,
  201663465077063748547508731866367270246703566311755766826650451773077, 201663465077063748547508731866367270246703566311755766826650644203157,
  201663465077063748547508731866367270246703566311776948628163364587157, 201663465077063748547508731866367270246703566311776948628163557017237,
  201663465077063748547508731866367284775510989072982629415756791028757, 201663465077063748547508731866367284775510989072982629425131319260757,
  201663465077063748547508731866367286285870115094971348078553806150677, 201663465077063748547508731866367286285870115094971348142397488372757,
  201663465077063748547508731866367286286265591037308075956489618596497, 201663465077063748547508731866367286286265591037308075956489618597077,
  201663465077063748547508731866367286286265591037329257758002531410577, 201663465077063748547508731866367286286265591037329257758002531411157,
  201663465077063748547510497420874072053141119502853181667625659800597, 201663465077063748547510497420874072053141119502853181731469342022677,
  201663465077063748547510497420874072053141126530466560415787464006677, 201663465077063748547510497420874072053141126530466560479631146228757,
  201663465077063748547510497420874072053141126676180554513756324371477, 201663465077063748547510497420874072053488250893369189341860292413077,
  201663465077063748547510497420874072053488250893369628535756276827797, 201663465077063748547510497420874072053488250893369628535756469257877,
  201663465077063748547510497420874072053488250893390810337269189641877, 201663465077063748547510497420874072053488250893390810337269382071957,
  201663465077063748547510671570415019282605881847552631562669208902677, 201663465077063748547510671570415019282605881847555785068609798358677,
  201663465077063748547510671603804286666434116184845370215263502867477, 201663465077063748547510671603804286666434116184845370279107185089557,
  201663465077063748547510671603804417878288657815481878341989745418897, 201663465077063748547510671603804417878288657815481878341989745419477,
  201663465077063748547510671603804417878288664843095257090151549624977, 201663465077063748547510671603804417878288664843095257090151549625557,
  201663465077063748547510671609127522714388418664926820981822285629077, 201663465077063748547510671609127522714436777709159960322212938506897,
  201663465077063748547510671609127522714436777709159960322212938507477, 201663465077063748547523341267023258122791228642781051417036404038677,
  201663465077063748547523341267023258122791228642781051480880086260757, 201663465077063748547523341267023272652341047879360198469159931616277,
  201663465077063748547523341305233079917487406801668667484147744982677, 201663465077063748547523341305233079917531200053197520020639390320277,
  201663465077063748547523341305233079919862793509545070151391666718357, 201663465077063749133279109731021642907735472993017684156254921228497,
  201663465077063749133279109731021642907783831745168388714001211916497, 201663465077063749133279109731021642910115425201515938844753488314577,
  201663465077063749133281049468960665015813332015850886079144591147217, 201663465077063749133281049468960665015813332015850886079144783577297,
  201663465077063749133281049468960665015813339043464264827306395353297, 201663465077063749133281049468960665015813339043464264827306587783377,
  201663465077063749133281049474283769851961451909528968059367784235217, 201663465077063749133281049474283769851961451909528968059367976665297,
  201663465077063749133367791978232853722044617681105474283417802948817, 201663465077063749133367791978232853722044617681105474283417995378897,
  201663465077063749133367791978233627288795190845897654750672052338897, 201663465077063749133367791978233627288795190845897654750672244768977,
  201663465077063749133380635333323892701480363538339188710407575748817, 201663465077063749133380635333323892701480363538339188710407768178897,
  201663465077063749133380635333323892703811956994686738841159852146897, 201663465077063749133380635333323892703811956994686738841160044576977,
  201663529573661368390507264494094394905490201696738187649492916604817, 201663529573661368390507264494094394907821795153085737780245193002897,
  201663529573661368390509030572524512784116046636065258179602880892817, 201663529573661397169590020783774593496523077202994248598611604246417]

def med5Paths5 : List ℕ := [
  201663529573661397169590021040425475734685399293460952344457247428497, 201663529573661401430706999468323034770540606775831977557472097046417,
  201663529573661401430706999468323808337291179940624158024726346436497, 201663529574861615777715085660542335318892767725787637816356498840597,
  201663529574861615777715085660542335318892767725790791322297088296597, 201663529574861615777715085660542335319239890882953904576189427096597,
  201663529574861615777715085660542335319239892074972318601895063184017, 201663529574861615777715085660542335319239892074972318601895063184597,
  201663529574861615777715085660542335319288250827122583835415820584597, 201663529574861615777715085660542335319288250827123023159641353872017,
  201663529574861615777715085660542335319288250827123023159641353872597, 201663529574861615777715085660542335321619844283470133966168096982677,
  201663529574861615777715085660542335321619844283470573290393630270097, 201663529574861615777715085660542335321619844283470573290393630270677,
  201663529574861615777715085661043436228634955038770781674060765469717, 201663529574861615777715085661043436228634955038770781737904447691797,
  201663529574861615777715085661043436228634962066384160422222569675797, 201663529574861615777715085661043436228634962066384160486066251897877,
  201663529574861615777715085661043436228634962212098154520191430040597, 201663529574861615777715085661043436228982086429286789348295398082197,
  201663529574861615777715085661043436228982086429287228542191382496917, 201663529574861615777715085661043436228982086429287228542191574926997,
  201663529574861615777715085661043436228982086429308410343704295310997, 201663529574861615777715085661043436228982086429308410343704487741077,
  201663529574861615777715085661044109157407483346747930819128699586197, 201663529574861615777715085661044109157407483346747930820452465910417,
  201663529574861615777715085661044109157407483346747930820452465910997, 201663529574861615777715085661044109157407490359985761268946908486677,
  201663529574861615777715085661044109157407490359985761278321436718677, 201663529574861615777715085661044109157407490374361309567290503792277,
  201663529574861615777715085661044109157407490374361309568614270116497, 201663529574861615777715085661044109157407490374361309568614270117077,
  201663529574861615777715085661044209795385528203562962141315014859797, 201663529574861615777715085661044209795385528203562962205158697081877,
  201663529574861615777715085661044209795385535231176340889476819065877, 201663529574861615777715085661044209795385535231176340953320501287957,
  201663529574861615777715085661044209795385535376890334987445679430677, 201663529574861615777715085661044209795732659594078969815549647472277,
  201663529574861615777715085661044209795732659594079409009445631886997, 201663529574861615777715085661044209795732659594079409009445824317077,
  201663529574861615777715085661044209795732659594100590810958544701077, 201663529574861615777715085661044209795732659594100590810958737131157,
  201663529574861615777715085661044224324540082355306271598551971142677, 201663529574861615777715085661044224324540082355306271607926499374677,
  201663529574861615777715085661044225834899208377294990261348986264597, 201663529574861615777715085661044225834899208377294990325192668486677,
  201663529574861615777715085661044225835294684319631718139284798710417, 201663529574861615777715085661044225835294684319631718139284798710997,
  201663529574861615777715085661044225835294684319652899940797711524497, 201663529574861615777715085661044225835294684319652899940797711525077]

def med5Tree : CT :=
  .node (.node (.node (.node (.node (.node (.node (.node (.node (.node .nil 199645929281925763957070130993594779786215841874155191448061905214485
  .nil) 199645929281925763957070130993594779786215841874158344954002494670485 .nil)
  199645929281925763957156309276392880293958723739339438428361846168597 (.node .nil
  199645929281925763957156309276392880293958723739342591934302435624597 .nil)) 199645929281925763957168986634857081495316117588929963154046761573397
  (.node (.node .nil 199645929281925763957168986634857081495316117588933116659987351029397 .nil)
  199645929281925768163114447892513738766459029812512197799676577586197 (.node .nil
  199645929281925768163114447930724334060275343703169560481493348260885 .nil))) 199645929281925768163114447930724334060275343703190997925438313470997
  (.node (.node (.node (.node .nil 199645929281925768163128891078124907421665991252656423728977465020305 .nil)
  199645929281925768163128891078124907421665991252656423738351993252305 .nil) 199645929281925768163128891078124907421665991266377525310285066396305
  (.node .nil 199645929281925768163128891078124907421665991266377525310285066396885 .nil))
  199645929281925768163128891078124907421665991266377525311608832721105 (.node (.node .nil
  199645929281925768163128891078124907424025724630028858085445717168017 .nil) 199645929281925768163128891078124907424025724630028858094820245400017
  (.node .nil 199645929281925768163128891078124907424025724643749959666753318544017 .nil))))
  199645929281925768163128891078124907424025724643749959666753318544597 (.node (.node (.node (.node (.node .nil
  199645929281925768163128891078124907424025724643749959668077084868817 .nil) 199645929281925768163128891078124907424368085658110619271906970800017
  .nil) 199645929281925768163128891078124907424368085658110619281281499032017 (.node .nil
  199645929281925768163128891078124907424372855120019740273104381513617 .nil)) 199645929281925768163128891078124907424372856019934098389103639388817
  (.node (.node .nil 199645929281925768163128891078124907424372856019934098389103639389397 .nil)
  199645929281925768163128891078124907424421199526125587989720773398417 (.node .nil
  199645929281925768163128891078124907424421200571754379398908834808017 .nil))) 199645929281925768749071328303591085445051359909637650748776895170197
  (.node (.node (.node .nil 199645929281925768749071328303591200614910824778446397184211290113685 .nil)
  199645929281925768749071328303591200614910824778446397248825499534997 (.node .nil
  199645929281925768749071328308914206389996581430808621492489080508305 .nil)) 199645929281925768749071328308914206389996581430808621501863608740305
  (.node (.node .nil 199645929281925768749071328308914206389996581444529723073796681884305 .nil)
  199645929281925768749071328308914206389996581444529723073796681884885 (.node .nil
  199645929281925768749071328308914206389996581444529723075120448209105 .nil)))))
  199645929281925768749071328308914206392356314808181055848957332656017 (.node (.node (.node (.node (.node (.node .nil
  199645929281925768749071328308914206392356314808181055858331860888017 .nil) 199645929281925768749071328308914206392356314821902157430264934032017
  .nil) 199645929281925768749071328308914206392356314821902157430264934032597 (.node .nil
  199645929281925768749071328308914206392356314821902157431588700356817 .nil)) 199645929281925768749071328308914206392698675836262817035418586288017
  (.node (.node .nil 199645929281925768749071328308914206392698675836262817044793114520017 .nil)
  199645929281925768749071328308914206392703445298171938036615997001617 (.node .nil
  199645929281925768749071328308914206392703446198086296152615254876817 .nil))) 199645929281925768749071328308914206392703446198086296152615254877397
  (.node (.node (.node (.node .nil 199645929281925768749071328308914206392751789704277785753232388886417 .nil)
  199645929281925768749071328308914206392751790749906577162420450296017 .nil) 199645929281925796999997824216886746438878869200712878817025268336277
  (.node .nil 199645929281925796999997824216886861608738334069521625252459663279765 .nil))
  199645929281925796999997824216886861608738334069521625317073872701077 (.node (.node .nil
  199645929281925796999997824222209867383824090721883849560737453674385 .nil) 199645929281925796999997824222209867383824090721883849570111981906385
  (.node .nil 199645929281925796999997824222209867383824090735604951142045055050385 .nil))))
  199645929281925796999997824222209867383824090735604951142045055050965 (.node (.node (.node (.node (.node .nil
  199645929281925796999997824222209867383824090735604951143368821375185 .nil) 199645929281925796999997824222209867386183824099256283917205705822097
  .nil) 199645929281925796999997824222209867386183824099256283926580234054097 (.node .nil
  199645929281925796999997824222209867386183824112977385498513307198097 .nil)) 199645929281925796999997824222209867386183824112977385498513307198677
  (.node (.node .nil 199645929281925796999997824222209867386183824112977385499837073522897 .nil)
  199645929281925796999997824222209867386526185127338045103666959454097 (.node .nil
  199645929281925796999997824222209867386526185127338045113041487686097 .nil))) 199645929281925796999997824222209867386530954589247166104864370167697
  (.node (.node (.node .nil 199645929281925796999997824222209867386530955489161524220863628042897 .nil)
  199645929281925796999997824222209867386530955489161524220863628043477 (.node .nil
  199645929281925796999997824222209867386579298995353013821480762052497 .nil)) 199645929281925796999997824222209867386579300040981805230668823462097
  (.node (.node .nil 199645935351962580616059640395330652183299537746634571739544991308821 .nil)
  199645935351962580671121571589213767047062004883473647070980043447317 (.node .nil
  199645935351962580671121571589213767047062004883473647134823725669397 .nil))))))
  199645935351962580671121571589213767047062011911087025819141847653397 (.node (.node (.node (.node (.node (.node (.node .nil
  199645935351962580671121571589213767047062011911087025882985529875477 .nil) 199645935351962580671121571589213767047062012056801019917110708018197
  .nil) 199645935351962580671121571589213767047409136273989654745214676059797 (.node .nil
  199645935351962580671121571589213767047409136273990093939110660474517 .nil)) 199645935351962580671121571589213767047409136273990093939110852904597
  (.node (.node .nil 199645935351962580671121571589213767047409136274011275740623573288597 .nil)
  199645935351962580671121571589213767047409136274011275740623765718677 (.node .nil
  199645935353358044886990291677505532701309103015936927038322261892117 .nil))) 199645935353358044886990291677505532701309103015936927102165944114197
  (.node (.node (.node (.node .nil 199645935353358044886990291677505532701309110043550305786484066098197 .nil)
  199645935353358044886990291677505532701309110043550305850327748320277 .nil) 199645935353358044886990291677505532701309110189264299884452926462997
  (.node .nil 199645935353358044886990291677505532701656234406452934712556894504597 .nil))
  199645935353358044886990291677505532701656234406453373906452878919317 (.node (.node .nil
  199645935353358044886990291677505532701656234406453373906453071349397 .nil) 199645935353358044886990291677505532701656234406474555707965791733397
  (.node .nil 199645935353358044886990291677505532701656234406474555707965984163477 .nil))))
  199645935361706006460334835273298931683277735578161185469465565564817 (.node (.node (.node (.node (.node .nil
  199645935361706006460334835273298931683277736623789976878653626974417 .nil) 199645935361706006460419811996254581948404619542968873462613138706321
  .nil) 199645935361706006460419985876404380225851622259263167153577943338897 (.node .nil
  199645935361706006460419985876404380225851623304891958562766004748497 .nil)) 199645935363119742807054880016951060123169293388524240368324778364817
  (.node (.node .nil 199645935363119742807054880016951060123169294434153031777512839774417 .nil)
  199645935363119742807054880273601942361331615478990944114170421546897 (.node .nil
  199645935363119742807054880273601942361331616524619735523358482956497 .nil))) 199649076542754993325476276632801538259374834229246804470378157054997
  (.node (.node (.node .nil 199649076542754993325476276632801538259374834229249957976318746510997 .nil)
  199649076542754993325562454915599638767117716094431051450678098009109 (.node .nil
  199649076542754993325562454915599638767117716094434204956618687465109 .nil)) 199649076542754993325575132274063839968475109944021576176363013413909
  (.node (.node .nil 199649076542754993325575132274063839968475109944024729682303602869909 .nil)
  199649076542754997531520593531720497239618022167603810821992829426709 (.node .nil
  199649076542754997531520593569931092533434336058261173503809600101397 .nil)))))
  199649076542754997531520593569931092533434336058282610947754565311509 (.node (.node (.node (.node (.node (.node .nil
  199649076542754997531535036717331665894824983607748036751293716860817 .nil) 199649076542754997531535036717331665894824983607748036760668245092817
  .nil) 199649076542754997531535036717331665894824983621469138332601318236817 (.node .nil
  199649076542754997531535036717331665894824983621469138332601318237397 .nil)) 199649076542754997531535036717331665894824983621469138333925084561617
  (.node (.node .nil 199649076542754997531535036717331665897184716985120471107761969008529 .nil)
  199649076542754997531535036717331665897184716985120471117136497240529 (.node .nil
  199649076542754997531535036717331665897184716998841572689069570384529 .nil))) 199649076542754997531535036717331665897184716998841572689069570385109
  (.node (.node (.node (.node .nil 199649076542754997531535036717331665897184716998841572690393336709329 .nil)
  199649076542754997531535036717331665897527078013202232294223222640529 .nil) 199649076542754997531535036717331665897527078013202232303597750872529
  (.node .nil 199649076542754997531535036717331665897531847475111353295420633354129 .nil))
  199649076542754997531535036717331665897531848375025711411419891229329 (.node (.node .nil
  199649076542754997531535036717331665897531848375025711411419891229909 .nil) 199649076542754997531535036717331665897580191881217201012037025238929
  (.node .nil 199649076542754997531535036717331665897580192926845992421225086648529 .nil))))
  199649076542754998117477473942797843918210352264729263771093147010709 (.node (.node (.node (.node (.node .nil
  199649076542754998117477473942797959088069817133538010206527541954197 .nil) 199649076542754998117477473942797959088069817133538010271141751375509
  .nil) 199649076542754998117477473948120964863155573785900234514805332348817 (.node .nil
  199649076542754998117477473948120964863155573785900234524179860580817 .nil)) 199649076542754998117477473948120964863155573799621336096112933724817
  (.node (.node .nil 199649076542754998117477473948120964863155573799621336096112933725397 .nil)
  199649076542754998117477473948120964863155573799621336097436700049617 (.node .nil
  199649076542754998117477473948120964865515307163272668871273584496529 .nil))) 199649076542754998117477473948120964865515307163272668880648112728529
  (.node (.node (.node .nil 199649076542754998117477473948120964865515307176993770452581185872529 .nil)
  199649076542754998117477473948120964865515307176993770452581185873109 (.node .nil
  199649076542754998117477473948120964865515307176993770453904952197329 .nil)) 199649076542754998117477473948120964865857668191354430057734838128529
  (.node (.node .nil 199649076542754998117477473948120964865857668191354430067109366360529 .nil)
  199649076542754998117477473948120964865862437653263551058932248842129 (.node .nil
  199649076542754998117477473948120964865862438553177909174931506717329 .nil)))))))
  199649076542754998117477473948120964865862438553177909174931506717909 (.node (.node (.node (.node (.node (.node (.node (.node .nil
  199649076542754998117477473948120964865910782059369398775548640726929 .nil) 199649076542754998117477473948120964865910783104998190184736702136529
  .nil) 199649076542755026368403969856093504912037861555804491839341520176789 (.node .nil
  199649076542755026368403969856093620081897326424613238274775915120277 .nil)) 199649076542755026368403969856093620081897326424613238339390124541589
  (.node (.node .nil 199649076542755026368403969861416625856983083076975462583053705514897 .nil)
  199649076542755026368403969861416625856983083076975462592428233746897 (.node .nil
  199649076542755026368403969861416625856983083090696564164361306890897 .nil))) 199649076542755026368403969861416625856983083090696564164361306891477
  (.node (.node (.node (.node .nil 199649076542755026368403969861416625856983083090696564165685073215697 .nil)
  199649076542755026368403969861416625859342816454347896939521957662609 .nil) 199649076542755026368403969861416625859342816454347896948896485894609
  (.node .nil 199649076542755026368403969861416625859342816468068998520829559038609 .nil))
  199649076542755026368403969861416625859342816468068998520829559039189 (.node (.node .nil
  199649076542755026368403969861416625859342816468068998522153325363409 .nil) 199649076542755026368403969861416625859685177482429658125983211294609
  (.node .nil 199649076542755026368403969861416625859685177482429658135357739526609 .nil))))
  199649076542755026368403969861416625859689946944338779127180622008209 (.node (.node (.node (.node (.node .nil
  199649076542755026368403969861416625859689947844253137243179879883409 .nil) 199649076542755026368403969861416625859689947844253137243179879883989
  .nil) 199649076542755026368403969861416625859738291350444626843797013893009 (.node .nil
  199649076542755026368403969861416625859738292396073418252985075302609 .nil)) 199649468416554973677554970379028165098139460303757368858134602849301
  (.node (.node .nil 199649468416554973677554970379028165098139460303760522364075192305301 .nil)
  199649468416554973677554970417739763751004028718501063317715361995797 (.node .nil
  199649468416554973677554970417739763751004028718501063381559044217877 .nil))) 199649468416554973677554970417739763751047829954350543736599551155221
  (.node (.node (.node .nil 199649468416554973677554970417739878918532111958903801448418149877397 .nil)
  199649468416554973677554970417739878918532112090924308807239821379221 (.node .nil
  199649468416554973677554970417739878918532119118537687555401625585301 .nil)) 199649533183594127569442288352816821112384983354063998771279554944021
  (.node (.node .nil 199649533183594127569442288352816821112384983354067152277220144400021 .nil)
  199649533184813515214849423005856798426333568380535412064744159845397 (.node .nil
  199649533184813515214849423005856798426333568380535412128587842067477 .nil)))))
  199649533184813520006739094983305684485881217884727201993860486500241 (.node (.node (.node (.node (.node (.node .nil
  199649533184813520006739094983305684485881217884727202003235014732241 .nil) 199649533184813520006739094983305684485881217898448303575168087876241
  .nil) 199649533184813520006739094983305684485881217898448303575168087876821 (.node .nil
  199649533184813520006739094983305684485881217898448303576491854201041 .nil)) 199649533184813520006739095239956566724043539975193905739706129682321
  (.node (.node .nil 199649533184813520006739095239956566724043539975193905749080657914321 .nil)
  199649533184813520006739095239956566724043539988915007321013731058321 (.node .nil
  199649533184813520006739095239956566724043539988915007321013731058901 .nil))) 199649533184813520006739095239956566724043539988915007322337497383121
  (.node (.node (.node (.node .nil 199649533185007921644792011283374829167702800460262528860435626280597 .nil)
  199649533185007921644793777333760201335768164508292388823600633188241 .nil) 199649533185007921644793777333760201335768164508292388832975161420241
  (.node .nil 199649533185007921644793777333760201335768164522013490404908234564241 .nil))
  199649533185007921644793777333760201335768164522013490404908234564821 (.node (.node .nil
  199649533185007921644793777333760201335768164522013490406232000889041 .nil) 201660349274237521853747451705499785077173975455430829730467191164817
  (.node .nil 201660349274237521853747451705499785077173975455430829739841719396817 .nil))))
  201660349274237521853747451710822889913322095349108911710690384252817 (.node (.node (.node (.node (.node .nil
  201660349274237521853747451710822889913322095349108911720064912484817 .nil) 201660349274237521853747451967473772151484417439575615456536027434897
  .nil) 201660349274237521853747451967473772151484417439575615465910555666897 (.node .nil
  201660349274237521908980364587094774459029891787881312329506160611217 .nil)) 201660349274237521908980364587094774459029891787881312338880688843217
  (.node (.node .nil 201660349274237521908980364587095548025780464952673492796760410001297 .nil)
  201660349274237521908980364587095548025780464952673492806134938233297 (.node .nil
  201660349274237521908993207942185813438465637645115026756495933411217 .nil))) 201660349274237521908993207942185813438465637645115026765870461643217
  (.node (.node (.node .nil 201660349274237521908993207942185813440797231101462576887248209809297 .nil)
  201660349274237521908993207942185813440797231101462576896622738041297 (.node .nil
  201660349274451039116804416982379944484975034761579753620020487753617 .nil)) 201660349274451039116804416982379944484975034761579753629395015985617
  (.node (.node .nil 201660349274451039116804416982380718051725607926371934087274737143697 .nil)
  201660349274451039116804416982380718051725607926371934096649265375697 (.node .nil
  201660349274451039702746854213169243453305624939731951383532103241617 .nil))))))
  201660349274451039702746854213169243453305624939731951392906631473617 (.node (.node (.node (.node (.node (.node (.node .nil
  201660349286494572504744763476426448638503732307125438593197979212821 .nil) 201660349286494572504744937362422756583254518050337882142060939058197
  .nil) 201660349286494572504744937362422756583254518050337882205904621280277 (.node .nil
  201660355347453947808623641789608465260625025299068767692305114602517 .nil)) 201660355347453947808623641789608465260625025299071921198245704058517
  (.node (.node .nil 201660355347453947808623641789608465260972148456235034452138042858517 .nil)
  201660355347453947808623641789608465260972149648253448477843678945937 (.node .nil
  201660355347453947808623641789608465260972149648253448477843678946517 .nil))) 201660355347453947808623641789608465261020508400403713711364436346517
  (.node (.node (.node (.node .nil 201660355347453947808623641789608465261020508400404153035589969633937 .nil)
  201660355347453947808623641789608465261020508400404153035589969634517 .nil) 201660355347453947808623641789608465263352101856751263842116712744597
  (.node .nil 201660355347453947808623641789608465263352101856751703166342246032017 .nil))
  201660355347453947808623641789608465263352101856751703166342246032597 (.node (.node .nil
  201660355347453947808623641790109566170367212612051911550009381231637 .nil) 201660355347453947808623641790109566170367212612051911613853063453717
  (.node .nil 201660355347453947808623641790109566170367219639665290298171185437717 .nil))))
  201660355347453947808623641790109566170367219639665290362014867659797 (.node (.node (.node (.node (.node .nil
  201660355347453947808623641790109566170367219785379284396140045802517 .nil) 201660355347453947808623641790109566170714344002567919224244013844117
  .nil) 201660355347453947808623641790109566170714344002568358418139998258837 (.node .nil
  201660355347453947808623641790109566170714344002568358418140190688917 .nil)) 201660355347453947808623641790109566170714344002589540219652911072917
  (.node (.node .nil 201660355347453947808623641790109566170714344002589540219653103502997 .nil)
  201660355347453947808623641790110239099139740920029060695077315348117 (.node .nil
  201660355347453947808623641790110239099139740920029060696401081672337 .nil))) 201660355347453947808623641790110239099139740920029060696401081672917
  (.node (.node (.node .nil 201660355347453947808623641790110239099139747933266891144895524248597 .nil)
  201660355347453947808623641790110239099139747933266891154270052480597 (.node .nil
  201660355347453947808623641790110239099139747947642439443239119554197 .nil)) 201660355347453947808623641790110239099139747947642439444562885878417
  (.node (.node .nil 201660355347453947808623641790110239099139747947642439444562885878997 .nil)
  201660355347453947808623641790110339737117785776844092017263630621717 (.node .nil
  201660355347453947808623641790110339737117785776844092081107312843797 .nil)))))
  201660355347453947808623641790110339737117792804457470765425434827797 (.node (.node (.node (.node (.node (.node .nil
  201660355347453947808623641790110339737117792804457470829269117049877 .nil) 201660355347453947808623641790110339737117792950171464863394295192597
  .nil) 201660355347453947808623641790110339737464917167360099691498263234197 (.node .nil
  201660355347453947808623641790110339737464917167360538885394247648917 .nil)) 201660355347453947808623641790110339737464917167360538885394440078997
  (.node (.node .nil 201660355347453947808623641790110339737464917167381720686907160462997 .nil)
  201660355347453947808623641790110339737464917167381720686907352893077 (.node .nil
  201660355347453947808623641790110354266272339928587401474500586904597 .nil))) 201660355347453947808623641790110354266272339928587401483875115136597
  (.node (.node (.node .nil 201660355347453947808623641790110355776631465950576120137297602026517 .nil)
  201660355347453947808623641790110355776631465950576120201141284248597 (.node .nil
  201660355347453947808623641790110355777026941892912848015233414472337 .nil)) 201660355347453947808623641790110355777026941892912848015233414472917
  (.node (.node .nil 201660355347453947808623641790110355777026941892934029816746327286417 .nil)
  201660355347453947808623641790110355777026941892934029816746327286997 (.node .nil
  201660355347453947808708792392713913803198911980170749376417492376597 .nil))))
  201660355347453947808708792392713913803198911980173902882358081832597 (.node (.node (.node (.node (.node .nil
  201660355347453947808708792392713913803546035137337016136250420632597 .nil) 201660355347453947808708792392713913803546036329355430161956056720017
  .nil) 201660355347453947808708792392713913803546036329355430161956056720597 (.node .nil
  201660355347453947808708792392713913803594395081505695395476814120597 .nil)) 201660355347453947808708792392713913803594395081506134719702347408017
  (.node (.node .nil 201660355347453947808708792392713913803594395081506134719702347408597 .nil)
  201660355347453947808708792392713913805925988537853245526229090518677 (.node .nil
  201660355347453947808708792392713913805925988537853684850454623806097 .nil))) 201660355347453947808708792392713913805925988537853684850454623806677
  (.node (.node (.node .nil 201660355347453947808708792393215014712941099293153893234121759005717 .nil)
  201660355347453947808708792393215014712941099293153893297965441227797 (.node .nil
  201660355347453947808708792393215014712941106320767271982283563211797 .nil)) 201660355347453947808708792393215014712941106320767272046127245433877
  (.node (.node .nil 201660355347453947808708792393215014712941106466481266080252423576597 .nil)
  201660355347453947808708792393215014713288230683669900908356391618197 (.node .nil
  201660355347453947808708792393215014713288230683670340102252376032917 .nil))))))))
  201660355347453947808708792393215014713288230683670340102252568462997 (.node (.node (.node (.node (.node (.node (.node (.node (.node .nil
  201660355347453947808708792393215014713288230683691521903765288846997 .nil) 201660355347453947808708792393215014713288230683691521903765481277077
  .nil) 201660355347453947808708792393215687641713627601131042379189693122197 (.node .nil
  201660355347453947808708792393215687641713627601131042380513459446417 .nil)) 201660355347453947808708792393215687641713627601131042380513459446997
  (.node (.node .nil 201660355347453947808708792393215687641713634614368872829007902022677 .nil)
  201660355347453947808708792393215687641713634614368872838382430254677 (.node .nil
  201660355347453947808708792393215687641713634628744421127351497328277 .nil))) 201660355347453947808708792393215687641713634628744421128675263652497
  (.node (.node (.node (.node .nil 201660355347453947808708792393215687641713634628744421128675263653077 .nil)
  201660355347453947808708792393215788279691672457946073701376008395797 .nil) 201660355347453947808708792393215788279691672457946073765219690617877
  (.node .nil 201660355347453947808708792393215788279691679485559452449537812601877 .nil))
  201660355347453947808708792393215788279691679485559452513381494823957 (.node (.node .nil
  201660355347453947808708792393215788279691679631273446547506672966677 .nil) 201660355347453947808708792393215788280038803848462081375610641008277
  (.node .nil 201660355347453947808708792393215788280038803848462520569506625422997 .nil))))
  201660355347453947808708792393215788280038803848462520569506817853077 (.node (.node (.node (.node (.node .nil
  201660355347453947808708792393215788280038803848483702371019538237077 .nil) 201660355347453947808708792393215788280038803848483702371019730667157
  .nil) 201660355347453947808708792393215802808846226609689383158612964678677 (.node .nil
  201660355347453947808708792393215802808846226609689383167987492910677 .nil)) 201660355347453947808708792393215804319205352631678101821409979800597
  (.node (.node .nil 201660355347453947808708792393215804319205352631678101885253662022677 .nil)
  201660355347453947808708792393215804319600828574014829699345792246417 (.node .nil
  201660355347453947808708792393215804319600828574014829699345792246997 .nil))) 201660355347453947808708792393215804319600828574036011500858705060497
  (.node (.node (.node .nil 201660355347453947808708792393215804319600828574036011500858705061077 .nil)
  201660355347453947808710557947722590086476357039559935410481833450517 (.node .nil
  201660355347453947808710557947722590086476357039559935474325515672597 .nil)) 201660355347453947808710557947722590086476364067173314158643637656597
  (.node (.node .nil 201660355347453947808710557947722590086476364067173314222487319878677 .nil)
  201660355347453947808710557947722590086476364212887308256612498021397 (.node .nil
  201660355347453947808710557947722590086823488430075943084716466062997 .nil)))))
  201660355347453947808710557947722590086823488430076382278612450477717 (.node (.node (.node (.node (.node (.node .nil
  201660355347453947808710557947722590086823488430076382278612642907797 .nil) 201660355347453947808710557947722590086823488430097564080125363291797
  .nil) 201660355347453947808710557947722590086823488430097564080125555721877 (.node .nil
  201660355347453947808710732097263537315941119384259385305525382552597 .nil)) 201660355347453947808710732097263537315941119384262538811465972008597
  (.node (.node .nil 201660355347453947808710732130652804699769353721552123958119676517397 .nil)
  201660355347453947808710732130652804699769353721552124021963358739477 (.node .nil
  201660355347453947808710732130652935911623895352188632084845919068817 .nil))) 201660355347453947808710732130652935911623895352188632084845919069397
  (.node (.node (.node (.node .nil 201660355347453947808710732130652935911623902379802010833007723274897 .nil)
  201660355347453947808710732130652935911623902379802010833007723275477 .nil) 201660355347453947808710732135976040747723656201633574724678459278997
  (.node .nil 201660355347453947808710732135976040747772015245866714065069112156817 .nil))
  201660355347453947808710732135976040747772015245866714065069112157397 (.node (.node .nil
  201660355347453947808723401793871776156126466179487805159892577688597 .nil) 201660355347453947808723401793871776156126466179487805223736259910677
  (.node .nil 201660355347453947808723401793871790685676285416066952212016105266197 .nil))))
  201660355347453947808723401832081597950822644338375421227003918632597 (.node (.node (.node (.node (.node .nil
  201660355347453947808723401832081597950866437589904273763495563970197 .nil) 201660355347453947808723401832081597953198031046251823894247840368277
  .nil) 201660355347453948394479170257870160941070710529724437899111094878417 (.node .nil
  201660355347453948394479170257870160941119069281875142456857385566417 .nil)) 201660355347453948394479170257870160943450662738222692587609661964497
  (.node (.node .nil 201660355347453948394481109995809183049148569552557639822000764797137 .nil)
  201660355347453948394481109995809183049148569552557639822000957227217 (.node .nil
  201660355347453948394481109995809183049148576580171018570162569003217 .nil))) 201660355347453948394481109995809183049148576580171018570162761433297
  (.node (.node (.node .nil 201660355347453948394481110001132287885296689446235721802223957885137 .nil)
  201660355347453948394481110001132287885296689446235721802224150315217 (.node .nil
  201660355347453948394567852505081371755379855217812228026273976598737 .nil)) 201660355347453948394567852505081371755379855217812228026274169028817
  (.node (.node .nil 201660355347453948394567852505082145322130428382604408493528225988817 .nil)
  201660355347453948394567852505082145322130428382604408493528418418897 (.node .nil
  201660355347453948394580695860172410734815601075045942453263749398737 .nil))))))
  201660355347453948394580695860172410734815601075045942453263941828817 (.node (.node (.node (.node (.node (.node (.node .nil
  201660355347453948394580695860172410737147194531393492584016025796817 .nil) 201660355347453948394580695860172410737147194531393492584016218226897
  .nil) 201663060521681010058624752442050787945572080769394496894447117897617 (.node .nil
  201663060521681010058624752442050787945572080769397648560809449668817 .nil)) 201663060521681010058626518520480905824197925708721567424557082185617
  (.node (.node .nil 201663060521681010058626518520480905824197925708724719090919413956817 .nil)
  201663060521681010058711669123586354366771812389823549108669459959697 (.node .nil
  201663060521681010058711669123586354366771812389826700775031791730897 .nil))) 201663060521699335013528956501247942574069195860709275647574166704017
  (.node (.node (.node (.node .nil 201663060521699335013528956501247942574069195860712427313936498475217 .nil)
  201663060521699335013528956757898824812231517951175979393419809886097 .nil) 201663060521699335013528956757898824812231517951179131059782141657297
  (.node .nil 201663060521699339274645935185796383848086725433547004606434659504017 .nil))
  201663060521699339274645935185796383848086725433550156272796991275217 (.node (.node .nil
  201663060521699339274645935185797157414837298598339185073688908894097 .nil) 201663060521699339274645935185797157414837298598342336740051240665297
  (.node .nil 201663465077063748547423581262759947227289787762362013949448940952597 .nil))))
  201663465077063748547423581262759947227289787762365167455389530408597 (.node (.node (.node (.node (.node .nil
  201663465077063748547423581262759947227636910919528280709281869208597 .nil) 201663465077063748547423581262759947227636912111546694734987505296017
  .nil) 201663465077063748547423581262759947227636912111546694734987505296597 (.node .nil
  201663465077063748547423581262759947227685270863696959968508262696597 .nil)) 201663465077063748547423581262759947227685270863697399292733795984017
  (.node (.node .nil 201663465077063748547423581262759947227685270863697399292733795984597 .nil)
  201663465077063748547423581262759947230016864320044510099260539094677 (.node .nil
  201663465077063748547423581262759947230016864320044949423486072382097 .nil))) 201663465077063748547423581262759947230016864320044949423486072382677
  (.node (.node (.node .nil 201663465077063748547423581263261048137031975075345157807153207581717 .nil)
  201663465077063748547423581263261048137031975075345157870996889803797 (.node .nil
  201663465077063748547423581263261048137031982102958536555315011787797 .nil)) 201663465077063748547423581263261048137031982102958536619158694009877
  (.node (.node .nil 201663465077063748547423581263261048137031982248672530653283872152597 .nil)
  201663465077063748547423581263261048137379106465861165481387840194197 (.node .nil
  201663465077063748547423581263261048137379106465861604675283824608917 .nil)))))
  201663465077063748547423581263261048137379106465861604675284017038997 (.node (.node (.node (.node (.node (.node .nil
  201663465077063748547423581263261048137379106465882786476796737422997 .nil) 201663465077063748547423581263261048137379106465882786476796929853077
  .nil) 201663465077063748547423581263261721065804503383322306952221141698197 (.node .nil
  201663465077063748547423581263261721065804503383322306953544908022417 .nil)) 201663465077063748547423581263261721065804503383322306953544908022997
  (.node (.node .nil 201663465077063748547423581263261721065804510396560137402039350598677 .nil)
  201663465077063748547423581263261721065804510396560137411413878830677 (.node .nil
  201663465077063748547423581263261721065804510410935685700382945904277 .nil))) 201663465077063748547423581263261721065804510410935685701706712228497
  (.node (.node (.node (.node .nil 201663465077063748547423581263261721065804510410935685701706712229077 .nil)
  201663465077063748547423581263261821703782548240137338274407456971797 .nil) 201663465077063748547423581263261821703782548240137338338251139193877
  (.node .nil 201663465077063748547423581263261821703782555267750717022569261177877 .nil))
  201663465077063748547423581263261821703782555267750717086412943399957 (.node (.node .nil
  201663465077063748547423581263261821703782555413464711120538121542677 .nil) 201663465077063748547423581263261821704129679630653345948642089584277
  (.node .nil 201663465077063748547423581263261821704129679630653785142538073998997 .nil))))
  201663465077063748547423581263261821704129679630653785142538266429077 (.node (.node (.node (.node (.node .nil
  201663465077063748547423581263261821704129679630674966944050986813077 .nil) 201663465077063748547423581263261821704129679630674966944051179243157
  .nil) 201663465077063748547423581263261836232937102391880647731644413254677 (.node .nil
  201663465077063748547423581263261836232937102391880647741018941486677 .nil)) 201663465077063748547423581263261837743296228413869366394441428376597
  (.node (.node .nil 201663465077063748547423581263261837743296228413869366458285110598677 .nil)
  201663465077063748547423581263261837743691704356206094272377240822417 (.node .nil
  201663465077063748547423581263261837743691704356206094272377240822997 .nil))) 201663465077063748547423581263261837743691704356227276073890153636497
  (.node (.node (.node .nil 201663465077063748547423581263261837743691704356227276073890153637077 .nil)
  201663465077063748547508731865865395769863674443463995633561318726677 (.node .nil
  201663465077063748547508731865865395769863674443467149139501908182677 .nil)) 201663465077063748547508731865865395770210797600630262393394246982677
  (.node (.node .nil 201663465077063748547508731865865395770210798792648676419099883070097 .nil)
  201663465077063748547508731865865395770210798792648676419099883070677 (.node .nil
  201663465077063748547508731865865395770259157544798941652620640470677 .nil)))))))
  201663465077063748547508731865865395770259157544799380976846173758097 (.node (.node (.node (.node (.node (.node (.node (.node .nil
  201663465077063748547508731865865395770259157544799380976846173758677 .nil) 201663465077063748547508731865865395772590751001146491783372916868757
  .nil) 201663465077063748547508731865865395772590751001146931107598450156177 (.node .nil
  201663465077063748547508731865865395772590751001146931107598450156757 .nil)) 201663465077063748547508731866366496679605861756447139491265585355797
  (.node (.node .nil 201663465077063748547508731866366496679605861756447139555109267577877 .nil)
  201663465077063748547508731866366496679605868784060518239427389561877 (.node .nil
  201663465077063748547508731866366496679605868784060518303271071783957 .nil))) 201663465077063748547508731866366496679605868929774512337396249926677
  (.node (.node (.node (.node .nil 201663465077063748547508731866366496679952993146963147165500217968277 .nil)
  201663465077063748547508731866366496679952993146963586359396202382997 .nil) 201663465077063748547508731866366496679952993146963586359396394813077
  (.node .nil 201663465077063748547508731866366496679952993146984768160909115197077 .nil))
  201663465077063748547508731866366496679952993146984768160909307627157 (.node (.node .nil
  201663465077063748547508731866367169608378390064424288636333519472277 .nil) 201663465077063748547508731866367169608378390064424288637657285796497
  (.node .nil 201663465077063748547508731866367169608378390064424288637657285797077 .nil))))
  201663465077063748547508731866367169608378397077662119086151728372757 (.node (.node (.node (.node (.node .nil
  201663465077063748547508731866367169608378397077662119095526256604757 .nil) 201663465077063748547508731866367169608378397092037667384495323678357
  .nil) 201663465077063748547508731866367169608378397092037667385819090002577 (.node .nil
  201663465077063748547508731866367169608378397092037667385819090003157 .nil)) 201663465077063748547508731866367270246356434921239319958519834745877
  (.node (.node .nil 201663465077063748547508731866367270246356434921239320022363516967957 .nil)
  201663465077063748547508731866367270246356441948852698706681638951957 (.node .nil
  201663465077063748547508731866367270246356441948852698770525321174037 .nil))) 201663465077063748547508731866367270246356442094566692804650499316757
  (.node (.node (.node .nil 201663465077063748547508731866367270246703566311755327632754467358357 .nil)
  201663465077063748547508731866367270246703566311755766826650451773077 (.node .nil
  201663465077063748547508731866367270246703566311755766826650644203157 .nil)) 201663465077063748547508731866367270246703566311776948628163364587157
  (.node (.node .nil 201663465077063748547508731866367270246703566311776948628163557017237 .nil)
  201663465077063748547508731866367284775510989072982629415756791028757 (.node .nil
  201663465077063748547508731866367284775510989072982629425131319260757 .nil)))))
  201663465077063748547508731866367286285870115094971348078553806150677 (.node (.node (.node (.node (.node (.node .nil
  201663465077063748547508731866367286285870115094971348142397488372757 .nil) 201663465077063748547508731866367286286265591037308075956489618596497
  .nil) 201663465077063748547508731866367286286265591037308075956489618597077 (.node .nil
  201663465077063748547508731866367286286265591037329257758002531410577 .nil)) 201663465077063748547508731866367286286265591037329257758002531411157
  (.node (.node .nil 201663465077063748547510497420874072053141119502853181667625659800597 .nil)
  201663465077063748547510497420874072053141119502853181731469342022677 (.node .nil
  201663465077063748547510497420874072053141126530466560415787464006677 .nil))) 201663465077063748547510497420874072053141126530466560479631146228757
  (.node (.node (.node (.node .nil 201663465077063748547510497420874072053141126676180554513756324371477 .nil)
  201663465077063748547510497420874072053488250893369189341860292413077 .nil) 201663465077063748547510497420874072053488250893369628535756276827797
  (.node .nil 201663465077063748547510497420874072053488250893369628535756469257877 .nil))
  201663465077063748547510497420874072053488250893390810337269189641877 (.node (.node .nil
  201663465077063748547510497420874072053488250893390810337269382071957 .nil) 201663465077063748547510671570415019282605881847552631562669208902677
  (.node .nil 201663465077063748547510671570415019282605881847555785068609798358677 .nil))))
  201663465077063748547510671603804286666434116184845370215263502867477 (.node (.node (.node (.node (.node .nil
  201663465077063748547510671603804286666434116184845370279107185089557 .nil) 201663465077063748547510671603804417878288657815481878341989745418897
  .nil) 201663465077063748547510671603804417878288657815481878341989745419477 (.node .nil
  201663465077063748547510671603804417878288664843095257090151549624977 .nil)) 201663465077063748547510671603804417878288664843095257090151549625557
  (.node (.node .nil 201663465077063748547510671609127522714388418664926820981822285629077 .nil)
  201663465077063748547510671609127522714436777709159960322212938506897 (.node .nil
  201663465077063748547510671609127522714436777709159960322212938507477 .nil))) 201663465077063748547523341267023258122791228642781051417036404038677
  (.node (.node (.node .nil 201663465077063748547523341267023258122791228642781051480880086260757 .nil)
  201663465077063748547523341267023272652341047879360198469159931616277 (.node .nil
  201663465077063748547523341305233079917487406801668667484147744982677 .nil)) 201663465077063748547523341305233079917531200053197520020639390320277
  (.node (.node .nil 201663465077063748547523341305233079919862793509545070151391666718357 .nil)
  201663465077063749133279109731021642907735472993017684156254921228497 (.node .nil
  201663465077063749133279109731021642907783831745168388714001211916497 .nil))))))
  201663465077063749133279109731021642910115425201515938844753488314577 (.node (.node (.node (.node (.node (.node (.node .nil
  201663465077063749133281049468960665015813332015850886079144591147217 .nil) 201663465077063749133281049468960665015813332015850886079144783577297
  .nil) 201663465077063749133281049468960665015813339043464264827306395353297 (.node .nil
  201663465077063749133281049468960665015813339043464264827306587783377 .nil)) 201663465077063749133281049474283769851961451909528968059367784235217
  (.node (.node .nil 201663465077063749133281049474283769851961451909528968059367976665297 .nil)
  201663465077063749133367791978232853722044617681105474283417802948817 (.node .nil
  201663465077063749133367791978232853722044617681105474283417995378897 .nil))) 201663465077063749133367791978233627288795190845897654750672052338897
  (.node (.node (.node (.node .nil 201663465077063749133367791978233627288795190845897654750672244768977 .nil)
  201663465077063749133380635333323892701480363538339188710407575748817 .nil) 201663465077063749133380635333323892701480363538339188710407768178897
  (.node .nil 201663465077063749133380635333323892703811956994686738841159852146897 .nil))
  201663465077063749133380635333323892703811956994686738841160044576977 (.node (.node .nil
  201663529573661368390507264494094394905490201696738187649492916604817 .nil) 201663529573661368390507264494094394907821795153085737780245193002897
  (.node .nil 201663529573661368390509030572524512784116046636065258179602880892817 .nil))))
  201663529573661397169590020783774593496523077202994248598611604246417 (.node (.node (.node (.node (.node .nil
  201663529573661397169590021040425475734685399293460952344457247428497 .nil) 201663529573661401430706999468323034770540606775831977557472097046417
  .nil) 201663529573661401430706999468323808337291179940624158024726346436497 (.node .nil
  201663529574861615777715085660542335318892767725787637816356498840597 .nil)) 201663529574861615777715085660542335318892767725790791322297088296597
  (.node (.node .nil 201663529574861615777715085660542335319239890882953904576189427096597 .nil)
  201663529574861615777715085660542335319239892074972318601895063184017 (.node .nil
  201663529574861615777715085660542335319239892074972318601895063184597 .nil))) 201663529574861615777715085660542335319288250827122583835415820584597
  (.node (.node (.node .nil 201663529574861615777715085660542335319288250827123023159641353872017 .nil)
  201663529574861615777715085660542335319288250827123023159641353872597 (.node .nil
  201663529574861615777715085660542335321619844283470133966168096982677 .nil)) 201663529574861615777715085660542335321619844283470573290393630270097
  (.node (.node .nil 201663529574861615777715085660542335321619844283470573290393630270677 .nil)
  201663529574861615777715085661043436228634955038770781674060765469717 (.node .nil
  201663529574861615777715085661043436228634955038770781737904447691797 .nil)))))
  201663529574861615777715085661043436228634962066384160422222569675797 (.node (.node (.node (.node (.node (.node .nil
  201663529574861615777715085661043436228634962066384160486066251897877 .nil) 201663529574861615777715085661043436228634962212098154520191430040597
  .nil) 201663529574861615777715085661043436228982086429286789348295398082197 (.node .nil
  201663529574861615777715085661043436228982086429287228542191382496917 .nil)) 201663529574861615777715085661043436228982086429287228542191574926997
  (.node (.node .nil 201663529574861615777715085661043436228982086429308410343704295310997 .nil)
  201663529574861615777715085661043436228982086429308410343704487741077 (.node .nil
  201663529574861615777715085661044109157407483346747930819128699586197 .nil))) 201663529574861615777715085661044109157407483346747930820452465910417
  (.node (.node (.node .nil 201663529574861615777715085661044109157407483346747930820452465910997 .nil)
  201663529574861615777715085661044109157407490359985761268946908486677 (.node .nil
  201663529574861615777715085661044109157407490359985761278321436718677 .nil)) 201663529574861615777715085661044109157407490374361309567290503792277
  (.node (.node .nil 201663529574861615777715085661044109157407490374361309568614270116497 .nil)
  201663529574861615777715085661044109157407490374361309568614270117077 (.node .nil
  201663529574861615777715085661044209795385528203562962141315014859797 .nil))))
  201663529574861615777715085661044209795385528203562962205158697081877 (.node (.node (.node (.node (.node .nil
  201663529574861615777715085661044209795385535231176340889476819065877 .nil) 201663529574861615777715085661044209795385535231176340953320501287957
  .nil) 201663529574861615777715085661044209795385535376890334987445679430677 (.node .nil
  201663529574861615777715085661044209795732659594078969815549647472277 .nil)) 201663529574861615777715085661044209795732659594079409009445631886997
  (.node (.node .nil 201663529574861615777715085661044209795732659594079409009445824317077 .nil)
  201663529574861615777715085661044209795732659594100590810958544701077 (.node .nil
  201663529574861615777715085661044209795732659594100590810958737131157 .nil))) 201663529574861615777715085661044224324540082355306271598551971142677
  (.node (.node (.node .nil 201663529574861615777715085661044224324540082355306271607926499374677 .nil)
  201663529574861615777715085661044225834899208377294990261348986264597 (.node .nil
  201663529574861615777715085661044225834899208377294990325192668486677 .nil)) 201663529574861615777715085661044225835294684319631718139284798710417
  (.node (.node .nil 201663529574861615777715085661044225835294684319631718139284798710997 .nil)
  201663529574861615777715085661044225835294684319652899940797711524497 (.node .nil
  201663529574861615777715085661044225835294684319652899940797711525077 .nil))))))))

theorem med5_paths : ∀ P ∈ med5Enum.all 25, P ∈ med5Paths0 ++ (med5Paths1 ++ (med5Paths2 ++ (med5Paths3 ++ (med5Paths4 ++ (med5Paths5))))) := by
  have h : med5Tree.toList = med5Paths0 ++ (med5Paths1 ++ (med5Paths2 ++ (med5Paths3 ++ (med5Paths4 ++ (med5Paths5))))) := by decide +kernel
  rw [← h]
  exact med5Enum.allF_sound 25 med5Tree (by decide +kernel)

def med5_l1_0 : List ℕ := [
  16, 48, 73798237082760839189, 16, 48, 73798237082760839189, 16, 48, 73798237082760839189, 16, 48, 73798237082760839189, 16, 44,
  73798236945321885717, 16, 44, 73798236945321885717, 16, 32, 73798236533005025301, 16, 32, 73798236533005025301, 16, 32, 73798236533005025301, 16,
  32, 73798236533005025301, 16, 32, 73798236533005025301, 16, 32, 73798236533005025301, 16, 32, 73798236533005025301, 16, 32, 73798236533005025301,
  16, 32, 73798236533005025301, 16, 32, 73798236533005025301, 16, 32, 73798236533005025301, 16, 32, 73798236533005025301, 16, 32,
  73798236533005025301, 16, 32, 73798236533005025301, 16, 32, 73798236533005025301, 16, 32, 73798236533005025301, 16, 32, 73798236533005025301, 16,
  32, 73798236533005025301, 16, 32, 73798236533005025301, 16, 32, 73798236533005025301, 16, 32, 576548722897321989, 16, 32, 576548722897321989, 16,
  32, 576548722897321989, 16, 32, 576548722897321989, 16, 32, 576548722897321989, 16, 32, 576548722897321989, 16, 32, 576548722897321989, 16, 32,
  576548722897321989, 16, 32, 576548722897321989, 16, 32, 576548722897321989, 16, 32, 576548722897321989, 16, 32, 576548722897321989, 16, 32,
  576548722897321989, 16, 32, 576548722897321989, 16, 32, 576548722897321989, 16, 32, 576548722897321989, 16, 32, 576548722897321989, 16, 32,
  576548722897321989, 16, 32, 576548722897321989, 16, 32, 576548722897321989, 16, 32, 576548722897321989, 16, 32, 576548722897321989, 16, 32,
  576548722897321989, 16, 32, 576548722897321989, 16, 32, 576548722897321989, 16, 32, 576548722897321989, 16, 32, 576548722897321989, 16, 32,
  576548722897321989, 16, 32, 576548722897321989, 16, 32, 576548722897321989, 16, 32, 576548722897321989, 16, 32, 576548722897321989, 16, 32,
  576548722897321989, 16, 32, 576548722897321989, 16, 32, 576548722897321989, 16, 32, 576548722897321989, 16, 32, 576548722897321989, 16, 32,
  576548722897321989, 16, 32, 576548722897321989, 16, 32, 576548722897321989, 64, 576759837728178221, 48, 52, 36893736912998636105, 72, 76,
  73829763242226024525, 48, 52, 36893736912998636105, 72, 76, 73829763242226024525, 52, 68, 73827511167534366777, 80, 3025805836373, 48, 52,
  36893737050437589581, 48, 52, 36893737050437589581, 72, 76, 73832015042039775309, 72, 76, 73832015042039775309, 8, 20, 36893596175510275657, 72,
  76, 73829763242226024525, 8, 20, 36893596175510275657, 72, 76, 73829763242226024525, 52, 68, 73827511167534366777, 80, 3025805836373, 40, 76,
  288232439884808237, 40, 76, 288232439884808237, 72, 76, 73832015042039775309, 72, 76, 73832015042039775309, 8, 12, 36893561266016093777, 8, 12,
  36893561266016093777, 48, 64, 36893788864923048469, 8, 12, 36893561266016093777, 8, 12, 36893561266016093777, 28, 44, 576671867125891077, 44,
  288232714762190897, 28, 44, 576671867125891077, 44, 288232714762190897, 16, 48, 73798237082760839189, 16, 48, 73798237082760839189, 16, 48,
  73798237082760839189, 16, 48, 73798237082760839189]

theorem med5_l1_run0 : run .l1 2 486 41 med5Env [] med5_l1_0 (med5Paths0.map fun P => ⟨[P], []⟩) = true := Run.run_one (by decide +kernel)

def med5_l1_1 : List ℕ := [
  16, 44, 73798236945321885717, 16, 44, 73798236945321885717, 16, 32, 73798236533005025301, 16, 32, 73798236533005025301, 16, 32,
  73798236533005025301, 16, 32, 73798236533005025301, 16, 32, 73798236533005025301, 16, 32, 73798236533005025301, 16, 32, 73798236533005025301, 16,
  32, 73798236533005025301, 16, 32, 73798236533005025301, 16, 32, 73798236533005025301, 16, 32, 73798236533005025301, 16, 32, 73798236533005025301,
  16, 32, 73798236533005025301, 16, 32, 73798236533005025301, 16, 32, 73798236533005025301, 16, 32, 73798236533005025301, 16, 32,
  73798236533005025301, 16, 32, 73798236533005025301, 16, 32, 73798236533005025301, 16, 32, 73798236533005025301, 16, 32, 576548722897321989, 16, 32,
  576548722897321989, 16, 32, 576548722897321989, 16, 32, 576548722897321989, 16, 32, 576548722897321989, 16, 32, 576548722897321989, 16, 32,
  576548722897321989, 16, 32, 576548722897321989, 16, 32, 576548722897321989, 16, 32, 576548722897321989, 16, 32, 576548722897321989, 16, 32,
  576548722897321989, 16, 32, 576548722897321989, 16, 32, 576548722897321989, 16, 32, 576548722897321989, 16, 32, 576548722897321989, 16, 32,
  576548722897321989, 16, 32, 576548722897321989, 16, 32, 576548722897321989, 16, 32, 576548722897321989, 16, 32, 576548722897321989, 16, 32,
  576548722897321989, 16, 32, 576548722897321989, 16, 32, 576548722897321989, 16, 32, 576548722897321989, 16, 32, 576548722897321989, 16, 32,
  576548722897321989, 16, 32, 576548722897321989, 16, 32, 576548722897321989, 16, 32, 576548722897321989, 16, 32, 576548722897321989, 16, 32,
  576548722897321989, 16, 32, 576548722897321989, 16, 32, 576548722897321989, 16, 32, 576548722897321989, 16, 32, 576548722897321989, 16, 32,
  576548722897321989, 16, 32, 576548722897321989, 16, 32, 576548722897321989, 16, 32, 576548722897321989, 24, 52, 73818503418523549725, 24, 52,
  73818503418523549725, 0, 4, 36893525806766096969, 72, 76, 73829763242226024525, 44, 60, 73823007293028958257, 80, 3025805836373, 0, 4,
  36893525806766096969, 64, 68, 73827511167534366789, 20, 288232027567030297, 20, 288232027567030297, 72, 576795024247750705, 72, 576795024247750705,
  28, 44, 576671867125891077, 28, 44, 576671867125891077, 44, 288232852201144369, 44, 288232852201144369, 44, 288232852201144369, 28, 44,
  576671867125891077, 28, 44, 576671867125891077, 44, 288232852201144369, 44, 288232852201144369, 44, 288232852201144369, 2251806256136197,
  2251806256136197, 2251806256136197, 2251806256136197, 2251806256136197, 2251806256136197, 32, 48, 73807244282015842341, 32, 48,
  73807244282015842341, 20, 32, 48, 73807244282015842329, 76, 80, 36893859233667229745, 20, 32, 48, 73807244282015842329, 76, 80,
  36893859233667229745, 24, 28, 40, 84, 1209331666385952357486169, 40, 68, 84, 73811749118593925193, 40, 44, 84, 1209331675393151612229209, 40, 44,
  88, 1209331675410743798273629, 60, 288233401957220417, 60, 288233264518266945, 60, 288233401957220417]

theorem med5_l1_run1 : run .l1 2 486 41 med5Env [] med5_l1_1 (med5Paths1.map fun P => ⟨[P], []⟩) = true := Run.run_one (by decide +kernel)

def med5_l1_2 : List ℕ := [
  60, 288233264518266945, 12, 16, 36893577346373650445, 52, 84, 73818504518035177529, 12, 16, 36893577346373650445, 52, 84, 73818504518035177529, 36,
  52, 73818503418523549737, 52, 84, 73818504518035177529, 64, 68, 73825259367720616005, 8, 12, 36893560991138186825, 72, 76, 73829763242226024525,
  16, 48, 73816251481270845461, 16, 48, 73816251481270845461, 16, 48, 73816251481270845461, 16, 48, 73816251481270845461, 16, 48,
  73816251481270845461, 16, 48, 73816251481270845461, 16, 48, 73816251481270845461, 16, 48, 73816251481270845461, 16, 48, 73816251481270845461, 16,
  48, 73816251481270845461, 16, 48, 73816251481270845461, 24, 28, 36893631359882366537, 72, 76, 73829763242226024525, 24, 28, 36893631359882366537,
  72, 76, 73829763242226024525, 52, 68, 73827511167534366777, 80, 3025805836373, 60, 76, 576812613212569641, 60, 76, 576812613212569641, 72, 76,
  73832015042039775309, 72, 76, 73832015042039775309, 76, 80, 36893858271594555413, 12, 16, 604464362534991202355769, 12, 16,
  604464362534991202355769, 12, 16, 604464362605359946533433, 76, 80, 36893858271594555413, 76, 80, 36893858271594555413, 12, 16,
  604464362534991202355769, 12, 16, 604464362534991202355769, 24, 28, 36893631359882366537, 72, 76, 73829763242226024525, 24, 28,
  36893631359882366537, 72, 76, 73829763242226024525, 52, 68, 73827511167534366777, 80, 3025805836373, 60, 76, 576812613212569641, 60, 76,
  576812613212569641, 72, 76, 73832015042039775309, 72, 76, 73832015042039775309, 60, 76, 73823007842784772161, 60, 76, 73823007842784772161, 56, 72,
  73829763104787071037, 72, 76, 73829763242226024525, 60, 76, 576812613212569641, 76, 92, 73832015591795589201, 72, 76, 73832015042039775309, 72, 76,
  73832015042039775309, 16, 48, 73816251481270845461, 16, 48, 73816251481270845461, 16, 48, 73816251481270845461, 16, 48, 73816251481270845461, 16,
  48, 73816251481270845461, 16, 48, 73816251481270845461, 16, 48, 73816251481270845461, 16, 48, 73816251481270845461, 16, 48, 73816251481270845461,
  16, 48, 73816251481270845461, 16, 48, 73816251481270845461, 48, 52, 36893736912998636105, 72, 76, 73829763242226024525, 48, 52,
  36893736912998636105, 72, 76, 73829763242226024525, 52, 68, 73827511167534366777, 80, 3025805836373, 60, 76, 576812613212569641, 60, 76,
  576812613212569641, 72, 76, 73832015042039775309, 72, 76, 73832015042039775309, 76, 80, 36893858271594555413, 12, 16, 604464362534991202355769, 12,
  16, 604464362534991202355769, 12, 16, 604464362605359946533433, 76, 80, 36893858271594555413, 76, 80, 36893858271594555413, 12, 16,
  604464362534991202355769, 12, 16, 604464362534991202355769, 40, 44, 36893701728626546249, 72, 76, 73829763242226024525, 40, 44,
  36893701728626546249, 72, 76, 73829763242226024525, 52, 68, 73827511167534366777, 80, 3025805836373, 60, 76, 576812613212569641, 60, 76,
  576812613212569641, 72, 76, 73832015042039775309, 72, 76, 73832015042039775309, 60, 76, 73823007842784772161, 60, 76, 73823007842784772161, 56, 72,
  73829763104787071037, 72, 76, 73829763242226024525]

theorem med5_l1_run2 : run .l1 2 486 41 med5Env [] med5_l1_2 (med5Paths2.map fun P => ⟨[P], []⟩) = true := Run.run_one (by decide +kernel)

def med5_l1_3 : List ℕ := [
  60, 76, 576812613212569641, 76, 92, 73832015591795589201, 72, 76, 73832015042039775309, 72, 76, 73832015042039775309, 16, 36, 36893666544254454345,
  72, 76, 73829763242226024525, 16, 36, 36893666544254454345, 72, 76, 73829763242226024525, 52, 68, 73827511167534366777, 80, 3025805836373, 40, 76,
  288232439884808237, 40, 76, 288232439884808237, 72, 76, 73832015042039775309, 72, 76, 73832015042039775309, 16, 44, 73813999544018141205, 16, 44,
  73813999544018141205, 16, 36, 36893666544254454345, 72, 76, 73829763242226024525, 0, 4, 36893526081644003913, 0, 4, 36893526081644003913, 64, 68,
  73827511167534366789, 64, 68, 73827511167534366789, 80, 3025805836373, 52, 68, 73827511167534366777, 52, 68, 73827511167534366777, 32, 36,
  36893666544254456393, 72, 76, 73829763242226024525, 36, 52, 73818503418523549737, 80, 3025805836373, 32, 36, 36893667094010270297, 32, 36,
  36893667094010270297, 16, 48, 73816251481270845461, 16, 48, 73816251481270845461, 16, 48, 73816251481270845461, 0, 4, 36893526081644003913, 0, 4,
  36893526081644003913, 64, 68, 73827511167534366789, 64, 68, 73827511167534366789, 52, 68, 73827511167534366777, 52, 68, 73827511167534366777, 40,
  576654278169460757, 40, 576654278169460757, 40, 576654278169460757, 40, 576654278169460757, 20, 24, 36893611980989926421, 20, 24,
  36893611980989926421, 20, 24, 36893611980989926421, 20, 24, 36893611980989926421, 24, 40, 73802740407510433821, 24, 40, 73802740407510433821, 20,
  24, 9446750702480801139753, 0, 4, 36893526356521910873, 20, 24, 9446750702480801139753, 0, 4, 36893526356521910873, 80, 84,
  604469298304260941097505, 0, 4, 36893526356521910873, 80, 84, 604469298304260941097505, 0, 4, 36893526356521910873, 52, 72, 73818504105718317113,
  52, 288232989640228921, 52, 72, 73818504105718317113, 52, 288232989640228921, 16, 48, 73816251481270845461, 16, 48, 73816251481270845461, 16, 48,
  73816251481270845461, 16, 48, 73816251481270845461, 16, 48, 73816251481270845461, 16, 48, 73816251481270845461, 16, 48, 73816251481270845461, 16,
  48, 73816251481270845461, 16, 48, 73816251481270845461, 16, 48, 73816251481270845461, 16, 48, 73816251481270845461, 0, 4, 36893525806766096969, 72,
  76, 73829763242226024525, 0, 4, 36893525806766096969, 72, 76, 73829763242226024525, 52, 68, 73827511167534366777, 80, 3025805836373, 60, 76,
  576812613212569641, 60, 76, 576812613212569641, 72, 76, 73832015042039775309, 72, 76, 73832015042039775309, 76, 80, 36893858271594555413, 12, 16,
  604464362534991202355769, 12, 16, 604464362534991202355769, 12, 16, 604464362605359946533433, 76, 80, 36893858271594555413, 76, 80,
  36893858271594555413, 12, 16, 604464362534991202355769, 12, 16, 604464362534991202355769, 0, 4, 36893525806766096969, 72, 76, 73829763242226024525,
  0, 4, 36893525806766096969, 72, 76, 73829763242226024525, 52, 68, 73827511167534366777, 80, 3025805836373, 60, 76, 576812613212569641, 60, 76,
  576812613212569641, 72, 76, 73832015042039775309, 72, 76, 73832015042039775309, 60, 76, 73823007842784772161]

theorem med5_l1_run3 : run .l1 2 486 41 med5Env [] med5_l1_3 (med5Paths3.map fun P => ⟨[P], []⟩) = true := Run.run_one (by decide +kernel)

def med5_l1_4 : List ℕ := [
  60, 76, 73823007842784772161, 56, 72, 73829763104787071037, 72, 76, 73829763242226024525, 60, 76, 576812613212569641, 76, 92, 73832015591795589201,
  72, 76, 73832015042039775309, 72, 76, 73832015042039775309, 16, 48, 73816251481270845461, 16, 48, 73816251481270845461, 16, 48,
  73816251481270845461, 16, 48, 73816251481270845461, 16, 48, 73816251481270845461, 16, 48, 73816251481270845461, 16, 48, 73816251481270845461, 16,
  48, 73816251481270845461, 16, 48, 73816251481270845461, 16, 48, 73816251481270845461, 16, 48, 73816251481270845461, 0, 4, 36893525806766096969, 72,
  76, 73829763242226024525, 0, 4, 36893525806766096969, 72, 76, 73829763242226024525, 52, 68, 73827511167534366777, 80, 3025805836373, 60, 76,
  576812613212569641, 60, 76, 576812613212569641, 72, 76, 73832015042039775309, 72, 76, 73832015042039775309, 76, 80, 36893858271594555413, 12, 16,
  604464362534991202355769, 12, 16, 604464362534991202355769, 12, 16, 604464362605359946533433, 76, 80, 36893858271594555413, 76, 80,
  36893858271594555413, 12, 16, 604464362534991202355769, 12, 16, 604464362534991202355769, 0, 4, 36893525806766096969, 72, 76, 73829763242226024525,
  0, 4, 36893525806766096969, 72, 76, 73829763242226024525, 52, 68, 73827511167534366777, 80, 3025805836373, 60, 76, 576812613212569641, 60, 76,
  576812613212569641, 72, 76, 73832015042039775309, 72, 76, 73832015042039775309, 60, 76, 73823007842784772161, 60, 76, 73823007842784772161, 56, 72,
  73829763104787071037, 72, 76, 73829763242226024525, 60, 76, 576812613212569641, 76, 92, 73832015591795589201, 72, 76, 73832015042039775309, 72, 76,
  73832015042039775309, 0, 4, 36893525806766096969, 72, 76, 73829763242226024525, 0, 4, 36893525806766096969, 72, 76, 73829763242226024525, 52, 68,
  73827511167534366777, 80, 3025805836373, 40, 76, 288232439884808237, 40, 76, 288232439884808237, 72, 76, 73832015042039775309, 72, 76,
  73832015042039775309, 16, 44, 73813999544018141205, 16, 44, 73813999544018141205, 0, 4, 36893525806766096969, 72, 76, 73829763242226024525, 0, 4,
  36893525806766096969, 0, 4, 36893525806766096969, 64, 68, 73827511167534366789, 64, 68, 73827511167534366789, 80, 3025805836373, 52, 68,
  73827511167534366777, 52, 68, 73827511167534366777, 0, 4, 36893525806766096969, 72, 76, 73829763242226024525, 36, 52, 73818503418523549737, 80,
  3025805836373, 0, 4, 36893526356521910873, 0, 4, 36893526356521910873, 16, 48, 73816251481270845461, 16, 48, 73816251481270845461, 16, 48,
  73816251481270845461, 0, 4, 36893525806766096969, 0, 4, 36893525806766096969, 64, 68, 73827511167534366789, 64, 68, 73827511167534366789, 52, 68,
  73827511167534366777, 52, 68, 73827511167534366777, 40, 576654278169460757, 40, 576654278169460757, 40, 576654278169460757, 40, 576654278169460757,
  0, 4, 36893526081644003921, 0, 4, 36893526081644003921, 0, 4, 36893526081644003921, 0, 4, 36893526081644003921, 60, 288233401957220417, 60,
  288233401957220417, 60, 288233401957220417, 12, 32, 73807243732260028433]

theorem med5_l1_run4 : run .l1 2 486 41 med5Env [] med5_l1_4 (med5Paths4.map fun P => ⟨[P], []⟩) = true := Run.run_one (by decide +kernel)

def med5_l1_5 : List ℕ := [
  12, 32, 73807243732260028433, 4, 8, 36893541474806793225, 4, 8, 36893541474806793225, 48, 576689464689033241, 48, 576689464689033241, 48,
  576689464689033241, 48, 576689464689033241, 48, 576689464689033241, 48, 576689464689033241, 48, 576689464689033241, 48, 576689464689033241, 48,
  576689464689033241, 48, 576689464689033241, 48, 576689464689033241, 0, 4, 36893525806766096969, 72, 76, 73829763242226024525, 0, 4,
  36893525806766096969, 72, 76, 73829763242226024525, 52, 68, 73827511167534366777, 80, 3025805836373, 60, 76, 576812613212569641, 60, 76,
  576812613212569641, 72, 76, 73832015042039775309, 72, 76, 73832015042039775309, 4, 8, 36893541474806793225, 4, 8, 36893541474806793225, 4, 8,
  36893541474806793225, 4, 8, 36893541474806793225, 4, 8, 36893541474806793225, 4, 8, 36893541474806793225, 4, 8, 36893541474806793225, 4, 8,
  36893541474806793225, 0, 4, 36893525806766096969, 72, 76, 73829763242226024525, 0, 4, 36893525806766096969, 72, 76, 73829763242226024525, 52, 68,
  73827511167534366777, 80, 3025805836373, 60, 76, 576812613212569641, 60, 76, 576812613212569641, 72, 76, 73832015042039775309, 72, 76,
  73832015042039775309, 60, 76, 73823007842784772161, 60, 76, 73823007842784772161, 56, 72, 73829763104787071037, 72, 76, 73829763242226024525, 60,
  76, 576812613212569641, 76, 92, 73832015591795589201, 72, 76, 73832015042039775309, 72, 76, 73832015042039775309]

theorem med5_l1_run5 : run .l1 2 486 41 med5Env [] med5_l1_5 (med5Paths5.map fun P => ⟨[P], []⟩) = true := Run.run_one (by decide +kernel)

def med5_l2_0 : List ℕ := [
  60, 64, 36893787765411422221, 0, 16, 9446174206269247717977, 60, 64, 36893787765411422221, 0, 16, 9446174206269247717977, 68, 72,
  36893822949783512077, 0, 16, 9446174206269247717977, 0, 16, 9446174206269247717965, 0, 16, 9446174206269247717961, 0, 16, 9446174206269247717965,
  16, 32, 73798236533005025301, 16, 32, 73798236533005025301, 16, 32, 73798236533005025301, 16, 32, 73798236533005025301, 16, 32,
  73798236533005025301, 16, 32, 73798236533005025301, 16, 32, 73798236533005025301, 16, 32, 73798236533005025301, 16, 32, 73798236533005025301, 16,
  32, 73798236533005025301, 16, 32, 73798236533005025301, 16, 32, 73798236533005025301, 16, 32, 73798236533005025301, 16, 32, 73798236533005025301,
  16, 32, 73798236533005025301, 16, 32, 73798236533005025301, 16, 32, 73798236533005025301, 0, 16, 9446174206269247717973, 0, 4,
  36893526356521910865, 0, 16, 9446174206269247717973, 12, 16, 9446174206269247719453, 12, 16, 9446174206269247719453, 12, 16,
  9446174206269247719453, 12, 16, 9446174206269247719453, 12, 16, 9446174206269247719453, 12, 16, 9446174206269247719453, 12, 16,
  9446174206269247719453, 12, 16, 9446174206269247719453, 12, 16, 9446174206269247719453, 12, 16, 9446174206269247719453, 12, 16,
  9446174206269247719453, 12, 16, 9446174206269247719453, 12, 16, 9446174206269247719453, 0, 16, 9446174206269247717973, 0, 16,
  9446174206269247717973, 12, 16, 9446174206269247719453, 0, 16, 9446174206269247717973, 0, 16, 9446174206269247717973, 0, 4, 36893526356521910865,
  0, 16, 9446174206269247717973, 12, 16, 9446174206269247719449, 12, 16, 9446174206269247719449, 12, 16, 9446174206269247719449, 12, 16,
  9446174206269247719449, 12, 16, 9446174206269247719449, 12, 16, 9446174206269247719449, 12, 16, 9446174206269247719449, 12, 16,
  9446174206269247719449, 12, 16, 9446174206269247719449, 12, 16, 9446174206269247719449, 12, 16, 9446174206269247719449, 12, 16,
  9446174206269247719449, 12, 16, 9446174206269247719449, 0, 16, 9446174206269247717973, 0, 16, 9446174206269247717973, 12, 16,
  9446174206269247719449, 0, 16, 9446174206269247717973, 40, 64, 73825259230281662509, 72, 76, 73829763242226024525, 72, 76, 73829763242226024525,
  72, 76, 73829763242226024525, 72, 76, 73829763242226024525, 0, 4, 36893525806766096969, 80, 3025805836373, 72, 76, 73832015042039775309, 72, 76,
  73832015042039775309, 72, 76, 73832015042039775309, 72, 76, 73832015042039775309, 72, 76, 73829763242226024525, 72, 76, 73829763242226024525, 72,
  76, 73829763242226024525, 72, 76, 73829763242226024525, 0, 4, 36893525806766096969, 80, 3025805836373, 72, 76, 73832015042039775309, 72, 76,
  73832015042039775309, 72, 76, 73832015042039775309, 72, 76, 73832015042039775309, 20, 24, 73802739857754619929, 20, 24, 73802739857754619929, 20,
  24, 73802739857754619929, 20, 24, 73802739857754619929, 20, 24, 73802739857754619929, 28, 44, 9448191941634322075681, 44, 288232714762190897, 28,
  44, 9448191941634322075681, 44, 288232714762190897, 60, 64, 36893787765411422221, 0, 4, 36893526356521910873, 60, 64, 36893787765411422221, 0, 4,
  36893526356521910873]

theorem med5_l2_run0 : run .l2 2 183 28 med5Env [] med5_l2_0 (med5Paths0.map fun P => ⟨[P], []⟩) = true := Run.run_one (by decide +kernel)

def med5_l2_1 : List ℕ := [
  68, 72, 36893822949783512077, 0, 4, 36893526356521910873, 0, 16, 9446174206269247717965, 0, 16, 9446174206269247717961, 0, 16,
  9446174206269247717965, 16, 32, 73798236533005025301, 16, 32, 73798236533005025301, 16, 32, 73798236533005025301, 16, 32, 73798236533005025301, 16,
  32, 73798236533005025301, 16, 32, 73798236533005025301, 16, 32, 73798236533005025301, 16, 32, 73798236533005025301, 16, 32, 73798236533005025301,
  16, 32, 73798236533005025301, 16, 32, 73798236533005025301, 16, 32, 73798236533005025301, 16, 32, 73798236533005025301, 16, 32,
  73798236533005025301, 16, 32, 73798236533005025301, 16, 32, 73798236533005025301, 16, 32, 73798236533005025301, 0, 4, 36893526356521910869, 0, 4,
  36893526356521910869, 0, 4, 36893526356521910869, 12, 16, 9446174206269247719453, 12, 16, 9446174206269247719453, 12, 16, 9446174206269247719453,
  12, 16, 9446174206269247719453, 12, 16, 9446174206269247719453, 12, 16, 9446174206269247719453, 12, 16, 9446174206269247719453, 12, 16,
  9446174206269247719453, 12, 16, 9446174206269247719453, 12, 16, 9446174206269247719453, 12, 16, 9446174206269247719453, 12, 16,
  9446174206269247719453, 12, 16, 9446174206269247719453, 0, 4, 36893526219082957397, 0, 4, 36893526219082957397, 12, 16, 9446174206269247719453, 0,
  4, 36893526219082957397, 0, 4, 36893526356521910869, 0, 4, 36893526356521910869, 0, 4, 36893526356521910869, 12, 16, 9446174206269247719449, 12,
  16, 9446174206269247719449, 12, 16, 9446174206269247719449, 12, 16, 9446174206269247719449, 12, 16, 9446174206269247719449, 12, 16,
  9446174206269247719449, 12, 16, 9446174206269247719449, 12, 16, 9446174206269247719449, 12, 16, 9446174206269247719449, 12, 16,
  9446174206269247719449, 12, 16, 9446174206269247719449, 12, 16, 9446174206269247719449, 12, 16, 9446174206269247719449, 0, 4, 36893526219082957397,
  0, 4, 36893526219082957397, 12, 16, 9446174206269247719449, 0, 4, 36893526219082957397, 24, 52, 73818503418523549725, 24, 52, 73818503418523549725,
  72, 76, 73829763242226024525, 72, 76, 73829763242226024525, 80, 84, 604469298444998429452865, 80, 3025805836373, 52, 68, 9449921429444398947385,
  64, 68, 73827511167534366789, 20, 288231752689123353, 20, 288231752689123353, 72, 76, 73829763242226024525, 72, 76, 73829763242226024525, 44, 64,
  73814000231212908593, 44, 64, 73814000231212908593, 44, 72, 73814000506090815537, 44, 72, 73814000506090815537, 44, 72, 73814000506090815537, 44,
  64, 73814000231212908593, 44, 64, 73814000231212908593, 44, 72, 73814000506090815537, 44, 72, 73814000506090815537, 44, 72, 73814000506090815537,
  2251806256136197, 2251806256136197, 2251806256136197, 2251806256136197, 2251806256136197, 2251806256136197, 32, 48, 73807244282015842341, 32, 48,
  73807244282015842341, 8, 36, 40, 604466087308095369381405, 76, 80, 36893859233667229745, 8, 36, 40, 604466087272910997292573, 76, 80,
  36893859233667229745, 8, 44, 48, 604466663804032045024805, 24, 28, 88, 604465267617778815675929, 8, 44, 48, 604466663768847672935973, 40, 44, 88,
  1209331675410743798273629, 60, 88, 73823008255101632577, 60, 84, 73823008117662679105, 60, 88, 73823008255101632577]

theorem med5_l2_run1 : run .l2 2 183 28 med5Env [] med5_l2_1 (med5Paths1.map fun P => ⟨[P], []⟩) = true := Run.run_one (by decide +kernel)

def med5_l2_2 : List ℕ := [
  60, 84, 73823008117662679105, 36, 52, 9448768437571014366249, 36, 52, 9448768437571014366249, 36, 52, 9448768437571014366249, 36, 52,
  9448768437571014366249, 36, 52, 73818503418523549737, 36, 52, 73818503418523549737, 64, 68, 73825259367720616005, 72, 76, 73829763242226024525, 72,
  76, 73829763242226024525, 4, 8, 36893541474806793229, 4, 8, 36893541474806793229, 4, 8, 36893541474806793229, 48, 64, 73816252031026659381, 48, 64,
  73816252031026659381, 4, 8, 36893541474806793229, 4, 8, 36893541474806793229, 4, 8, 36893541474806793229, 4, 8, 36893541474806793229, 4, 8,
  36893541474806793229, 4, 8, 36893541474806793229, 72, 76, 73829763242226024525, 72, 76, 73829763242226024525, 72, 76, 73829763242226024525, 72, 76,
  73829763242226024525, 0, 4, 36893525806766096969, 80, 3025805836373, 72, 76, 73832015042039775309, 72, 76, 73832015042039775309, 72, 76,
  73832015042039775309, 72, 76, 73832015042039775309, 4, 8, 36893541474806793229, 4, 8, 36893541474806793229, 4, 8, 36893541474806793229, 4, 8,
  36893541474806793229, 4, 8, 36893541474806793229, 4, 8, 36893541474806793229, 4, 8, 36893541474806793229, 4, 8, 36893541474806793229, 72, 76,
  73829763242226024525, 72, 76, 73829763242226024525, 72, 76, 73829763242226024525, 72, 76, 73829763242226024525, 0, 4, 36893525806766096969, 80,
  3025805836373, 72, 76, 73832015042039775309, 72, 76, 73832015042039775309, 72, 76, 73832015042039775309, 72, 76, 73832015042039775309, 4, 8,
  36893541474806793229, 4, 8, 36893541474806793229, 72, 76, 73829763242226024525, 72, 76, 73829763242226024525, 72, 76, 73832015042039775309, 72, 76,
  73832015042039775309, 72, 76, 73832015042039775309, 72, 76, 73832015042039775309, 4, 8, 36893541474806793229, 4, 8, 36893541474806793229, 4, 8,
  36893541474806793229, 48, 64, 73816252031026659381, 48, 64, 73816252031026659381, 4, 8, 36893541474806793229, 4, 8, 36893541474806793229, 4, 8,
  36893541474806793229, 4, 8, 36893541474806793229, 4, 8, 36893541474806793229, 4, 8, 36893541474806793229, 72, 76, 73829763242226024525, 72, 76,
  73829763242226024525, 72, 76, 73829763242226024525, 72, 76, 73829763242226024525, 0, 4, 36893525806766096969, 80, 3025805836373, 72, 76,
  73832015042039775309, 72, 76, 73832015042039775309, 72, 76, 73832015042039775309, 72, 76, 73832015042039775309, 4, 8, 36893541474806793229, 4, 8,
  36893541474806793229, 4, 8, 36893541474806793229, 4, 8, 36893541474806793229, 4, 8, 36893541474806793229, 4, 8, 36893541474806793229, 4, 8,
  36893541474806793229, 4, 8, 36893541474806793229, 72, 76, 73829763242226024525, 72, 76, 73829763242226024525, 72, 76, 73829763242226024525, 72, 76,
  73829763242226024525, 0, 4, 36893525806766096969, 80, 3025805836373, 72, 76, 73832015042039775309, 72, 76, 73832015042039775309, 72, 76,
  73832015042039775309, 72, 76, 73832015042039775309, 4, 8, 36893541474806793229, 4, 8, 36893541474806793229, 72, 76, 73829763242226024525, 72, 76,
  73829763242226024525]

theorem med5_l2_run2 : run .l2 2 183 28 med5Env [] med5_l2_2 (med5Paths2.map fun P => ⟨[P], []⟩) = true := Run.run_one (by decide +kernel)

def med5_l2_3 : List ℕ := [
  72, 76, 73832015042039775309, 72, 76, 73832015042039775309, 72, 76, 73832015042039775309, 72, 76, 73832015042039775309, 72, 76,
  73829763242226024525, 72, 76, 73829763242226024525, 72, 76, 73829763242226024525, 72, 76, 73829763242226024525, 0, 4, 36893525806766096969, 80,
  3025805836373, 72, 76, 73832015042039775309, 72, 76, 73832015042039775309, 72, 76, 73832015042039775309, 72, 76, 73832015042039775309, 16, 44,
  73813999544018141205, 16, 44, 73813999544018141205, 72, 76, 73829763242226024525, 72, 76, 73829763242226024525, 52, 68, 9449921429444398947385, 52,
  68, 9449921429444398947385, 64, 68, 73827511167534366789, 64, 68, 73827511167534366789, 80, 3025805836373, 52, 68, 73827511167534366777, 52, 68,
  73827511167534366777, 72, 76, 73829763242226024525, 72, 76, 73829763242226024525, 4, 8, 36893541474806793229, 80, 3025805836373, 44, 60,
  9449344933507706656817, 44, 60, 9449344933507706656817, 48, 64, 73816252031026659381, 4, 8, 36893541474806793229, 4, 8, 36893541474806793229, 52,
  68, 9449921429444398947385, 52, 68, 9449921429444398947385, 64, 68, 73827511167534366789, 64, 68, 73827511167534366789, 52, 68,
  73827511167534366777, 52, 68, 73827511167534366777, 40, 576654278169460757, 40, 576654278169460757, 40, 576654278169460757, 40, 576654278169460757,
  44, 60, 9449344933507706656817, 44, 60, 9449344933507706656817, 44, 60, 9449344933507706656817, 44, 60, 9449344933507706656817, 24, 40,
  73802740407510433821, 24, 40, 73802740407510433821, 4, 8, 24, 73802739307998806025, 0, 4, 36893526356521910873, 4, 8, 24, 73802739307998806025, 0,
  4, 36893526356521910873, 32, 80, 84, 1209257910917262708058709, 0, 4, 36893526356521910873, 32, 36, 80, 1209257883895664943829589, 0, 4,
  36893526356521910873, 36, 52, 9448768437571014366249, 52, 288232989640228921, 36, 52, 9448768437571014366249, 52, 288232989640228921, 4, 8,
  36893541474806793229, 0, 4, 36893526356521910873, 4, 8, 36893541474806793229, 48, 64, 73816252031026659381, 48, 64, 73816252031026659381, 0, 4,
  36893526356521910869, 4, 8, 36893541474806793229, 4, 8, 36893541474806793229, 0, 4, 36893526356521910869, 4, 8, 36893541474806793229, 4, 8,
  36893541474806793229, 72, 76, 73829763242226024525, 72, 76, 73829763242226024525, 72, 76, 73829763242226024525, 72, 76, 73829763242226024525, 0, 4,
  36893525806766096969, 80, 3025805836373, 72, 76, 73832015042039775309, 72, 76, 73832015042039775309, 72, 76, 73832015042039775309, 72, 76,
  73832015042039775309, 4, 8, 36893541474806793229, 4, 8, 36893541474806793229, 4, 8, 36893541474806793229, 4, 8, 36893541474806793229, 4, 8,
  36893541474806793229, 4, 8, 36893541474806793229, 4, 8, 36893541474806793229, 4, 8, 36893541474806793229, 72, 76, 73829763242226024525, 72, 76,
  73829763242226024525, 72, 76, 73829763242226024525, 72, 76, 73829763242226024525, 0, 4, 36893525806766096969, 80, 3025805836373, 72, 76,
  73832015042039775309, 72, 76, 73832015042039775309, 72, 76, 73832015042039775309, 72, 76, 73832015042039775309, 4, 8, 36893541474806793229]

theorem med5_l2_run3 : run .l2 2 183 28 med5Env [] med5_l2_3 (med5Paths3.map fun P => ⟨[P], []⟩) = true := Run.run_one (by decide +kernel)

def med5_l2_4 : List ℕ := [
  4, 8, 36893541474806793229, 72, 76, 73829763242226024525, 72, 76, 73829763242226024525, 72, 76, 73832015042039775309, 72, 76, 73832015042039775309,
  72, 76, 73832015042039775309, 72, 76, 73832015042039775309, 4, 8, 36893541474806793229, 0, 4, 36893526356521910873, 4, 8, 36893541474806793229, 48,
  64, 73816252031026659381, 48, 64, 73816252031026659381, 0, 4, 36893526356521910869, 4, 8, 36893541474806793229, 4, 8, 36893541474806793229, 0, 4,
  36893526356521910869, 4, 8, 36893541474806793229, 4, 8, 36893541474806793229, 72, 76, 73829763242226024525, 72, 76, 73829763242226024525, 72, 76,
  73829763242226024525, 72, 76, 73829763242226024525, 0, 4, 36893525806766096969, 80, 3025805836373, 72, 76, 73832015042039775309, 72, 76,
  73832015042039775309, 72, 76, 73832015042039775309, 72, 76, 73832015042039775309, 4, 8, 36893541474806793229, 4, 8, 36893541474806793229, 4, 8,
  36893541474806793229, 4, 8, 36893541474806793229, 4, 8, 36893541474806793229, 4, 8, 36893541474806793229, 4, 8, 36893541474806793229, 4, 8,
  36893541474806793229, 72, 76, 73829763242226024525, 72, 76, 73829763242226024525, 72, 76, 73829763242226024525, 72, 76, 73829763242226024525, 0, 4,
  36893525806766096969, 80, 3025805836373, 72, 76, 73832015042039775309, 72, 76, 73832015042039775309, 72, 76, 73832015042039775309, 72, 76,
  73832015042039775309, 4, 8, 36893541474806793229, 4, 8, 36893541474806793229, 72, 76, 73829763242226024525, 72, 76, 73829763242226024525, 72, 76,
  73832015042039775309, 72, 76, 73832015042039775309, 72, 76, 73832015042039775309, 72, 76, 73832015042039775309, 72, 76, 73829763242226024525, 72,
  76, 73829763242226024525, 72, 76, 73829763242226024525, 72, 76, 73829763242226024525, 0, 4, 36893525806766096969, 80, 3025805836373, 72, 76,
  73832015042039775309, 72, 76, 73832015042039775309, 72, 76, 73832015042039775309, 72, 76, 73832015042039775309, 16, 44, 73813999544018141205, 16,
  44, 73813999544018141205, 72, 76, 73829763242226024525, 72, 76, 73829763242226024525, 52, 68, 9449921429444398947385, 52, 68,
  9449921429444398947385, 64, 68, 73827511167534366789, 64, 68, 73827511167534366789, 80, 3025805836373, 52, 68, 73827511167534366777, 52, 68,
  73827511167534366777, 72, 76, 73829763242226024525, 72, 76, 73829763242226024525, 4, 8, 36893541474806793229, 80, 3025805836373, 44, 60,
  9449344933507706656817, 44, 60, 9449344933507706656817, 48, 64, 73816252031026659381, 4, 8, 36893541474806793229, 4, 8, 36893541474806793229, 52,
  68, 9449921429444398947385, 52, 68, 9449921429444398947385, 64, 68, 73827511167534366789, 64, 68, 73827511167534366789, 52, 68,
  73827511167534366777, 52, 68, 73827511167534366777, 40, 576654278169460757, 40, 576654278169460757, 40, 576654278169460757, 40, 576654278169460757,
  44, 60, 9449344933507706656817, 44, 60, 9449344933507706656817, 44, 60, 9449344933507706656817, 44, 60, 9449344933507706656817, 60, 88,
  73823008255101632577, 60, 88, 73823008255101632577, 44, 60, 73823007293028958257, 12, 32, 73807243732260028433]

theorem med5_l2_run4 : run .l2 2 183 28 med5Env [] med5_l2_4 (med5Paths4.map fun P => ⟨[P], []⟩) = true := Run.run_one (by decide +kernel)

def med5_l2_5 : List ℕ := [
  12, 32, 73807243732260028433, 36, 52, 9448768437571014366249, 36, 52, 9448768437571014366249, 20, 48, 73816251481270845465, 20, 48,
  73816251481270845465, 20, 48, 73816251481270845465, 48, 64, 73816252031026659381, 48, 64, 73816252031026659381, 20, 48, 73816251481270845465, 20,
  48, 73816251481270845465, 20, 48, 73816251481270845465, 20, 48, 73816251481270845465, 20, 48, 73816251481270845465, 20, 48, 73816251481270845465,
  72, 76, 73829763242226024525, 72, 76, 73829763242226024525, 72, 76, 73829763242226024525, 72, 76, 73829763242226024525, 0, 4, 36893525806766096969,
  80, 3025805836373, 72, 76, 73832015042039775309, 72, 76, 73832015042039775309, 72, 76, 73832015042039775309, 72, 76, 73832015042039775309, 4, 8,
  36893541474806793225, 4, 8, 36893541474806793225, 4, 8, 36893541474806793225, 4, 8, 36893541474806793225, 4, 8, 36893541474806793225, 4, 8,
  36893541474806793225, 4, 8, 36893541474806793225, 4, 8, 36893541474806793225, 72, 76, 73829763242226024525, 72, 76, 73829763242226024525, 72, 76,
  73829763242226024525, 72, 76, 73829763242226024525, 0, 4, 36893525806766096969, 80, 3025805836373, 72, 76, 73832015042039775309, 72, 76,
  73832015042039775309, 72, 76, 73832015042039775309, 72, 76, 73832015042039775309, 0, 16, 36893578033568416321, 0, 16, 36893578033568416321, 72, 76,
  73829763242226024525, 72, 76, 73829763242226024525, 72, 76, 73832015042039775309, 72, 76, 73832015042039775309, 72, 76, 73832015042039775309, 72,
  76, 73832015042039775309]

theorem med5_l2_run5 : run .l2 2 183 28 med5Env [] med5_l2_5 (med5Paths5.map fun P => ⟨[P], []⟩) = true := Run.run_one (by decide +kernel)

def med5_linf_0 : List ℕ := [
  0, 16, 73798235983249211397, 0, 16, 73798235983249211397, 0, 16, 73798235983249211397, 0, 16, 73798235983249211397, 0, 16, 73798235983249211397, 0,
  16, 73798235983249211397, 0, 16, 73798235983249211397, 0, 16, 73798235983249211397, 0, 16, 73798235983249211397, 0, 16, 73798235983249211397, 0,
  16, 73798235983249211397, 0, 16, 73798235983249211397, 0, 16, 73798235983249211397, 0, 16, 73798235983249211397, 0, 16, 73798235983249211397, 0,
  16, 73798235983249211397, 0, 16, 73798235983249211397, 0, 16, 73798235983249211397, 0, 16, 73798235983249211397, 0, 16, 73798235983249211397, 0,
  16, 73798235983249211397, 0, 16, 73798235983249211397, 0, 16, 73798235983249211397, 0, 16, 73798235983249211397, 0, 16, 73798235983249211397, 0,
  16, 73798235983249211397, 0, 16, 73798235983249211397, 0, 16, 73798235983249211397, 0, 16, 73798235983249211397, 0, 16, 73798235983249211397, 0,
  16, 73798235983249211397, 0, 16, 73798235983249211397, 0, 16, 73798235983249211397, 0, 16, 73798235983249211397, 0, 16, 73798235983249211397, 0,
  16, 73798235983249211397, 0, 16, 73798235983249211397, 0, 16, 73798235983249211397, 0, 16, 73798235983249211397, 0, 16, 73798235983249211397, 0,
  16, 73798235983249211397, 0, 16, 73798235983249211397, 0, 16, 73798235983249211397, 0, 16, 73798235983249211397, 0, 16, 73798235983249211397, 0,
  16, 73798235983249211397, 0, 16, 73798235983249211397, 0, 16, 73798235983249211397, 0, 16, 73798235983249211397, 0, 16, 73798235983249211397, 0,
  16, 73798235983249211397, 0, 16, 73798235983249211397, 0, 16, 73798235983249211397, 0, 16, 73798235983249211397, 0, 16, 73798235983249211397, 0,
  16, 73798235983249211397, 0, 16, 73798235983249211397, 0, 16, 73798235983249211397, 0, 16, 73798235983249211397, 0, 16, 73798235983249211397, 0,
  16, 73798235983249211397, 0, 16, 73798235983249211397, 0, 16, 73798235983249211397, 0, 16, 73798235983249211397, 0, 16, 73798235983249211397, 0,
  16, 73798235983249211397, 8, 60, 64, 1209553047246783710765069, 72, 76, 73829763242226024525, 72, 76, 73829763242226024525, 72, 76,
  73829763242226024525, 72, 76, 73829763242226024525, 64, 68, 73827511167534366789, 80, 84, 73834267116731433045, 72, 76, 73832015042039775309, 72,
  76, 73832015042039775309, 72, 76, 73832015042039775309, 72, 76, 73832015042039775309, 72, 76, 73829763242226024525, 72, 76, 73829763242226024525,
  72, 76, 73829763242226024525, 72, 76, 73829763242226024525, 64, 68, 73827511167534366789, 80, 84, 73834267116731433045, 72, 76,
  73832015042039775309, 72, 76, 73832015042039775309, 72, 76, 73832015042039775309, 72, 76, 73832015042039775309, 20, 24, 73802739857754619929, 20,
  24, 73802739857754619929, 20, 24, 73802739857754619929, 20, 24, 73802739857754619929, 20, 24, 73802739857754619929, 28, 44, 9448191941634322075681,
  28, 44, 9448191941634322075681, 28, 44, 9448191941634322075681, 28, 44, 9448191941634322075681, 0, 16, 73798235983249211397, 0, 16,
  73798235983249211397, 0, 16, 73798235983249211397, 0, 16, 73798235983249211397]

theorem med5_linf_run0 : run .linf 2 25 4 med5Env [] med5_linf_0 (med5Paths0.map fun P => ⟨[P], []⟩) = true := Run.run_one (by decide +kernel)

def med5_linf_1 : List ℕ := [
  0, 16, 73798235983249211397, 0, 16, 73798235983249211397, 0, 16, 73798235983249211397, 0, 16, 73798235983249211397, 0, 16, 73798235983249211397, 0,
  16, 73798235983249211397, 0, 16, 73798235983249211397, 0, 16, 73798235983249211397, 0, 16, 73798235983249211397, 0, 16, 73798235983249211397, 0,
  16, 73798235983249211397, 0, 16, 73798235983249211397, 0, 16, 73798235983249211397, 0, 16, 73798235983249211397, 0, 16, 73798235983249211397, 0,
  16, 73798235983249211397, 0, 16, 73798235983249211397, 0, 16, 73798235983249211397, 0, 16, 73798235983249211397, 0, 16, 73798235983249211397, 0,
  16, 73798235983249211397, 0, 16, 73798235983249211397, 0, 16, 73798235983249211397, 0, 16, 73798235983249211397, 0, 16, 73798235983249211397, 0,
  16, 73798235983249211397, 0, 16, 73798235983249211397, 0, 16, 73798235983249211397, 0, 16, 73798235983249211397, 0, 16, 73798235983249211397, 0,
  16, 73798235983249211397, 0, 16, 73798235983249211397, 0, 16, 73798235983249211397, 0, 16, 73798235983249211397, 0, 16, 73798235983249211397, 0,
  16, 73798235983249211397, 0, 16, 73798235983249211397, 0, 16, 73798235983249211397, 0, 16, 73798235983249211397, 0, 16, 73798235983249211397, 0,
  16, 73798235983249211397, 0, 16, 73798235983249211397, 0, 16, 73798235983249211397, 0, 16, 73798235983249211397, 0, 16, 73798235983249211397, 0,
  16, 73798235983249211397, 0, 16, 73798235983249211397, 0, 16, 73798235983249211397, 0, 16, 73798235983249211397, 0, 16, 73798235983249211397, 0,
  16, 73798235983249211397, 0, 16, 73798235983249211397, 0, 16, 73798235983249211397, 0, 16, 73798235983249211397, 0, 16, 73798235983249211397, 0,
  16, 73798235983249211397, 0, 16, 73798235983249211397, 0, 16, 73798235983249211397, 0, 16, 73798235983249211397, 0, 16, 73798235983249211397, 0,
  16, 73798235983249211397, 0, 16, 73798235983249211397, 28, 44, 52, 73818503143645642785, 88, 92, 604469879338844177247749, 72, 76,
  73829763242226024525, 72, 76, 73829763242226024525, 64, 68, 604468138750502195242045, 80, 84, 73834267116731433045, 52, 68, 9449921429444398947385,
  52, 68, 9449921429444398947385, 20, 36, 73800488470257729561, 20, 36, 73800488470257729561, 72, 76, 73829763242226024525, 72, 76,
  73829763242226024525, 28, 44, 9448191941634322075681, 28, 44, 9448191941634322075681, 28, 44, 9448191941634322075681, 28, 44,
  9448191941634322075681, 28, 44, 9448191941634322075681, 28, 44, 9448191941634322075681, 28, 44, 9448191941634322075681, 28, 44,
  9448191941634322075681, 28, 44, 9448191941634322075681, 28, 44, 9448191941634322075681, 80, 84, 73834267116731433045, 28, 44, 73813999544018141217,
  28, 44, 73813999544018141217, 28, 44, 73813999544018141217, 28, 44, 73813999544018141217, 28, 44, 73813999544018141217, 32, 48,
  73807244282015842341, 32, 48, 73807244282015842341, 32, 48, 73807244282015842341, 32, 48, 73807244282015842341, 32, 48, 73807244282015842341, 32,
  48, 73807244282015842341, 40, 56, 73811748156521250861, 40, 56, 73811748156521250861, 40, 56, 73811748156521250861, 40, 56, 73811748156521250861,
  44, 60, 9449344933507706656817, 44, 60, 9449344933507706656817, 44, 60, 9449344933507706656817]

theorem med5_linf_run1 : run .linf 2 25 4 med5Env [] med5_linf_1 (med5Paths1.map fun P => ⟨[P], []⟩) = true := Run.run_one (by decide +kernel)

def med5_linf_2 : List ℕ := [
  44, 60, 9449344933507706656817, 36, 52, 9448768437571014366249, 36, 52, 9448768437571014366249, 36, 52, 9448768437571014366249, 36, 52,
  9448768437571014366249, 36, 52, 73818503418523549737, 36, 52, 73818503418523549737, 28, 44, 64, 73825258543086895137, 72, 76, 73829763242226024525,
  72, 76, 73829763242226024525, 4, 8, 36893541474806793229, 4, 8, 36893541474806793229, 4, 8, 36893541474806793229, 48, 64, 73816252031026659381, 48,
  64, 73816252031026659381, 48, 64, 73816252031026659381, 48, 64, 73816252031026659381, 48, 64, 73816252031026659381, 48, 64, 73816252031026659381,
  48, 64, 73816252031026659381, 48, 64, 73816252031026659381, 72, 76, 73829763242226024525, 72, 76, 73829763242226024525, 72, 76,
  73829763242226024525, 72, 76, 73829763242226024525, 64, 68, 73827511167534366789, 80, 84, 73834267116731433045, 72, 76, 73832015042039775309, 72,
  76, 73832015042039775309, 72, 76, 73832015042039775309, 72, 76, 73832015042039775309, 56, 72, 73820755905532067901, 56, 72, 73820755905532067901,
  56, 72, 73820755905532067901, 4, 8, 36893541474806793229, 4, 8, 36893541474806793229, 56, 72, 73820755905532067901, 56, 72, 73820755905532067901,
  56, 72, 73820755905532067901, 72, 76, 73829763242226024525, 72, 76, 73829763242226024525, 72, 76, 73829763242226024525, 72, 76,
  73829763242226024525, 64, 68, 73827511167534366789, 80, 84, 73834267116731433045, 72, 76, 73832015042039775309, 72, 76, 73832015042039775309, 72,
  76, 73832015042039775309, 72, 76, 73832015042039775309, 0, 16, 36893578033568416321, 0, 16, 36893578033568416321, 72, 76, 73829763242226024525, 72,
  76, 73829763242226024525, 72, 76, 73832015042039775309, 72, 76, 73832015042039775309, 72, 76, 73832015042039775309, 72, 76, 73832015042039775309,
  4, 8, 36893541474806793229, 4, 8, 36893541474806793229, 4, 8, 36893541474806793229, 48, 64, 73816252031026659381, 48, 64, 73816252031026659381, 48,
  64, 73816252031026659381, 48, 64, 73816252031026659381, 48, 64, 73816252031026659381, 48, 64, 73816252031026659381, 48, 64, 73816252031026659381,
  48, 64, 73816252031026659381, 72, 76, 73829763242226024525, 72, 76, 73829763242226024525, 72, 76, 73829763242226024525, 72, 76,
  73829763242226024525, 64, 68, 73827511167534366789, 80, 84, 73834267116731433045, 72, 76, 73832015042039775309, 72, 76, 73832015042039775309, 72,
  76, 73832015042039775309, 72, 76, 73832015042039775309, 56, 72, 73820755905532067901, 56, 72, 73820755905532067901, 56, 72, 73820755905532067901,
  4, 8, 36893541474806793229, 4, 8, 36893541474806793229, 56, 72, 73820755905532067901, 56, 72, 73820755905532067901, 56, 72, 73820755905532067901,
  72, 76, 73829763242226024525, 72, 76, 73829763242226024525, 72, 76, 73829763242226024525, 72, 76, 73829763242226024525, 64, 68,
  73827511167534366789, 80, 84, 73834267116731433045, 72, 76, 73832015042039775309, 72, 76, 73832015042039775309, 72, 76, 73832015042039775309, 72,
  76, 73832015042039775309, 0, 16, 36893578033568416321, 0, 16, 36893578033568416321, 72, 76, 73829763242226024525, 72, 76, 73829763242226024525]

theorem med5_linf_run2 : run .linf 2 25 4 med5Env [] med5_linf_2 (med5Paths2.map fun P => ⟨[P], []⟩) = true := Run.run_one (by decide +kernel)

def med5_linf_3 : List ℕ := [
  72, 76, 73832015042039775309, 72, 76, 73832015042039775309, 72, 76, 73832015042039775309, 72, 76, 73832015042039775309, 72, 76,
  73829763242226024525, 72, 76, 73829763242226024525, 72, 76, 73829763242226024525, 72, 76, 73829763242226024525, 64, 68, 73827511167534366789, 80,
  84, 73834267116731433045, 72, 76, 73832015042039775309, 72, 76, 73832015042039775309, 72, 76, 73832015042039775309, 72, 76, 73832015042039775309,
  4, 8, 36893541474806793229, 4, 8, 36893541474806793229, 72, 76, 73829763242226024525, 72, 76, 73829763242226024525, 52, 68, 9449921429444398947385,
  52, 68, 9449921429444398947385, 52, 68, 9449921429444398947385, 52, 68, 9449921429444398947385, 80, 84, 73834267116731433045, 64, 68,
  73827511167534366789, 64, 68, 73827511167534366789, 72, 76, 73829763242226024525, 72, 76, 73829763242226024525, 4, 8, 36893541474806793229, 80, 84,
  73834267116731433045, 44, 60, 9449344933507706656817, 44, 60, 9449344933507706656817, 48, 64, 73816252031026659381, 48, 64, 73816252031026659381,
  48, 64, 73816252031026659381, 52, 68, 9449921429444398947385, 52, 68, 9449921429444398947385, 52, 68, 9449921429444398947385, 52, 68,
  9449921429444398947385, 64, 68, 73827511167534366789, 64, 68, 73827511167534366789, 40, 56, 73811748156521250861, 40, 56, 73811748156521250861, 40,
  56, 73811748156521250861, 40, 56, 73811748156521250861, 44, 60, 9449344933507706656817, 44, 60, 9449344933507706656817, 44, 60,
  9449344933507706656817, 44, 60, 9449344933507706656817, 12, 24, 73802739857754619921, 12, 24, 73802739857754619921, 12, 24, 73802739857754619921,
  12, 24, 73802739857754619921, 12, 24, 73802739857754619921, 12, 24, 73802739857754619921, 32, 48, 73807244282015842341, 32, 48,
  73807244282015842341, 32, 48, 73807244282015842341, 32, 48, 73807244282015842341, 36, 52, 9448768437571014366249, 36, 52, 9448768437571014366249,
  36, 52, 9448768437571014366249, 36, 52, 9448768437571014366249, 4, 8, 36893541474806793229, 4, 8, 36893541474806793229, 4, 8, 36893541474806793229,
  48, 64, 73816252031026659381, 48, 64, 73816252031026659381, 48, 64, 73816252031026659381, 48, 64, 73816252031026659381, 48, 64,
  73816252031026659381, 48, 64, 73816252031026659381, 48, 64, 73816252031026659381, 48, 64, 73816252031026659381, 72, 76, 73829763242226024525, 72,
  76, 73829763242226024525, 72, 76, 73829763242226024525, 72, 76, 73829763242226024525, 64, 68, 73827511167534366789, 80, 84, 73834267116731433045,
  72, 76, 73832015042039775309, 72, 76, 73832015042039775309, 72, 76, 73832015042039775309, 72, 76, 73832015042039775309, 56, 72,
  73820755905532067901, 56, 72, 73820755905532067901, 56, 72, 73820755905532067901, 4, 8, 36893541474806793229, 4, 8, 36893541474806793229, 56, 72,
  73820755905532067901, 56, 72, 73820755905532067901, 56, 72, 73820755905532067901, 72, 76, 73829763242226024525, 72, 76, 73829763242226024525, 72,
  76, 73829763242226024525, 72, 76, 73829763242226024525, 64, 68, 73827511167534366789, 80, 84, 73834267116731433045, 72, 76, 73832015042039775309,
  72, 76, 73832015042039775309, 72, 76, 73832015042039775309, 72, 76, 73832015042039775309, 0, 16, 36893578033568416321]

theorem med5_linf_run3 : run .linf 2 25 4 med5Env [] med5_linf_3 (med5Paths3.map fun P => ⟨[P], []⟩) = true := Run.run_one (by decide +kernel)

def med5_linf_4 : List ℕ := [
  0, 16, 36893578033568416321, 72, 76, 73829763242226024525, 72, 76, 73829763242226024525, 72, 76, 73832015042039775309, 72, 76,
  73832015042039775309, 72, 76, 73832015042039775309, 72, 76, 73832015042039775309, 4, 8, 36893541474806793229, 4, 8, 36893541474806793229, 4, 8,
  36893541474806793229, 48, 64, 73816252031026659381, 48, 64, 73816252031026659381, 48, 64, 73816252031026659381, 48, 64, 73816252031026659381, 48,
  64, 73816252031026659381, 48, 64, 73816252031026659381, 48, 64, 73816252031026659381, 48, 64, 73816252031026659381, 72, 76, 73829763242226024525,
  72, 76, 73829763242226024525, 72, 76, 73829763242226024525, 72, 76, 73829763242226024525, 64, 68, 73827511167534366789, 80, 84,
  73834267116731433045, 72, 76, 73832015042039775309, 72, 76, 73832015042039775309, 72, 76, 73832015042039775309, 72, 76, 73832015042039775309, 56,
  72, 73820755905532067901, 56, 72, 73820755905532067901, 56, 72, 73820755905532067901, 4, 8, 36893541474806793229, 4, 8, 36893541474806793229, 56,
  72, 73820755905532067901, 56, 72, 73820755905532067901, 56, 72, 73820755905532067901, 72, 76, 73829763242226024525, 72, 76, 73829763242226024525,
  72, 76, 73829763242226024525, 72, 76, 73829763242226024525, 64, 68, 73827511167534366789, 80, 84, 73834267116731433045, 72, 76,
  73832015042039775309, 72, 76, 73832015042039775309, 72, 76, 73832015042039775309, 72, 76, 73832015042039775309, 0, 16, 36893578033568416321, 0, 16,
  36893578033568416321, 72, 76, 73829763242226024525, 72, 76, 73829763242226024525, 72, 76, 73832015042039775309, 72, 76, 73832015042039775309, 72,
  76, 73832015042039775309, 72, 76, 73832015042039775309, 72, 76, 73829763242226024525, 72, 76, 73829763242226024525, 72, 76, 73829763242226024525,
  72, 76, 73829763242226024525, 64, 68, 73827511167534366789, 80, 84, 73834267116731433045, 72, 76, 73832015042039775309, 72, 76,
  73832015042039775309, 72, 76, 73832015042039775309, 72, 76, 73832015042039775309, 4, 8, 36893541474806793229, 4, 8, 36893541474806793229, 72, 76,
  73829763242226024525, 72, 76, 73829763242226024525, 52, 68, 9449921429444398947385, 52, 68, 9449921429444398947385, 52, 68, 9449921429444398947385,
  52, 68, 9449921429444398947385, 80, 84, 73834267116731433045, 64, 68, 73827511167534366789, 64, 68, 73827511167534366789, 72, 76,
  73829763242226024525, 72, 76, 73829763242226024525, 4, 8, 36893541474806793229, 80, 84, 73834267116731433045, 44, 60, 9449344933507706656817, 44,
  60, 9449344933507706656817, 48, 64, 73816252031026659381, 48, 64, 73816252031026659381, 48, 64, 73816252031026659381, 52, 68,
  9449921429444398947385, 52, 68, 9449921429444398947385, 52, 68, 9449921429444398947385, 52, 68, 9449921429444398947385, 64, 68,
  73827511167534366789, 64, 68, 73827511167534366789, 40, 56, 73811748156521250861, 40, 56, 73811748156521250861, 40, 56, 73811748156521250861, 40,
  56, 73811748156521250861, 44, 60, 9449344933507706656817, 44, 60, 9449344933507706656817, 44, 60, 9449344933507706656817, 44, 60,
  9449344933507706656817, 44, 60, 9449344933507706656817, 44, 60, 9449344933507706656817, 44, 60, 73823007293028958257, 32, 48, 73807244282015842341]

theorem med5_linf_run4 : run .linf 2 25 4 med5Env [] med5_linf_4 (med5Paths4.map fun P => ⟨[P], []⟩) = true := Run.run_one (by decide +kernel)

def med5_linf_5 : List ℕ := [
  32, 48, 73807244282015842341, 36, 52, 9448768437571014366249, 36, 52, 9448768437571014366249, 4, 8, 36893541474806793229, 4, 8,
  36893541474806793229, 4, 8, 36893541474806793229, 48, 64, 73816252031026659381, 48, 64, 73816252031026659381, 48, 64, 73816252031026659381, 48, 64,
  73816252031026659381, 48, 64, 73816252031026659381, 48, 64, 73816252031026659381, 48, 64, 73816252031026659381, 48, 64, 73816252031026659381, 72,
  76, 73829763242226024525, 72, 76, 73829763242226024525, 72, 76, 73829763242226024525, 72, 76, 73829763242226024525, 64, 68, 73827511167534366789,
  80, 84, 73834267116731433045, 72, 76, 73832015042039775309, 72, 76, 73832015042039775309, 72, 76, 73832015042039775309, 72, 76,
  73832015042039775309, 56, 72, 73820755905532067901, 56, 72, 73820755905532067901, 56, 72, 73820755905532067901, 4, 8, 36893541474806793229, 4, 8,
  36893541474806793229, 56, 72, 73820755905532067901, 56, 72, 73820755905532067901, 56, 72, 73820755905532067901, 72, 76, 73829763242226024525, 72,
  76, 73829763242226024525, 72, 76, 73829763242226024525, 72, 76, 73829763242226024525, 64, 68, 73827511167534366789, 80, 84, 73834267116731433045,
  72, 76, 73832015042039775309, 72, 76, 73832015042039775309, 72, 76, 73832015042039775309, 72, 76, 73832015042039775309, 0, 16,
  36893578033568416321, 0, 16, 36893578033568416321, 72, 76, 73829763242226024525, 72, 76, 73829763242226024525, 72, 76, 73832015042039775309, 72,
  76, 73832015042039775309, 72, 76, 73832015042039775309, 72, 76, 73832015042039775309]

theorem med5_linf_run5 : run .linf 2 25 4 med5Env [] med5_linf_5 (med5Paths5.map fun P => ⟨[P], []⟩) = true := Run.run_one (by decide +kernel)

theorem med5_l1 : med5Tab.Refuted .l1 2 486 41 25 :=
  Tab.refuted_one (T := med5Tab) rfl med5_paths (parts (part med5_l1_run0) (parts (part med5_l1_run1) (parts (part med5_l1_run2) (parts (part med5_l1_run3) (parts (part med5_l1_run4) (part med5_l1_run5))))))

theorem med5_l2 : med5Tab.Refuted .l2 2 183 28 25 :=
  Tab.refuted_one (T := med5Tab) rfl med5_paths (parts (part med5_l2_run0) (parts (part med5_l2_run1) (parts (part med5_l2_run2) (parts (part med5_l2_run3) (parts (part med5_l2_run4) (part med5_l2_run5))))))

theorem med5_linf : med5Tab.Refuted .linf 2 25 4 25 :=
  Tab.refuted_one (T := med5Tab) rfl med5_paths (parts (part med5_linf_run0) (parts (part med5_linf_run1) (parts (part med5_linf_run2) (parts (part med5_linf_run3) (parts (part med5_linf_run4) (part med5_linf_run5))))))

end MinCert
end Peano
