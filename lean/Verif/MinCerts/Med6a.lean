import Verif.Lemmas.MinRun
import Verif.MinCerts.Med6aE0
import Verif.MinCerts.Med6aE1
import Verif.MinCerts.Med6aE2
import Verif.MinCerts.Med6aE3

set_option autoImplicit false

/-
Median, grid 6, steps to adjacent cells: no curve has less dilation.  This file is generated.
-/
namespace Peano
namespace MinCert

def med6aPaths0 : List ℕ := [
  25640218320920041704974827158964646888999218176494043621253642991543968008332088136791595947625964841187,
  25640218320920041704974827158964646888999218176494043621253642991543968008332088281528596212430279485667,
  25640218320920041704974827158964646888999218184299033058630047434064694957886283594396296740997200292067,
  25640218320920041704974827158964646888999218184299033058630047434064694957886283739133297005801514936547,
  25640218320920041704974827158964646889004015560081663652502665011487873191895277611762446337723260938467,
  25640218320920041704974827158964646889004015560081663652502665011487873191895277756499446602527575582947,
  25640218320920041704974827158964646889004015567886653089879069454008600141449473069367147131094496389347,
  25640218320920041704974827158964646889004015567886653089879069454008600141449473214104147395898811033827,
  25640218320920041704974827158964646893144745133911420778187881560783640452463225545364441498106749293795,
  25640218320920041704974827158964646893144745133911420778187881594394215548172961534835511601964991157475,
  25640218320920041704974827158964646893144745133911420778187910633887409642174004563926418312773724943395,
  25640218320920041704974827158964646893144745133911433364522774477123490794753854762492468834447021348067,
  25640218320920041704974827158964646893144745133911433364522774510734065890463590751963538938305263211747,
  25640218320920041704974827158964646893144745133911433364522803550227259984464633781054445649113996997667,
  25640218320920041704974827158964646893148948752612114957680389884216752865228476394810566884321626600327,
  25640218320920041704974827158964646893149500276385690695954207789356970370259191968354416475964194985187,
  25640218320920041704974827158964646893149500276385690695954207822967545465968927957825486579822436848867,
  25640218320920041704974827158964646893149500276385690695954236862460739559969970986916393290631170634787,
  25640218320920041704974827158964646893149500276385703282289100705696820712549821185482443812304467039459,
  25640218320920041704974827158964646893149500276385703282289100739307395808259557174953513916162708903139,
  25640218320920041704974827158964646893149500276385703282289129778800589902260600204044420626971442689059,
  25640218320920041704974827160777107995186394932637328801728267965425852582122020864835206970303818967267,
  25640218320920041704974827160777107995186394932637328801728267965425852582122021009572207235108133611747,
  25640218320920041704974827160777107995186394940442318239104672407946579531676216322439907763675054418147,
  25640218320920041704974827160777107995186394940442318239104672407946579531676216467176908028479369062627,
  25640218320920041704974827160777107995191192316224948832977289985369757765685210339806057360401115064547,
  25640218320920041704974827160777107995191192316224948832977289985369757765685210484543057625205429709027,
  25640218320920041704974827160777107995191192324029938270353694427890484715239405797410758153772350515427,
  25640218320920041704974827160777107995191192324029938270353694427890484715239405942147758418576665159907,
  25640218320920041704974827160777107999331921890054705958662506534665525026253158273408052520784603419875,
  25640218320920041704974827160777107999331921890054705958662506568276100121962894262879122624642845283555,
  25640218320920041704974827160777107999331921890054705958662535607769294215963937291970029335451579069475,
  25640218320920041704974827160777107999331921890054718544997399451005375368543787490536079857124875474147,
  25640218320920041704974827160777107999331921890054718544997399484615950464253523480007149960983117337827,
  25640218320920041704974827160777107999331921890054718544997428524109144558254566509098056671791851123747,
  25640218320920041704974827160777107999336125508755400138155014858098637439018409122854177906999480726407,
  25640218320920041704974827160777107999336677032528975876428832763238854944049124696398027498642049111267,
  25640218320920041704974827160777107999336677032528975876428832796849430039758860685869097602500290974947,
  25640218320920041704974827160777107999336677032528975876428861836342624133759903714960004313309024760867,
  25640218320920041704974827160777107999336677032528988462763725679578705286339753913526054834982321165539,
  25640218320920041704974827160777107999336677032528988462763725713189280382049489902997124938840563029219,
  25640218320920041704974827160777107999336677032528988462763754752682474476050532932088031649649296815139,
  25640218320920041704974827161035185037384604430634785889718238314897345316934299592938121114179275008227,
  25640218320920041704974827161035185037384604430634785889718238314897345316934299592938354517231431002339,
  25640218320920041704974827161035187986125210862812713288596928955881853532724227275955496757809244743907,
  25640218320920041704974827161035187986125210862812713288596928955881853532724227275955730160861400738019,
  25640218320920041704974827161037735694176257159500408535772564883444642714203387945512764915030968267655,
  25640218320920041704974827161037735694176257159500408535772564883444642714203387945512764915410697827207,
  25640218320920041704974828780502337334443990047744743108185707213989723053736357440843755929097889065187,
  25640218320920041704975941199058331474315442183589933432341589335188555433222976510568351026731684669667,
  25640218320920041704975941199058331474315442183589933432341589335188555433222976655305351291535999314147,
  25640218320920041704975941199058331474315442191394922869717993777709282382777171968173051820102920120547,
  25640218320920041704975941199058331474315442191394922869717993777709282382777172112910052084907234765027,
  25640218320920041704975941199058331474320239567177553463590611355132460616786165985539201416828980766947,
  25640218320920041704975941199058331474320239567177553463590611355132460616786166130276201681633295411427,
  25640218320920041704975941199058331474320239574982542900967015797653187566340361443143902210200216217827,
  25640218320920041704975941199058331474320239574982542900967015797653187566340361587880902475004530862307,
  25640218320920041704975941199058331478460969141007310589275827904428227877354113919141196577212469122275,
  25640218320920041704975941199058331478460969141007310589275827938038802973063849908612266681070710985955,
  25640218320920041704975941199058331478460969141007310589275856977531997067064892937703173391879444771875,
  25640218320920041704975941199058331478460969141007323175610720820768078219644743136269223913552741176547,
  25640218320920041704975941199058331478460969141007323175610720854378653315354479125740294017410983040227,
  25640218320920041704975941199058331478460969141007323175610749893871847409355522154831200728219716826147,
  25640218320920041704975941199058331478465172759708004768768336227861340290119364768587321963427346428807,
  25640218320920041704975941199058331478465724283481580507042154133001557795150080342131171555069914813667,
  25640218320920041704975941199058331478465724283481580507042154166612132890859816331602241658928156677347,
  25640218320920041704975941199058331478465724283481580507042183206105326984860859360693148369736890463267,
  25640218320920041704975941199058331478465724283481593093377047049341408137440709559259198891410186867939,
  25640218320920041704975941199058331478465724283481593093377047082951983233150445548730268995268428731619,
  25640218320920041704975941199058331478465724283481593093377076122445177327151488577821175706077162517539,
  25640218320920041704975941200870792580502618939733218612816214309070440007012909238611962049409538795747,
  25640218320920041704975941200870792580502618939733218612816214309070440007012909383348962314213853440227,
  25640218320920041704975941200870792580502618947538208050192618751591166956567104696216662842780774246627,
  25640218320920041704975941200870792580502618947538208050192618751591166956567104840953663107585088891107,
  25640218320920041704975941200870792580507416323320838644065236329014345190576098713582812439506834893027,
  25640218320920041704975941200870792580507416323320838644065236329014345190576098858319812704311149537507,
  25640218320920041704975941200870792580507416331125828081441640771535072140130294171187513232878070343907,
  25640218320920041704975941200870792580507416331125828081441640771535072140130294315924513497682384988387,
  25640218320920041704975941200870792584648145897150595769750452878310112451144046647184807599890323248355,
  25640218320920041704975941200870792584648145897150595769750452911920687546853782636655877703748565112035,
  25640218320920041704975941200870792584648145897150595769750481951413881640854825665746784414557298897955,
  25640218320920041704975941200870792584648145897150608356085345794649962793434675864312834936230595302627,
  25640218320920041704975941200870792584648145897150608356085345828260537889144411853783905040088837166307,
  25640218320920041704975941200870792584648145897150608356085374867753731983145454882874811750897570952227,
  25640218320920041704975941200870792584652349515851289949242961201743224863909297496630932986105200554887,
  25640218320920041704975941200870792584652901039624865687516779106883442368940013070174782577747768939747,
  25640218320920041704975941200870792584652901039624865687516779140494017464649749059645852681606010803427,
  25640218320920041704975941200870792584652901039624865687516808179987211558650792088736759392414744589347,
  25640218320920041704975941200870792584652901039624878273851672023223292711230642287302809914088040994019,
  25640218320920041704975941200870792584652901039624878273851672056833867806940378276773880017946282857699,
  25640218320920041704975941200870792584652901039624878273851701096327061900941421305864786728755016643619,
  25640218320920041704975941201128869622700828437730675700806184658541932741825187966714876193284994836707,
  25640218320920041704975941201128869622700828437730675700806184658541932741825187966715109596337150830819,
  25640218320920041704975941201128872571441434869908603099684875299526440957615115649732251836914964572387,
  25640218320920041704975941201128872571441434869908603099684875299526440957615115649732485239967120566499,
  25640218320920041704975941201131420279492481166596298346860511227089230139094276319289519994136688096135,
  25640218320920041704975941201131420279492481166596298346860511227089230139094276319289519994516417655687,
  25640218320920041704976099831746876709480830438468380982017635979524907108627488191407022806849182968035,
  25640218320920041704976099831746876709480830438468380982017635979524907185502692845588007557705214725603,
  25640218320920041704976099831746876709480830438468380982017635979524907185502692845588007557705215343395]

def med6aPaths1 : List ℕ := [
  25640218320920041704976099831746876709480830438468380982017635979524907185502692845588240960757370719715,
  25640218320920041704976099831746876709480830438468380982017635979524907185502692845588240960757371337507,
  25640218320920041704976099831746876709480830438468380982017635979524907185580645438077387596736968700807,
  25640218320920041704976099831746876709480830438468380982017635979524907185590872985110263766419464523235,
  25640218320920041704976099831746876709480830438468380982017635979524907185590872985110263766419465141027,
  25640218320920041704976099831746876709480830438468380982017635979524907185590872985110497169471620517347,
  25640218320920041704976099831746876709480830438468380982017635979524907185590872985110497169471621135139,
  25640218320920041704976099831746876709480830438468380982017636013135482204337224180878092910707424831715,
  25640218320920041704976099831746876709480830438468380982017636013135482281212428835059077661563456589283,
  25640218320920041704976099831746876709480830438468380982017636013135482281212428835059077661563457207075,
  25640218320920041704976099831746876709480830438468380982017636013135482281212428835059311064615612583395,
  25640218320920041704976099831746876709480830438468380982017636013135482281212428835059311064615613201187,
  25640218320920041704976099831746876709480830438468380982017636013135482281290381427548457700595210564487,
  25640218320920041704976099831746876709480830438468380982017636013135482281300608974581333870277706386915,
  25640218320920041704976099831746876709480830438468380982017636013135482281300608974581333870277707004707,
  25640218320920041704976099831746876709480830438468380982017636013135482281300608974581567273329862381027,
  25640218320920041704976099831746876709480830438468380982017636013135482281300608974581567273329862998819,
  25640218320920041704976099831746876709480830438468380982017636017968549013728602316376769637835790297315,
  25640218320920041704976099831746876709480830438468380982017636017968549013728602316377003040887946291427,
  25640218320920041704976099831746876709480830438468380982017636017968611074600507861968080437335658361735,
  25640218320920041704976099831746876709480830438468380982017636017968611074600507861968080437715387921287,
  25640218320920041704976099831746876709480830438468382423357826267424950796459726476988482231296817918855,
  25640218320920041704976099831746876709480830438468382423357826267424950796459726476988482231676547478407,
  25640218320920041704976099831746876709480830438468382423357826267424950796459726621725482496101132563335,
  25640218320920041704976099831746876709480830438468382423357826267424950796459726621725482496480862122887,
  25640218320920041704976099831746876709480830438468393568352528895864757450918117408535050143189455022307,
  25640218320920041704976099831746876709480830438468393568352528895864757527793322062716034894045486779875,
  25640218320920041704976099831746876709480830438468393568352528895864757527793322062716034894045487397667,
  25640218320920041704976099831746876709480830438468393568352528895864757527793322062716268297097642773987,
  25640218320920041704976099831746876709480830438468393568352528895864757527793322062716268297097643391779,
  25640218320920041704976099831746876709480830438468393568352528895864757527871274655205414933077240755079,
  25640218320920041704976099831746876709480830438468393568352528895864757527881502202238291102759736577507,
  25640218320920041704976099831746876709480830438468393568352528895864757527881502202238291102759737195299,
  25640218320920041704976099831746876709480830438468393568352528895864757527881502202238524505811892571619,
  25640218320920041704976099831746876709480830438468393568352528895864757527881502202238524505811893189411,
  25640218320920041704976099831746876709480830438468393568352528929475332546627853398006120247047696885987,
  25640218320920041704976099831746876709480830438468393568352528929475332623503058052187104997903728643555,
  25640218320920041704976099831746876709480830438468393568352528929475332623503058052187104997903729261347,
  25640218320920041704976099831746876709480830438468393568352528929475332623503058052187338400955884637667,
  25640218320920041704976099831746876709480830438468393568352528929475332623503058052187338400955885255459,
  25640218320920041704976099831746876709480830438468393568352528929475332623581010644676485036935482618759,
  25640218320920041704976099831746876709480830438468393568352528929475332623591238191709361206617978441187,
  25640218320920041704976099831746876709480830438468393568352528929475332623591238191709361206617979058979,
  25640218320920041704976099831746876709480830438468393568352528929475332623591238191709594609670134435299,
  25640218320920041704976099831746876709480830438468393568352528929475332623591238191709594609670135053091,
  25640218320920041704976099831746876709480830438468393568352528934308399356019231533504796974176062351587,
  25640218320920041704976099831746876709480830438468393568352528934308399356019231533505030377228218345699,
  25640218320920041704976099831746876709480830438468393568352528934308461416891137079096107773675930416007,
  25640218320920041704976099831746876709480830438468393568352528934308461416891137079096107774055659975559,
  25640218320920041704976099831746876709480830438468393586181381617173761365288680952812240353586723891427,
  25640218320920041704976099831746876709480830438468393586181381617173816047216614154043481033040115476707,
  25640218320920041704976099831746876709480830438468393586204326509543612914275049325553486428802561812707,
  25640218320920041704976099831746876709480830438468393586204326509543612914275049325553719831854717806819,
  25640218320920041704976099831746876709480830438468393586204326509543612914364012791188249989624679311587,
  25640218320920041704976099831746876709480830438468393586204326509543612914364012791188483392676835305699,
  25640218320920041705971639866236124337221227435835579389546678861720958611065198677838193917683973171427,
  25640218320920041705971639866236124337221227435835579389546678861721013292993131879069434597137364756707,
  25640218320920041705971639866236124337221227435835593492738872805209312684510611293804312820382411991267,
  25640218320920041705971639866236124337221227435835593492738872805209312684510611293804546223434567985379,
  25640218320920041705971639866236124337221227435835593492738872805209312684599574759439076381204529490147,
  25640218320920041705971639866236124337221227435835593492738872805209312684599574759439309784256685484259,
  25640218321340928278595288144713559251643832777581702492523345465577902379499456568570306955109130250467,
  25640218321340928278595288144713559251643832777581702492523345465577902379499456713307307219913444894947,
  25640218321340928278595288144713559251643832785386691929899749908098629329053652026175007748480365701347,
  25640218321340928278595288144713559251643832785386691929899749908098629329053652170912008013284680345827,
  25640218321340928278595288144713559251648630161169322523772367485521807563062646043541157345206426347747,
  25640218321340928278595288144713559251648630161169322523772367485521807563062646188278157610010740992227,
  25640218321340928278595288144713559251648630168974311961148771928042534512616841501145858138577661798627,
  25640218321340928278595288144713559251648630168974311961148771928042534512616841645882858403381976443107,
  25640218321340928278595288144713559255789359734999079649457584034817574823630593977143152505589914703075,
  25640218321340928278595288144713559255789359734999079649457584068428149919340329966614222609448156566755,
  25640218321340928278595288144713559255789359734999079649457613107921344013341372995705129320256890352675,
  25640218321340928278595288144713559255789359734999092235792476951157425165921223194271179841930186757347,
  25640218321340928278595288144713559255789359734999092235792476984768000261630959183742249945788428621027,
  25640218321340928278595288144713559255789359734999092235792506024261194355632002212833156656597162406947,
  25640218321340928278595288144713559255793563353699773828950092358250687236395844826589277891804792009607,
  25640218321340928278595288144713559255794114877473349567223910263390904741426560400133127483447360394467,
  25640218321340928278595288144713559255794114877473349567223910297001479837136296389604197587305602258147,
  25640218321340928278595288144713559255794114877473349567223939336494673931137339418695104298114336044067,
  25640218321340928278595288144713559255794114877473362153558803179730755083717189617261154819787632448739,
  25640218321340928278595288144713559255794114877473362153558803213341330179426925606732224923645874312419,
  25640218321340928278595288144713559255794114877473362153558832252834524273427968635823131634454608098339,
  25640218321340928278595288146526020357831009533724987672997970439459786953289389296613917977786984376547,
  25640218321340928278595288146526020357831009533724987672997970439459786953289389441350918242591299021027,
  25640218321340928278595288146526020357831009541529977110374374881980513902843584754218618771158219827427,
  25640218321340928278595288146526020357831009541529977110374374881980513902843584898955619035962534471907,
  25640218321340928278595288146526020357835806917312607704246992459403692136852578771584768367884280473827,
  25640218321340928278595288146526020357835806917312607704246992459403692136852578916321768632688595118307,
  25640218321340928278595288146526020357835806925117597141623396901924419086406774229189469161255515924707,
  25640218321340928278595288146526020357835806925117597141623396901924419086406774373926469426059830569187,
  25640218321340928278595288146526020361976536491142364829932209008699459397420526705186763528267768829155,
  25640218321340928278595288146526020361976536491142364829932209042310034493130262694657833632126010692835,
  25640218321340928278595288146526020361976536491142364829932238081803228587131305723748740342934744478755,
  25640218321340928278595288146526020361976536491142377416267101925039309739711155922314790864608040883427,
  25640218321340928278595288146526020361976536491142377416267101958649884835420891911785860968466282747107,
  25640218321340928278595288146526020361976536491142377416267130998143078929421934940876767679275016533027,
  25640218321340928278595288146526020361980740109843059009424717332132571810185777554632888914482646135687,
  25640218321340928278595288146526020361981291633616634747698535237272789315216493128176738506125214520547,
  25640218321340928278595288146526020361981291633616634747698535270883364410926229117647808609983456384227,
  25640218321340928278595288146526020361981291633616634747698564310376558504927272146738715320792190170147]

def med6aPaths2 : List ℕ := [
  25640218321340928278595288146526020361981291633616647334033428153612639657507122345304765842465486574819,
  25640218321340928278595288146526020361981291633616647334033428187223214753216858334775835946323728438499,
  25640218321340928278595288146526020361981291633616647334033457226716408847217901363866742657132462224419,
  25640218321340928278595288146784097400029219031722444760987940788931279688101668024716832121662440417507,
  25640218321340928278595288146784097400029219031722444760987940788931279688101668024717065524714596411619,
  25640218321340928278595288146784100348769825463900372159866631429915787903891595707734207765292410153187,
  25640218321340928278595288146784100348769825463900372159866631429915787903891595707734441168344566147299,
  25640218321340928278595288146786648056820871760588067407042267357478577085370756377291475922514133676935,
  25640218321340928278595288146786648056820871760588067407042267357478577085370756377291475922893863236487,
  25640218321340928278595289766251249697088604648832401979455409688023657424903725872622466936581054474467,
  25640218321340928278596402184807243836960056784677592303611291809222489804390344942347062034214850078947,
  25640218321340928278596402184807243836960056784677592303611291809222489804390345087084062299019164723427,
  25640218321340928278596402184807243836960056792482581740987696251743216753944540399951762827586085529827,
  25640218321340928278596402184807243836960056792482581740987696251743216753944540544688763092390400174307,
  25640218321340928278596402184807243836964854168265212334860313829166394987953534417317912424312146176227,
  25640218321340928278596402184807243836964854168265212334860313829166394987953534562054912689116460820707,
  25640218321340928278596402184807243836964854176070201772236718271687121937507729874922613217683381627107,
  25640218321340928278596402184807243836964854176070201772236718271687121937507730019659613482487696271587,
  25640218321340928278596402184807243841105583742094969460545530378462162248521482350919907584695634531555,
  25640218321340928278596402184807243841105583742094969460545530412072737344231218340390977688553876395235,
  25640218321340928278596402184807243841105583742094969460545559451565931438232261369481884399362610181155,
  25640218321340928278596402184807243841105583742094982046880423294802012590812111568047934921035906585827,
  25640218321340928278596402184807243841105583742094982046880423328412587686521847557519005024894148449507,
  25640218321340928278596402184807243841105583742094982046880452367905781780522890586609911735702882235427,
  25640218321340928278596402184807243841109787360795663640038038701895274661286733200366032970910511838087,
  25640218321340928278596402184807243841110338884569239378311856607035492166317448773909882562553080222947,
  25640218321340928278596402184807243841110338884569239378311856640646067262027184763380952666411322086627,
  25640218321340928278596402184807243841110338884569239378311885680139261356028227792471859377220055872547,
  25640218321340928278596402184807243841110338884569251964646749523375342508608077991037909898893352277219,
  25640218321340928278596402184807243841110338884569251964646749556985917604317813980508980002751594140899,
  25640218321340928278596402184807243841110338884569251964646778596479111698318857009599886713560327926819,
  25640218321340928278596402186619704943147233540820877484085916783104374378180277670390673056892704205027,
  25640218321340928278596402186619704943147233540820877484085916783104374378180277815127673321697018849507,
  25640218321340928278596402186619704943147233548625866921462321225625101327734473127995373850263939655907,
  25640218321340928278596402186619704943147233548625866921462321225625101327734473272732374115068254300387,
  25640218321340928278596402186619704943152030924408497515334938803048279561743467145361523446990000302307,
  25640218321340928278596402186619704943152030924408497515334938803048279561743467290098523711794314946787,
  25640218321340928278596402186619704943152030932213486952711343245569006511297662602966224240361235753187,
  25640218321340928278596402186619704943152030932213486952711343245569006511297662747703224505165550397667,
  25640218321340928278596402186619704947292760498238254641020155352344046822311415078963518607373488657635,
  25640218321340928278596402186619704947292760498238254641020155385954621918021151068434588711231730521315,
  25640218321340928278596402186619704947292760498238254641020184425447816012022194097525495422040464307235,
  25640218321340928278596402186619704947292760498238267227355048268683897164602044296091545943713760711907,
  25640218321340928278596402186619704947292760498238267227355048302294472260311780285562616047572002575587,
  25640218321340928278596402186619704947292760498238267227355077341787666354312823314653522758380736361507,
  25640218321340928278596402186619704947296964116938948820512663675777159235076665928409643993588365964167,
  25640218321340928278596402186619704947297515640712524558786481580917376740107381501953493585230934349027,
  25640218321340928278596402186619704947297515640712524558786481614527951835817117491424563689089176212707,
  25640218321340928278596402186619704947297515640712524558786510654021145929818160520515470399897909998627,
  25640218321340928278596402186619704947297515640712537145121374497257227082398010719081520921571206403299,
  25640218321340928278596402186619704947297515640712537145121374530867802178107746708552591025429448266979,
  25640218321340928278596402186619704947297515640712537145121403570360996272108789737643497736238182052899,
  25640218321340928278596402186877781985345443038818334572075887132575867112992556398493587200768160245987,
  25640218321340928278596402186877781985345443038818334572075887132575867112992556398493820603820316240099,
  25640218321340928278596402186877784934086049470996261970954577773560375328782484081510962844398129981667,
  25640218321340928278596402186877784934086049470996261970954577773560375328782484081511196247450285975779,
  25640218321340928278596402186880332642137095767683957218130213701123164510261644751068231001619853505415,
  25640218321340928278596402186880332642137095767683957218130213701123164510261644751068231001999583064967,
  25640218321340928278596560817495789072125445039556039853287338453558841479794856623185733814332348377315,
  25640218321340928278596560817495789072125445039556039853287338453558841556670061277366718565188380134883,
  25640218321340928278596560817495789072125445039556039853287338453558841556670061277366718565188380752675,
  25640218321340928278596560817495789072125445039556039853287338453558841556670061277366951968240536128995,
  25640218321340928278596560817495789072125445039556039853287338453558841556670061277366951968240536746787,
  25640218321340928278596560817495789072125445039556039853287338453558841556748013869856098604220134110087,
  25640218321340928278596560817495789072125445039556039853287338453558841556758241416888974773902629932515,
  25640218321340928278596560817495789072125445039556039853287338453558841556758241416888974773902630550307,
  25640218321340928278596560817495789072125445039556039853287338453558841556758241416889208176954785926627,
  25640218321340928278596560817495789072125445039556039853287338453558841556758241416889208176954786544419,
  25640218321340928278596560817495789072125445039556039853287338487169416575504592612656803918190590240995,
  25640218321340928278596560817495789072125445039556039853287338487169416652379797266837788669046621998563,
  25640218321340928278596560817495789072125445039556039853287338487169416652379797266837788669046622616355,
  25640218321340928278596560817495789072125445039556039853287338487169416652379797266838022072098777992675,
  25640218321340928278596560817495789072125445039556039853287338487169416652379797266838022072098778610467,
  25640218321340928278596560817495789072125445039556039853287338487169416652457749859327168708078375973767,
  25640218321340928278596560817495789072125445039556039853287338487169416652467977406360044877760871796195,
  25640218321340928278596560817495789072125445039556039853287338487169416652467977406360044877760872413987,
  25640218321340928278596560817495789072125445039556039853287338487169416652467977406360278280813027790307,
  25640218321340928278596560817495789072125445039556039853287338487169416652467977406360278280813028408099,
  25640218321340928278596560817495789072125445039556039853287338492002483384895970748155480645318955706595,
  25640218321340928278596560817495789072125445039556039853287338492002483384895970748155714048371111700707,
  25640218321340928278596560817495789072125445039556039853287338492002545445767876293746791444818823771015,
  25640218321340928278596560817495789072125445039556039853287338492002545445767876293746791445198553330567,
  25640218321340928278596560817495789072125445039556041294627528741458885167627094908767193238779983328135,
  25640218321340928278596560817495789072125445039556041294627528741458885167627094908767193239159712887687,
  25640218321340928278596560817495789072125445039556041294627528741458885167627095053504193503584297972615,
  25640218321340928278596560817495789072125445039556041294627528741458885167627095053504193503964027532167,
  25640218321340928278596560817495789072125445039556052439622231369898691822085485840313761150672620431587,
  25640218321340928278596560817495789072125445039556052439622231369898691898960690494494745901528652189155,
  25640218321340928278596560817495789072125445039556052439622231369898691898960690494494745901528652806947,
  25640218321340928278596560817495789072125445039556052439622231369898691898960690494494979304580808183267,
  25640218321340928278596560817495789072125445039556052439622231369898691898960690494494979304580808801059,
  25640218321340928278596560817495789072125445039556052439622231369898691899038643086984125940560406164359,
  25640218321340928278596560817495789072125445039556052439622231369898691899048870634017002110242901986787,
  25640218321340928278596560817495789072125445039556052439622231369898691899048870634017002110242902604579,
  25640218321340928278596560817495789072125445039556052439622231369898691899048870634017235513295057980899,
  25640218321340928278596560817495789072125445039556052439622231369898691899048870634017235513295058598691,
  25640218321340928278596560817495789072125445039556052439622231403509266917795221829784831254530862295267,
  25640218321340928278596560817495789072125445039556052439622231403509266994670426483965816005386894052835,
  25640218321340928278596560817495789072125445039556052439622231403509266994670426483965816005386894670627,
  25640218321340928278596560817495789072125445039556052439622231403509266994670426483966049408439050046947]

def med6aPaths3 : List ℕ := [
  25640218321340928278596560817495789072125445039556052439622231403509266994670426483966049408439050664739,
  25640218321340928278596560817495789072125445039556052439622231403509266994748379076455196044418648028039,
  25640218321340928278596560817495789072125445039556052439622231403509266994758606623488072214101143850467,
  25640218321340928278596560817495789072125445039556052439622231403509266994758606623488072214101144468259,
  25640218321340928278596560817495789072125445039556052439622231403509266994758606623488305617153299844579,
  25640218321340928278596560817495789072125445039556052439622231403509266994758606623488305617153300462371,
  25640218321340928278596560817495789072125445039556052439622231408342333727186599965283507981659227760867,
  25640218321340928278596560817495789072125445039556052439622231408342333727186599965283741384711383754979,
  25640218321340928278596560817495789072125445039556052439622231408342395788058505510874818781159095825287,
  25640218321340928278596560817495789072125445039556052439622231408342395788058505510874818781538825384839,
  25640218321340928278596560817495789072125445039556052457451084091207695736456049384590951361069889300707,
  25640218321340928278596560817495789072125445039556052457451084091207750418383982585822192040523280885987,
  25640218321340928278596560817495789072125445039556052457474028983577547285442417757332197436285727221987,
  25640218321340928278596560817495789072125445039556052457474028983577547285442417757332430839337883216099,
  25640218321340928278596560817495789072125445039556052457474028983577547285531381222966960997107844720867,
  25640218321340928278596560817495789072125445039556052457474028983577547285531381222967194400160000714979,
  25640218321340928279592100851985036699865842036923238260816381335754892982232567109616904925167138580707,
  25640218321340928279592100851985036699865842036923238260816381335754947664160500310848145604620530165987,
  25640218321340928279592100851985036699865842036923252364008575279243247055677979725583023827865577400547,
  25640218321340928279592100851985036699865842036923252364008575279243247055677979725583257230917733394659,
  25640218321340928279592100851985036699865842036923252364008575279243247055766943191217787388687694899427,
  25640218321340928279592100851985036699865842036923252364008575279243247055766943191218020791739850893539,
  25640218321388090235961242679767535424362453102943943791013391135824651483832444561309872224690692106467,
  25640218321388090235961242679767535424362453102943943791013391135824651483832444706046872489495006750947,
  25640218321388090235961242681579996530549629859087228971488016109706536057622377289353483247368546232547,
  25640218321388090235961242681579996530549629859087228971488016109706536057622377434090483512172860877027,
  25640218321388090235961244245955901147958019795849324796812450881720676966777427824043309243475861214435,
  25640218321388090235961244245955901147962774938323594714578777110294006884573394247033284221333306905827,
  25640218321388090235961244247752403477109586190617763441106796138851400292747826553223643187966614738147,
  25640218321388090235961244247752403477114341333092033358873122367424730210543792976213618165824060429539,
  25640218321388090920712670503560007553345758634191667863761190343352885217716716686479775030017586309347,
  25640218321388090920712670503560007553345758634191667863761190343352885217716716831216775294821900953827,
  25640218321388090920712670505372468659532935390334953044235815317234769791506649414523386052695440435427,
  25640218321388090920712670505372468659532935390334953044235815317234769791506649559260386317499755079907,
  25640218321388090920712672069748373276941325327097048869560250089248910700661699949213212048802755417315,
  25640218321388090920712672069748373276946080469571318787326576317822240618457666372203187026660201108707,
  25640218321388090920712672071544875606092891721865487513854595346379634026632098678393545993293508941027,
  25640218321388090920712672071544875606097646864339757431620921574952963944428065101383520971150954632419,
  25640218321388091018215805188837552101794892416761318187727914459707761522548553231046995844616651745507,
  25640218321388091018215805188837552101794892416761318187727914459707761522548553231047229247668807739619,
  25640218321388702855144132571235528827343836628274036340517226483887396599570381182291485972107393444067,
  25640218684557064206398786952944646683662800731819649404117252895357899348210618609322021850607076976867,
  25640218684557064206398786952944646683662800731819649404117252895357899348210618754059022115411391621347,
  25640218684557064206399900993038331268979024738915539215205199239002486773101506983098776929712796805347,
  25640218684557064206399900993038331268979024738915539215205199239002486773101507127835777194517111449827,
  25640218684557064207361454031137299753585517121664751397329292355186468604767901292396237264618398717155,
  25640218684557064207361454031137299753585523874092797361430113685693877321337728962510257491920501224483,
  25640218684557064207361454031137299753585523874092809947765006602033727663628358179638284828260773278755,
  25640218684557064207361454031137302676362369786515325976343642323860421402305590618456227210757286958307,
  25640218684557064207361454031137302676362376538943371940444463654367830118875418288570247438059389465635,
  25640218684557064207361454031137302676362376538943384526779356570707680461166047505698274774399661519907,
  25640218684557064207362430188179071525217652697856983983308500168914338077805771251418715807799636571015,
  25640218684557064207362430188179071525222407840331253901074826397487667995601737674408690785657082262407,
  25640218684557064207362558262072926738779459911088098782407659297063116266169184359737222173216269440227,
  25640218684557064207362558262072926738779466663516144746508480627570524982739012029851242400518371947555,
  25640218684557064207362558262072926738779466663516157332843373543910375325029641246979269736858644001827,
  25640218684557064207362558262072929661556312575938673361422009265737069063706873685797212119355157681379,
  25640218684557064207362558262072929661556319328366719325522830596244477780276701355911232346657260188707,
  25640218684557064207362558262072929661556319328366731911857723512584328122567330573039259682997532242979,
  25640218684616994310931483975481500512282584600550586052018765540481477243775768962935757909805739223267,
  25640218684616994310931483975481500512282584600550586052018765540481477243775768962935991312857895217379,
  25640218684617586718491141811080413406982300280946314080182072950147938430456864223860482220966685471623,
  25640218684617586718491141811080413406982300280946314080182072950147938430456864223860482221346415031175,
  25640218684617586718492246042016040392176243070369661465260439892024586091858147291201467129564556194695,
  25640218684617586718492246042016040392176243070369661465260439892024586091858147291201467129944285754247,
  25640218684986380798599871003473894597755378354764095717322879567615282982555404086137855967384292763875,
  25640218684986380798599871003473894597755378354764095717322879567615282982555404086138089370436448757987,
  25640218684986380798599871003473894597755378354764095717322879567615345043427309631729166766884160828295,
  25640218684986380798599871003473894597755378354764095717322879567615345043427309631729166767263890387847,
  25640218684986380798599871003473894597755378354764095717343356606630466011518502617070958593938554562787,
  25640218684986380798599871003473894597755378354764095717343356606630466011518502617071191996990710556899,
  25640218684986380798599871003473894597755378354764095717343356606630528072390408162662269393438422627207,
  25640218684986380798599871003473894597755378354764095717343356606630528072390408162662269393818152186759,
  25640218685034767372595447794439083773980987457873452684660721440133775266280620606554349232157546279815,
  25640218685034767372595447794439083773980987457873452684660721440133775266280620606554349232537275839367,
  25640218685034767372596552025374710759174930247296800069739088382010422927681903673895334140755417002887,
  25640218685034767372596552025374710759174930247296800069739088382010422927681903673895334141135146562439,
  25640477021377836963042483642441820577231464312545222771497522793508812258342891512184611520143771248867,
  25640477021377836963042483642441820577231464312545222771497522793508812258342891656921611784948085893347,
  25640477021377836963042483642441820577231464320350212208873927236029539207897086969789312313515006699747,
  25640477021377836963042483642441820577231464320350212208873927236029539207897087114526312578319321344227,
  25640477021377836963042483642441820577236261696132842802746544813452717441906080987155461910241067346147,
  25640477021377836963042483642441820577236261696132842802746544813452717441906081131892462175045381990627,
  25640477021377836963042483642441820577236261703937832240122949255973444391460276444760162703612302797027,
  25640477021377836963042483642441820577236261703937832240122949255973444391460276589497162968416617441507,
  25640477021377836963042483642441820581376991269962599928431761362748484702474028920757457070624555701475,
  25640477021377836963042483642441820581376991269962599928431761396359059798183764910228527174482797565155,
  25640477021377836963042483642441820581376991269962599928431790435852253892184807939319433885291531351075,
  25640477021377836963042483642441820581376991269962612514766654279088335044764658137885484406964827755747,
  25640477021377836963042483642441820581376991269962612514766654312698910140474394127356554510823069619427,
  25640477021377836963042483642441820581376991269962612514766683352192104234475437156447461221631803405347,
  25640477021377836963042483642441820581381194888663294107924269686181597115239279770203582456839433008007,
  25640477021377836963042483642441820581381746412436869846198087591321814620269995343747432048482001392867,
  25640477021377836963042483642441820581381746412436869846198087624932389715979731333218502152340243256547,
  25640477021377836963042483642441820581381746412436869846198116664425583809980774362309408863148977042467,
  25640477021377836963042483642441820581381746412436882432532980507661664962560624560875459384822273447139,
  25640477021377836963042483642441820581381746412436882432532980541272240058270360550346529488680515310819,
  25640477021377836963042483642441820581381746412436882432533009580765434152271403579437436199489249096739]

def med6aPaths4 : List ℕ := [
  25640477021377836963042483644254281683418641068688507951972147767390696832132824240228222542821625374947,
  25640477021377836963042483644254281683418641068688507951972147767390696832132824384965222807625940019427,
  25640477021377836963042483644254281683418641076493497389348552209911423781687019697832923336192860825827,
  25640477021377836963042483644254281683418641076493497389348552209911423781687019842569923600997175470307,
  25640477021377836963042483644254281683423438452276127983221169787334602015696013715199072932918921472227,
  25640477021377836963042483644254281683423438452276127983221169787334602015696013859936073197723236116707,
  25640477021377836963042483644254281683423438460081117420597574229855328965250209172803773726290156923107,
  25640477021377836963042483644254281683423438460081117420597574229855328965250209317540773991094471567587,
  25640477021377836963042483644254281687564168026105885108906386336630369276263961648801068093302409827555,
  25640477021377836963042483644254281687564168026105885108906386370240944371973697638272138197160651691235,
  25640477021377836963042483644254281687564168026105885108906415409734138465974740667363044907969385477155,
  25640477021377836963042483644254281687564168026105897695241279252970219618554590865929095429642681881827,
  25640477021377836963042483644254281687564168026105897695241279286580794714264326855400165533500923745507,
  25640477021377836963042483644254281687564168026105897695241308326073988808265369884491072244309657531427,
  25640477021377836963042483644254281687568371644806579288398894660063481689029212498247193479517287134087,
  25640477021377836963042483644254281687568923168580155026672712565203699194059928071791043071159855518947,
  25640477021377836963042483644254281687568923168580155026672712598814274289769664061262113175018097382627,
  25640477021377836963042483644254281687568923168580155026672741638307468383770707090353019885826831168547,
  25640477021377836963042483644254281687568923168580167613007605481543549536350557288919070407500127573219,
  25640477021377836963042483644254281687568923168580167613007605515154124632060293278390140511358369436899,
  25640477021377836963042483644254281687568923168580167613007634554647318726061336307481047222167103222819,
  25640477021377836963042483644512358725616850566685965039962118116862189566945102968331136686697081415907,
  25640477021377836963042483644512358725616850566685965039962118116862189566945102968331370089749237410019,
  25640477021377836963042483644512361674357456998863892438840808757846697782735030651348512330327051151587,
  25640477021377836963042483644512361674357456998863892438840808757846697782735030651348745733379207145699,
  25640477021377836963042483644514909382408503295551587686016444685409486964214191320905780487548774675335,
  25640477021377836963042483644514909382408503295551587686016444685409486964214191320905780487928504234887,
  25640477021377836963042485263979511022676236183795922258429587015954567303747160816236771501615695472867,
  25640477021377836963043597682535505162547688319641112582585469137153399683233779885961366599249491077347,
  25640477021377836963043597682535505162547688319641112582585469137153399683233780030698366864053805721827,
  25640477021377836963043597682535505162547688327446102019961873579674126632787975343566067392620726528227,
  25640477021377836963043597682535505162547688327446102019961873579674126632787975488303067657425041172707,
  25640477021377836963043597682535505162552485703228732613834491157097304866796969360932216989346787174627,
  25640477021377836963043597682535505162552485703228732613834491157097304866796969505669217254151101819107,
  25640477021377836963043597682535505162552485711033722051210895599618031816351164818536917782718022625507,
  25640477021377836963043597682535505162552485711033722051210895599618031816351164963273918047522337269987,
  25640477021377836963043597682535505166693215277058489739519707706393072127364917294534212149730275529955,
  25640477021377836963043597682535505166693215277058489739519707740003647223074653284005282253588517393635,
  25640477021377836963043597682535505166693215277058489739519736779496841317075696313096188964397251179555,
  25640477021377836963043597682535505166693215277058502325854600622732922469655546511662239486070547584227,
  25640477021377836963043597682535505166693215277058502325854600656343497565365282501133309589928789447907,
  25640477021377836963043597682535505166693215277058502325854629695836691659366325530224216300737523233827,
  25640477021377836963043597682535505166697418895759183919012216029826184540130168143980337535945152836487,
  25640477021377836963043597682535505166697970419532759657286033934966402045160883717524187127587721221347,
  25640477021377836963043597682535505166697970419532759657286033968576977140870619706995257231445963085027,
  25640477021377836963043597682535505166697970419532759657286063008070171234871662736086163942254696870947,
  25640477021377836963043597682535505166697970419532772243620926851306252387451512934652214463927993275619,
  25640477021377836963043597682535505166697970419532772243620926884916827483161248924123284567786235139299,
  25640477021377836963043597682535505166697970419532772243620955924410021577162291953214191278594968925219,
  25640477021377836963043597684347966268734865075784397763060094111035284257023712614004977621927345203427,
  25640477021377836963043597684347966268734865075784397763060094111035284257023712758741977886731659847907,
  25640477021377836963043597684347966268734865083589387200436498553556011206577908071609678415298580654307,
  25640477021377836963043597684347966268734865083589387200436498553556011206577908216346678680102895298787,
  25640477021377836963043597684347966268739662459372017794309116130979189440586902088975828012024641300707,
  25640477021377836963043597684347966268739662459372017794309116130979189440586902233712828276828955945187,
  25640477021377836963043597684347966268739662467177007231685520573499916390141097546580528805395876751587,
  25640477021377836963043597684347966268739662467177007231685520573499916390141097691317529070200191396067,
  25640477021377836963043597684347966272880392033201774919994332680274956701154850022577823172408129656035,
  25640477021377836963043597684347966272880392033201774919994332713885531796864586012048893276266371519715,
  25640477021377836963043597684347966272880392033201774919994361753378725890865629041139799987075105305635,
  25640477021377836963043597684347966272880392033201787506329225596614807043445479239705850508748401710307,
  25640477021377836963043597684347966272880392033201787506329225630225382139155215229176920612606643573987,
  25640477021377836963043597684347966272880392033201787506329254669718576233156258258267827323415377359907,
  25640477021377836963043597684347966272884595651902469099486841003708069113920100872023948558623006962567,
  25640477021377836963043597684347966272885147175676044837760658908848286618950816445567798150265575347427,
  25640477021377836963043597684347966272885147175676044837760658942458861714660552435038868254123817211107,
  25640477021377836963043597684347966272885147175676044837760687981952055808661595464129774964932550997027,
  25640477021377836963043597684347966272885147175676057424095551825188136961241445662695825486605847401699,
  25640477021377836963043597684347966272885147175676057424095551858798712056951181652166895590464089265379,
  25640477021377836963043597684347966272885147175676057424095580898291906150952224681257802301272823051299,
  25640477021377836963043597684606043310933074573781854851050064460506776991835991342107891765802801244387,
  25640477021377836963043597684606043310933074573781854851050064460506776991835991342108125168854957238499,
  25640477021377836963043597684606046259673681005959782249928755101491285207625919025125267409432770980067,
  25640477021377836963043597684606046259673681005959782249928755101491285207625919025125500812484926974179,
  25640477021377836963043597684608593967724727302647477497104391029054074389105079694682535566654494503815,
  25640477021377836963043597684608593967724727302647477497104391029054074389105079694682535567034224063367,
  25640477021377836963043756315224050397713076574519560132261515781489751358638291566800038379366989375715,
  25640477021377836963043756315224050397713076574519560132261515781489751435513496220981023130223021133283,
  25640477021377836963043756315224050397713076574519560132261515781489751435513496220981023130223021751075,
  25640477021377836963043756315224050397713076574519560132261515781489751435513496220981256533275177127395,
  25640477021377836963043756315224050397713076574519560132261515781489751435513496220981256533275177745187,
  25640477021377836963043756315224050397713076574519560132261515781489751435591448813470403169254775108487,
  25640477021377836963043756315224050397713076574519560132261515781489751435601676360503279338937270930915,
  25640477021377836963043756315224050397713076574519560132261515781489751435601676360503279338937271548707,
  25640477021377836963043756315224050397713076574519560132261515781489751435601676360503512741989426925027,
  25640477021377836963043756315224050397713076574519560132261515781489751435601676360503512741989427542819,
  25640477021377836963043756315224050397713076574519560132261515815100326454348027556271108483225231239395,
  25640477021377836963043756315224050397713076574519560132261515815100326531223232210452093234081262996963,
  25640477021377836963043756315224050397713076574519560132261515815100326531223232210452093234081263614755,
  25640477021377836963043756315224050397713076574519560132261515815100326531223232210452326637133418991075,
  25640477021377836963043756315224050397713076574519560132261515815100326531223232210452326637133419608867,
  25640477021377836963043756315224050397713076574519560132261515815100326531301184802941473273113016972167,
  25640477021377836963043756315224050397713076574519560132261515815100326531311412349974349442795512794595,
  25640477021377836963043756315224050397713076574519560132261515815100326531311412349974349442795513412387,
  25640477021377836963043756315224050397713076574519560132261515815100326531311412349974582845847668788707,
  25640477021377836963043756315224050397713076574519560132261515815100326531311412349974582845847669406499,
  25640477021377836963043756315224050397713076574519560132261515819933393263739405691769785210353596704995,
  25640477021377836963043756315224050397713076574519560132261515819933393263739405691770018613405752699107,
  25640477021377836963043756315224050397713076574519560132261515819933455324611311237361096009853464769415,
  25640477021377836963043756315224050397713076574519560132261515819933455324611311237361096010233194328967]

def med6aPaths5 : List ℕ := [
  25640477021377836963043756315224050397713076574519561573601706069389795046470529852381497803814624326535,
  25640477021377836963043756315224050397713076574519561573601706069389795046470529852381497804194353886087,
  25640477021377836963043756315224050397713076574519561573601706069389795046470529997118498068618938971015,
  25640477021377836963043756315224050397713076574519561573601706069389795046470529997118498068998668530567,
  25640477021377836963043756315224050397713076574519572718596408697829601700928920783928065715707261429987,
  25640477021377836963043756315224050397713076574519572718596408697829601777804125438109050466563293187555,
  25640477021377836963043756315224050397713076574519572718596408697829601777804125438109050466563293805347,
  25640477021377836963043756315224050397713076574519572718596408697829601777804125438109283869615449181667,
  25640477021377836963043756315224050397713076574519572718596408697829601777804125438109283869615449799459,
  25640477021377836963043756315224050397713076574519572718596408697829601777882078030598430505595047162759,
  25640477021377836963043756315224050397713076574519572718596408697829601777892305577631306675277542985187,
  25640477021377836963043756315224050397713076574519572718596408697829601777892305577631306675277543602979,
  25640477021377836963043756315224050397713076574519572718596408697829601777892305577631540078329698979299,
  25640477021377836963043756315224050397713076574519572718596408697829601777892305577631540078329699597091,
  25640477021377836963043756315224050397713076574519572718596408731440176796638656773399135819565503293667,
  25640477021377836963043756315224050397713076574519572718596408731440176873513861427580120570421535051235,
  25640477021377836963043756315224050397713076574519572718596408731440176873513861427580120570421535669027,
  25640477021377836963043756315224050397713076574519572718596408731440176873513861427580353973473691045347,
  25640477021377836963043756315224050397713076574519572718596408731440176873513861427580353973473691663139,
  25640477021377836963043756315224050397713076574519572718596408731440176873591814020069500609453289026439,
  25640477021377836963043756315224050397713076574519572718596408731440176873602041567102376779135784848867,
  25640477021377836963043756315224050397713076574519572718596408731440176873602041567102376779135785466659,
  25640477021377836963043756315224050397713076574519572718596408731440176873602041567102610182187940842979,
  25640477021377836963043756315224050397713076574519572718596408731440176873602041567102610182187941460771,
  25640477021377836963043756315224050397713076574519572718596408736273243606030034908897812546693868759267,
  25640477021377836963043756315224050397713076574519572718596408736273243606030034908898045949746024753379,
  25640477021377836963043756315224050397713076574519572718596408736273305666901940454489123346193736823687,
  25640477021377836963043756315224050397713076574519572718596408736273305666901940454489123346573466383239,
  25640477021377836963043756315224050397713076574519572736425261419138605615299484328205255926104530299107,
  25640477021377836963043756315224050397713076574519572736425261419138660297227417529436496605557921884387,
  25640477021377836963043756315224050397713076574519572736448206311508457164285852700946502001320368220387,
  25640477021377836963043756315224050397713076574519572736448206311508457164285852700946735404372524214499,
  25640477021377836963043756315224050397713076574519572736448206311508457164374816166581265562142485719267,
  25640477021377836963043756315224050397713076574519572736448206311508457164374816166581498965194641713379,
  25640477021377836964039296349713298025453473571886758539790558663685802861076002053231209490201779579107,
  25640477021377836964039296349713298025453473571886758539790558663685857543003935254462450169655171164387,
  25640477021377836964039296349713298025453473571886772642982752607174156934521414669197328392900218398947,
  25640477021377836964039296349713298025453473571886772642982752607174156934521414669197561795952374393059,
  25640477021377836964039296349713298025453473571886772642982752607174156934610378134832091953722335897827,
  25640477021377836964039296349713298025453473571886772642982752607174156934610378134832325356774491891939,
  25640477021798723536662944628190732939876078913632881642767225267542746629510259943963322527626936658147,
  25640477021798723536662944628190732939876078913632881642767225267542746629510260088700322792431251302627,
  25640477021798723536662944628190732939876078921437871080143629710063473579064455401568023320998172109027,
  25640477021798723536662944628190732939876078921437871080143629710063473579064455546305023585802486753507,
  25640477021798723536662944628190732939880876297220501674016247287486651813073449418934172917724232755427,
  25640477021798723536662944628190732939880876297220501674016247287486651813073449563671173182528547399907,
  25640477021798723536662944628190732939880876305025491111392651730007378762627644876538873711095468206307,
  25640477021798723536662944628190732939880876305025491111392651730007378762627645021275873975899782850787,
  25640477021798723536662944628190732944021605871050258799701463836782419073641397352536168078107721110755,
  25640477021798723536662944628190732944021605871050258799701463870392994169351133342007238181965962974435,
  25640477021798723536662944628190732944021605871050258799701492909886188263352176371098144892774696760355,
  25640477021798723536662944628190732944021605871050271386036356753122269415932026569664195414447993165027,
  25640477021798723536662944628190732944021605871050271386036356786732844511641762559135265518306235028707,
  25640477021798723536662944628190732944021605871050271386036385826226038605642805588226172229114968814627,
  25640477021798723536662944628190732944025809489750952979193972160215531486406648201982293464322598417287,
  25640477021798723536662944628190732944026361013524528717467790065355748991437363775526143055965166802147,
  25640477021798723536662944628190732944026361013524528717467790098966324087147099764997213159823408665827,
  25640477021798723536662944628190732944026361013524528717467819138459518181148142794088119870632142451747,
  25640477021798723536662944628190732944026361013524541303802682981695599333727992992654170392305438856419,
  25640477021798723536662944628190732944026361013524541303802683015306174429437728982125240496163680720099,
  25640477021798723536662944628190732944026361013524541303802712054799368523438772011216147206972414506019,
  25640477021798723536662944630003194046063255669776166823241850241424631203300192672006933550304790784227,
  25640477021798723536662944630003194046063255669776166823241850241424631203300192816743933815109105428707,
  25640477021798723536662944630003194046063255677581156260618254683945358152854388129611634343676026235107,
  25640477021798723536662944630003194046063255677581156260618254683945358152854388274348634608480340879587,
  25640477021798723536662944630003194046068053053363786854490872261368536386863382146977783940402086881507,
  25640477021798723536662944630003194046068053053363786854490872261368536386863382291714784205206401525987,
  25640477021798723536662944630003194046068053061168776291867276703889263336417577604582484733773322332387,
  25640477021798723536662944630003194046068053061168776291867276703889263336417577749319484998577636976867,
  25640477021798723536662944630003194050208782627193543980176088810664303647431330080579779100785575236835,
  25640477021798723536662944630003194050208782627193543980176088844274878743141066070050849204643817100515,
  25640477021798723536662944630003194050208782627193543980176117883768072837142109099141755915452550886435,
  25640477021798723536662944630003194050208782627193556566510981727004153989721959297707806437125847291107,
  25640477021798723536662944630003194050208782627193556566510981760614729085431695287178876540984089154787,
  25640477021798723536662944630003194050208782627193556566511010800107923179432738316269783251792822940707,
  25640477021798723536662944630003194050212986245894238159668597134097416060196580930025904487000452543367,
  25640477021798723536662944630003194050213537769667813897942415039237633565227296503569754078643020928227,
  25640477021798723536662944630003194050213537769667813897942415072848208660937032493040824182501262791907,
  25640477021798723536662944630003194050213537769667813897942444112341402754938075522131730893309996577827,
  25640477021798723536662944630003194050213537769667826484277307955577483907517925720697781414983292982499,
  25640477021798723536662944630003194050213537769667826484277307989188059003227661710168851518841534846179,
  25640477021798723536662944630003194050213537769667826484277337028681253097228704739259758229650268632099,
  25640477021798723536662944630261271088261465167773623911231820590896123938112471400109847694180246825187,
  25640477021798723536662944630261271088261465167773623911231820590896123938112471400110081097232402819299,
  25640477021798723536662944630261274037002071599951551310110511231880632153902399083127223337810216560867,
  25640477021798723536662944630261274037002071599951551310110511231880632153902399083127456740862372554979,
  25640477021798723536662944630263821745053117896639246557286147159443421335381559752684491495031940084615,
  25640477021798723536662944630263821745053117896639246557286147159443421335381559752684491495411669644167,
  25640477021798723536662946249728423385320850784883581129699289489988501674914529248015482509098860882147,
  25640477021798723536664058668284417525192302920728771453855171611187334054401148317740077606732656486627,
  25640477021798723536664058668284417525192302920728771453855171611187334054401148462477077871536971131107,
  25640477021798723536664058668284417525192302928533760891231576053708061003955343775344778400103891937507,
  25640477021798723536664058668284417525192302928533760891231576053708061003955343920081778664908206581987,
  25640477021798723536664058668284417525197100304316391485104193631131239237964337792710927996829952583907,
  25640477021798723536664058668284417525197100304316391485104193631131239237964337937447928261634267228387,
  25640477021798723536664058668284417525197100312121380922480598073651966187518533250315628790201188034787,
  25640477021798723536664058668284417525197100312121380922480598073651966187518533395052629055005502679267,
  25640477021798723536664058668284417529337829878146148610789410180427006498532285726312923157213440939235,
  25640477021798723536664058668284417529337829878146148610789410214037581594242021715783993261071682802915,
  25640477021798723536664058668284417529337829878146148610789439253530775688243064744874899971880416588835]

def med6aPaths6 : List ℕ := [
  25640477021798723536664058668284417529337829878146161197124303096766856840822914943440950493553712993507,
  25640477021798723536664058668284417529337829878146161197124303130377431936532650932912020597411954857187,
  25640477021798723536664058668284417529337829878146161197124332169870626030533693962002927308220688643107,
  25640477021798723536664058668284417529342033496846842790281918503860118911297536575759048543428318245767,
  25640477021798723536664058668284417529342585020620418528555736409000336416328252149302898135070886630627,
  25640477021798723536664058668284417529342585020620418528555736442610911512037988138773968238929128494307,
  25640477021798723536664058668284417529342585020620418528555765482104105606039031167864874949737862280227,
  25640477021798723536664058668284417529342585020620431114890629325340186758618881366430925471411158684899,
  25640477021798723536664058668284417529342585020620431114890629358950761854328617355901995575269400548579,
  25640477021798723536664058668284417529342585020620431114890658398443955948329660384992902286078134334499,
  25640477021798723536664058670096878631379479676872056634329796585069218628191081045783688629410510612707,
  25640477021798723536664058670096878631379479676872056634329796585069218628191081190520688894214825257187,
  25640477021798723536664058670096878631379479684677046071706201027589945577745276503388389422781746063587,
  25640477021798723536664058670096878631379479684677046071706201027589945577745276648125389687586060708067,
  25640477021798723536664058670096878631384277060459676665578818605013123811754270520754539019507806709987,
  25640477021798723536664058670096878631384277060459676665578818605013123811754270665491539284312121354467,
  25640477021798723536664058670096878631384277068264666102955223047533850761308465978359239812879042160867,
  25640477021798723536664058670096878631384277068264666102955223047533850761308466123096240077683356805347,
  25640477021798723536664058670096878635525006634289433791264035154308891072322218454356534179891295065315,
  25640477021798723536664058670096878635525006634289433791264035187919466168031954443827604283749536928995,
  25640477021798723536664058670096878635525006634289433791264064227412660262032997472918510994558270714915,
  25640477021798723536664058670096878635525006634289446377598928070648741414612847671484561516231567119587,
  25640477021798723536664058670096878635525006634289446377598928104259316510322583660955631620089808983267,
  25640477021798723536664058670096878635525006634289446377598957143752510604323626690046538330898542769187,
  25640477021798723536664058670096878635529210252990127970756543477742003485087469303802659566106172371847,
  25640477021798723536664058670096878635529761776763703709030361382882220990118184877346509157748740756707,
  25640477021798723536664058670096878635529761776763703709030361416492796085827920866817579261606982620387,
  25640477021798723536664058670096878635529761776763703709030390455985990179828963895908485972415716406307,
  25640477021798723536664058670096878635529761776763716295365254299222071332408814094474536494089012810979,
  25640477021798723536664058670096878635529761776763716295365254332832646428118550083945606597947254674659,
  25640477021798723536664058670096878635529761776763716295365283372325840522119593113036513308755988460579,
  25640477021798723536664058670354955673577689174869513722319766934540711363003359773886602773285966653667,
  25640477021798723536664058670354955673577689174869513722319766934540711363003359773886836176338122647779,
  25640477021798723536664058670354958622318295607047441121198457575525219578793287456903978416915936389347,
  25640477021798723536664058670354958622318295607047441121198457575525219578793287456904211819968092383459,
  25640477021798723536664058670357506330369341903735136368374093503088008760272448126461246574137659913095,
  25640477021798723536664058670357506330369341903735136368374093503088008760272448126461246574517389472647,
  25640477021798723536664217300972962760357691175607219003531218255523685729805659998578749386850154784995,
  25640477021798723536664217300972962760357691175607219003531218255523685806680864652759734137706186542563,
  25640477021798723536664217300972962760357691175607219003531218255523685806680864652759734137706187160355,
  25640477021798723536664217300972962760357691175607219003531218255523685806680864652759967540758342536675,
  25640477021798723536664217300972962760357691175607219003531218255523685806680864652759967540758343154467,
  25640477021798723536664217300972962760357691175607219003531218255523685806758817245249114176737940517767,
  25640477021798723536664217300972962760357691175607219003531218255523685806769044792281990346420436340195,
  25640477021798723536664217300972962760357691175607219003531218255523685806769044792281990346420436957987,
  25640477021798723536664217300972962760357691175607219003531218255523685806769044792282223749472592334307,
  25640477021798723536664217300972962760357691175607219003531218255523685806769044792282223749472592952099,
  25640477021798723536664217300972962760357691175607219003531218289134260825515395988049819490708396648675,
  25640477021798723536664217300972962760357691175607219003531218289134260902390600642230804241564428406243,
  25640477021798723536664217300972962760357691175607219003531218289134260902390600642230804241564429024035,
  25640477021798723536664217300972962760357691175607219003531218289134260902390600642231037644616584400355,
  25640477021798723536664217300972962760357691175607219003531218289134260902390600642231037644616585018147,
  25640477021798723536664217300972962760357691175607219003531218289134260902468553234720184280596182381447,
  25640477021798723536664217300972962760357691175607219003531218289134260902478780781753060450278678203875,
  25640477021798723536664217300972962760357691175607219003531218289134260902478780781753060450278678821667,
  25640477021798723536664217300972962760357691175607219003531218289134260902478780781753293853330834197987,
  25640477021798723536664217300972962760357691175607219003531218289134260902478780781753293853330834815779,
  25640477021798723536664217300972962760357691175607219003531218293967327634906774123548496217836762114275,
  25640477021798723536664217300972962760357691175607219003531218293967327634906774123548729620888918108387,
  25640477021798723536664217300972962760357691175607219003531218293967389695778679669139807017336630178695,
  25640477021798723536664217300972962760357691175607219003531218293967389695778679669139807017716359738247,
  25640477021798723536664217300972962760357691175607220444871408543423729417637898284160208811297789735815,
  25640477021798723536664217300972962760357691175607220444871408543423729417637898284160208811677519295367,
  25640477021798723536664217300972962760357691175607220444871408543423729417637898428897209076102104380295,
  25640477021798723536664217300972962760357691175607220444871408543423729417637898428897209076481833939847,
  25640477021798723536664217300972962760357691175607231589866111171863536072096289215706776723190426839267,
  25640477021798723536664217300972962760357691175607231589866111171863536148971493869887761474046458596835,
  25640477021798723536664217300972962760357691175607231589866111171863536148971493869887761474046459214627,
  25640477021798723536664217300972962760357691175607231589866111171863536148971493869887994877098614590947,
  25640477021798723536664217300972962760357691175607231589866111171863536148971493869887994877098615208739,
  25640477021798723536664217300972962760357691175607231589866111171863536149049446462377141513078212572039,
  25640477021798723536664217300972962760357691175607231589866111171863536149059674009410017682760708394467,
  25640477021798723536664217300972962760357691175607231589866111171863536149059674009410017682760709012259,
  25640477021798723536664217300972962760357691175607231589866111171863536149059674009410251085812864388579,
  25640477021798723536664217300972962760357691175607231589866111171863536149059674009410251085812865006371,
  25640477021798723536664217300972962760357691175607231589866111205474111167806025205177846827048668702947,
  25640477021798723536664217300972962760357691175607231589866111205474111244681229859358831577904700460515,
  25640477021798723536664217300972962760357691175607231589866111205474111244681229859358831577904701078307,
  25640477021798723536664217300972962760357691175607231589866111205474111244681229859359064980956856454627,
  25640477021798723536664217300972962760357691175607231589866111205474111244681229859359064980956857072419,
  25640477021798723536664217300972962760357691175607231589866111205474111244759182451848211616936454435719,
  25640477021798723536664217300972962760357691175607231589866111205474111244769409998881087786618950258147,
  25640477021798723536664217300972962760357691175607231589866111205474111244769409998881087786618950875939,
  25640477021798723536664217300972962760357691175607231589866111205474111244769409998881321189671106252259,
  25640477021798723536664217300972962760357691175607231589866111205474111244769409998881321189671106870051,
  25640477021798723536664217300972962760357691175607231589866111210307177977197403340676523554177034168547,
  25640477021798723536664217300972962760357691175607231589866111210307177977197403340676756957229190162659,
  25640477021798723536664217300972962760357691175607231589866111210307240038069308886267834353676902232967,
  25640477021798723536664217300972962760357691175607231589866111210307240038069308886267834354056631792519,
  25640477021798723536664217300972962760357691175607231607694963893172539986466852759983966933587695708387,
  25640477021798723536664217300972962760357691175607231607694963893172594668394785961215207613041087293667,
  25640477021798723536664217300972962760357691175607231607717908785542391535453221132725213008803533629667,
  25640477021798723536664217300972962760357691175607231607717908785542391535453221132725446411855689623779,
  25640477021798723536664217300972962760357691175607231607717908785542391535542184598359976569625651128547,
  25640477021798723536664217300972962760357691175607231607717908785542391535542184598360209972677807122659,
  25640477021798723537659757335462210388098088172974417411060261137719737232243370485009920497684944988387,
  25640477021798723537659757335462210388098088172974417411060261137719791914171303686241161177138336573667,
  25640477021798723537659757335462210388098088172974431514252455081208091305688783100976039400383383808227,
  25640477021798723537659757335462210388098088172974431514252455081208091305688783100976272803435539802339,
  25640477021798723537659757335462210388098088172974431514252455081208091305777746566610802961205501307107]

def med6aPaths7 : List ℕ := [
  25640477021798723537659757335462210388098088172974431514252455081208091305777746566611036364257657301219,
  25640477021845885494028899163244709112594699238995122941257270937789495733843247936702887797208498514147,
  25640477021845885494028899163244709112594699238995122941257270937789495733843248081439888062012813158627,
  25640477021845885494028899165057170218781875995138408121731895911671380307633180664746498819886352640227,
  25640477021845885494028899165057170218781875995138408121731895911671380307633180809483499084690667284707,
  25640477021845885494028900729433074836190265931900503947056330683685521216788231199436324815993667622115,
  25640477021845885494028900729433074836195021074374773864822656912258851134584197622426299793851113313507,
  25640477021845885494028900731229577165341832326668942591350675940816244542758629928616658760484421145827,
  25640477021845885494028900731229577165346587469143212509117002169389574460554596351606633738341866837219,
  25640477021845886178780326987037181241578004770242847014005070145317729467727520061872790602535392717027,
  25640477021845886178780326987037181241578004770242847014005070145317729467727520206609790867339707361507,
  25640477021845886178780326988849642347765181526386132194479695119199614041517452789916401625213246843107,
  25640477021845886178780326988849642347765181526386132194479695119199614041517452934653401890017561487587,
  25640477021845886178780328553225546965173571463148228019804129891213754950672503324606227621320561824995,
  25640477021845886178780328553225546965178326605622497937570456119787084868468469747596202599178007516387,
  25640477021845886178780328555022049294325137857916666664098475148344478276642902053786561565811315348707,
  25640477021845886178780328555022049294329893000390936581864801376917808194438868476776536543668761040099,
  25640477021845886276283461672314725790027138552812497337971794261672605772559356606440011417134458153187,
  25640477021845886276283461672314725790027138552812497337971794261672605772559356606440244820186614147299,
  25640477021846498113211789054712702515576082764325215490761106285852240849581184557684501544625199851747,
  25640506010706768998796011779918377039071637952601361725056581037678661501225419338179200253186864261347,
  25640506010706768998796011779918377039071637952601361725056581037678661501225419482916200517991178905827,
  25640506010706768998796011779918379987812244384779289123935271678663169717015347021196575896816833997027,
  25640506010706768998796011779918379987812244384779289123935271678663169717015347165933576161621148641507,
  25640506010706768998797282831162915994225486035796906793234833883623478421481310713137245148101633321187,
  25640506010706768998797282831162915994225486035796906793234833883623478421481310857874245412905947965667,
  25640506010706768998797282831162915994230283419384526824483855903567383605044500188108095538198929418467,
  25640506010706768998797282831162915994230283419384526824483855903567383605044500332845095803003244062947,
  25640506010706769682551899569479685140828855936733857814755259199973770395048919061391533734641459210467,
  25640506010706769682551899569479685140828855936733857814755259199973770395048919206128533999445773854947,
  25640506010706769682551899571292146247016032692877142995229884173855654968838851789435144757319313336547,
  25640506010706769682551899571292146247016032692877142995229884173855654968838851934172145022123627981027,
  25640506010706769682551899571497877594334853692780109226513855727007929518516630009816183940926521682147,
  25640506010706769682551899571497877594334853692780109226513855727007929518516630154553184205730836326627,
  25640506010706769683547439603710849168054943483849085797804380245206895235109691463349103058513758464227,
  25640506010706769683547439603710849168054943483849085797804380245206895235109691608086103323318073108707,
  25640506010706769683547439603710852116795549916027013196683070886191403450899619146366478702143728199907,
  25640506010706769683547439603710852116795549916027013196683070886191403450899619291103478966948042844387,
  25640506010706769683548710654955388123208791567044630865982633091151712155365582838307147953428527524067,
  25640506010706769683548710654955388123208791567044630865982633091151712155365582983044148218232842168547,
  25640506010706769683548710654955388123213588950632250897231655111095617338928772313277998343525823621347,
  25640506010706769683548710654955388123213588950632250897231655111095617338928772458014998608330138265827,
  25640506010707360707891623799371546749628710207677653145965986940262234964991224569156887233138161128675,
  25640506010707360707891623799371546749628710207677665844108423321594951998139765467147726995055059965155,
  25640506010707360707891623799371546749634183727359882488429521629440460229299586857212175870899670258915,
  25640506010707360707891623799371546749634183727359882488450180571086488792783931187277932962410632352995,
  25640506010707360707891623799371546753779123893780182717033534903295448311097759411557072715701240345635,
  25640506010707360707891623799371546753779123893780182717054193844941476874582103741622829807212202439715,
  25640506010707360707891623801168049078780276602446091790260332197392958290961623298337221177628914652387,
  25640506010707360707891623801168049078780276602446104488402768578725675324110164196328060939545813488867,
  25640506010707360707891623801168049078785750122128321132723866886571183555269985586392509815390423782627,
  25640506010707360707891623801168049078785750122128321132744525828217212118754329916458266906901385876707,
  25640506010707360707891623801168049082930690288548621361327880160426171637068158140737406660191993869347,
  25640506010707360707891623801168049082930690288548621361348539102072200200552502470803163751702955963427,
  25640506010707361307892406466641613998469778280448847228537185685251801839266149883066864703362355606407,
  25640506010707361307892406466641613998469778288253836665913590127772528788820345340671565496733591057287,
  25640506010707361386613793768111758117727886004687975874677013073007201232036264109576866365965321671907,
  25640506010707361386613793768111758117727886004687988572819449454339918265184805007567706127882220508387,
  25640506010707361386613793768111758117733359524370205217140547762185426496344626397632155003726830802147,
  25640506010707361386613793768111758117733359524370205217161206703831455059828970727697912095237792896227,
  25640506010707361386613793768111758121878299690790505445744561036040414578142798951977051848528400888867,
  25640506010707361386613793768111758121878299690790505445765219977686443141627143282042808940039362982947,
  25640506010707361386613793769908260446879452399456414518971358330137924558006662838757200310456075195619,
  25640506010707361386613793769908260446879452399456427217113794711470641591155203736748040072372974032099,
  25640506010707361386613793769908260446884925919138643861434893019316149822315025126812488948217584325859,
  25640506010707361386613793769908260446884925919138643861455551960962178385799369456878246039728546419939,
  25640506010707361386613793769908260451029866085558944090038906293171137904113197681157385793019154412579,
  25640506010707361386613793769908260451029866085558944090059565234817166467597542011223142884530116506659,
  25863766835489057130810944119615882699900231060457950226149104045357335206219258434312958643608422656227,
  25863766835489057130810944119615882699900231060457950226149104045357335206219258579049958908412737300707,
  25863766835489057130810944119615882699900231068262939663525508487878062155773453891917659436979658107107,
  25863766835489057130810944119615882699900231068262939663525508487878062155773454036654659701783972751587,
  25863766835489057130810944119615885648640837492635877625027794686341843422009186117330334287238392391907,
  25863766835489057130810944119615885648640837492635877625027794686341843422009186262067334552042707036387,
  25863766835489057130810944119615885648640837500440867062404199128862570371563381574935035080609627842787,
  25863766835489057130810944119615885648640837500440867062404199128862570371563381719672035345413942487267,
  25863766835489057130810944119615886068518494852213650766350901002462087257096116341464889531813045414115,
  25863766835489057130810944119615886068518494852213650766350901035776720182151804341091560276266246154467,
  25863766835489057130812058159709567285216455067553840037237050389001922631110146808089713722714142484707,
  25863766835489057130812058159709567285216455067553840037237050389001922631110146952826713987518457129187,
  25863766835489057130812058159709567285216455075358829474613454831522649580664342265694414516085377935587,
  25863766835489057130812058159709567285216455075358829474613454831522649580664342410431414780889692580067,
  25863766835489057130812058159709570233957061499731767436115741029986430846900074491107089366344112220387,
  25863766835489057130812058159709570233957061499731767436115741029986430846900074635844089631148426864867,
  25863766835489057130812058159709570233957061507536756873492145472507157796454269948711790159715347671267,
  25863766835489057130812058159709570233957061507536756873492145472507157796454270093448790424519662315747,
  25863766835489057130812058159709570653834718859309540577438847346106674681987004715241644610918765242595,
  25863766835489057130812058159709570653834718859309540577438847379421307607042692714868315355371965982947,
  25863766835489057130812182994252074317261772869008502783875759776018276154029529828752124804679251732707,
  25863766835489057130812182994252074317261772869008502783875759776018276154029529973489125069483566377187,
  25863766835489057131773609627495227070564429101389770386657689355251370925694696809795277228932417136867]

def med6aPaths8 : List ℕ := [
  25863766835489057131773609627495227070564429101389770386657689355251370925694696954532277493736731781347,
  25863766835489057131774587352571577438098320943311911663603434995833011202757770275403351868813279439075,
  25863766835489057131774587352571577438098320943311911663603434995833065403209608467315575334736892733667,
  25863766835549578944437956608891219749241851775248654044227359080718514912023686673062959483620614154467,
  25863766835549578944437956608891219749241851775248654044227359080718514912023686817799959748424928798947,
  25863766835549578944437956608891222697982458207426581443106049721703023127813614356080335127250583890147,
  25863766835549578944437956608891222697982458207426581443106049721703023127813614500817335392054898534627,
  25863766835549579725695993063774326710141008414742491655405879689666452579180118378967426676421883013347,
  25863766835549579725695993063774326710141008414742491655405879689666452579180118523704426941226197657827,
  25863766835549579725695993063774326710145805798330111686654901709610357762743307853938277066519179110627,
  25863766835549579725695993063774326710145805798330111686654901709610357762743307998675277331323493755107,
  25863766835970465518058417594640132111886466376336312915497061554752449283191055104841670491103779563747,
  25863766835970465518058417594640132111886466376336312915497061554752449283191055249578670755908094208227,
  25863766835970465518058417594640135060627072808514240314375752195736957498980982787859046134733749299427,
  25863766835970465518058417594640135060627072808514240314375752195736957498980982932596046399538063943907,
  25863766835970466299316454049523239072785623015830150526675582163700386950347486810746137683905048422627,
  25863766835970466299316454049523239072785623015830150526675582163700386950347486955483137948709363067107,
  25863766835970466299316454049523239072790420399417770557924604183644292133910676285716988074002344519907,
  25863766835970466299316454049523239072790420399417770557924604183644292133910676430453988338806659164387,
  25863767199247124816938148303849779899544906441500956015290707061632378868858229196947453134727116788963,
  25863767199247124816938148303849779899544906441500956015290707095242953964567965186418523238585358652643,
  25863767199247124816938148303849779899544906441500956015290736134736148058569008215509429949394092438563,
  25863767199247124816938148303849779899544906441500968713433143442965095902006770094938292896644015625443,
  25863767199247124816938148303849779899544906441500968713433143476575670997716506084409363000502257489123,
  25863767199247124816938148303849779899544906441500968713433172516068865091717549113500269711310991275043,
  25863767199247124816938148303849779899544906441500970521549560117903818747469146618689129586003642682851,
  25863767199247124816938148303849779899544906441500970521549560117903818747469146618689129586003643300643,
  25863767199247124816938148303849779899544906441500970521549560117903818747469146762151716011998359588323,
  25863767199247124816938148303849779899544906441500970521549560117903818747469146762151716011998360206115,
  25863767199247124816938148303849779899549703825088576046539729081576284052421418671918303524824412886243,
  25863767199247124816938148303849779899549703825088576046539729115186859148131154661389373628682654749923,
  25863767199247124816938148303849779899549703825088576046539758154680053242132197690480280339491388535843,
  25863767199247124816938148303849779899549703825088588744682165462909001085569959569909143286741311722723,
  25863767199247124816938148303849779899549703825088588744682165496519576181279695559380213390599553586403,
  25863767199247124816938148303849779899549703825088588744682194536012770275280738588471120101408287372323,
  25863767199247124816938148303849779899549703825088590552798582137847723931032336093659979976100938780131,
  25863767199247124816938148303849779899549703825088590552798582137847723931032336093659979976100939397923,
  25863767199247124816938148303849779899549703825088590552798582137847723931032336237122566402095655685603,
  25863767199247124816938148303849779899549703825088590552798582137847723931032336237122566402095656303395,
  25863767199247124816938148303849779899550241399264574104893570479269990758350157670054600827115533014243,
  25863767199247124816938148303849779903690426637810718722262141136622985157704406501567631869444234188003,
  25863767199247124816938148303849779903690433390238764686362962467130393874274234171681652096746336695331,
  25863767199247124816938148303849779903690433390238777272697855383470244216564863388809679433086608749603,
  25863767199247124816938148303849779903694637008928489110195316526945384878602077244920371074846787325411,
  25863767199247124816938148303849779903694637008928489110195316526945384878602077244920371074846787943203,
  25863767199247124816938148303849779903694637008928489110195316526945384878602077244920604477898943319523,
  25863767199247124816938148303849779903694637008928489110195316526945384878602077244920604477898943937315,
  25863767199247124816938148303849779903695188532713034604129288695703723792070200594671627074603782386723,
  25863767199247124816938148303849779903695188532713047190464181612043574134360829811799654410944054440995,
  25863767199247124816938148305646282228696472836269394659585052318763102194828627926127787079217870312675,
  25863767199247124816938148305646282228696472836269394659585052352373677290538363915598857183076112176355,
  25863767199247124816938148305646282228696472836269394659585081391866871384539406944689763893884845962275,
  25863767199247124816938148305646282228696472836269407357727488700095819227977168824118626841134769149155,
  25863767199247124816938148305646282228696472836269407357727488733706394323686904813589696944993011012835,
  25863767199247124816938148305646282228696472836269407357727517773199588417687947842680603655801744798755,
  25863767199247124816938148305646282228696472836269409165843905375034542073439545347869463530494396206563,
  25863767199247124816938148305646282228696472836269409165843905375034542073439545347869463530494396824355,
  25863767199247124816938148305646282228696472836269409165843905375034542073439545491332049956489113112035,
  25863767199247124816938148305646282228696472836269409165843905375034542073439545491332049956489113729827,
  25863767199247124816938148305646282228701270219857014690834074338707007378391817401098637469315166409955,
  25863767199247124816938148305646282228701270219857014690834074372317582474101553390569707573173408273635,
  25863767199247124816938148305646282228701270219857014690834103411810776568102596419660614283982142059555,
  25863767199247124816938148305646282228701270219857027388976510720039724411540358299089477231232065246435,
  25863767199247124816938148305646282228701270219857027388976510753650299507250094288560547335090307110115,
  25863767199247124816938148305646282228701270219857027388976539793143493601251137317651454045899040896035,
  25863767199247124816938148305646282228701270219857029197092927394978447257002734822840313920591692303843,
  25863767199247124816938148305646282228701270219857029197092927394978447257002734822840313920591692921635,
  25863767199247124816938148305646282228701270219857029197092927394978447257002734966302900346586409209315,
  25863767199247124816938148305646282228701270219857029197092927394978447257002734966302900346586409827107,
  25863767199247124816938148305646282228701807794033012749187915736400714084320556399234934771606286537955,
  25863767199247124816938148305646282232841993032579157366556486393753708483674805230747965813934987711715,
  25863767199247124816938148305646282232841999785007203330657307724261117200244632900861986041237090219043,
  25863767199247124816938148305646282232841999785007215916992200640600967542535262117990013377577362273315,
  25863767199247124816938148305646282232846203403696927754489661784076108204572475974100705019337540849123,
  25863767199247124816938148305646282232846203403696927754489661784076108204572475974100705019337541466915,
  25863767199247124816938148305646282232846203403696927754489661784076108204572475974100938422389696843235,
  25863767199247124816938148305646282232846203403696927754489661784076108204572475974100938422389697461027,
  25863767199247124816938148305646282232846754927481473248423633952834447118040599323851961019094535910435,
  25863767199247124816938148305646282232846754927481485834758526869174297460331228540979988355434807964707,
  25863767199247124816938148305906906919884142897042741208398357942099005124230297323183093406908592985315,
  25863767199247124816938148305906906919884142897042753906540794323431722157378838221173933168825491821795,
  25863767199247124816938148305906910284210528484082683523580779518867655521237009236957876493469848736995,
  25863767199247124816938148305906910284210528484082683523601438460513684084721353567023633584980810831075,
  25863767199247124816938148305909457996553459720139996351963664165803051246295579665326972487844142658595,
  25863767199247124816938148305909457996553459720139996351984323107449079809779923995392729579355104752675,
  25863767199247124816938149925590563930835442433807805521937582842640610315525572371746968575767857476643,
  25863767199247124816939252534785406884738849230924303400369074003509026530259512264288438043324987512035,
  25863767199247124816939252534785406884738849230924303400369074037119601625969248253759508147183229375715,
  25863767199247124816939252534785406884738849230924303400369103076612795719970291282850414857991963161635,
  25863767199247124816939252534785406884738849230924316098511510384841743563408053162279277805241886348515,
  25863767199247124816939252534785406884738849230924316098511510418452318659117789151750347909100128212195,
  25863767199247124816939252534785406884738849230924316098511539457945512753118832180841254619908861998115,
  25863767199247124816939252534785406884738849230924317906627927059780466408870429686030114494601513405923,
  25863767199247124816939252534785406884738849230924317906627927059780466408870429686030114494601514023715,
  25863767199247124816939252534785406884738849230924317906627927059780466408870429829492700920596230311395,
  25863767199247124816939252534785406884738849230924317906627927059780466408870429829492700920596230929187,
  25863767199247124816939252534785406884743646614511923431618096023452931713822701739259288433422283609315,
  25863767199247124816939252534785406884743646614511923431618096057063506809532437728730358537280525472995,
  25863767199247124816939252534785406884743646614511923431618125096556700903533480757821265248089259258915]

def med6aPaths9 : List ℕ := [
  25863767199247124816939252534785406884743646614511936129760532404785648746971242637250128195339182445795,
  25863767199247124816939252534785406884743646614511936129760532438396223842680978626721198299197424309475,
  25863767199247124816939252534785406884743646614511936129760561477889417936682021655812105010006158095395,
  25863767199247124816939252534785406884743646614511937937876949079724371592433619161000964884698809503203,
  25863767199247124816939252534785406884743646614511937937876949079724371592433619161000964884698810120995,
  25863767199247124816939252534785406884743646614511937937876949079724371592433619304463551310693526408675,
  25863767199247124816939252534785406884743646614511937937876949079724371592433619304463551310693527026467,
  25863767199247124816939252534785406884744184188687921489971937421146638419751440737395585735713403737315,
  25863767199247124816939252534785406888884369427234066107340508078499632819105689568908616778042104911075,
  25863767199247124816939252534785406888884376179662112071441329409007041535675517239022637005344207418403,
  25863767199247124816939252534785406888884376179662124657776222325346891877966146456150664341684479472675,
  25863767199247124816939252534785406888888579798351836495273683468822032540003360312261355983444658048483,
  25863767199247124816939252534785406888888579798351836495273683468822032540003360312261355983444658666275,
  25863767199247124816939252534785406888888579798351836495273683468822032540003360312261589386496814042595,
  25863767199247124816939252534785406888888579798351836495273683468822032540003360312261589386496814660387,
  25863767199247124816939252534785406888889131322136381989207655637580371453471483662012611983201653109795,
  25863767199247124816939252534785406888889131322136394575542548553920221795762112879140639319541925164067,
  25863767199247124816939252536581909213890415625692742044663419260639749856229910993468771987815741035747,
  25863767199247124816939252536581909213890415625692742044663419294250324951939646982939842091673982899427,
  25863767199247124816939252536581909213890415625692742044663448333743519045940690012030748802482716685347,
  25863767199247124816939252536581909213890415625692754742805855641972466889378451891459611749732639872227,
  25863767199247124816939252536581909213890415625692754742805855675583041985088187880930681853590881735907,
  25863767199247124816939252536581909213890415625692754742805884715076236079089230910021588564399615521827,
  25863767199247124816939252536581909213890415625692756550922272316911189734840828415210448439092266929635,
  25863767199247124816939252536581909213890415625692756550922272316911189734840828415210448439092267547427,
  25863767199247124816939252536581909213890415625692756550922272316911189734840828558673034865086983835107,
  25863767199247124816939252536581909213890415625692756550922272316911189734840828558673034865086984452899,
  25863767199247124816939252536581909213895213009280362075912441280583655039793100468439622377913037133027,
  25863767199247124816939252536581909213895213009280362075912441314194230135502836457910692481771278996707,
  25863767199247124816939252536581909213895213009280362075912470353687424229503879487001599192580012782627,
  25863767199247124816939252536581909213895213009280374774054877661916372072941641366430462139829935969507,
  25863767199247124816939252536581909213895213009280374774054877695526947168651377355901532243688177833187,
  25863767199247124816939252536581909213895213009280374774054906735020141262652420384992438954496911619107,
  25863767199247124816939252536581909213895213009280376582171294336855094918404017890181298829189563026915,
  25863767199247124816939252536581909213895213009280376582171294336855094918404017890181298829189563644707,
  25863767199247124816939252536581909213895213009280376582171294336855094918404018033643885255184279932387,
  25863767199247124816939252536581909213895213009280376582171294336855094918404018033643885255184280550179,
  25863767199247124816939252536581909213895750583456360134266282678277361745721839466575919680204157261027,
  25863767199247124816939252536581909218035935822002504751634853335630356145076088298088950722532858434787,
  25863767199247124816939252536581909218035942574430550715735674666137764861645915968202970949834960942115,
  25863767199247124816939252536581909218035942574430563302070567582477615203936545185330998286175232996387,
  25863767199247124816939252536581909218040146193120275139568028725952755865973759041441689927935411572195,
  25863767199247124816939252536581909218040146193120275139568028725952755865973759041441689927935412189987,
  25863767199247124816939252536581909218040146193120275139568028725952755865973759041441923330987567566307,
  25863767199247124816939252536581909218040146193120275139568028725952755865973759041441923330987568184099,
  25863767199247124816939252536581909218040697716904820633502000894711094779441882391192945927692406633507,
  25863767199247124816939252536581909218040697716904833219836893811050945121732511608320973264032678687779,
  25863767199247124816939252536842533905078085686466088593476724883975652785631580390524078315506463708387,
  25863767199247124816939252536842533905078085686466101291619161265308369818780121288514918077423362544867,
  25863767199247124816939252536842537269404471273506030908659146460744303182638292304298861402067719460067,
  25863767199247124816939252536842537269404471273506030908679805402390331746122636634364618493578681554147,
  25863767199247124816939252536845084981747402509563343737042031107679698907696862732667957396442013381667,
  25863767199247124816939252536845084981747402509563343737062690049325727471181207062733714487952975475747,
  25863767199615918119858780877640721496285704195165348318360264879469301394789335627664654089959777678215,
  25863767199615918119858780877640721496290501578752968349609286899413206578352525102635504480057073775495,
  25863767199615918119858780877640721496291184688737428392389478496315364063055914847005993567215303177095,
  25863767199615918119858780877640721496291184688737428392389478496315418263507753038918217033138916471687,
  25863767199615918119858780879453182602472880951308633498834889853351185968579268355708265112637631804295,
  25863767199615918119858780879453182602477678334896253530083911873295091152142457830679115502734927901575,
  25863767199615918119858780879453182602478361444880713572864103470197248636845847575049604589893157303175,
  25863767199615918119858780879453182602478361444880713572864103470197302837297685766961828055816770597767,
  25863767199615918119858782443829086885170453043880972485386505440510040755071216271059585591289270416263,
  25863767199615918119858782443829086885175208186355242403152831669083370672867182694049560569146716107655,
  25863767199615918119858782445417222426390898316890559734572581325432778309274849766137888380675737957255,
  25863767199615918119858782445417222426390898316890559734572581325432778309363029905660144589389987754887,
  25863767199615918119858782445625589214322019438649411129680850697640764081041615000239919535780023939975,
  25863767199615918119858782445625589214326774581123681047447176926214093998837581423229894513637469631367,
  25863767199615918798580950846380932864384879992175671047071291012214267661834375168084633222786938221447,
  25863767199615918798580950846380932864389677375763291078320313032158172845397564643055483612884234318727,
  25863767199615918798580950846380932864390360485747751121100504629060330330100954387425972700042463720327,
  25863767199615918798580950846380932864390360485747751121100504629060384530552792579338196165966077014919,
  25863767199615918798580950848193393970572056748318956227545915986096152235624307896128244245464792347527,
  25863767199615918798580950848193393970576854131906576258794938006040057419187497371099094635562088444807,
  25863767199615918798580950848193393970577537241891036301575129602942214903890887115469583722720317846407,
  25863767199615918798580950848193393970577537241891036301575129602942269104342725307381807188643931140999,
  25863767199615918798580952412569298253269628840891295214097531573255007022116255811479564724116430959495,
  25863767199615918798580952412569298253274383983365565131863857801828336939912222234469539701973876650887,
  25863767199615918798580952414157433794490074113900882463283607458177744576319889306557867513502898500487,
  25863767199615918798580952414157433794490074113900882463283607458177744576408069446080123722217148298119,
  25863767199615918798580952414365800582421195235659733858391876830385730348086654540659898668607184483207,
  25863767199615918798580952414365800582425950378134003776158203058959060265882620963649873646464630174599,
  25863767199615918898009281856361813850439765815507784087746179313616543901741649242779743337605875544967,
  25863767199615918898009281856361813850439765823312773525122583756137270851295844700384444130977110995847,
  25863767199616530816767770890603172394346170306759749197728992529147957173921147769661558720714914313095,
  25863767199664305471042454287208450266543593618428094619769355551618215704681985579641320145917977597155,
  25863767199664305471042454287208450266543593618428094619769355585228790800391721569112390249776219460835,
  25863767199664305471042454287208450266543593618428094619769384624721984894392764598203296960584953246755,
  25863767199664305471042454287208450266543593618428107317911791932950932737830526477632159907834876433635,
  25863767199664305471042454287208450266543593618428107317911791966561507833540262467103230011693118297315,
  25863767199664305471042454287208450266543593618428107317911821006054701927541305496194136722501852083235,
  25863767199664305471042454287208450266543593618428109126028208607889655583292903001382996597194503491043,
  25863767199664305471042454287208450266543593618428109126028208607889655583292903001382996597194504108835,
  25863767199664305471042454287208450266543593618428109126028208607889655583292903144845583023189220396515,
  25863767199664305471042454287208450266543593618428109126028208607889655583292903144845583023189221014307,
  25863767199664305471042454287208450266548391002015714651018377571562120888245175054612170536015273694435,
  25863767199664305471042454287208450266548391002015714651018377605172695983954911044083240639873515558115,
  25863767199664305471042454287208450266548391002015714651018406644665890077955954073174147350682249344035,
  25863767199664305471042454287208450266548391002015727349160813952894837921393715952603010297932172530915,
  25863767199664305471042454287208450266548391002015727349160813986505413017103451942074080401790414394595,
  25863767199664305471042454287208450266548391002015727349160843025998607111104494971164987112599148180515]

def med6aPaths10 : List ℕ := [
  25863767199664305471042454287208450266548391002015729157277230627833560766856092476353846987291799588323,
  25863767199664305471042454287208450266548391002015729157277230627833560766856092476353846987291800206115,
  25863767199664305471042454287208450266548391002015729157277230627833560766856092619816433413286516493795,
  25863767199664305471042454287208450266548391002015729157277230627833560766856092619816433413286517111587,
  25863767199664305471042454287208450266548928576191712709372218969255827594173914052748467838306393822435,
  25863767199664305471042454287208450270689113814737857326740789626608821993528162884261498880635094996195,
  25863767199664305471042454287208450270689120567165903290841610957116230710097990554375519107937197503523,
  25863767199664305471042454287208450270689120567165915877176503873456081052388619771503546444277469557795,
  25863767199664305471042454287208450270693324185855627714673965016931221714425833627614238086037648133603,
  25863767199664305471042454287208450270693324185855627714673965016931221714425833627614238086037648751395,
  25863767199664305471042454287208450270693324185855627714673965016931221714425833627614471489089804127715,
  25863767199664305471042454287208450270693324185855627714673965016931221714425833627614471489089804745507,
  25863767199664305471042454287208450270693875709640173208607937185689560627893956977365494085794643194915,
  25863767199664305471042454287208450270693875709640185794942830102029410970184586194493521422134915249187,
  25863767199664305471042454289004952595695160013196533264063700808748939030652384308821654090408731120867,
  25863767199664305471042454289004952595695160013196533264063700842359514126362120298292724194266972984547,
  25863767199664305471042454289004952595695160013196533264063729881852708220363163327383630905075706770467,
  25863767199664305471042454289004952595695160013196545962206137190081656063800925206812493852325629957347,
  25863767199664305471042454289004952595695160013196545962206137223692231159510661196283563956183871821027,
  25863767199664305471042454289004952595695160013196545962206166263185425253511704225374470666992605606947,
  25863767199664305471042454289004952595695160013196547770322553865020378909263301730563330541685257014755,
  25863767199664305471042454289004952595695160013196547770322553865020378909263301730563330541685257632547,
  25863767199664305471042454289004952595695160013196547770322553865020378909263301874025916967679973920227,
  25863767199664305471042454289004952595695160013196547770322553865020378909263301874025916967679974538019,
  25863767199664305471042454289004952595699957396784153295312722828692844214215573783792504480506027218147,
  25863767199664305471042454289004952595699957396784153295312722862303419309925309773263574584364269081827,
  25863767199664305471042454289004952595699957396784153295312751901796613403926352802354481295173002867747,
  25863767199664305471042454289004952595699957396784165993455159210025561247364114681783344242422926054627,
  25863767199664305471042454289004952595699957396784165993455159243636136343073850671254414346281167918307,
  25863767199664305471042454289004952595699957396784165993455188283129330437074893700345321057089901704227,
  25863767199664305471042454289004952595699957396784167801571575884964284092826491205534180931782553112035,
  25863767199664305471042454289004952595699957396784167801571575884964284092826491205534180931782553729827,
  25863767199664305471042454289004952595699957396784167801571575884964284092826491348996767357777270017507,
  25863767199664305471042454289004952595699957396784167801571575884964284092826491348996767357777270635299,
  25863767199664305471042454289004952595700494970960151353666564226386550920144312781928801782797147346147,
  25863767199664305471042454289004952599840680209506295971035134883739545319498561613441832825125848519907,
  25863767199664305471042454289004952599840686961934341935135956214246954036068389283555853052427951027235,
  25863767199664305471042454289004952599840686961934354521470849130586804378359018500683880388768223081507,
  25863767199664305471042454289004952599844890580624066358968310274061945040396232356794572030528401657315,
  25863767199664305471042454289004952599844890580624066358968310274061945040396232356794572030528402275107,
  25863767199664305471042454289004952599844890580624066358968310274061945040396232356794805433580557651427,
  25863767199664305471042454289004952599844890580624066358968310274061945040396232356794805433580558269219,
  25863767199664305471042454289004952599845442104408611852902282442820283953864355706545828030285396718627,
  25863767199664305471042454289004952599845442104408624439237175359160134296154984923673855366625668772899,
  25863767199664305471042454289265577286882830073969879812877006432084841960054053705876960418099453793507,
  25863767199664305471042454289265577286882830073969892511019442813417558993202594603867800180016352629987,
  25863767199664305471042454289265580651209215661009822128059428008853492357060765619651743504660709545187,
  25863767199664305471042454289265580651209215661009822128080086950499520920545109949717500596171671639267,
  25863767199664305471042454289268128363552146897067134956442312655788888082119336048020839499035003466787,
  25863767199664305471042454289268128363552146897067134956462971597434916645603680378086596590545965560867,
  25863767199664305471042455908949234297834129610734944126416231332626447151349328754440835586958718284835,
  25863767199664305471043558518144077251737536407851442004847722493494863366083268646982305054515848320227,
  25863767199664305471043558518144077251737536407851442004847722527105438461793004636453375158374090183907,
  25863767199664305471043558518144077251737536407851442004847751566598632555794047665544281869182823969827,
  25863767199664305471043558518144077251737536407851454702990158874827580399231809544973144816432747156707,
  25863767199664305471043558518144077251737536407851454702990158908438155494941545534444214920290989020387,
  25863767199664305471043558518144077251737536407851454702990187947931349588942588563535121631099722806307,
  25863767199664305471043558518144077251737536407851456511106575549766303244694186068723981505792374214115,
  25863767199664305471043558518144077251737536407851456511106575549766303244694186068723981505792374831907,
  25863767199664305471043558518144077251737536407851456511106575549766303244694186212186567931787091119587,
  25863767199664305471043558518144077251737536407851456511106575549766303244694186212186567931787091737379,
  25863767199664305471043558518144077251742333791439062036096744513438768549646458121953155444613144417507,
  25863767199664305471043558518144077251742333791439062036096744547049343645356194111424225548471386281187,
  25863767199664305471043558518144077251742333791439062036096773586542537739357237140515132259280120067107,
  25863767199664305471043558518144077251742333791439074734239180894771485582794999019943995206530043253987,
  25863767199664305471043558518144077251742333791439074734239180928382060678504735009415065310388285117667,
  25863767199664305471043558518144077251742333791439074734239209967875254772505778038505972021197018903587,
  25863767199664305471043558518144077251742333791439076542355597569710208428257375543694831895889670311395,
  25863767199664305471043558518144077251742333791439076542355597569710208428257375543694831895889670929187,
  25863767199664305471043558518144077251742333791439076542355597569710208428257375687157418321884387216867,
  25863767199664305471043558518144077251742333791439076542355597569710208428257375687157418321884387834659,
  25863767199664305471043558518144077251742871365615060094450585911132475255575197120089452746904264545507,
  25863767199664305471043558518144077255883056604161204711819156568485469654929445951602483789232965719267,
  25863767199664305471043558518144077255883063356589250675919977898992878371499273621716504016535068226595,
  25863767199664305471043558518144077255883063356589263262254870815332728713789902838844531352875340280867,
  25863767199664305471043558518144077255887266975278975099752331958807869375827116694955222994635518856675,
  25863767199664305471043558518144077255887266975278975099752331958807869375827116694955222994635519474467,
  25863767199664305471043558518144077255887266975278975099752331958807869375827116694955456397687674850787,
  25863767199664305471043558518144077255887266975278975099752331958807869375827116694955456397687675468579,
  25863767199664305471043558518144077255887818499063520593686304127566208289295240044706478994392513917987,
  25863767199664305471043558518144077255887818499063533180021197043906058631585869261834506330732785972259,
  25863767199664305471043558519940579580889102802619880649142067750625586692053667376162638999006601843939,
  25863767199664305471043558519940579580889102802619880649142067784236161787763403365633709102864843707619,
  25863767199664305471043558519940579580889102802619880649142096823729355881764446394724615813673577493539,
  25863767199664305471043558519940579580889102802619893347284504131958303725202208274153478760923500680419,
  25863767199664305471043558519940579580889102802619893347284504165568878820911944263624548864781742544099,
  25863767199664305471043558519940579580889102802619893347284533205062072914912987292715455575590476330019,
  25863767199664305471043558519940579580889102802619895155400920806897026570664584797904315450283127737827,
  25863767199664305471043558519940579580889102802619895155400920806897026570664584797904315450283128355619,
  25863767199664305471043558519940579580889102802619895155400920806897026570664584941366901876277844643299,
  25863767199664305471043558519940579580889102802619895155400920806897026570664584941366901876277845261091,
  25863767199664305471043558519940579580893900186207500680391089770569491875616856851133489389103897941219,
  25863767199664305471043558519940579580893900186207500680391089804180066971326592840604559492962139804899,
  25863767199664305471043558519940579580893900186207500680391118843673261065327635869695466203770873590819,
  25863767199664305471043558519940579580893900186207513378533526151902208908765397749124329151020796777699,
  25863767199664305471043558519940579580893900186207513378533526185512784004475133738595399254879038641379,
  25863767199664305471043558519940579580893900186207513378533555225005978098476176767686305965687772427299,
  25863767199664305471043558519940579580893900186207515186649942826840931754227774272875165840380423835107,
  25863767199664305471043558519940579580893900186207515186649942826840931754227774272875165840380424452899,
  25863767199664305471043558519940579580893900186207515186649942826840931754227774416337752266375140740579]

def med6aPaths11 : List ℕ := [
  25863767199664305471043558519940579580893900186207515186649942826840931754227774416337752266375141358371,
  25863767199664305471043558519940579580894437760383498738744931168263198581545595849269786691395018069219,
  25863767199664305471043558519940579585034622998929643356113501825616192980899844680782817733723719242979,
  25863767199664305471043558519940579585034629751357689320214323156123601697469672350896837961025821750307,
  25863767199664305471043558519940579585034629751357701906549216072463452039760301568024865297366093804579,
  25863767199664305471043558519940579585038833370047413744046677215938592701797515424135556939126272380387,
  25863767199664305471043558519940579585038833370047413744046677215938592701797515424135556939126272998179,
  25863767199664305471043558519940579585038833370047413744046677215938592701797515424135790342178428374499,
  25863767199664305471043558519940579585038833370047413744046677215938592701797515424135790342178428992291,
  25863767199664305471043558519940579585039384893831959237980649384696931615265638773886812938883267441699,
  25863767199664305471043558519940579585039384893831971824315542301036781957556267991014840275223539495971,
  25863767199664305471043558520201204272076772863393227197955373373961489621455336773217945326697324516579,
  25863767199664305471043558520201204272076772863393239896097809755294206654603877671208785088614223353059,
  25863767199664305471043558520201207636403158450433169513137794950730140018462048686992728413258580268259,
  25863767199664305471043558520201207636403158450433169513158453892376168581946393017058485504769542362339,
  25863767199664305471043558520203755348746089686490482341520679597665535743520619115361824407632874189859,
  25863767199664305471043558520203755348746089686490482341541338539311564307004963445427581499143836283939,
  25863993881110020669427532304030578660582889277941179015551657175128946078413664364841544037852511938787,
  25863993881110020669427532304030578660582889277941179015551657175128946078413664364841777440904667932899,
  25863993881110020669427532304030578660587686661528799046800679195072851261976853839812394427949808036067,
  25863993881110020669427532304030578660587686661528799046800679195072851261976853839812627831001964030179,
  25863993881110020669427532304030578664732619845368697604197413589003647614390531664869551818438488912775,
  25863993881110020669427532304030578664732619845368697604197413589003647614390531664869551818818218472327,
  25863993881110020669427532305843039766770066034084464196026282149010830652203597092885155060530366064867,
  25863993881110020669427532305843039766770066034084464196026282149010830652203597092885388463582522058979,
  25863993881110020669427532305843039766774863417672084227275304168954735835766786567856005450627662162147,
  25863993881110020669427532305843039766774863417672084227275304168954735835766786567856238853679818156259,
  25863993881110020669427532305843039770919796601511982784672038562885532188180464392913162841116343038855,
  25863993881110020669427532305843039770919796601511982784672038562885532188180464392913162841496072598407,
  25863993881110020669427532306101120088132074669812417291262123353605529844298479276438800777636266846435,
  25863993881110020669427532306101120088132074669812417291262123353605529844298479276439034180688422840547,
  25863993881110020669427532306101120088132074669812417291262123353605529844399447866972706193105818776455,
  25863993881110020669427532306101120088132074669812417291262123353605529844399447866972706193485548336007,
  25863993881110020669427532306101120088132074669812417291282600392620712873261577807371903404190528645347,
  25863993881110020669427532306101120088132074669812417291282600392620712873261577807372136807242684639459,
  25863993881110020669427532306101120088132074669812417291282600392620712873362546397905808819660080575367,
  25863993881110020669427532306101120088132074669812417291282600392620712873362546397905808820039810134919,
  25863993881110021354178960127823050789566194809188903088299456382657179812297936490011446843179406141667,
  25863993881110021354178960127823050789566194809188903088299456382657179812297936490011680246231562135779,
  25863993881110021354178960127823050789570992192776523119548478402601084995861125964982297233276702238947,
  25863993881110021354178960127823050789570992192776523119548478402601084995861125964982530636328858233059,
  25863993881110021354178960127823050793715925376616421676945212796531881348274803790039454623765383115655,
  25863993881110021354178960127823050793715925376616421676945212796531881348274803790039454624145112675207,
  25863993881110021354178960129635511895753371565332188268774081356539064386087869218055057865857260267747,
  25863993881110021354178960129635511895753371565332188268774081356539064386087869218055291268909416261859,
  25863993881110021354178960129635511895758168948919808300023103376482969569651058693025908255954556365027,
  25863993881110021354178960129635511895758168948919808300023103376482969569651058693026141659006712359139,
  25863993881110021354178960129635511899903102132759706857419837770413765922064736518083065646443237241735,
  25863993881110021354178960129635511899903102132759706857419837770413765922064736518083065646822966801287,
  25863993881110021354178960129893592217115380201060141364009922561133763578182751401608703582963161049315,
  25863993881110021354178960129893592217115380201060141364009922561133763578182751401608936986015317043427,
  25863993881110021354178960129893592217115380201060141364009922561133763578283719992142608998432712979335,
  25863993881110021354178960129893592217115380201060141364009922561133763578283719992142608998812442538887,
  25863993881110021354178960129893592217115380201060141364030399600148946607145849932541806209517422848227,
  25863993881110021354178960129893592217115380201060141364030399600148946607145849932542039612569578842339,
  25863993881110021354178960129893592217115380201060141364030399600148946607246818523075711624986974778247,
  25863993881110021354178960129893592217115380201060141364030399600148946607246818523075711625366704337799,
  25863993881110021430909260687025339636424765726374101050856442306448163348587884764957443189369344829667,
  25863993881110021430909260687025339636424765726374101050856442306448163348587884764957676592421500823779,
  25863993881110612377557943390324073633893936266793756580563895403548135973463784824853924943004004198627,
  25863993881110612377557943390324073633893936266793756580563895403548135973463784824854158346056160192739,
  25863993881110612378521746818026456102970777133417820114846531810428422941233052120988549026173068800903,
  25863993881110612378521746818026456102970777133417820114846531810428422941233052120988549026552798360455,
  25863993881110612378521746819822958432122343528186258759140877067559146267203450850168882970663822324615,
  25863993881110612378521746819822958432122343528186258759140877067559146267203450850168882971043551884167,
  25863993881110612978522527919535580545717924762462478944796352752234274374357912371799297873505769660195,
  25863993881110612978522527919535580545717924762462478944796352752234274374357912498832876267430961394567,
  25863993881110612978522527919535580545717924762462478944796352752234274374357912515261884299500486565667,
  25863993881110612978522527919535580545717924762462478944796352752234274453858898155945011993481112660195,
  25863993881110612978522527919535580545717924762462478944796352752234274453858898155945245396533268654307,
  25863993881110612978522527919535580545717924762462478944796352752234274453959866746478917408950664590215,
  25863993881110612978522527919535580545717924762462478944796352752234274453959866746478917409330394149767,
  25863993881110612978522527919535580545717924762462478944796352756049390196303787740109915370937308967815,
  25863993881110612978522527919535580545717924762462478944796352756049390196303787740109915371317038527367,
  25863993881110612978522527919535580545717924762462478944796352785548907299413600371425968617958970400547,
  25863993881110612978522527919535580545717924762462478944796352785548907299413600498459547011884162134919,
  25863993881110612978522527919535580545717924762462478944796352785548907299413600514888555043953687306019,
  25863993881110612978522527919535580545717924762462478944796352785548907378914586155571682737934313400547,
  25863993881110612978522527919535580545717924762462478944796352785548907378914586155571916140986469394659,
  25863993881110612978522527919535580545717924762462478944796352785548907379015554746105588153403865330567,
  25863993881110612978522527919535580545717924762462478944796352785548907379015554746105588153783594890119,
  25863993881110613056247232155931132566536294797859606336897530601359884582442704406513421445284373345315,
  25863993881110613056247232155931132566536294797859618923232423517699734924733333623641448781624645399587,
  25863993881110613056247232157521903213658208399812323279700687334257466926131182696800604194451122992007,
  25863993881110613056247232157521903213662963542286593197467013562830796843927149119790579172308568683399,
  25863993881110613056247232157727634895687861192628044981191875858490607908413103135693755389775126869027,
  25863993881110613056247232157727634895687861192628057567526768774830458250703732352821782726115398923299,
  25863993881110613057243916786766667471069952930428142843557557943173389208278091661408528159000229344135,
  25863993881110613057243916786766667471069952930428142843557557943173389208278091661408528159379958903687,
  25863993881110613057243916788563169800221519325196581487851903200304112534248490390588862103490982867847,
  25863993881110613057243916788563169800221519325196581487851903200304112534248490390588862103870712427399,
  25864023621839253953236655610742877844610327768807030443456967796158538955661390278469083664468036850915,
  25864023621839253953236655610742877844610327768807030443456967829769114051371126267940153768326278714595,
  25864023621839253953236655610742877844610327768807030443456996869262308145372169297031060479135012500515,
  25864023621839253953236655610742877844610327768807043141599404177491255988809931176459923426384935687395,
  25864023621839253953236655610742877844610327768807043141599404211101831084519667165930993530243177551075,
  25864023621839253953236655610742877844610327768807043141599433250595025178520710195021900241051911336995,
  25864023621839253953236655610742877844610327768807044949715820852429978834272307700210760115744562744803]

def med6aPaths12 : List ℕ := [
  25864023621839253953236655610742877844610327768807044949715820852429978834272307700210760115744563362595,
  25864023621839253953236655610742877844610327768807044949715820852429978834272307843673346541739279650275,
  25864023621839253953236655610742877844610327768807044949715820852429978834272307843673346541739280268067,
  25864023621839253953236655610742877844615125152394650474705989816102444139224579753439934054565332948195,
  25864023621839253953236655610742877844615125152394650474705989849713019234934315742911004158423574811875,
  25864023621839253953236655610742877844615125152394650474706018889206213328935358772001910869232308597795,
  25864023621839253953236655610742877844615125152394663172848426197435161172373120651430773816482231784675,
  25864023621839253953236655610742877844615125152394663172848426231045736268082856640901843920340473648355,
  25864023621839253953236655610742877844615125152394663172848455270538930362083899669992750631149207434275,
  25864023621839253953236655610742877844615125152394664980964842872373884017835497175181610505841858842083,
  25864023621839253953236655610742877844615125152394664980964842872373884017835497175181610505841859459875,
  25864023621839253953236655610742877844615125152394664980964842872373884017835497318644196931836575747555,
  25864023621839253953236655610742877844615125152394664980964842872373884017835497318644196931836576365347,
  25864023621839253953236655610742877844615662726570648533059831213796150845153318751576231356856453076195,
  25864023621839253953236655610742877848755847965116793150428401871149145244507567583089262399185154249955,
  25864023621839253953236655610742877848755854717544839114529223201656553961077395253203282626487256757283,
  25864023621839253953236655610742877848755854717544851700864116117996404303368024470331309962827528811555,
  25864023621839253953236655610742877848760058336234563538361577261471544965405238326442001604587707387363,
  25864023621839253953236655610742877848760058336234563538361577261471544965405238326442001604587708005155,
  25864023621839253953236655610742877848760058336234563538361577261471544965405238326442235007639863381475,
  25864023621839253953236655610742877848760058336234563538361577261471544965405238326442235007639863999267,
  25864023621839253953236655610742877848760609860019109032295549430229883878873361676193257604344702448675,
  25864023621839253953236655610742877848760609860019121618630442346569734221163990893321284940684974502947,
  25864023621839253953236655612539380173761894163575469087751313053289262281631789007649417608958790374627,
  25864023621839253953236655612539380173761894163575469087751313086899837377341524997120487712817032238307,
  25864023621839253953236655612539380173761894163575469087751342126393031471342568026211394423625766024227,
  25864023621839253953236655612539380173761894163575481785893749434621979314780329905640257370875689211107,
  25864023621839253953236655612539380173761894163575481785893749468232554410490065895111327474733931074787,
  25864023621839253953236655612539380173761894163575481785893778507725748504491108924202234185542664860707,
  25864023621839253953236655612539380173761894163575483594010166109560702160242706429391094060235316268515,
  25864023621839253953236655612539380173761894163575483594010166109560702160242706429391094060235316886307,
  25864023621839253953236655612539380173761894163575483594010166109560702160242706572853680486230033173987,
  25864023621839253953236655612539380173761894163575483594010166109560702160242706572853680486230033791779,
  25864023621839253953236655612539380173766691547163089119000335073233167465194978482620267999056086471907,
  25864023621839253953236655612539380173766691547163089119000335106843742560904714472091338102914328335587,
  25864023621839253953236655612539380173766691547163089119000364146336936654905757501182244813723062121507,
  25864023621839253953236655612539380173766691547163101817142771454565884498343519380611107760972985308387,
  25864023621839253953236655612539380173766691547163101817142771488176459594053255370082177864831227172067,
  25864023621839253953236655612539380173766691547163101817142800527669653688054298399173084575639960957987,
  25864023621839253953236655612539380173766691547163103625259188129504607343805895904361944450332612365795,
  25864023621839253953236655612539380173766691547163103625259188129504607343805895904361944450332612983587,
  25864023621839253953236655612539380173766691547163103625259188129504607343805896047824530876327329271267,
  25864023621839253953236655612539380173766691547163103625259188129504607343805896047824530876327329889059,
  25864023621839253953236655612539380173767229121339087177354176470926874171123717480756565301347206599907,
  25864023621839253953236655612539380177907414359885231794722747128279868570477966312269596343675907773667,
  25864023621839253953236655612539380177907421112313277758823568458787277287047793982383616570978010280995,
  25864023621839253953236655612539380177907421112313290345158461375127127629338423199511643907318282335267,
  25864023621839253953236655612539380177911624731003002182655922518602268291375637055622335549078460911075,
  25864023621839253953236655612539380177911624731003002182655922518602268291375637055622335549078461528867,
  25864023621839253953236655612539380177911624731003002182655922518602268291375637055622568952130616905187,
  25864023621839253953236655612539380177911624731003002182655922518602268291375637055622568952130617522979,
  25864023621839253953236655612539380177912176254787547676589894687360607204843760405373591548835455972387,
  25864023621839253953236655612539380177912176254787560262924787603700457547134389622501618885175728026659,
  25864023621839253953236655612800004864949564224348815636564618676625165211033458404704723936649513047267,
  25864023621839253953236655612800004864949564224348828334707055057957882244181999302695563698566411883747,
  25864023621839253953236655612800008229275949811388757951747040253393815608040170318479507023210768798947,
  25864023621839253953236655612800008229275949811388757951767699195039844171524514648545264114721730893027,
  25864023621839253953236655612802555941618881047446070780129924900329211333098740746848603017585062720547,
  25864023621839253953236655612802555941618881047446070780150583841975239896583085076914360109096024814627,
  25864023621839253953236657232483661875900863761113879950103843577166770402328733453268599105508777538595,
  25864023621839253953237759841678504829804270558230377828535334738035186617062673345810068573065907573987,
  25864023621839253953237759841678504829804270558230377828535334771645761712772409335281138676924149437667,
  25864023621839253953237759841678504829804270558230377828535363811138955806773452364372045387732883223587,
  25864023621839253953237759841678504829804270558230390526677771119367903650211214243800908334982806410467,
  25864023621839253953237759841678504829804270558230390526677771152978478745920950233271978438841048274147,
  25864023621839253953237759841678504829804270558230390526677800192471672839921993262362885149649782060067,
  25864023621839253953237759841678504829804270558230392334794187794306626495673590767551745024342433467875,
  25864023621839253953237759841678504829804270558230392334794187794306626495673590767551745024342434085667,
  25864023621839253953237759841678504829804270558230392334794187794306626495673590911014331450337150373347,
  25864023621839253953237759841678504829804270558230392334794187794306626495673590911014331450337150991139,
  25864023621839253953237759841678504829809067941817997859784356757979091800625862820780918963163203671267,
  25864023621839253953237759841678504829809067941817997859784356791589666896335598810251989067021445534947,
  25864023621839253953237759841678504829809067941817997859784385831082860990336641839342895777830179320867,
  25864023621839253953237759841678504829809067941818010557926793139311808833774403718771758725080102507747,
  25864023621839253953237759841678504829809067941818010557926793172922383929484139708242828828938344371427,
  25864023621839253953237759841678504829809067941818010557926822212415578023485182737333735539747078157347,
  25864023621839253953237759841678504829809067941818012366043209814250531679236780242522595414439729565155,
  25864023621839253953237759841678504829809067941818012366043209814250531679236780242522595414439730182947,
  25864023621839253953237759841678504829809067941818012366043209814250531679236780385985181840434446470627,
  25864023621839253953237759841678504829809067941818012366043209814250531679236780385985181840434447088419,
  25864023621839253953237759841678504829809605515993995918138198155672798506554601818917216265454323799267,
  25864023621839253953237759841678504833949790754540140535506768813025792905908850650430247307783024973027,
  25864023621839253953237759841678504833949797506968186499607590143533201622478678320544267535085127480355,
  25864023621839253953237759841678504833949797506968199085942483059873051964769307537672294871425399534627,
  25864023621839253953237759841678504833954001125657910923439944203348192626806521393782986513185578110435,
  25864023621839253953237759841678504833954001125657910923439944203348192626806521393782986513185578728227,
  25864023621839253953237759841678504833954001125657910923439944203348192626806521393783219916237734104547,
  25864023621839253953237759841678504833954001125657910923439944203348192626806521393783219916237734722339,
  25864023621839253953237759841678504833954552649442456417373916372106531540274644743534242512942573171747,
  25864023621839253953237759841678504833954552649442469003708809288446381882565273960662269849282845226019,
  25864023621839253953237759843475007158955836952998816472829679995165909943033072074990402517556661097699,
  25864023621839253953237759843475007158955836952998816472829680028776485038742808064461472621414902961379,
  25864023621839253953237759843475007158955836952998816472829709068269679132743851093552379332223636747299,
  25864023621839253953237759843475007158955836952998829170972116376498626976181612972981242279473559934179,
  25864023621839253953237759843475007158955836952998829170972116410109202071891348962452312383331801797859,
  25864023621839253953237759843475007158955836952998829170972145449602396165892391991543219094140535583779,
  25864023621839253953237759843475007158955836952998830979088533051437349821643989496732078968833186991587,
  25864023621839253953237759843475007158955836952998830979088533051437349821643989496732078968833187609379,
  25864023621839253953237759843475007158955836952998830979088533051437349821643989640194665394827903897059,
  25864023621839253953237759843475007158955836952998830979088533051437349821643989640194665394827904514851]

def med6aPaths13 : List ℕ := [
  25864023621839253953237759843475007158960634336586436504078702015109815126596261549961252907653957194979,
  25864023621839253953237759843475007158960634336586436504078702048720390222305997539432323011512199058659,
  25864023621839253953237759843475007158960634336586436504078731088213584316307040568523229722320932844579,
  25864023621839253953237759843475007158960634336586449202221138396442532159744802447952092669570856031459,
  25864023621839253953237759843475007158960634336586449202221138430053107255454538437423162773429097895139,
  25864023621839253953237759843475007158960634336586449202221167469546301349455581466514069484237831681059,
  25864023621839253953237759843475007158960634336586451010337555071381255005207178971702929358930483088867,
  25864023621839253953237759843475007158960634336586451010337555071381255005207178971702929358930483706659,
  25864023621839253953237759843475007158960634336586451010337555071381255005207179115165515784925199994339,
  25864023621839253953237759843475007158960634336586451010337555071381255005207179115165515784925200612131,
  25864023621839253953237759843475007158961171910762434562432543412803521832525000548097550209945077322979,
  25864023621839253953237759843475007163101357149308579179801114070156516231879249379610581252273778496739,
  25864023621839253953237759843475007163101363901736625143901935400663924948449077049724601479575881004067,
  25864023621839253953237759843475007163101363901736637730236828317003775290739706266852628815916153058339,
  25864023621839253953237759843475007163105567520426349567734289460478915952776920122963320457676331634147,
  25864023621839253953237759843475007163105567520426349567734289460478915952776920122963320457676332251939,
  25864023621839253953237759843475007163105567520426349567734289460478915952776920122963553860728487628259,
  25864023621839253953237759843475007163105567520426349567734289460478915952776920122963553860728488246051,
  25864023621839253953237759843475007163106119044210895061668261629237254866245043472714576457433326695459,
  25864023621839253953237759843475007163106119044210907648003154545577105208535672689842603793773598749731,
  25864023621839253953237759843735631850143507013772163021642985618501812872434741472045708845247383770339,
  25864023621839253953237759843735631850143507013772175719785421999834529905583282370036548607164282606819,
  25864023621839253953237759843735635214469892600812105336825407195270463269441453385820491931808639522019,
  25864023621839253953237759843735635214469892600812105336846066136916491832925797715886249023319601616099,
  25864023621839253953237759843738182926812823836869418165208291842205858994500023814189587926182933443619,
  25864023621839253953237759843738182926812823836869418165228950783851887557984368144255345017693895537699,
  25864023622208047256157288184533819441351125522471422746526525613995461481592496709186284619700697740167,
  25864023622208047256157288184533819441355922906059042777775547633939366665155686184157135009797993837447,
  25864023622208047256157288184533819441356606016043502820555739230841524149859075928527624096956223239047,
  25864023622208047256157288184533819441356606016043502820555739230841578350310914120439847562879836533639,
  25864023622208047256157288186346280547538302278614707927001150587877346055382429437229895642378551866247,
  25864023622208047256157288186346280547543099662202327958250172607821251238945618912200746032475847963527,
  25864023622208047256157288186346280547543782772186788001030364204723408723649008656571235119634077365127,
  25864023622208047256157288186346280547543782772186788001030364204723462924100846848483458585557690659719,
  25864023622208047256157289750722184830235874371187046913552766175036200841874377352581216121030190478215,
  25864023622208047256157289750722184830240629513661316831319092403609530759670343775571191098887636169607,
  25864023622208047256157289752310320371456319644196634162738842059958938396078010847659518910416658019207,
  25864023622208047256157289752310320371456319644196634162738842059958938396166190987181775119130907816839,
  25864023622208047256157289752518687159387440765955485557847111432166924167844776081761550065520944001927,
  25864023622208047256157289752518687159392195908429755475613437660740254085640742504751525043378389693319,
  25864023622208047934879458153274030809450301319481745475237551746740427748637536249606263752527858283399,
  25864023622208047934879458153274030809455098703069365506486573766684332932200725724577114142625154380679,
  25864023622208047934879458153274030809455781813053825549266765363586490416904115468947603229783383782279,
  25864023622208047934879458153274030809455781813053825549266765363586544617355953660859826695706997076871,
  25864023622208047934879458155086491915637478075625030655712176720622312322427468977649874775205712409479,
  25864023622208047934879458155086491915642275459212650686961198740566217505990658452620725165303008506759,
  25864023622208047934879458155086491915642958569197110729741390337468374990694048196991214252461237908359,
  25864023622208047934879458155086491915642958569197110729741390337468429191145886388903437718384851202951,
  25864023622208047934879459719462396198335050168197369642263792307781167108919416893001195253857351021447,
  25864023622208047934879459719462396198339805310671639560030118536354497026715383315991170231714796712839,
  25864023622208047934879459721050531739555495441206956891449868192703904663123050388079498043243818562439,
  25864023622208047934879459721050531739555495441206956891449868192703904663211230527601754251958068360071,
  25864023622208047934879459721258898527486616562965808286558137564911890434889815622181529198348104545159,
  25864023622208047934879459721258898527491371705440078204324463793485220352685782045171504176205550236551,
  25864023622208048034307789163254911795505187142813858515912440048142703988544810324301373867346795606919,
  25864023622208048034307789163254911795505187150618847953288844490663430938099005781906074660718031057799,
  25864023622208659953066278197496270339411591634065823625895253263674117260724308851183189250455834375047,
  25864023622256434607340961594101548211609014945734169047935616286144375791485146661162950675658897659107,
  25864023622256434607340961594101548211609014945734169047935616319754950887194882650634020779517139522787,
  25864023622256434607340961594101548211609014945734169047935645359248144981195925679724927490325873308707,
  25864023622256434607340961594101548211609014945734181746078052667477092824633687559153790437575796495587,
  25864023622256434607340961594101548211609014945734181746078052701087667920343423548624860541434038359267,
  25864023622256434607340961594101548211609014945734181746078081740580862014344466577715767252242772145187,
  25864023622256434607340961594101548211609014945734183554194469342415815670096064082904627126935423552995,
  25864023622256434607340961594101548211609014945734183554194469342415815670096064082904627126935424170787,
  25864023622256434607340961594101548211609014945734183554194469342415815670096064226367213552930140458467,
  25864023622256434607340961594101548211609014945734183554194469342415815670096064226367213552930141076259,
  25864023622256434607340961594101548211613812329321789079184638306088280975048336136133801065756193756387,
  25864023622256434607340961594101548211613812329321789079184638339698856070758072125604871169614435620067,
  25864023622256434607340961594101548211613812329321789079184667379192050164759115154695777880423169405987,
  25864023622256434607340961594101548211613812329321801777327074687420998008196877034124640827673092592867,
  25864023622256434607340961594101548211613812329321801777327074721031573103906613023595710931531334456547,
  25864023622256434607340961594101548211613812329321801777327103760524767197907656052686617642340068242467,
  25864023622256434607340961594101548211613812329321803585443491362359720853659253557875477517032719650275,
  25864023622256434607340961594101548211613812329321803585443491362359720853659253557875477517032720268067,
  25864023622256434607340961594101548211613812329321803585443491362359720853659253701338063943027436555747,
  25864023622256434607340961594101548211613812329321803585443491362359720853659253701338063943027437173539,
  25864023622256434607340961594101548211614349903497787137538479703781987680977075134270098368047313884387,
  25864023622256434607340961594101548215754535142043931754907050361134982080331323965783129410376015058147,
  25864023622256434607340961594101548215754541894471977719007871691642390796901151635897149637678117565475,
  25864023622256434607340961594101548215754541894471990305342764607982241139191780853025176974018389619747,
  25864023622256434607340961594101548215758745513161702142840225751457381801228994709135868615778568195555,
  25864023622256434607340961594101548215758745513161702142840225751457381801228994709135868615778568813347,
  25864023622256434607340961594101548215758745513161702142840225751457381801228994709136102018830724189667,
  25864023622256434607340961594101548215758745513161702142840225751457381801228994709136102018830724807459,
  25864023622256434607340961594101548215759297036946247636774197920215720714697118058887124615535563256867,
  25864023622256434607340961594101548215759297036946260223109090836555571056987747276015151951875835311139,
  25864023622256434607340961595898050540760581340502607692229961543275099117455545390343284620149651182819,
  25864023622256434607340961595898050540760581340502607692229961576885674213165281379814354724007893046499,
  25864023622256434607340961595898050540760581340502607692229990616378868307166324408905261434816626832419,
  25864023622256434607340961595898050540760581340502620390372397924607816150604086288334124382066550019299,
  25864023622256434607340961595898050540760581340502620390372397958218391246313822277805194485924791882979,
  25864023622256434607340961595898050540760581340502620390372426997711585340314865306896101196733525668899,
  25864023622256434607340961595898050540760581340502622198488814599546538996066462812084961071426177076707,
  25864023622256434607340961595898050540760581340502622198488814599546538996066462812084961071426177694499,
  25864023622256434607340961595898050540760581340502622198488814599546538996066462955547547497420893982179,
  25864023622256434607340961595898050540760581340502622198488814599546538996066462955547547497420894599971,
  25864023622256434607340961595898050540765378724090227723478983563219004301018734865314135010246947280099,
  25864023622256434607340961595898050540765378724090227723478983596829579396728470854785205114105189143779,
  25864023622256434607340961595898050540765378724090227723479012636322773490729513883876111824913922929699]

def med6aPaths14 : List ℕ := [
  25864023622256434607340961595898050540765378724090240421621419944551721334167275763304974772163846116579,
  25864023622256434607340961595898050540765378724090240421621419978162296429877011752776044876022087980259,
  25864023622256434607340961595898050540765378724090240421621449017655490523878054781866951586830821766179,
  25864023622256434607340961595898050540765378724090242229737836619490444179629652287055811461523473173987,
  25864023622256434607340961595898050540765378724090242229737836619490444179629652287055811461523473791779,
  25864023622256434607340961595898050540765378724090242229737836619490444179629652430518397887518190079459,
  25864023622256434607340961595898050540765378724090242229737836619490444179629652430518397887518190697251,
  25864023622256434607340961595898050540765916298266225781832824960912711006947473863450432312538067408099,
  25864023622256434607340961595898050544906101536812370399201395618265705406301722694963463354866768581859,
  25864023622256434607340961595898050544906108289240416363302216948773114122871550365077483582168871089187,
  25864023622256434607340961595898050544906108289240428949637109865112964465162179582205510918509143143459,
  25864023622256434607340961595898050544910311907930140787134571008588105127199393438316202560269321719267,
  25864023622256434607340961595898050544910311907930140787134571008588105127199393438316202560269322337059,
  25864023622256434607340961595898050544910311907930140787134571008588105127199393438316435963321477713379,
  25864023622256434607340961595898050544910311907930140787134571008588105127199393438316435963321478331171,
  25864023622256434607340961595898050544910863431714686281068543177346444040667516788067458560026316780579,
  25864023622256434607340961595898050544910863431714698867403436093686294382958146005195485896366588834851,
  25864023622256434607340961596158675231948251401275954241043267166611002046857214787398590947840373855459,
  25864023622256434607340961596158675231948251401275966939185703547943719080005755685389430709757272691939,
  25864023622256434607340961596158678596274636988315896556225688743379652443863926701173374034401629607139,
  25864023622256434607340961596158678596274636988315896556246347685025681007348271031239131125912591701219,
  25864023622256434607340961596161226308617568224373209384608573390315048168922497129542470028775923528739,
  25864023622256434607340961596161226308617568224373209384629232331961076732406841459608227120286885622819,
  25864023622256434607340963215842332242899550938041018554582492067152607238152489835962466116699638346787,
  25864023622256434607342065825037175196802957735157516433013983228021023452886429728503935584256768382179,
  25864023622256434607342065825037175196802957735157516433013983261631598548596165717975005688115010245859,
  25864023622256434607342065825037175196802957735157516433014012301124792642597208747065912398923744031779,
  25864023622256434607342065825037175196802957735157529131156419609353740486034970626494775346173667218659,
  25864023622256434607342065825037175196802957735157529131156419642964315581744706615965845450031909082339,
  25864023622256434607342065825037175196802957735157529131156448682457509675745749645056752160840642868259,
  25864023622256434607342065825037175196802957735157530939272836284292463331497347150245612035533294276067,
  25864023622256434607342065825037175196802957735157530939272836284292463331497347150245612035533294893859,
  25864023622256434607342065825037175196802957735157530939272836284292463331497347293708198461528011181539,
  25864023622256434607342065825037175196802957735157530939272836284292463331497347293708198461528011799331,
  25864023622256434607342065825037175196807755118745136464263005247964928636449619203474785974354064479459,
  25864023622256434607342065825037175196807755118745136464263005281575503732159355192945856078212306343139,
  25864023622256434607342065825037175196807755118745136464263034321068697826160398222036762789021040129059,
  25864023622256434607342065825037175196807755118745149162405441629297645669598160101465625736270963315939,
  25864023622256434607342065825037175196807755118745149162405441662908220765307896090936695840129205179619,
  25864023622256434607342065825037175196807755118745149162405470702401414859308939120027602550937938965539,
  25864023622256434607342065825037175196807755118745150970521858304236368515060536625216462425630590373347,
  25864023622256434607342065825037175196807755118745150970521858304236368515060536625216462425630590991139,
  25864023622256434607342065825037175196807755118745150970521858304236368515060536768679048851625307278819,
  25864023622256434607342065825037175196807755118745150970521858304236368515060536768679048851625307896611,
  25864023622256434607342065825037175196808292692921134522616846645658635342378358201611083276645184607459,
  25864023622256434607342065825037175200948477931467279139985417303011629741732607033124114318973885781219,
  25864023622256434607342065825037175200948484683895325104086238633519038458302434703238134546275988288547,
  25864023622256434607342065825037175200948484683895337690421131549858888800593063920366161882616260342819,
  25864023622256434607342065825037175200952688302585049527918592693334029462630277776476853524376438918627,
  25864023622256434607342065825037175200952688302585049527918592693334029462630277776476853524376439536419,
  25864023622256434607342065825037175200952688302585049527918592693334029462630277776477086927428594912739,
  25864023622256434607342065825037175200952688302585049527918592693334029462630277776477086927428595530531,
  25864023622256434607342065825037175200953239826369595021852564862092368376098401126228109524133433979939,
  25864023622256434607342065825037175200953239826369607608187457778432218718389030343356136860473706034211,
  25864023622256434607342065826833677525954524129925955077308328485151746778856828457684269528747521905891,
  25864023622256434607342065826833677525954524129925955077308328518762321874566564447155339632605763769571,
  25864023622256434607342065826833677525954524129925955077308357558255515968567607476246246343414497555491,
  25864023622256434607342065826833677525954524129925967775450764866484463812005369355675109290664420742371,
  25864023622256434607342065826833677525954524129925967775450764900095038907715105345146179394522662606051,
  25864023622256434607342065826833677525954524129925967775450793939588233001716148374237086105331396391971,
  25864023622256434607342065826833677525954524129925969583567181541423186657467745879425945980024047799779,
  25864023622256434607342065826833677525954524129925969583567181541423186657467745879425945980024048417571,
  25864023622256434607342065826833677525954524129925969583567181541423186657467746022888532406018764705251,
  25864023622256434607342065826833677525954524129925969583567181541423186657467746022888532406018765323043,
  25864023622256434607342065826833677525959321513513575108557350505095651962420017932655119918844818003171,
  25864023622256434607342065826833677525959321513513575108557350538706227058129753922126190022703059866851,
  25864023622256434607342065826833677525959321513513575108557379578199421152130796951217096733511793652771,
  25864023622256434607342065826833677525959321513513587806699786886428368995568558830645959680761716839651,
  25864023622256434607342065826833677525959321513513587806699786920038944091278294820117029784619958703331,
  25864023622256434607342065826833677525959321513513587806699815959532138185279337849207936495428692489251,
  25864023622256434607342065826833677525959321513513589614816203561367091841030935354396796370121343897059,
  25864023622256434607342065826833677525959321513513589614816203561367091841030935354396796370121344514851,
  25864023622256434607342065826833677525959321513513589614816203561367091841030935497859382796116060802531,
  25864023622256434607342065826833677525959321513513589614816203561367091841030935497859382796116061420323,
  25864023622256434607342065826833677525959859087689573166911191902789358668348756930791417221135938131171,
  25864023622256434607342065826833677530100044326235717784279762560142353067703005762304448263464639304931,
  25864023622256434607342065826833677530100051078663763748380583890649761784272833432418468490766741812259,
  25864023622256434607342065826833677530100051078663776334715476806989612126563462649546495827107013866531,
  25864023622256434607342065826833677530104254697353488172212937950464752788600676505657187468867192442339,
  25864023622256434607342065826833677530104254697353488172212937950464752788600676505657187468867193060131,
  25864023622256434607342065826833677530104254697353488172212937950464752788600676505657420871919348436451,
  25864023622256434607342065826833677530104254697353488172212937950464752788600676505657420871919349054243,
  25864023622256434607342065826833677530104806221138033666146910119223091702068799855408443468624187503651,
  25864023622256434607342065826833677530104806221138046252481803035562942044359429072536470804964459557923,
  25864023622256434607342065827094302217142194190699301626121634108487649708258497854739575856438244578531,
  25864023622256434607342065827094302217142194190699314324264070489820366741407038752730415618355143415011,
  25864023622256434607342065827094305581468579777739243941304055685256300105265209768514358942999500330211,
  25864023622256434607342065827094305581468579777739243941324714626902328668749554098580116034510462424291,
  25864023622256434607342065827096853293811511013796556769686940332191695830323780196883454937373794251811,
  25864023622256434607342065827096853293811511013796556769707599273837724393808124526949212028884756345891]

theorem med6a_paths : ∀ P ∈ med6aEnum.all 36, P ∈ med6aPaths0 ++ (med6aPaths1 ++ (med6aPaths2 ++ (med6aPaths3 ++ (med6aPaths4 ++ (med6aPaths5 ++ (med6aPaths6 ++ (med6aPaths7 ++ (med6aPaths8 ++ (med6aPaths9 ++ (med6aPaths10 ++ (med6aPaths11 ++ (med6aPaths12 ++ (med6aPaths13 ++ (med6aPaths14)))))))))))))) := by
  have h : med6aTree.toList = med6aPaths0 ++ (med6aPaths1 ++ (med6aPaths2 ++ (med6aPaths3 ++ (med6aPaths4 ++ (med6aPaths5 ++ (med6aPaths6 ++ (med6aPaths7 ++ (med6aPaths8 ++ (med6aPaths9 ++ (med6aPaths10 ++ (med6aPaths11 ++ (med6aPaths12 ++ (med6aPaths13 ++ (med6aPaths14)))))))))))))) := by decide +kernel
  rw [← h]
  refine med6aEnum.fronts_sound 27 8 36 med6aTree rfl ?_
  rw [med6a_fronts]
  exact partsP (Enum.partF_mem med6a_part0) (partsP (Enum.partF_mem med6a_part1) (partsP (Enum.partF_mem med6a_part2) (partsP (Enum.partF_mem med6a_part3) (partsP (Enum.partF_mem med6a_part4) (partsP (Enum.partF_mem med6a_part5) (partsP (Enum.partF_mem med6a_part6) (partsP (Enum.partF_mem med6a_part7) (partsP (Enum.partF_mem med6a_part8) (partsP (Enum.partF_mem med6a_part9) (partsP (Enum.partF_mem med6a_part10) (partsP (Enum.partF_mem med6a_part11) (partsP (Enum.partF_mem med6a_part12) (partsP (Enum.partF_mem med6a_part13) (partsP (Enum.partF_mem med6a_part14) (partsP (Enum.partF_mem med6a_part15) (partsP (Enum.partF_mem med6a_part16) (partsP (Enum.partF_mem med6a_part17) (partsP (Enum.partF_mem med6a_part18) (partsP (Enum.partF_mem med6a_part19) (partsP (Enum.partF_mem med6a_part20) (partsP (Enum.partF_mem med6a_part21) (partsP (Enum.partF_mem med6a_part22) (partsP (Enum.partF_mem med6a_part23) (partsP (Enum.partF_mem med6a_part24) (partsP (Enum.partF_mem med6a_part25) (partsP (Enum.partF_mem med6a_part26) (Enum.partF_mem med6a_part27)))))))))))))))))))))))))))

def med6a_l2_0 : List ℕ := [
  20, 24, 73800488057940869145, 20, 24, 73800488057940869145, 20, 24, 73800488057940869145, 20, 24, 73800488057940869145, 20, 24,
  73800488057940869145, 20, 24, 73800488057940869145, 20, 24, 73800488057940869145, 20, 24, 73800488057940869145, 20, 24, 73800488057940869145, 20,
  24, 73800488057940869145, 20, 24, 73800488057940869145, 20, 24, 73800488057940869145, 20, 24, 73800488057940869145, 20, 24, 73800488057940869145,
  20, 24, 73800488057940869145, 20, 24, 73800488057940869145, 20, 24, 73800488057940869145, 20, 24, 73800488057940869145, 20, 24,
  73800488057940869145, 20, 24, 73800488057940869145, 20, 24, 73800488057940869145, 20, 24, 73800488057940869145, 20, 24, 73800488057940869145, 20,
  24, 73800488057940869145, 20, 24, 73800488057940869145, 20, 24, 73800488057940869145, 20, 24, 73800488057940869145, 20, 24, 73800488057940869145,
  20, 24, 73800488057940869145, 20, 24, 73800488057940869145, 20, 24, 73800488057940869145, 20, 24, 73800488057940869145, 20, 24,
  73800488057940869145, 20, 24, 73800488057940869145, 20, 24, 73800488057940869145, 20, 24, 73800488057940869145, 20, 24, 73800488057940869145, 20,
  24, 73800488057940869145, 20, 24, 73800488057940869145, 20, 24, 73800488057940869145, 20, 24, 73800488057940869145, 20, 24, 73800488057940869145,
  20, 24, 73800488057940869145, 20, 24, 73800488057940869145, 20, 24, 73800488057940869145, 20, 24, 73800488057940869145, 20, 24,
  73800488057940869145, 20, 24, 73800488057940869145, 20, 24, 73800488057940869145, 20, 24, 73800488057940869145, 20, 24, 73800488057940869145, 20,
  24, 73800488057940869145, 20, 24, 73800488057940869145, 20, 24, 73800488057940869145, 20, 24, 73800488057940869145, 20, 24, 73800488057940869145,
  20, 24, 73800488057940869145, 20, 24, 73800488057940869145, 20, 24, 73800488057940869145, 20, 24, 73800488057940869145, 20, 24,
  73800488057940869145, 20, 24, 73800488057940869145, 20, 24, 73800488057940869145, 20, 24, 73800488057940869145, 20, 24, 73800488057940869145, 20,
  24, 73800488057940869145, 20, 24, 73800488057940869145, 20, 24, 73800488057940869145, 20, 24, 73800488057940869145, 20, 24, 73800488057940869145,
  20, 24, 73800488057940869145, 20, 24, 73800488057940869145, 20, 24, 73800488057940869145, 20, 24, 73800488057940869145, 20, 24,
  73800488057940869145, 20, 24, 73800488057940869145, 20, 24, 73800488057940869145, 20, 24, 73800488057940869145, 20, 24, 73800488057940869145, 20,
  24, 73800488057940869145, 20, 24, 73800488057940869145, 20, 24, 73800488057940869145, 20, 24, 73800488057940869145, 20, 24, 73800488057940869145,
  20, 24, 73800488057940869145, 20, 24, 73800488057940869145, 20, 24, 73800488057940869145, 20, 24, 73800488057940869145, 20, 24,
  73800488057940869145, 20, 24, 73800488057940869145, 20, 24, 73800488057940869145, 20, 24, 73800488057940869145, 20, 24, 73800488057940869145, 20,
  24, 73800488057940869145, 20, 24, 73800488057940869145, 20, 24, 73800488057940869145, 20, 24, 73800488057940869145, 20, 24, 73800488057940869145,
  20, 24, 73800488057940869145, 20, 24, 73800488057940869145]

theorem med6a_l2_run0 : run .l2 2 296 45 med6aEnv [] med6a_l2_0 (med6aPaths0.map fun P => ⟨[P], []⟩) = true := Run.run_one (by decide +kernel)

def med6a_l2_1 : List ℕ := [
  20, 24, 73800488057940869145, 20, 24, 73800488057940869145, 20, 24, 73800488057940869145, 20, 24, 73800488057940869145, 20, 24,
  73800488057940869145, 20, 24, 73800488057940869145, 20, 24, 73800488057940869145, 20, 24, 73800488057940869145, 20, 24, 73800488057940869145, 20,
  24, 73800488057940869145, 20, 24, 73800488057940869145, 20, 24, 73800488057940869145, 20, 24, 73800488057940869145, 20, 24, 73800488057940869145,
  20, 24, 73800488057940869145, 20, 24, 73800488057940869145, 20, 24, 73800488057940869145, 20, 24, 73800488057940869145, 20, 24,
  73800488057940869145, 20, 24, 73800488057940869145, 20, 24, 73800488057940869145, 20, 24, 73800488057940869145, 20, 24, 73800488057940869145, 20,
  24, 73800488057940869145, 20, 24, 73800488057940869145, 20, 24, 73800488057940869145, 20, 24, 73800488057940869145, 20, 24, 73800488057940869145,
  20, 24, 73800488057940869145, 20, 24, 73800488057940869145, 20, 24, 73800488057940869145, 20, 24, 73800488057940869145, 20, 24,
  73800488057940869145, 20, 24, 73800488057940869145, 20, 24, 73800488057940869145, 20, 24, 73800488057940869145, 20, 24, 73800488057940869145, 20,
  24, 73800488057940869145, 20, 24, 73800488057940869145, 20, 24, 73800488057940869145, 20, 24, 73800488057940869145, 20, 24, 73800488057940869145,
  20, 24, 73800488057940869145, 20, 24, 73800488057940869145, 20, 24, 73800488057940869145, 20, 24, 73800488057940869145, 20, 24,
  73800488057940869145, 20, 24, 73800488057940869145, 20, 24, 73800488057940869145, 20, 24, 73800488057940869145, 20, 24, 73800488057940869145, 20,
  24, 73800488057940869145, 20, 24, 73800488057940869145, 20, 24, 73800488057940869145, 20, 24, 73800488057940869145, 20, 32, 73800488332818776089,
  20, 32, 73800488332818776089, 20, 32, 73800488332818776089, 20, 32, 73800488332818776089, 20, 32, 73800488332818776089, 20, 32,
  73800488332818776089, 20, 24, 73800488057940869145, 20, 24, 73800488057940869145, 20, 24, 73800488057940869145, 20, 24, 73800488057940869145, 20,
  24, 73800488057940869145, 20, 24, 73800488057940869145, 20, 24, 73800488057940869145, 20, 24, 73800488057940869145, 20, 24, 73800488057940869145,
  20, 24, 73800488057940869145, 20, 24, 73800488057940869145, 20, 24, 73800488057940869145, 20, 24, 73800488057940869145, 20, 24,
  73800488057940869145, 20, 24, 73800488057940869145, 20, 24, 73800488057940869145, 20, 24, 73800488057940869145, 20, 24, 73800488057940869145, 20,
  24, 73800488057940869145, 20, 24, 73800488057940869145, 20, 24, 73800488057940869145, 20, 24, 73800488057940869145, 20, 24, 73800488057940869145,
  20, 24, 73800488057940869145, 20, 24, 73800488057940869145, 20, 24, 73800488057940869145, 20, 24, 73800488057940869145, 20, 24,
  73800488057940869145, 20, 24, 73800488057940869145, 20, 24, 73800488057940869145, 20, 24, 73800488057940869145, 20, 24, 73800488057940869145, 20,
  24, 73800488057940869145, 20, 24, 73800488057940869145, 20, 24, 73800488057940869145, 20, 24, 73800488057940869145, 20, 24, 73800488057940869145,
  20, 24, 73800488057940869145, 20, 24, 73800488057940869145]

theorem med6a_l2_run1 : run .l2 2 296 45 med6aEnv [] med6a_l2_1 (med6aPaths1.map fun P => ⟨[P], []⟩) = true := Run.run_one (by decide +kernel)

def med6a_l2_2 : List ℕ := [
  20, 24, 73800488057940869145, 20, 24, 73800488057940869145, 20, 24, 73800488057940869145, 20, 24, 73800488057940869145, 20, 24,
  73800488057940869145, 20, 24, 73800488057940869145, 20, 24, 73800488057940869145, 20, 24, 73800488057940869145, 20, 24, 73800488057940869145, 20,
  24, 73800488057940869145, 20, 24, 73800488057940869145, 20, 24, 73800488057940869145, 20, 24, 73800488057940869145, 20, 24, 73800488057940869145,
  20, 24, 73800488057940869145, 20, 24, 73800488057940869145, 20, 24, 73800488057940869145, 20, 24, 73800488057940869145, 20, 24,
  73800488057940869145, 20, 24, 73800488057940869145, 20, 24, 73800488057940869145, 20, 24, 73800488057940869145, 20, 24, 73800488057940869145, 20,
  24, 73800488057940869145, 20, 24, 73800488057940869145, 20, 24, 73800488057940869145, 20, 24, 73800488057940869145, 20, 24, 73800488057940869145,
  20, 24, 73800488057940869145, 20, 24, 73800488057940869145, 20, 24, 73800488057940869145, 20, 24, 73800488057940869145, 20, 24,
  73800488057940869145, 20, 24, 73800488057940869145, 20, 24, 73800488057940869145, 20, 24, 73800488057940869145, 20, 24, 73800488057940869145, 20,
  24, 73800488057940869145, 20, 24, 73800488057940869145, 20, 24, 73800488057940869145, 20, 24, 73800488057940869145, 20, 24, 73800488057940869145,
  20, 24, 73800488057940869145, 20, 24, 73800488057940869145, 20, 24, 73800488057940869145, 20, 24, 73800488057940869145, 20, 24,
  73800488057940869145, 20, 24, 73800488057940869145, 20, 24, 73800488057940869145, 20, 24, 73800488057940869145, 20, 24, 73800488057940869145, 20,
  24, 73800488057940869145, 20, 24, 73800488057940869145, 20, 24, 73800488057940869145, 20, 24, 73800488057940869145, 20, 24, 73800488057940869145,
  20, 24, 73800488057940869145, 20, 24, 73800488057940869145, 20, 24, 73800488057940869145, 20, 24, 73800488057940869145, 20, 24,
  73800488057940869145, 20, 24, 73800488057940869145, 20, 24, 73800488057940869145, 20, 24, 73800488057940869145, 20, 24, 73800488057940869145, 20,
  24, 73800488057940869145, 20, 24, 73800488057940869145, 20, 24, 73800488057940869145, 20, 24, 73800488057940869145, 20, 24, 73800488057940869145,
  20, 24, 73800488057940869145, 20, 24, 73800488057940869145, 20, 24, 73800488057940869145, 20, 24, 73800488057940869145, 20, 24,
  73800488057940869145, 20, 24, 73800488057940869145, 20, 24, 73800488057940869145, 20, 24, 73800488057940869145, 20, 24, 73800488057940869145, 20,
  24, 73800488057940869145, 20, 24, 73800488057940869145, 20, 24, 73800488057940869145, 20, 24, 73800488057940869145, 20, 24, 73800488057940869145,
  20, 24, 73800488057940869145, 20, 24, 73800488057940869145, 20, 24, 73800488057940869145, 20, 24, 73800488057940869145, 20, 24,
  73800488057940869145, 20, 24, 73800488057940869145, 20, 24, 73800488057940869145, 20, 24, 73800488057940869145, 20, 24, 73800488057940869145, 20,
  24, 73800488057940869145, 20, 24, 73800488057940869145, 20, 24, 73800488057940869145, 20, 24, 73800488057940869145, 20, 24, 73800488057940869145,
  20, 24, 73800488057940869145, 20, 24, 73800488057940869145]

theorem med6a_l2_run2 : run .l2 2 296 45 med6aEnv [] med6a_l2_2 (med6aPaths2.map fun P => ⟨[P], []⟩) = true := Run.run_one (by decide +kernel)

def med6a_l2_3 : List ℕ := [
  20, 24, 73800488057940869145, 20, 24, 73800488057940869145, 20, 24, 73800488057940869145, 20, 24, 73800488057940869145, 20, 24,
  73800488057940869145, 20, 24, 73800488057940869145, 20, 24, 73800488057940869145, 20, 24, 73800488057940869145, 20, 24, 73800488057940869145, 20,
  24, 73800488057940869145, 20, 24, 73800488057940869145, 20, 24, 73800488057940869145, 20, 24, 73800488057940869145, 20, 24, 73800488057940869145,
  20, 24, 73800488057940869145, 20, 24, 73800488057940869145, 20, 32, 73800488332818776089, 20, 32, 73800488332818776089, 20, 32,
  73800488332818776089, 20, 32, 73800488332818776089, 20, 32, 73800488332818776089, 20, 32, 73800488332818776089, 12, 16, 36893576659178883085, 12,
  16, 36893576659178883085, 12, 16, 36893576659178883085, 12, 16, 36893576659178883085, 44, 84, 73836518916545183793, 44, 84, 73836518916545183793,
  44, 84, 73836518916545183793, 44, 84, 73836518916545183793, 12, 16, 36893576659178883085, 12, 16, 36893576659178883085, 12, 16,
  36893576659178883085, 12, 16, 36893576659178883085, 44, 84, 73836518916545183793, 44, 84, 73836518916545183793, 44, 84, 73836518916545183793, 44,
  84, 73836518916545183793, 12, 16, 36893576659178883085, 12, 16, 36893576659178883085, 20, 24, 36893611843550972941, 8, 52, 56,
  1209442362278741800918029, 8, 52, 56, 1209442362278741800918029, 8, 52, 56, 1209442362278741800918029, 8, 52, 56, 1209442362278741800918029, 36,
  76, 73832015042039775273, 28, 32, 36893647852556783657, 28, 32, 36893647852556783657, 36, 76, 73832015042039775273, 28, 32, 36893647852556783657,
  28, 32, 36893647852556783657, 64, 68, 128, 1209589943514496533275269, 64, 68, 128, 1209589943514496533275269, 36, 76, 73832015042039775273, 28, 32,
  36893647852556783657, 28, 32, 36893647852556783657, 36, 76, 73832015042039775273, 28, 32, 36893647852556783657, 28, 32, 36893647852556783657, 36,
  40, 73809495806951686185, 36, 40, 73809495806951686185, 16, 20, 36893597687338764917, 16, 20, 36893597687338764917, 16, 20, 36893597687338764917,
  16, 20, 36893597687338764917, 28, 32, 73804991932446277665, 28, 32, 73804991932446277665, 28, 32, 73804991932446277665, 28, 32,
  73804991932446277665, 28, 32, 73804991932446277665, 28, 32, 73804991932446277665, 28, 32, 73804991932446277665, 28, 32, 73804991932446277665, 8,
  12, 36893562502966675061, 8, 12, 36893562502966675061, 8, 12, 36893562502966675061, 8, 12, 36893562502966675061, 20, 24, 73800488057940869145, 20,
  24, 73800488057940869145, 20, 24, 73800488057940869145, 20, 24, 73800488057940869145, 20, 24, 73800488057940869145, 20, 24, 73800488057940869145,
  20, 24, 73800488057940869145, 20, 24, 73800488057940869145, 20, 24, 73800488057940869145, 20, 24, 73800488057940869145, 20, 24,
  73800488057940869145, 20, 24, 73800488057940869145, 20, 24, 73800488057940869145, 20, 24, 73800488057940869145, 20, 24, 73800488057940869145, 20,
  24, 73800488057940869145, 20, 24, 73800488057940869145, 20, 24, 73800488057940869145, 20, 24, 73800488057940869145, 20, 24, 73800488057940869145,
  20, 24, 73800488057940869145]

theorem med6a_l2_run3 : run .l2 2 296 45 med6aEnv [] med6a_l2_3 (med6aPaths3.map fun P => ⟨[P], []⟩) = true := Run.run_one (by decide +kernel)

def med6a_l2_4 : List ℕ := [
  20, 24, 73800488057940869145, 20, 24, 73800488057940869145, 20, 24, 73800488057940869145, 20, 24, 73800488057940869145, 20, 24,
  73800488057940869145, 20, 24, 73800488057940869145, 20, 24, 73800488057940869145, 20, 24, 73800488057940869145, 20, 24, 73800488057940869145, 20,
  24, 73800488057940869145, 20, 24, 73800488057940869145, 20, 24, 73800488057940869145, 20, 24, 73800488057940869145, 20, 24, 73800488057940869145,
  20, 24, 73800488057940869145, 20, 24, 73800488057940869145, 20, 24, 73800488057940869145, 20, 24, 73800488057940869145, 20, 24,
  73800488057940869145, 20, 24, 73800488057940869145, 20, 24, 73800488057940869145, 20, 24, 73800488057940869145, 20, 24, 73800488057940869145, 20,
  24, 73800488057940869145, 20, 24, 73800488057940869145, 20, 24, 73800488057940869145, 20, 24, 73800488057940869145, 20, 24, 73800488057940869145,
  20, 24, 73800488057940869145, 20, 24, 73800488057940869145, 20, 24, 73800488057940869145, 20, 24, 73800488057940869145, 20, 24,
  73800488057940869145, 20, 24, 73800488057940869145, 20, 24, 73800488057940869145, 20, 24, 73800488057940869145, 20, 24, 73800488057940869145, 20,
  24, 73800488057940869145, 20, 24, 73800488057940869145, 20, 24, 73800488057940869145, 20, 24, 73800488057940869145, 20, 24, 73800488057940869145,
  20, 24, 73800488057940869145, 20, 24, 73800488057940869145, 20, 24, 73800488057940869145, 20, 24, 73800488057940869145, 20, 24,
  73800488057940869145, 20, 24, 73800488057940869145, 20, 24, 73800488057940869145, 20, 24, 73800488057940869145, 20, 24, 73800488057940869145, 20,
  24, 73800488057940869145, 20, 24, 73800488057940869145, 20, 24, 73800488057940869145, 20, 24, 73800488057940869145, 20, 24, 73800488057940869145,
  20, 24, 73800488057940869145, 20, 24, 73800488057940869145, 20, 24, 73800488057940869145, 20, 24, 73800488057940869145, 20, 24,
  73800488057940869145, 20, 24, 73800488057940869145, 20, 24, 73800488057940869145, 20, 24, 73800488057940869145, 20, 24, 73800488057940869145, 20,
  24, 73800488057940869145, 20, 24, 73800488057940869145, 20, 24, 73800488057940869145, 20, 24, 73800488057940869145, 20, 24, 73800488057940869145,
  20, 24, 73800488057940869145, 20, 24, 73800488057940869145, 20, 24, 73800488057940869145, 20, 24, 73800488057940869145, 20, 24,
  73800488057940869145, 20, 24, 73800488057940869145, 20, 24, 73800488057940869145, 20, 24, 73800488057940869145, 20, 24, 73800488057940869145, 20,
  24, 73800488057940869145, 20, 24, 73800488057940869145, 20, 24, 73800488057940869145, 20, 24, 73800488057940869145, 20, 24, 73800488057940869145,
  20, 24, 73800488057940869145, 20, 24, 73800488057940869145, 20, 24, 73800488057940869145, 20, 24, 73800488057940869145, 20, 24,
  73800488057940869145, 20, 24, 73800488057940869145, 20, 24, 73800488057940869145, 20, 24, 73800488057940869145, 20, 24, 73800488057940869145, 20,
  24, 73800488057940869145, 20, 24, 73800488057940869145, 20, 24, 73800488057940869145, 20, 24, 73800488057940869145, 20, 24, 73800488057940869145,
  20, 24, 73800488057940869145, 20, 24, 73800488057940869145]

theorem med6a_l2_run4 : run .l2 2 296 45 med6aEnv [] med6a_l2_4 (med6aPaths4.map fun P => ⟨[P], []⟩) = true := Run.run_one (by decide +kernel)

def med6a_l2_5 : List ℕ := [
  20, 24, 73800488057940869145, 20, 24, 73800488057940869145, 20, 24, 73800488057940869145, 20, 24, 73800488057940869145, 20, 24,
  73800488057940869145, 20, 24, 73800488057940869145, 20, 24, 73800488057940869145, 20, 24, 73800488057940869145, 20, 24, 73800488057940869145, 20,
  24, 73800488057940869145, 20, 24, 73800488057940869145, 20, 24, 73800488057940869145, 20, 24, 73800488057940869145, 20, 24, 73800488057940869145,
  20, 24, 73800488057940869145, 20, 24, 73800488057940869145, 20, 24, 73800488057940869145, 20, 24, 73800488057940869145, 20, 24,
  73800488057940869145, 20, 24, 73800488057940869145, 20, 24, 73800488057940869145, 20, 24, 73800488057940869145, 20, 24, 73800488057940869145, 20,
  24, 73800488057940869145, 20, 24, 73800488057940869145, 20, 24, 73800488057940869145, 20, 24, 73800488057940869145, 20, 24, 73800488057940869145,
  20, 24, 73800488057940869145, 20, 24, 73800488057940869145, 20, 24, 73800488057940869145, 20, 24, 73800488057940869145, 20, 24,
  73800488057940869145, 20, 24, 73800488057940869145, 20, 32, 73800488332818776089, 20, 32, 73800488332818776089, 20, 32, 73800488332818776089, 20,
  32, 73800488332818776089, 20, 32, 73800488332818776089, 20, 32, 73800488332818776089, 20, 24, 73800488057940869145, 20, 24, 73800488057940869145,
  20, 24, 73800488057940869145, 20, 24, 73800488057940869145, 20, 24, 73800488057940869145, 20, 24, 73800488057940869145, 20, 24,
  73800488057940869145, 20, 24, 73800488057940869145, 20, 24, 73800488057940869145, 20, 24, 73800488057940869145, 20, 24, 73800488057940869145, 20,
  24, 73800488057940869145, 20, 24, 73800488057940869145, 20, 24, 73800488057940869145, 20, 24, 73800488057940869145, 20, 24, 73800488057940869145,
  20, 24, 73800488057940869145, 20, 24, 73800488057940869145, 20, 24, 73800488057940869145, 20, 24, 73800488057940869145, 20, 24,
  73800488057940869145, 20, 24, 73800488057940869145, 20, 24, 73800488057940869145, 20, 24, 73800488057940869145, 20, 24, 73800488057940869145, 20,
  24, 73800488057940869145, 20, 24, 73800488057940869145, 20, 24, 73800488057940869145, 20, 24, 73800488057940869145, 20, 24, 73800488057940869145,
  20, 24, 73800488057940869145, 20, 24, 73800488057940869145, 20, 24, 73800488057940869145, 20, 24, 73800488057940869145, 20, 24,
  73800488057940869145, 20, 24, 73800488057940869145, 20, 24, 73800488057940869145, 20, 24, 73800488057940869145, 20, 24, 73800488057940869145, 20,
  24, 73800488057940869145, 20, 24, 73800488057940869145, 20, 24, 73800488057940869145, 20, 24, 73800488057940869145, 20, 24, 73800488057940869145,
  20, 24, 73800488057940869145, 20, 24, 73800488057940869145, 20, 24, 73800488057940869145, 20, 24, 73800488057940869145, 20, 24,
  73800488057940869145, 20, 24, 73800488057940869145, 20, 24, 73800488057940869145, 20, 24, 73800488057940869145, 20, 24, 73800488057940869145, 20,
  24, 73800488057940869145, 20, 24, 73800488057940869145, 20, 24, 73800488057940869145, 20, 24, 73800488057940869145, 20, 24, 73800488057940869145,
  20, 24, 73800488057940869145, 20, 24, 73800488057940869145]

theorem med6a_l2_run5 : run .l2 2 296 45 med6aEnv [] med6a_l2_5 (med6aPaths5.map fun P => ⟨[P], []⟩) = true := Run.run_one (by decide +kernel)

def med6a_l2_6 : List ℕ := [
  20, 24, 73800488057940869145, 20, 24, 73800488057940869145, 20, 24, 73800488057940869145, 20, 24, 73800488057940869145, 20, 24,
  73800488057940869145, 20, 24, 73800488057940869145, 20, 24, 73800488057940869145, 20, 24, 73800488057940869145, 20, 24, 73800488057940869145, 20,
  24, 73800488057940869145, 20, 24, 73800488057940869145, 20, 24, 73800488057940869145, 20, 24, 73800488057940869145, 20, 24, 73800488057940869145,
  20, 24, 73800488057940869145, 20, 24, 73800488057940869145, 20, 24, 73800488057940869145, 20, 24, 73800488057940869145, 20, 24,
  73800488057940869145, 20, 24, 73800488057940869145, 20, 24, 73800488057940869145, 20, 24, 73800488057940869145, 20, 24, 73800488057940869145, 20,
  24, 73800488057940869145, 20, 24, 73800488057940869145, 20, 24, 73800488057940869145, 20, 24, 73800488057940869145, 20, 24, 73800488057940869145,
  20, 24, 73800488057940869145, 20, 24, 73800488057940869145, 20, 24, 73800488057940869145, 20, 24, 73800488057940869145, 20, 24,
  73800488057940869145, 20, 24, 73800488057940869145, 20, 24, 73800488057940869145, 20, 24, 73800488057940869145, 20, 24, 73800488057940869145, 20,
  24, 73800488057940869145, 20, 24, 73800488057940869145, 20, 24, 73800488057940869145, 20, 24, 73800488057940869145, 20, 24, 73800488057940869145,
  20, 24, 73800488057940869145, 20, 24, 73800488057940869145, 20, 24, 73800488057940869145, 20, 24, 73800488057940869145, 20, 24,
  73800488057940869145, 20, 24, 73800488057940869145, 20, 24, 73800488057940869145, 20, 24, 73800488057940869145, 20, 24, 73800488057940869145, 20,
  24, 73800488057940869145, 20, 24, 73800488057940869145, 20, 24, 73800488057940869145, 20, 24, 73800488057940869145, 20, 24, 73800488057940869145,
  20, 24, 73800488057940869145, 20, 24, 73800488057940869145, 20, 24, 73800488057940869145, 20, 24, 73800488057940869145, 20, 24,
  73800488057940869145, 20, 24, 73800488057940869145, 20, 24, 73800488057940869145, 20, 24, 73800488057940869145, 20, 24, 73800488057940869145, 20,
  24, 73800488057940869145, 20, 24, 73800488057940869145, 20, 24, 73800488057940869145, 20, 24, 73800488057940869145, 20, 24, 73800488057940869145,
  20, 24, 73800488057940869145, 20, 24, 73800488057940869145, 20, 24, 73800488057940869145, 20, 24, 73800488057940869145, 20, 24,
  73800488057940869145, 20, 24, 73800488057940869145, 20, 24, 73800488057940869145, 20, 24, 73800488057940869145, 20, 24, 73800488057940869145, 20,
  24, 73800488057940869145, 20, 24, 73800488057940869145, 20, 24, 73800488057940869145, 20, 24, 73800488057940869145, 20, 24, 73800488057940869145,
  20, 24, 73800488057940869145, 20, 24, 73800488057940869145, 20, 24, 73800488057940869145, 20, 24, 73800488057940869145, 20, 24,
  73800488057940869145, 20, 24, 73800488057940869145, 20, 24, 73800488057940869145, 20, 24, 73800488057940869145, 20, 24, 73800488057940869145, 20,
  24, 73800488057940869145, 20, 24, 73800488057940869145, 20, 32, 73800488332818776089, 20, 32, 73800488332818776089, 20, 32, 73800488332818776089,
  20, 32, 73800488332818776089, 20, 32, 73800488332818776089]

theorem med6a_l2_run6 : run .l2 2 296 45 med6aEnv [] med6a_l2_6 (med6aPaths6.map fun P => ⟨[P], []⟩) = true := Run.run_one (by decide +kernel)

def med6a_l2_7 : List ℕ := [
  20, 32, 73800488332818776089, 12, 16, 36893576659178883085, 12, 16, 36893576659178883085, 12, 16, 36893576659178883085, 12, 16,
  36893576659178883085, 44, 84, 73836518916545183793, 44, 84, 73836518916545183793, 44, 84, 73836518916545183793, 44, 84, 73836518916545183793, 12,
  16, 36893576659178883085, 12, 16, 36893576659178883085, 12, 16, 36893576659178883085, 12, 16, 36893576659178883085, 44, 84, 73836518916545183793,
  44, 84, 73836518916545183793, 44, 84, 73836518916545183793, 44, 84, 73836518916545183793, 12, 16, 36893576659178883085, 12, 16,
  36893576659178883085, 20, 24, 36893611843550972941, 48, 52, 132, 1209442360572299754609289, 48, 52, 132, 1209442360572299754609289, 52, 128, 132,
  1209442405608296028324489, 52, 128, 132, 1209442405608296028324489, 56, 60, 132, 1209516152052194236964489, 56, 60, 132, 1209516152052194236964489,
  60, 128, 132, 1209516192584590883308169, 60, 128, 132, 1209516192584590883308169, 40, 44, 132, 1209368569092405272254089, 40, 44, 132,
  1209368569092405272254089, 44, 128, 132, 1209368618632001173340809, 44, 128, 132, 1209368618632001173340809, 60, 128, 132,
  1209516192584590883308169, 60, 128, 132, 1209516192584590883308169, 48, 52, 132, 1209442360572299754609289, 48, 52, 132, 1209442360572299754609289,
  52, 128, 132, 1209442405608296028324489, 52, 128, 132, 1209442405608296028324489, 56, 60, 132, 1209516152052194236964489, 56, 60, 132,
  1209516152052194236964489, 60, 128, 132, 1209516192584590883308169, 60, 128, 132, 1209516192584590883308169, 20, 24, 36893612393306786841, 20, 24,
  36893612393306786841, 20, 24, 36893612393306786841, 20, 24, 36893612393306786841, 20, 24, 36893612393306786841, 20, 24, 36893612393306786841, 20,
  24, 36893612393306786841, 20, 24, 36893612393306786841, 20, 24, 36893612393306786841, 20, 24, 36893612393306786841, 20, 24, 36893612393306786841,
  20, 24, 36893612393306786841, 64, 68, 128, 1209589943514496533275269, 68, 104, 128, 73827513229118668909, 20, 24, 36893612393306786841, 20, 24,
  36893612393306786841, 20, 24, 36893612393306786841, 20, 24, 36893612393306786841, 20, 24, 36893612393306786841, 20, 24, 36893612393306786841, 20,
  24, 36893612393306786841, 20, 24, 36893612393306786841, 20, 24, 36893612393306786841, 20, 24, 36893612393306786841, 20, 24, 36893612393306786841,
  20, 24, 36893612393306786841, 36, 40, 73809495806951686185, 36, 40, 73809495806951686185, 36, 40, 73809495806951686185, 36, 40,
  73809495806951686185, 36, 40, 73809495806951686185, 36, 40, 73809495806951686185, 36, 40, 73809495806951686185, 36, 40, 73809495806951686185, 36,
  40, 73809495806951686185, 36, 40, 73809495806951686185, 36, 40, 73809495806951686185, 36, 40, 73809495806951686185, 36, 40, 73809495806951686185,
  36, 40, 73809495806951686185, 36, 40, 73809495806951686185, 36, 40, 73809495806951686185, 36, 40, 73809495806951686185, 36, 40,
  73809495806951686185, 36, 40, 73809495806951686185, 36, 40, 73809495806951686185, 60, 128, 132, 1209516192584590883308169, 60, 128, 132,
  1209516192584590883308169, 48, 52, 132, 1209442360572299754609289]

theorem med6a_l2_run7 : run .l2 2 296 45 med6aEnv [] med6a_l2_7 (med6aPaths7.map fun P => ⟨[P], []⟩) = true := Run.run_one (by decide +kernel)

def med6a_l2_8 : List ℕ := [
  48, 52, 132, 1209442360572299754609289, 40, 44, 132, 1209368569092405272254089, 40, 44, 132, 1209368569092405272254089, 136, 140,
  604473367271339899176985, 136, 140, 604473367271339899176985, 136, 140, 604473367271339899176985, 136, 140, 604473367271339899176985, 136, 140,
  604473367271339899176981, 136, 140, 604473367271339899176981, 136, 140, 604473367271339899176981, 136, 140, 604473367271339899176981, 136, 140,
  604473367271339899176985, 136, 140, 604473367271339899176985, 136, 140, 604473367271339899176985, 136, 140, 604473367271339899176985, 136, 140,
  604473367271339899176977, 136, 140, 604473367271339899176977, 136, 140, 604473367271339899176977, 136, 140, 604473367271339899176977, 20, 60,
  73823007293028958233, 20, 60, 73823007293028958233, 20, 60, 73823007293028958233, 20, 60, 73823007293028958233, 20, 60, 73823007293028958233, 20,
  60, 73823007293028958233, 20, 60, 73823007293028958233, 20, 60, 73823007293028958233, 20, 60, 73823007293028958233, 20, 60, 73823007293028958233,
  20, 60, 73823007293028958233, 20, 60, 73823007293028958233, 20, 60, 73823007293028958233, 20, 60, 73823007293028958233, 20, 60,
  73823007293028958233, 20, 60, 73823007293028958233, 20, 60, 73823007293028958233, 20, 60, 73823007293028958233, 20, 60, 73823007293028958233, 20,
  60, 73823007293028958233, 0, 84, 288231202934358021, 0, 76, 288231202934226949, 0, 84, 288231202934358021, 0, 84, 288231202934358021, 0, 4,
  36893527730911445633, 0, 4, 36893527730911445633, 0, 4, 36893527730911445633, 0, 4, 36893527730911445633, 0, 84, 288231202934358021, 0, 84,
  288231202934358021, 20, 60, 73823007293028958233, 20, 60, 73823007293028958233, 20, 60, 73823007293028958233, 20, 60, 73823007293028958233, 20, 60,
  73823007293028958233, 20, 60, 73823007293028958233, 20, 60, 73823007293028958233, 20, 60, 73823007293028958233, 20, 60, 73823007293028958233, 20,
  60, 73823007293028958233, 20, 60, 73823007293028958233, 20, 60, 73823007293028958233, 20, 60, 73823007293028958233, 20, 60, 73823007293028958233,
  20, 60, 73823007293028958233, 20, 60, 73823007293028958233, 20, 60, 73823007293028958233, 20, 60, 73823007293028958233, 20, 60,
  73823007293028958233, 20, 60, 73823007293028958233, 0, 84, 288231202934358021, 0, 76, 288231202934226949, 0, 84, 288231202934358021, 0, 84,
  288231202934358021, 0, 4, 36893527730911445633, 0, 4, 36893527730911445633, 0, 4, 36893527730911445633, 0, 4, 36893527730911445633, 0, 84,
  288231202934358021, 0, 84, 288231202934358021, 0, 76, 288231202934226949, 0, 76, 288231202934226949, 0, 84, 288231202934358021, 0, 84,
  288231202934358021, 0, 84, 288231202934358021, 0, 84, 288231202934358021, 0, 84, 288231202934358021, 20, 60, 73823007293028958233, 20, 60,
  73823007293028958233, 20, 60, 73823007293028958233, 20, 60, 73823007293028958233, 20, 60, 73823007293028958233, 20, 60, 73823007293028958233, 20,
  60, 73823007293028958233, 20, 60, 73823007293028958233, 20, 60, 73823007293028958233, 20, 60, 73823007293028958233, 20, 60, 73823007293028958233,
  20, 60, 73823007293028958233, 20, 60, 73823007293028958233]

theorem med6a_l2_run8 : run .l2 2 296 45 med6aEnv [] med6a_l2_8 (med6aPaths8.map fun P => ⟨[P], []⟩) = true := Run.run_one (by decide +kernel)

def med6a_l2_9 : List ℕ := [
  20, 60, 73823007293028958233, 20, 60, 73823007293028958233, 20, 60, 73823007293028958233, 20, 60, 73823007293028958233, 20, 60,
  73823007293028958233, 20, 60, 73823007293028958233, 20, 60, 73823007293028958233, 0, 84, 288231202934358021, 0, 76, 288231202934226949, 0, 84,
  288231202934358021, 0, 84, 288231202934358021, 0, 4, 36893527730911445633, 0, 4, 36893527730911445633, 0, 4, 36893527730911445633, 0, 4,
  36893527730911445633, 0, 84, 288231202934358021, 0, 84, 288231202934358021, 20, 60, 73823007293028958233, 20, 60, 73823007293028958233, 20, 60,
  73823007293028958233, 20, 60, 73823007293028958233, 20, 60, 73823007293028958233, 20, 60, 73823007293028958233, 20, 60, 73823007293028958233, 20,
  60, 73823007293028958233, 20, 60, 73823007293028958233, 20, 60, 73823007293028958233, 20, 60, 73823007293028958233, 20, 60, 73823007293028958233,
  20, 60, 73823007293028958233, 20, 60, 73823007293028958233, 20, 60, 73823007293028958233, 20, 60, 73823007293028958233, 20, 60,
  73823007293028958233, 20, 60, 73823007293028958233, 20, 60, 73823007293028958233, 20, 60, 73823007293028958233, 0, 84, 288231202934358021, 0, 76,
  288231202934226949, 0, 84, 288231202934358021, 0, 84, 288231202934358021, 0, 4, 36893527730911445633, 0, 4, 36893527730911445633, 0, 4,
  36893527730911445633, 0, 4, 36893527730911445633, 0, 84, 288231202934358021, 0, 84, 288231202934358021, 0, 76, 288231202934226949, 0, 76,
  288231202934226949, 0, 84, 288231202934358021, 0, 84, 288231202934358021, 0, 84, 288231202934358021, 0, 84, 288231202934358021, 4, 8,
  36893541474806793229, 4, 8, 36893541474806793229, 4, 8, 36893541474806793229, 4, 8, 36893541474806793229, 4, 8, 36893541474806793229, 4, 8,
  36893541474806793229, 4, 8, 36893541474806793229, 4, 8, 36893541474806793229, 4, 8, 36893541474806793229, 4, 8, 36893541474806793229, 4, 8,
  36893541474806793229, 4, 8, 36893541474806793229, 4, 8, 36893541474806793229, 4, 8, 36893541474806793229, 4, 8, 36893541474806793229, 4, 8,
  36893541474806793229, 4, 8, 36893541474806793229, 4, 8, 36893541474806793229, 4, 8, 36893541474806793229, 4, 8, 36893541474806793229, 4, 8,
  36893541474806793229, 4, 8, 36893541474806793229, 4, 8, 36893541474806793229, 4, 8, 36893541474806793229, 4, 8, 36893541474806793229, 4, 8,
  36893541474806793229, 4, 8, 36893541474806793229, 4, 8, 36893541474806793229, 4, 8, 36893541474806793229, 4, 8, 36893541474806793229, 4, 8,
  36893541474806793229, 20, 60, 73823007293028958233, 20, 60, 73823007293028958233, 20, 60, 73823007293028958233, 20, 60, 73823007293028958233, 20,
  60, 73823007293028958233, 20, 60, 73823007293028958233, 20, 60, 73823007293028958233, 20, 60, 73823007293028958233, 20, 60, 73823007293028958233,
  20, 60, 73823007293028958233, 20, 60, 73823007293028958233, 20, 60, 73823007293028958233, 20, 60, 73823007293028958233, 20, 60,
  73823007293028958233, 20, 60, 73823007293028958233, 20, 60, 73823007293028958233]

theorem med6a_l2_run9 : run .l2 2 296 45 med6aEnv [] med6a_l2_9 (med6aPaths9.map fun P => ⟨[P], []⟩) = true := Run.run_one (by decide +kernel)

def med6a_l2_10 : List ℕ := [
  20, 60, 73823007293028958233, 20, 60, 73823007293028958233, 20, 60, 73823007293028958233, 20, 60, 73823007293028958233, 0, 84, 288231202934358021,
  0, 76, 288231202934226949, 0, 84, 288231202934358021, 0, 84, 288231202934358021, 0, 4, 36893527730911445633, 0, 4, 36893527730911445633, 0, 4,
  36893527730911445633, 0, 4, 36893527730911445633, 0, 84, 288231202934358021, 0, 84, 288231202934358021, 20, 60, 73823007293028958233, 20, 60,
  73823007293028958233, 20, 60, 73823007293028958233, 20, 60, 73823007293028958233, 20, 60, 73823007293028958233, 20, 60, 73823007293028958233, 20,
  60, 73823007293028958233, 20, 60, 73823007293028958233, 20, 60, 73823007293028958233, 20, 60, 73823007293028958233, 20, 60, 73823007293028958233,
  20, 60, 73823007293028958233, 20, 60, 73823007293028958233, 20, 60, 73823007293028958233, 20, 60, 73823007293028958233, 20, 60,
  73823007293028958233, 20, 60, 73823007293028958233, 20, 60, 73823007293028958233, 20, 60, 73823007293028958233, 20, 60, 73823007293028958233, 0,
  84, 288231202934358021, 0, 76, 288231202934226949, 0, 84, 288231202934358021, 0, 84, 288231202934358021, 0, 4, 36893527730911445633, 0, 4,
  36893527730911445633, 0, 4, 36893527730911445633, 0, 4, 36893527730911445633, 0, 84, 288231202934358021, 0, 84, 288231202934358021, 0, 76,
  288231202934226949, 0, 76, 288231202934226949, 0, 84, 288231202934358021, 0, 84, 288231202934358021, 0, 84, 288231202934358021, 0, 84,
  288231202934358021, 0, 84, 288231202934358021, 20, 60, 73823007293028958233, 20, 60, 73823007293028958233, 20, 60, 73823007293028958233, 20, 60,
  73823007293028958233, 20, 60, 73823007293028958233, 20, 60, 73823007293028958233, 20, 60, 73823007293028958233, 20, 60, 73823007293028958233, 20,
  60, 73823007293028958233, 20, 60, 73823007293028958233, 20, 60, 73823007293028958233, 20, 60, 73823007293028958233, 20, 60, 73823007293028958233,
  20, 60, 73823007293028958233, 20, 60, 73823007293028958233, 20, 60, 73823007293028958233, 20, 60, 73823007293028958233, 20, 60,
  73823007293028958233, 20, 60, 73823007293028958233, 20, 60, 73823007293028958233, 0, 84, 288231202934358021, 0, 76, 288231202934226949, 0, 84,
  288231202934358021, 0, 84, 288231202934358021, 0, 4, 36893527730911445633, 0, 4, 36893527730911445633, 0, 4, 36893527730911445633, 0, 4,
  36893527730911445633, 0, 84, 288231202934358021, 0, 84, 288231202934358021, 20, 60, 73823007293028958233, 20, 60, 73823007293028958233, 20, 60,
  73823007293028958233, 20, 60, 73823007293028958233, 20, 60, 73823007293028958233, 20, 60, 73823007293028958233, 20, 60, 73823007293028958233, 20,
  60, 73823007293028958233, 20, 60, 73823007293028958233, 20, 60, 73823007293028958233, 20, 60, 73823007293028958233, 20, 60, 73823007293028958233,
  20, 60, 73823007293028958233, 20, 60, 73823007293028958233, 20, 60, 73823007293028958233, 20, 60, 73823007293028958233, 20, 60,
  73823007293028958233, 20, 60, 73823007293028958233, 20, 60, 73823007293028958233]

theorem med6a_l2_run10 : run .l2 2 296 45 med6aEnv [] med6a_l2_10 (med6aPaths10.map fun P => ⟨[P], []⟩) = true := Run.run_one (by decide +kernel)

def med6a_l2_11 : List ℕ := [
  20, 60, 73823007293028958233, 0, 84, 288231202934358021, 0, 76, 288231202934226949, 0, 84, 288231202934358021, 0, 84, 288231202934358021, 0, 4,
  36893527730911445633, 0, 4, 36893527730911445633, 0, 4, 36893527730911445633, 0, 4, 36893527730911445633, 0, 84, 288231202934358021, 0, 84,
  288231202934358021, 0, 76, 288231202934226949, 0, 76, 288231202934226949, 0, 84, 288231202934358021, 0, 84, 288231202934358021, 0, 84,
  288231202934358021, 0, 84, 288231202934358021, 28, 32, 73804991932446277665, 28, 32, 73804991932446277665, 28, 32, 73804991932446277665, 28, 32,
  73804991932446277665, 28, 32, 73804991932446277665, 28, 32, 73804991932446277665, 28, 32, 73804991932446277665, 28, 32, 73804991932446277665, 28,
  32, 73804991932446277665, 28, 32, 73804991932446277665, 28, 32, 73804991932446277665, 28, 32, 73804991932446277665, 28, 32, 73804991932446277665,
  28, 32, 73804991932446277665, 28, 32, 73804991932446277665, 28, 32, 73804991932446277665, 28, 32, 73804991932446277665, 28, 32,
  73804991932446277665, 28, 32, 73804991932446277665, 28, 32, 73804991932446277665, 28, 32, 73804991932446277665, 28, 32, 73804991932446277665, 28,
  32, 73804991932446277665, 28, 32, 73804991932446277665, 28, 32, 73804991932446277665, 28, 32, 73804991932446277665, 28, 32, 73804991932446277665,
  28, 32, 73804991932446277665, 28, 32, 73804991932446277665, 28, 32, 73804991932446277665, 28, 32, 73804991932446277665, 28, 32,
  73804991932446277665, 28, 32, 73804991932446277665, 28, 32, 73804991932446277665, 28, 32, 73804991932446277665, 28, 32, 73804991932446277665, 28,
  32, 73804991932446277665, 28, 32, 73804991932446277665, 28, 32, 73804991932446277665, 28, 32, 73804991932446277665, 52, 128, 132,
  1209442405608296028324489, 52, 128, 132, 1209442405608296028324489, 40, 44, 132, 1209368569092405272254089, 40, 44, 132, 1209368569092405272254089,
  0, 4, 36893527456033538681, 0, 4, 36893527456033538681, 0, 4, 36893527456033538681, 0, 4, 36893527456033538681, 36, 40, 73809495806951686185, 36,
  40, 73809495806951686185, 36, 40, 73809495806951686185, 36, 40, 73809495806951686185, 36, 40, 73809495806951686185, 36, 40, 73809495806951686185,
  36, 40, 73809495806951686185, 36, 40, 73809495806951686185, 36, 40, 73809495806951686185, 36, 40, 73809495806951686185, 36, 40,
  73809495806951686185, 36, 40, 73809495806951686185, 36, 40, 73809495806951686185, 36, 40, 73809495806951686185, 36, 40, 73809495806951686185, 36,
  40, 73809495806951686185, 44, 84, 73836518916545183793, 44, 84, 73836518916545183793, 64, 68, 128, 1209589943514496533275269, 64, 68, 128,
  1209589943514496533275269, 44, 84, 73836518916545183793, 44, 84, 73836518916545183793, 0, 4, 36893527456033538681, 0, 4, 36893527456033538681, 0,
  4, 36893527456033538681, 0, 4, 36893527456033538681, 20, 60, 73823007293028958233, 20, 60, 73823007293028958233, 20, 60, 73823007293028958233, 20,
  60, 73823007293028958233, 20, 60, 73823007293028958233, 20, 60, 73823007293028958233, 20, 60, 73823007293028958233]

theorem med6a_l2_run11 : run .l2 2 296 45 med6aEnv [] med6a_l2_11 (med6aPaths11.map fun P => ⟨[P], []⟩) = true := Run.run_one (by decide +kernel)

def med6a_l2_12 : List ℕ := [
  20, 60, 73823007293028958233, 20, 60, 73823007293028958233, 20, 60, 73823007293028958233, 20, 60, 73823007293028958233, 20, 60,
  73823007293028958233, 20, 60, 73823007293028958233, 20, 60, 73823007293028958233, 20, 60, 73823007293028958233, 20, 60, 73823007293028958233, 20,
  60, 73823007293028958233, 20, 60, 73823007293028958233, 20, 60, 73823007293028958233, 20, 60, 73823007293028958233, 0, 84, 288231202934358021, 0,
  76, 288231202934226949, 0, 84, 288231202934358021, 0, 84, 288231202934358021, 0, 4, 36893527730911445633, 0, 4, 36893527730911445633, 0, 4,
  36893527730911445633, 0, 4, 36893527730911445633, 0, 84, 288231202934358021, 0, 84, 288231202934358021, 20, 60, 73823007293028958233, 20, 60,
  73823007293028958233, 20, 60, 73823007293028958233, 20, 60, 73823007293028958233, 20, 60, 73823007293028958233, 20, 60, 73823007293028958233, 20,
  60, 73823007293028958233, 20, 60, 73823007293028958233, 20, 60, 73823007293028958233, 20, 60, 73823007293028958233, 20, 60, 73823007293028958233,
  20, 60, 73823007293028958233, 20, 60, 73823007293028958233, 20, 60, 73823007293028958233, 20, 60, 73823007293028958233, 20, 60,
  73823007293028958233, 20, 60, 73823007293028958233, 20, 60, 73823007293028958233, 20, 60, 73823007293028958233, 20, 60, 73823007293028958233, 0,
  84, 288231202934358021, 0, 76, 288231202934226949, 0, 84, 288231202934358021, 0, 84, 288231202934358021, 0, 4, 36893527730911445633, 0, 4,
  36893527730911445633, 0, 4, 36893527730911445633, 0, 4, 36893527730911445633, 0, 84, 288231202934358021, 0, 84, 288231202934358021, 0, 76,
  288231202934226949, 0, 76, 288231202934226949, 0, 84, 288231202934358021, 0, 84, 288231202934358021, 0, 84, 288231202934358021, 0, 84,
  288231202934358021, 0, 84, 288231202934358021, 20, 60, 73823007293028958233, 20, 60, 73823007293028958233, 20, 60, 73823007293028958233, 20, 60,
  73823007293028958233, 20, 60, 73823007293028958233, 20, 60, 73823007293028958233, 20, 60, 73823007293028958233, 20, 60, 73823007293028958233, 20,
  60, 73823007293028958233, 20, 60, 73823007293028958233, 20, 60, 73823007293028958233, 20, 60, 73823007293028958233, 20, 60, 73823007293028958233,
  20, 60, 73823007293028958233, 20, 60, 73823007293028958233, 20, 60, 73823007293028958233, 20, 60, 73823007293028958233, 20, 60,
  73823007293028958233, 20, 60, 73823007293028958233, 20, 60, 73823007293028958233, 0, 84, 288231202934358021, 0, 76, 288231202934226949, 0, 84,
  288231202934358021, 0, 84, 288231202934358021, 0, 4, 36893527730911445633, 0, 4, 36893527730911445633, 0, 4, 36893527730911445633, 0, 4,
  36893527730911445633, 0, 84, 288231202934358021, 0, 84, 288231202934358021, 20, 60, 73823007293028958233, 20, 60, 73823007293028958233, 20, 60,
  73823007293028958233, 20, 60, 73823007293028958233, 20, 60, 73823007293028958233, 20, 60, 73823007293028958233, 20, 60, 73823007293028958233, 20,
  60, 73823007293028958233, 20, 60, 73823007293028958233, 20, 60, 73823007293028958233]

theorem med6a_l2_run12 : run .l2 2 296 45 med6aEnv [] med6a_l2_12 (med6aPaths12.map fun P => ⟨[P], []⟩) = true := Run.run_one (by decide +kernel)

def med6a_l2_13 : List ℕ := [
  20, 60, 73823007293028958233, 20, 60, 73823007293028958233, 20, 60, 73823007293028958233, 20, 60, 73823007293028958233, 20, 60,
  73823007293028958233, 20, 60, 73823007293028958233, 20, 60, 73823007293028958233, 20, 60, 73823007293028958233, 20, 60, 73823007293028958233, 20,
  60, 73823007293028958233, 0, 84, 288231202934358021, 0, 76, 288231202934226949, 0, 84, 288231202934358021, 0, 84, 288231202934358021, 0, 4,
  36893527730911445633, 0, 4, 36893527730911445633, 0, 4, 36893527730911445633, 0, 4, 36893527730911445633, 0, 84, 288231202934358021, 0, 84,
  288231202934358021, 0, 76, 288231202934226949, 0, 76, 288231202934226949, 0, 84, 288231202934358021, 0, 84, 288231202934358021, 0, 84,
  288231202934358021, 0, 84, 288231202934358021, 4, 8, 36893541474806793229, 4, 8, 36893541474806793229, 4, 8, 36893541474806793229, 4, 8,
  36893541474806793229, 4, 8, 36893541474806793229, 4, 8, 36893541474806793229, 4, 8, 36893541474806793229, 4, 8, 36893541474806793229, 4, 8,
  36893541474806793229, 4, 8, 36893541474806793229, 4, 8, 36893541474806793229, 4, 8, 36893541474806793229, 4, 8, 36893541474806793229, 4, 8,
  36893541474806793229, 4, 8, 36893541474806793229, 4, 8, 36893541474806793229, 4, 8, 36893541474806793229, 4, 8, 36893541474806793229, 4, 8,
  36893541474806793229, 4, 8, 36893541474806793229, 4, 8, 36893541474806793229, 4, 8, 36893541474806793229, 4, 8, 36893541474806793229, 4, 8,
  36893541474806793229, 4, 8, 36893541474806793229, 4, 8, 36893541474806793229, 4, 8, 36893541474806793229, 4, 8, 36893541474806793229, 4, 8,
  36893541474806793229, 4, 8, 36893541474806793229, 4, 8, 36893541474806793229, 20, 60, 73823007293028958233, 20, 60, 73823007293028958233, 20, 60,
  73823007293028958233, 20, 60, 73823007293028958233, 20, 60, 73823007293028958233, 20, 60, 73823007293028958233, 20, 60, 73823007293028958233, 20,
  60, 73823007293028958233, 20, 60, 73823007293028958233, 20, 60, 73823007293028958233, 20, 60, 73823007293028958233, 20, 60, 73823007293028958233,
  20, 60, 73823007293028958233, 20, 60, 73823007293028958233, 20, 60, 73823007293028958233, 20, 60, 73823007293028958233, 20, 60,
  73823007293028958233, 20, 60, 73823007293028958233, 20, 60, 73823007293028958233, 20, 60, 73823007293028958233, 0, 84, 288231202934358021, 0, 76,
  288231202934226949, 0, 84, 288231202934358021, 0, 84, 288231202934358021, 0, 4, 36893527730911445633, 0, 4, 36893527730911445633, 0, 4,
  36893527730911445633, 0, 4, 36893527730911445633, 0, 84, 288231202934358021, 0, 84, 288231202934358021, 20, 60, 73823007293028958233, 20, 60,
  73823007293028958233, 20, 60, 73823007293028958233, 20, 60, 73823007293028958233, 20, 60, 73823007293028958233, 20, 60, 73823007293028958233, 20,
  60, 73823007293028958233, 20, 60, 73823007293028958233, 20, 60, 73823007293028958233, 20, 60, 73823007293028958233, 20, 60, 73823007293028958233,
  20, 60, 73823007293028958233, 20, 60, 73823007293028958233]

theorem med6a_l2_run13 : run .l2 2 296 45 med6aEnv [] med6a_l2_13 (med6aPaths13.map fun P => ⟨[P], []⟩) = true := Run.run_one (by decide +kernel)

def med6a_l2_14 : List ℕ := [
  20, 60, 73823007293028958233, 20, 60, 73823007293028958233, 20, 60, 73823007293028958233, 20, 60, 73823007293028958233, 20, 60,
  73823007293028958233, 20, 60, 73823007293028958233, 20, 60, 73823007293028958233, 0, 84, 288231202934358021, 0, 76, 288231202934226949, 0, 84,
  288231202934358021, 0, 84, 288231202934358021, 0, 4, 36893527730911445633, 0, 4, 36893527730911445633, 0, 4, 36893527730911445633, 0, 4,
  36893527730911445633, 0, 84, 288231202934358021, 0, 84, 288231202934358021, 0, 76, 288231202934226949, 0, 76, 288231202934226949, 0, 84,
  288231202934358021, 0, 84, 288231202934358021, 0, 84, 288231202934358021, 0, 84, 288231202934358021, 0, 84, 288231202934358021, 20, 60,
  73823007293028958233, 20, 60, 73823007293028958233, 20, 60, 73823007293028958233, 20, 60, 73823007293028958233, 20, 60, 73823007293028958233, 20,
  60, 73823007293028958233, 20, 60, 73823007293028958233, 20, 60, 73823007293028958233, 20, 60, 73823007293028958233, 20, 60, 73823007293028958233,
  20, 60, 73823007293028958233, 20, 60, 73823007293028958233, 20, 60, 73823007293028958233, 20, 60, 73823007293028958233, 20, 60,
  73823007293028958233, 20, 60, 73823007293028958233, 20, 60, 73823007293028958233, 20, 60, 73823007293028958233, 20, 60, 73823007293028958233, 20,
  60, 73823007293028958233, 0, 84, 288231202934358021, 0, 76, 288231202934226949, 0, 84, 288231202934358021, 0, 84, 288231202934358021, 0, 4,
  36893527730911445633, 0, 4, 36893527730911445633, 0, 4, 36893527730911445633, 0, 4, 36893527730911445633, 0, 84, 288231202934358021, 0, 84,
  288231202934358021, 20, 60, 73823007293028958233, 20, 60, 73823007293028958233, 20, 60, 73823007293028958233, 20, 60, 73823007293028958233, 20, 60,
  73823007293028958233, 20, 60, 73823007293028958233, 20, 60, 73823007293028958233, 20, 60, 73823007293028958233, 20, 60, 73823007293028958233, 20,
  60, 73823007293028958233, 20, 60, 73823007293028958233, 20, 60, 73823007293028958233, 20, 60, 73823007293028958233, 20, 60, 73823007293028958233,
  20, 60, 73823007293028958233, 20, 60, 73823007293028958233, 20, 60, 73823007293028958233, 20, 60, 73823007293028958233, 20, 60,
  73823007293028958233, 20, 60, 73823007293028958233, 0, 84, 288231202934358021, 0, 76, 288231202934226949, 0, 84, 288231202934358021, 0, 84,
  288231202934358021, 0, 4, 36893527730911445633, 0, 4, 36893527730911445633, 0, 4, 36893527730911445633, 0, 4, 36893527730911445633, 0, 84,
  288231202934358021, 0, 84, 288231202934358021, 0, 76, 288231202934226949, 0, 76, 288231202934226949, 0, 84, 288231202934358021, 0, 84,
  288231202934358021, 0, 84, 288231202934358021, 0, 84, 288231202934358021]

theorem med6a_l2_run14 : run .l2 2 296 45 med6aEnv [] med6a_l2_14 (med6aPaths14.map fun P => ⟨[P], []⟩) = true := Run.run_one (by decide +kernel)

theorem med6a_l2 : med6aTab.Refuted .l2 2 296 45 36 :=
  Tab.refuted_one (T := med6aTab) rfl med6a_paths (parts (part med6a_l2_run0) (parts (part med6a_l2_run1) (parts (part med6a_l2_run2) (parts (part med6a_l2_run3) (parts (part med6a_l2_run4) (parts (part med6a_l2_run5) (parts (part med6a_l2_run6) (parts (part med6a_l2_run7) (parts (part med6a_l2_run8) (parts (part med6a_l2_run9) (parts (part med6a_l2_run10) (parts (part med6a_l2_run11) (parts (part med6a_l2_run12) (parts (part med6a_l2_run13) (part med6a_l2_run14)))))))))))))))

end MinCert
end Peano
