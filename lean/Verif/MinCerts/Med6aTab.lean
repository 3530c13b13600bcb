import Verif.Lemmas.MinFast

set_option autoImplicit false

/-
Median, grid 6, steps to adjacent cells: no curve has less dilation.  This file is generated.
-/
namespace Peano
namespace MinCert

/-- Table of links and of their specs. -/
def med6aEnv : Env where
  N := 6
  G := 36
  m := 1
  S := 2
  W := 7
  B := 784
  L := 16
  links := [([0, 0], [1, 2]), ([0, 0], [2, 1]), ([0, 1], [2, 0]), ([0, 1], [2, 2]), ([0, 2], [1, 0]), ([0, 2], [2, 1]), ([1, 0], [0, 2]), ([1, 0], [2, 2]), ([1, 2], [0, 0]), ([1, 2], [2, 0]), ([2, 0], [0, 1]), ([2, 0], [1, 2]), ([2, 1], [0, 0]), ([2, 1], [0, 2]), ([2, 2], [0, 1]), ([2, 2], [1, 0])]
  doms := [
    [⟨[(1, false), (0, false)], false, 0⟩], [⟨[(0, false), (1, false)], false, 0⟩], [⟨[(0, true), (1, false)], true, 0⟩],
    [⟨[(0, true), (1, true)], true, 0⟩], [⟨[(1, false), (0, true)], false, 0⟩], [⟨[(0, false), (1, true)], false, 0⟩],
    [⟨[(1, false), (0, true)], true, 0⟩], [⟨[(1, true), (0, true)], true, 0⟩], [⟨[(1, false), (0, false)], true, 0⟩],
    [⟨[(1, true), (0, false)], true, 0⟩], [⟨[(0, true), (1, false)], false, 0⟩], [⟨[(1, true), (0, false)], false, 0⟩],
    [⟨[(0, false), (1, false)], true, 0⟩], [⟨[(0, false), (1, true)], true, 0⟩], [⟨[(0, true), (1, true)], false, 0⟩],
    [⟨[(1, true), (0, true)], false, 0⟩]]

/-- Data of the search of paths. -/
def med6aEnum : Enum where
  L := 16
  B := 784
  ones := 8
  offs := [1, 7]
  trans := [
    [(9, 6), (9, 7)], [(15, 2), (15, 3)], [(7, 14), (7, 15), (15, 0), (15, 1)], [(9, 10), (9, 11), (15, 4), (15, 5)], [(7, 8), (7, 9)],
    [(15, 2), (15, 3)], [(1, 14), (1, 15), (9, 0), (9, 1)], [(9, 10), (9, 11), (15, 4), (15, 5)], [(1, 10), (1, 11), (7, 4), (7, 5)],
    [(7, 14), (7, 15), (15, 0), (15, 1)], [(1, 12), (1, 13)], [(9, 6), (9, 7)], [(1, 10), (1, 11), (7, 4), (7, 5)],
    [(1, 14), (1, 15), (9, 0), (9, 1)], [(1, 12), (1, 13)], [(7, 8), (7, 9)]]
  U := 558517276622592
  F := 105553116266496
  starts := [(8, 0), (8, 1)]
  finals := [(45, 3), (45, 7), (46, 2), (46, 9)]

def med6aTab : Tab := ⟨med6aEnv, [([0, 0], [2, 1])], [med6aEnum]⟩

theorem med6a_ok : med6aTab.Ok 2 6 1 1 := Fast.ok_sound (by decide +kernel)

def med6aTree : CT :=
  .node (.node (.node (.node (.node (.node (.node (.node (.node (.node (.node .nil
  25640218320920041704974827158964646888999218176494043621253642991543968008332088136791595947625964841187 .nil)
  25640218320920041704974827158964646888999218176494043621253642991543968008332088281528596212430279485667 .nil)
  25640218320920041704974827158964646888999218184299033058630047434064694957886283594396296740997200292067 (.node (.node .nil
  25640218320920041704974827158964646888999218184299033058630047434064694957886283739133297005801514936547 .nil)
  25640218320920041704974827158964646889004015560081663652502665011487873191895277611762446337723260938467 .nil))
  25640218320920041704974827158964646889004015560081663652502665011487873191895277756499446602527575582947 (.node (.node (.node .nil
  25640218320920041704974827158964646889004015567886653089879069454008600141449473069367147131094496389347 .nil)
  25640218320920041704974827158964646889004015567886653089879069454008600141449473214104147395898811033827 .nil)
  25640218320920041704974827158964646893144745133911420778187881560783640452463225545364441498106749293795 (.node (.node .nil
  25640218320920041704974827158964646893144745133911420778187881594394215548172961534835511601964991157475 .nil)
  25640218320920041704974827158964646893144745133911420778187910633887409642174004563926418312773724943395 .nil)))
  25640218320920041704974827158964646893144745133911433364522774477123490794753854762492468834447021348067 (.node (.node (.node (.node .nil
  25640218320920041704974827158964646893144745133911433364522774510734065890463590751963538938305263211747 .nil)
  25640218320920041704974827158964646893144745133911433364522803550227259984464633781054445649113996997667 .nil)
  25640218320920041704974827158964646893148948752612114957680389884216752865228476394810566884321626600327 (.node (.node .nil
  25640218320920041704974827158964646893149500276385690695954207789356970370259191968354416475964194985187 .nil)
  25640218320920041704974827158964646893149500276385690695954207822967545465968927957825486579822436848867 .nil))
  25640218320920041704974827158964646893149500276385690695954236862460739559969970986916393290631170634787 (.node (.node (.node .nil
  25640218320920041704974827158964646893149500276385703282289100705696820712549821185482443812304467039459 .nil)
  25640218320920041704974827158964646893149500276385703282289100739307395808259557174953513916162708903139 .nil)
  25640218320920041704974827158964646893149500276385703282289129778800589902260600204044420626971442689059 (.node (.node .nil
  25640218320920041704974827160777107995186394932637328801728267965425852582122020864835206970303818967267 .nil)
  25640218320920041704974827160777107995186394932637328801728267965425852582122021009572207235108133611747 .nil))))
  25640218320920041704974827160777107995186394940442318239104672407946579531676216322439907763675054418147 (.node (.node (.node (.node (.node .nil
  25640218320920041704974827160777107995186394940442318239104672407946579531676216467176908028479369062627 .nil)
  25640218320920041704974827160777107995191192316224948832977289985369757765685210339806057360401115064547 .nil)
  25640218320920041704974827160777107995191192316224948832977289985369757765685210484543057625205429709027 (.node (.node .nil
  25640218320920041704974827160777107995191192324029938270353694427890484715239405797410758153772350515427 .nil)
  25640218320920041704974827160777107995191192324029938270353694427890484715239405942147758418576665159907 .nil))
  25640218320920041704974827160777107999331921890054705958662506534665525026253158273408052520784603419875 (.node (.node (.node .nil
  25640218320920041704974827160777107999331921890054705958662506568276100121962894262879122624642845283555 .nil)
  25640218320920041704974827160777107999331921890054705958662535607769294215963937291970029335451579069475 .nil)
  25640218320920041704974827160777107999331921890054718544997399451005375368543787490536079857124875474147 (.node (.node .nil
  25640218320920041704974827160777107999331921890054718544997399484615950464253523480007149960983117337827 .nil)
  25640218320920041704974827160777107999331921890054718544997428524109144558254566509098056671791851123747 .nil)))
  25640218320920041704974827160777107999336125508755400138155014858098637439018409122854177906999480726407 (.node (.node (.node (.node .nil
  25640218320920041704974827160777107999336677032528975876428832763238854944049124696398027498642049111267 .nil)
  25640218320920041704974827160777107999336677032528975876428832796849430039758860685869097602500290974947 .nil)
  25640218320920041704974827160777107999336677032528975876428861836342624133759903714960004313309024760867 (.node (.node .nil
  25640218320920041704974827160777107999336677032528988462763725679578705286339753913526054834982321165539 .nil)
  25640218320920041704974827160777107999336677032528988462763725713189280382049489902997124938840563029219 .nil))
  25640218320920041704974827160777107999336677032528988462763754752682474476050532932088031649649296815139 (.node (.node (.node .nil
  25640218320920041704974827161035185037384604430634785889718238314897345316934299592938121114179275008227 .nil)
  25640218320920041704974827161035185037384604430634785889718238314897345316934299592938354517231431002339 .nil)
  25640218320920041704974827161035187986125210862812713288596928955881853532724227275955496757809244743907 (.node .nil
  25640218320920041704974827161035187986125210862812713288596928955881853532724227275955730160861400738019 .nil)))))
  25640218320920041704974827161037735694176257159500408535772564883444642714203387945512764915030968267655 (.node (.node (.node (.node (.node (.node
  .nil 25640218320920041704974827161037735694176257159500408535772564883444642714203387945512764915410697827207 .nil)
  25640218320920041704974828780502337334443990047744743108185707213989723053736357440843755929097889065187 .nil)
  25640218320920041704975941199058331474315442183589933432341589335188555433222976510568351026731684669667 (.node (.node .nil
  25640218320920041704975941199058331474315442183589933432341589335188555433222976655305351291535999314147 .nil)
  25640218320920041704975941199058331474315442191394922869717993777709282382777171968173051820102920120547 .nil))
  25640218320920041704975941199058331474315442191394922869717993777709282382777172112910052084907234765027 (.node (.node (.node .nil
  25640218320920041704975941199058331474320239567177553463590611355132460616786165985539201416828980766947 .nil)
  25640218320920041704975941199058331474320239567177553463590611355132460616786166130276201681633295411427 .nil)
  25640218320920041704975941199058331474320239574982542900967015797653187566340361443143902210200216217827 (.node (.node .nil
  25640218320920041704975941199058331474320239574982542900967015797653187566340361587880902475004530862307 .nil)
  25640218320920041704975941199058331478460969141007310589275827904428227877354113919141196577212469122275 .nil)))
  25640218320920041704975941199058331478460969141007310589275827938038802973063849908612266681070710985955 (.node (.node (.node (.node .nil
  25640218320920041704975941199058331478460969141007310589275856977531997067064892937703173391879444771875 .nil)
  25640218320920041704975941199058331478460969141007323175610720820768078219644743136269223913552741176547 .nil)
  25640218320920041704975941199058331478460969141007323175610720854378653315354479125740294017410983040227 (.node (.node .nil
  25640218320920041704975941199058331478460969141007323175610749893871847409355522154831200728219716826147 .nil)
  25640218320920041704975941199058331478465172759708004768768336227861340290119364768587321963427346428807 .nil))
  25640218320920041704975941199058331478465724283481580507042154133001557795150080342131171555069914813667 (.node (.node (.node .nil
  25640218320920041704975941199058331478465724283481580507042154166612132890859816331602241658928156677347 .nil)
  25640218320920041704975941199058331478465724283481580507042183206105326984860859360693148369736890463267 .nil)
  25640218320920041704975941199058331478465724283481593093377047049341408137440709559259198891410186867939 (.node .nil
  25640218320920041704975941199058331478465724283481593093377047082951983233150445548730268995268428731619 .nil))))
  25640218320920041704975941199058331478465724283481593093377076122445177327151488577821175706077162517539 (.node (.node (.node (.node (.node .nil
  25640218320920041704975941200870792580502618939733218612816214309070440007012909238611962049409538795747 .nil)
  25640218320920041704975941200870792580502618939733218612816214309070440007012909383348962314213853440227 .nil)
  25640218320920041704975941200870792580502618947538208050192618751591166956567104696216662842780774246627 (.node (.node .nil
  25640218320920041704975941200870792580502618947538208050192618751591166956567104840953663107585088891107 .nil)
  25640218320920041704975941200870792580507416323320838644065236329014345190576098713582812439506834893027 .nil))
  25640218320920041704975941200870792580507416323320838644065236329014345190576098858319812704311149537507 (.node (.node (.node .nil
  25640218320920041704975941200870792580507416331125828081441640771535072140130294171187513232878070343907 .nil)
  25640218320920041704975941200870792580507416331125828081441640771535072140130294315924513497682384988387 .nil)
  25640218320920041704975941200870792584648145897150595769750452878310112451144046647184807599890323248355 (.node (.node .nil
  25640218320920041704975941200870792584648145897150595769750452911920687546853782636655877703748565112035 .nil)
  25640218320920041704975941200870792584648145897150595769750481951413881640854825665746784414557298897955 .nil)))
  25640218320920041704975941200870792584648145897150608356085345794649962793434675864312834936230595302627 (.node (.node (.node (.node .nil
  25640218320920041704975941200870792584648145897150608356085345828260537889144411853783905040088837166307 .nil)
  25640218320920041704975941200870792584648145897150608356085374867753731983145454882874811750897570952227 .nil)
  25640218320920041704975941200870792584652349515851289949242961201743224863909297496630932986105200554887 (.node (.node .nil
  25640218320920041704975941200870792584652901039624865687516779106883442368940013070174782577747768939747 .nil)
  25640218320920041704975941200870792584652901039624865687516779140494017464649749059645852681606010803427 .nil))
  25640218320920041704975941200870792584652901039624865687516808179987211558650792088736759392414744589347 (.node (.node (.node .nil
  25640218320920041704975941200870792584652901039624878273851672023223292711230642287302809914088040994019 .nil)
  25640218320920041704975941200870792584652901039624878273851672056833867806940378276773880017946282857699 .nil)
  25640218320920041704975941200870792584652901039624878273851701096327061900941421305864786728755016643619 (.node .nil
  25640218320920041704975941201128869622700828437730675700806184658541932741825187966714876193284994836707 .nil))))))
  25640218320920041704975941201128869622700828437730675700806184658541932741825187966715109596337150830819 (.node (.node (.node (.node (.node (.node
  (.node .nil 25640218320920041704975941201128872571441434869908603099684875299526440957615115649732251836914964572387 .nil)
  25640218320920041704975941201128872571441434869908603099684875299526440957615115649732485239967120566499 .nil)
  25640218320920041704975941201131420279492481166596298346860511227089230139094276319289519994136688096135 (.node (.node .nil
  25640218320920041704975941201131420279492481166596298346860511227089230139094276319289519994516417655687 .nil)
  25640218320920041704976099831746876709480830438468380982017635979524907108627488191407022806849182968035 .nil))
  25640218320920041704976099831746876709480830438468380982017635979524907185502692845588007557705214725603 (.node (.node (.node .nil
  25640218320920041704976099831746876709480830438468380982017635979524907185502692845588007557705215343395 .nil)
  25640218320920041704976099831746876709480830438468380982017635979524907185502692845588240960757370719715 .nil)
  25640218320920041704976099831746876709480830438468380982017635979524907185502692845588240960757371337507 (.node (.node .nil
  25640218320920041704976099831746876709480830438468380982017635979524907185580645438077387596736968700807 .nil)
  25640218320920041704976099831746876709480830438468380982017635979524907185590872985110263766419464523235 .nil)))
  25640218320920041704976099831746876709480830438468380982017635979524907185590872985110263766419465141027 (.node (.node (.node (.node .nil
  25640218320920041704976099831746876709480830438468380982017635979524907185590872985110497169471620517347 .nil)
  25640218320920041704976099831746876709480830438468380982017635979524907185590872985110497169471621135139 .nil)
  25640218320920041704976099831746876709480830438468380982017636013135482204337224180878092910707424831715 (.node (.node .nil
  25640218320920041704976099831746876709480830438468380982017636013135482281212428835059077661563456589283 .nil)
  25640218320920041704976099831746876709480830438468380982017636013135482281212428835059077661563457207075 .nil))
  25640218320920041704976099831746876709480830438468380982017636013135482281212428835059311064615612583395 (.node (.node (.node .nil
  25640218320920041704976099831746876709480830438468380982017636013135482281212428835059311064615613201187 .nil)
  25640218320920041704976099831746876709480830438468380982017636013135482281290381427548457700595210564487 .nil)
  25640218320920041704976099831746876709480830438468380982017636013135482281300608974581333870277706386915 (.node .nil
  25640218320920041704976099831746876709480830438468380982017636013135482281300608974581333870277707004707 .nil))))
  25640218320920041704976099831746876709480830438468380982017636013135482281300608974581567273329862381027 (.node (.node (.node (.node (.node .nil
  25640218320920041704976099831746876709480830438468380982017636013135482281300608974581567273329862998819 .nil)
  25640218320920041704976099831746876709480830438468380982017636017968549013728602316376769637835790297315 .nil)
  25640218320920041704976099831746876709480830438468380982017636017968549013728602316377003040887946291427 (.node (.node .nil
  25640218320920041704976099831746876709480830438468380982017636017968611074600507861968080437335658361735 .nil)
  25640218320920041704976099831746876709480830438468380982017636017968611074600507861968080437715387921287 .nil))
  25640218320920041704976099831746876709480830438468382423357826267424950796459726476988482231296817918855 (.node (.node (.node .nil
  25640218320920041704976099831746876709480830438468382423357826267424950796459726476988482231676547478407 .nil)
  25640218320920041704976099831746876709480830438468382423357826267424950796459726621725482496101132563335 .nil)
  25640218320920041704976099831746876709480830438468382423357826267424950796459726621725482496480862122887 (.node (.node .nil
  25640218320920041704976099831746876709480830438468393568352528895864757450918117408535050143189455022307 .nil)
  25640218320920041704976099831746876709480830438468393568352528895864757527793322062716034894045486779875 .nil)))
  25640218320920041704976099831746876709480830438468393568352528895864757527793322062716034894045487397667 (.node (.node (.node (.node .nil
  25640218320920041704976099831746876709480830438468393568352528895864757527793322062716268297097642773987 .nil)
  25640218320920041704976099831746876709480830438468393568352528895864757527793322062716268297097643391779 .nil)
  25640218320920041704976099831746876709480830438468393568352528895864757527871274655205414933077240755079 (.node (.node .nil
  25640218320920041704976099831746876709480830438468393568352528895864757527881502202238291102759736577507 .nil)
  25640218320920041704976099831746876709480830438468393568352528895864757527881502202238291102759737195299 .nil))
  25640218320920041704976099831746876709480830438468393568352528895864757527881502202238524505811892571619 (.node (.node (.node .nil
  25640218320920041704976099831746876709480830438468393568352528895864757527881502202238524505811893189411 .nil)
  25640218320920041704976099831746876709480830438468393568352528929475332546627853398006120247047696885987 .nil)
  25640218320920041704976099831746876709480830438468393568352528929475332623503058052187104997903728643555 (.node .nil
  25640218320920041704976099831746876709480830438468393568352528929475332623503058052187104997903729261347 .nil)))))
  25640218320920041704976099831746876709480830438468393568352528929475332623503058052187338400955884637667 (.node (.node (.node (.node (.node (.node
  .nil 25640218320920041704976099831746876709480830438468393568352528929475332623503058052187338400955885255459 .nil)
  25640218320920041704976099831746876709480830438468393568352528929475332623581010644676485036935482618759 .nil)
  25640218320920041704976099831746876709480830438468393568352528929475332623591238191709361206617978441187 (.node (.node .nil
  25640218320920041704976099831746876709480830438468393568352528929475332623591238191709361206617979058979 .nil)
  25640218320920041704976099831746876709480830438468393568352528929475332623591238191709594609670134435299 .nil))
  25640218320920041704976099831746876709480830438468393568352528929475332623591238191709594609670135053091 (.node (.node (.node .nil
  25640218320920041704976099831746876709480830438468393568352528934308399356019231533504796974176062351587 .nil)
  25640218320920041704976099831746876709480830438468393568352528934308399356019231533505030377228218345699 .nil)
  25640218320920041704976099831746876709480830438468393568352528934308461416891137079096107773675930416007 (.node (.node .nil
  25640218320920041704976099831746876709480830438468393568352528934308461416891137079096107774055659975559 .nil)
  25640218320920041704976099831746876709480830438468393586181381617173761365288680952812240353586723891427 .nil)))
  25640218320920041704976099831746876709480830438468393586181381617173816047216614154043481033040115476707 (.node (.node (.node (.node .nil
  25640218320920041704976099831746876709480830438468393586204326509543612914275049325553486428802561812707 .nil)
  25640218320920041704976099831746876709480830438468393586204326509543612914275049325553719831854717806819 .nil)
  25640218320920041704976099831746876709480830438468393586204326509543612914364012791188249989624679311587 (.node (.node .nil
  25640218320920041704976099831746876709480830438468393586204326509543612914364012791188483392676835305699 .nil)
  25640218320920041705971639866236124337221227435835579389546678861720958611065198677838193917683973171427 .nil))
  25640218320920041705971639866236124337221227435835579389546678861721013292993131879069434597137364756707 (.node (.node (.node .nil
  25640218320920041705971639866236124337221227435835593492738872805209312684510611293804312820382411991267 .nil)
  25640218320920041705971639866236124337221227435835593492738872805209312684510611293804546223434567985379 .nil)
  25640218320920041705971639866236124337221227435835593492738872805209312684599574759439076381204529490147 (.node .nil
  25640218320920041705971639866236124337221227435835593492738872805209312684599574759439309784256685484259 .nil))))
  25640218321340928278595288144713559251643832777581702492523345465577902379499456568570306955109130250467 (.node (.node (.node (.node (.node .nil
  25640218321340928278595288144713559251643832777581702492523345465577902379499456713307307219913444894947 .nil)
  25640218321340928278595288144713559251643832785386691929899749908098629329053652026175007748480365701347 .nil)
  25640218321340928278595288144713559251643832785386691929899749908098629329053652170912008013284680345827 (.node (.node .nil
  25640218321340928278595288144713559251648630161169322523772367485521807563062646043541157345206426347747 .nil)
  25640218321340928278595288144713559251648630161169322523772367485521807563062646188278157610010740992227 .nil))
  25640218321340928278595288144713559251648630168974311961148771928042534512616841501145858138577661798627 (.node (.node (.node .nil
  25640218321340928278595288144713559251648630168974311961148771928042534512616841645882858403381976443107 .nil)
  25640218321340928278595288144713559255789359734999079649457584034817574823630593977143152505589914703075 .nil)
  25640218321340928278595288144713559255789359734999079649457584068428149919340329966614222609448156566755 (.node (.node .nil
  25640218321340928278595288144713559255789359734999079649457613107921344013341372995705129320256890352675 .nil)
  25640218321340928278595288144713559255789359734999092235792476951157425165921223194271179841930186757347 .nil)))
  25640218321340928278595288144713559255789359734999092235792476984768000261630959183742249945788428621027 (.node (.node (.node (.node .nil
  25640218321340928278595288144713559255789359734999092235792506024261194355632002212833156656597162406947 .nil)
  25640218321340928278595288144713559255793563353699773828950092358250687236395844826589277891804792009607 .nil)
  25640218321340928278595288144713559255794114877473349567223910263390904741426560400133127483447360394467 (.node (.node .nil
  25640218321340928278595288144713559255794114877473349567223910297001479837136296389604197587305602258147 .nil)
  25640218321340928278595288144713559255794114877473349567223939336494673931137339418695104298114336044067 .nil))
  25640218321340928278595288144713559255794114877473362153558803179730755083717189617261154819787632448739 (.node (.node (.node .nil
  25640218321340928278595288144713559255794114877473362153558803213341330179426925606732224923645874312419 .nil)
  25640218321340928278595288144713559255794114877473362153558832252834524273427968635823131634454608098339 .nil)
  25640218321340928278595288146526020357831009533724987672997970439459786953289389296613917977786984376547 (.node .nil
  25640218321340928278595288146526020357831009533724987672997970439459786953289389441350918242591299021027 .nil)))))))
  25640218321340928278595288146526020357831009541529977110374374881980513902843584754218618771158219827427 (.node (.node (.node (.node (.node (.node
  (.node (.node .nil 25640218321340928278595288146526020357831009541529977110374374881980513902843584898955619035962534471907 .nil)
  25640218321340928278595288146526020357835806917312607704246992459403692136852578771584768367884280473827 .nil)
  25640218321340928278595288146526020357835806917312607704246992459403692136852578916321768632688595118307 (.node (.node .nil
  25640218321340928278595288146526020357835806925117597141623396901924419086406774229189469161255515924707 .nil)
  25640218321340928278595288146526020357835806925117597141623396901924419086406774373926469426059830569187 .nil))
  25640218321340928278595288146526020361976536491142364829932209008699459397420526705186763528267768829155 (.node (.node (.node .nil
  25640218321340928278595288146526020361976536491142364829932209042310034493130262694657833632126010692835 .nil)
  25640218321340928278595288146526020361976536491142364829932238081803228587131305723748740342934744478755 .nil)
  25640218321340928278595288146526020361976536491142377416267101925039309739711155922314790864608040883427 (.node (.node .nil
  25640218321340928278595288146526020361976536491142377416267101958649884835420891911785860968466282747107 .nil)
  25640218321340928278595288146526020361976536491142377416267130998143078929421934940876767679275016533027 .nil)))
  25640218321340928278595288146526020361980740109843059009424717332132571810185777554632888914482646135687 (.node (.node (.node (.node .nil
  25640218321340928278595288146526020361981291633616634747698535237272789315216493128176738506125214520547 .nil)
  25640218321340928278595288146526020361981291633616634747698535270883364410926229117647808609983456384227 .nil)
  25640218321340928278595288146526020361981291633616634747698564310376558504927272146738715320792190170147 (.node (.node .nil
  25640218321340928278595288146526020361981291633616647334033428153612639657507122345304765842465486574819 .nil)
  25640218321340928278595288146526020361981291633616647334033428187223214753216858334775835946323728438499 .nil))
  25640218321340928278595288146526020361981291633616647334033457226716408847217901363866742657132462224419 (.node (.node (.node .nil
  25640218321340928278595288146784097400029219031722444760987940788931279688101668024716832121662440417507 .nil)
  25640218321340928278595288146784097400029219031722444760987940788931279688101668024717065524714596411619 .nil)
  25640218321340928278595288146784100348769825463900372159866631429915787903891595707734207765292410153187 (.node (.node .nil
  25640218321340928278595288146784100348769825463900372159866631429915787903891595707734441168344566147299 .nil)
  25640218321340928278595288146786648056820871760588067407042267357478577085370756377291475922514133676935 .nil))))
  25640218321340928278595288146786648056820871760588067407042267357478577085370756377291475922893863236487 (.node (.node (.node (.node (.node .nil
  25640218321340928278595289766251249697088604648832401979455409688023657424903725872622466936581054474467 .nil)
  25640218321340928278596402184807243836960056784677592303611291809222489804390344942347062034214850078947 .nil)
  25640218321340928278596402184807243836960056784677592303611291809222489804390345087084062299019164723427 (.node (.node .nil
  25640218321340928278596402184807243836960056792482581740987696251743216753944540399951762827586085529827 .nil)
  25640218321340928278596402184807243836960056792482581740987696251743216753944540544688763092390400174307 .nil))
  25640218321340928278596402184807243836964854168265212334860313829166394987953534417317912424312146176227 (.node (.node (.node .nil
  25640218321340928278596402184807243836964854168265212334860313829166394987953534562054912689116460820707 .nil)
  25640218321340928278596402184807243836964854176070201772236718271687121937507729874922613217683381627107 .nil)
  25640218321340928278596402184807243836964854176070201772236718271687121937507730019659613482487696271587 (.node (.node .nil
  25640218321340928278596402184807243841105583742094969460545530378462162248521482350919907584695634531555 .nil)
  25640218321340928278596402184807243841105583742094969460545530412072737344231218340390977688553876395235 .nil)))
  25640218321340928278596402184807243841105583742094969460545559451565931438232261369481884399362610181155 (.node (.node (.node (.node .nil
  25640218321340928278596402184807243841105583742094982046880423294802012590812111568047934921035906585827 .nil)
  25640218321340928278596402184807243841105583742094982046880423328412587686521847557519005024894148449507 .nil)
  25640218321340928278596402184807243841105583742094982046880452367905781780522890586609911735702882235427 (.node (.node .nil
  25640218321340928278596402184807243841109787360795663640038038701895274661286733200366032970910511838087 .nil)
  25640218321340928278596402184807243841110338884569239378311856607035492166317448773909882562553080222947 .nil))
  25640218321340928278596402184807243841110338884569239378311856640646067262027184763380952666411322086627 (.node (.node (.node .nil
  25640218321340928278596402184807243841110338884569239378311885680139261356028227792471859377220055872547 .nil)
  25640218321340928278596402184807243841110338884569251964646749523375342508608077991037909898893352277219 .nil)
  25640218321340928278596402184807243841110338884569251964646749556985917604317813980508980002751594140899 (.node .nil
  25640218321340928278596402184807243841110338884569251964646778596479111698318857009599886713560327926819 .nil)))))
  25640218321340928278596402186619704943147233540820877484085916783104374378180277670390673056892704205027 (.node (.node (.node (.node (.node (.node
  .nil 25640218321340928278596402186619704943147233540820877484085916783104374378180277815127673321697018849507 .nil)
  25640218321340928278596402186619704943147233548625866921462321225625101327734473127995373850263939655907 .nil)
  25640218321340928278596402186619704943147233548625866921462321225625101327734473272732374115068254300387 (.node (.node .nil
  25640218321340928278596402186619704943152030924408497515334938803048279561743467145361523446990000302307 .nil)
  25640218321340928278596402186619704943152030924408497515334938803048279561743467290098523711794314946787 .nil))
  25640218321340928278596402186619704943152030932213486952711343245569006511297662602966224240361235753187 (.node (.node (.node .nil
  25640218321340928278596402186619704943152030932213486952711343245569006511297662747703224505165550397667 .nil)
  25640218321340928278596402186619704947292760498238254641020155352344046822311415078963518607373488657635 .nil)
  25640218321340928278596402186619704947292760498238254641020155385954621918021151068434588711231730521315 (.node (.node .nil
  25640218321340928278596402186619704947292760498238254641020184425447816012022194097525495422040464307235 .nil)
  25640218321340928278596402186619704947292760498238267227355048268683897164602044296091545943713760711907 .nil)))
  25640218321340928278596402186619704947292760498238267227355048302294472260311780285562616047572002575587 (.node (.node (.node (.node .nil
  25640218321340928278596402186619704947292760498238267227355077341787666354312823314653522758380736361507 .nil)
  25640218321340928278596402186619704947296964116938948820512663675777159235076665928409643993588365964167 .nil)
  25640218321340928278596402186619704947297515640712524558786481580917376740107381501953493585230934349027 (.node (.node .nil
  25640218321340928278596402186619704947297515640712524558786481614527951835817117491424563689089176212707 .nil)
  25640218321340928278596402186619704947297515640712524558786510654021145929818160520515470399897909998627 .nil))
  25640218321340928278596402186619704947297515640712537145121374497257227082398010719081520921571206403299 (.node (.node (.node .nil
  25640218321340928278596402186619704947297515640712537145121374530867802178107746708552591025429448266979 .nil)
  25640218321340928278596402186619704947297515640712537145121403570360996272108789737643497736238182052899 .nil)
  25640218321340928278596402186877781985345443038818334572075887132575867112992556398493587200768160245987 (.node .nil
  25640218321340928278596402186877781985345443038818334572075887132575867112992556398493820603820316240099 .nil))))
  25640218321340928278596402186877784934086049470996261970954577773560375328782484081510962844398129981667 (.node (.node (.node (.node (.node .nil
  25640218321340928278596402186877784934086049470996261970954577773560375328782484081511196247450285975779 .nil)
  25640218321340928278596402186880332642137095767683957218130213701123164510261644751068231001619853505415 .nil)
  25640218321340928278596402186880332642137095767683957218130213701123164510261644751068231001999583064967 (.node (.node .nil
  25640218321340928278596560817495789072125445039556039853287338453558841479794856623185733814332348377315 .nil)
  25640218321340928278596560817495789072125445039556039853287338453558841556670061277366718565188380134883 .nil))
  25640218321340928278596560817495789072125445039556039853287338453558841556670061277366718565188380752675 (.node (.node (.node .nil
  25640218321340928278596560817495789072125445039556039853287338453558841556670061277366951968240536128995 .nil)
  25640218321340928278596560817495789072125445039556039853287338453558841556670061277366951968240536746787 .nil)
  25640218321340928278596560817495789072125445039556039853287338453558841556748013869856098604220134110087 (.node (.node .nil
  25640218321340928278596560817495789072125445039556039853287338453558841556758241416888974773902629932515 .nil)
  25640218321340928278596560817495789072125445039556039853287338453558841556758241416888974773902630550307 .nil)))
  25640218321340928278596560817495789072125445039556039853287338453558841556758241416889208176954785926627 (.node (.node (.node (.node .nil
  25640218321340928278596560817495789072125445039556039853287338453558841556758241416889208176954786544419 .nil)
  25640218321340928278596560817495789072125445039556039853287338487169416575504592612656803918190590240995 .nil)
  25640218321340928278596560817495789072125445039556039853287338487169416652379797266837788669046621998563 (.node (.node .nil
  25640218321340928278596560817495789072125445039556039853287338487169416652379797266837788669046622616355 .nil)
  25640218321340928278596560817495789072125445039556039853287338487169416652379797266838022072098777992675 .nil))
  25640218321340928278596560817495789072125445039556039853287338487169416652379797266838022072098778610467 (.node (.node (.node .nil
  25640218321340928278596560817495789072125445039556039853287338487169416652457749859327168708078375973767 .nil)
  25640218321340928278596560817495789072125445039556039853287338487169416652467977406360044877760871796195 .nil)
  25640218321340928278596560817495789072125445039556039853287338487169416652467977406360044877760872413987 (.node .nil
  25640218321340928278596560817495789072125445039556039853287338487169416652467977406360278280813027790307 .nil))))))
  25640218321340928278596560817495789072125445039556039853287338487169416652467977406360278280813028408099 (.node (.node (.node (.node (.node (.node
  (.node .nil 25640218321340928278596560817495789072125445039556039853287338492002483384895970748155480645318955706595 .nil)
  25640218321340928278596560817495789072125445039556039853287338492002483384895970748155714048371111700707 .nil)
  25640218321340928278596560817495789072125445039556039853287338492002545445767876293746791444818823771015 (.node (.node .nil
  25640218321340928278596560817495789072125445039556039853287338492002545445767876293746791445198553330567 .nil)
  25640218321340928278596560817495789072125445039556041294627528741458885167627094908767193238779983328135 .nil))
  25640218321340928278596560817495789072125445039556041294627528741458885167627094908767193239159712887687 (.node (.node (.node .nil
  25640218321340928278596560817495789072125445039556041294627528741458885167627095053504193503584297972615 .nil)
  25640218321340928278596560817495789072125445039556041294627528741458885167627095053504193503964027532167 .nil)
  25640218321340928278596560817495789072125445039556052439622231369898691822085485840313761150672620431587 (.node (.node .nil
  25640218321340928278596560817495789072125445039556052439622231369898691898960690494494745901528652189155 .nil)
  25640218321340928278596560817495789072125445039556052439622231369898691898960690494494745901528652806947 .nil)))
  25640218321340928278596560817495789072125445039556052439622231369898691898960690494494979304580808183267 (.node (.node (.node (.node .nil
  25640218321340928278596560817495789072125445039556052439622231369898691898960690494494979304580808801059 .nil)
  25640218321340928278596560817495789072125445039556052439622231369898691899038643086984125940560406164359 .nil)
  25640218321340928278596560817495789072125445039556052439622231369898691899048870634017002110242901986787 (.node (.node .nil
  25640218321340928278596560817495789072125445039556052439622231369898691899048870634017002110242902604579 .nil)
  25640218321340928278596560817495789072125445039556052439622231369898691899048870634017235513295057980899 .nil))
  25640218321340928278596560817495789072125445039556052439622231369898691899048870634017235513295058598691 (.node (.node (.node .nil
  25640218321340928278596560817495789072125445039556052439622231403509266917795221829784831254530862295267 .nil)
  25640218321340928278596560817495789072125445039556052439622231403509266994670426483965816005386894052835 .nil)
  25640218321340928278596560817495789072125445039556052439622231403509266994670426483965816005386894670627 (.node .nil
  25640218321340928278596560817495789072125445039556052439622231403509266994670426483966049408439050046947 .nil))))
  25640218321340928278596560817495789072125445039556052439622231403509266994670426483966049408439050664739 (.node (.node (.node (.node (.node .nil
  25640218321340928278596560817495789072125445039556052439622231403509266994748379076455196044418648028039 .nil)
  25640218321340928278596560817495789072125445039556052439622231403509266994758606623488072214101143850467 .nil)
  25640218321340928278596560817495789072125445039556052439622231403509266994758606623488072214101144468259 (.node (.node .nil
  25640218321340928278596560817495789072125445039556052439622231403509266994758606623488305617153299844579 .nil)
  25640218321340928278596560817495789072125445039556052439622231403509266994758606623488305617153300462371 .nil))
  25640218321340928278596560817495789072125445039556052439622231408342333727186599965283507981659227760867 (.node (.node (.node .nil
  25640218321340928278596560817495789072125445039556052439622231408342333727186599965283741384711383754979 .nil)
  25640218321340928278596560817495789072125445039556052439622231408342395788058505510874818781159095825287 .nil)
  25640218321340928278596560817495789072125445039556052439622231408342395788058505510874818781538825384839 (.node (.node .nil
  25640218321340928278596560817495789072125445039556052457451084091207695736456049384590951361069889300707 .nil)
  25640218321340928278596560817495789072125445039556052457451084091207750418383982585822192040523280885987 .nil)))
  25640218321340928278596560817495789072125445039556052457474028983577547285442417757332197436285727221987 (.node (.node (.node (.node .nil
  25640218321340928278596560817495789072125445039556052457474028983577547285442417757332430839337883216099 .nil)
  25640218321340928278596560817495789072125445039556052457474028983577547285531381222966960997107844720867 .nil)
  25640218321340928278596560817495789072125445039556052457474028983577547285531381222967194400160000714979 (.node (.node .nil
  25640218321340928279592100851985036699865842036923238260816381335754892982232567109616904925167138580707 .nil)
  25640218321340928279592100851985036699865842036923238260816381335754947664160500310848145604620530165987 .nil))
  25640218321340928279592100851985036699865842036923252364008575279243247055677979725583023827865577400547 (.node (.node (.node .nil
  25640218321340928279592100851985036699865842036923252364008575279243247055677979725583257230917733394659 .nil)
  25640218321340928279592100851985036699865842036923252364008575279243247055766943191217787388687694899427 .nil)
  25640218321340928279592100851985036699865842036923252364008575279243247055766943191218020791739850893539 (.node .nil
  25640218321388090235961242679767535424362453102943943791013391135824651483832444561309872224690692106467 .nil)))))
  25640218321388090235961242679767535424362453102943943791013391135824651483832444706046872489495006750947 (.node (.node (.node (.node (.node (.node
  .nil 25640218321388090235961242681579996530549629859087228971488016109706536057622377289353483247368546232547 .nil)
  25640218321388090235961242681579996530549629859087228971488016109706536057622377434090483512172860877027 .nil)
  25640218321388090235961244245955901147958019795849324796812450881720676966777427824043309243475861214435 (.node (.node .nil
  25640218321388090235961244245955901147962774938323594714578777110294006884573394247033284221333306905827 .nil)
  25640218321388090235961244247752403477109586190617763441106796138851400292747826553223643187966614738147 .nil))
  25640218321388090235961244247752403477114341333092033358873122367424730210543792976213618165824060429539 (.node (.node (.node .nil
  25640218321388090920712670503560007553345758634191667863761190343352885217716716686479775030017586309347 .nil)
  25640218321388090920712670503560007553345758634191667863761190343352885217716716831216775294821900953827 .nil)
  25640218321388090920712670505372468659532935390334953044235815317234769791506649414523386052695440435427 (.node (.node .nil
  25640218321388090920712670505372468659532935390334953044235815317234769791506649559260386317499755079907 .nil)
  25640218321388090920712672069748373276941325327097048869560250089248910700661699949213212048802755417315 .nil)))
  25640218321388090920712672069748373276946080469571318787326576317822240618457666372203187026660201108707 (.node (.node (.node (.node .nil
  25640218321388090920712672071544875606092891721865487513854595346379634026632098678393545993293508941027 .nil)
  25640218321388090920712672071544875606097646864339757431620921574952963944428065101383520971150954632419 .nil)
  25640218321388091018215805188837552101794892416761318187727914459707761522548553231046995844616651745507 (.node (.node .nil
  25640218321388091018215805188837552101794892416761318187727914459707761522548553231047229247668807739619 .nil)
  25640218321388702855144132571235528827343836628274036340517226483887396599570381182291485972107393444067 .nil))
  25640218684557064206398786952944646683662800731819649404117252895357899348210618609322021850607076976867 (.node (.node (.node .nil
  25640218684557064206398786952944646683662800731819649404117252895357899348210618754059022115411391621347 .nil)
  25640218684557064206399900993038331268979024738915539215205199239002486773101506983098776929712796805347 .nil)
  25640218684557064206399900993038331268979024738915539215205199239002486773101507127835777194517111449827 (.node .nil
  25640218684557064207361454031137299753585517121664751397329292355186468604767901292396237264618398717155 .nil))))
  25640218684557064207361454031137299753585523874092797361430113685693877321337728962510257491920501224483 (.node (.node (.node (.node (.node .nil
  25640218684557064207361454031137299753585523874092809947765006602033727663628358179638284828260773278755 .nil)
  25640218684557064207361454031137302676362369786515325976343642323860421402305590618456227210757286958307 .nil)
  25640218684557064207361454031137302676362376538943371940444463654367830118875418288570247438059389465635 (.node (.node .nil
  25640218684557064207361454031137302676362376538943384526779356570707680461166047505698274774399661519907 .nil)
  25640218684557064207362430188179071525217652697856983983308500168914338077805771251418715807799636571015 .nil))
  25640218684557064207362430188179071525222407840331253901074826397487667995601737674408690785657082262407 (.node (.node (.node .nil
  25640218684557064207362558262072926738779459911088098782407659297063116266169184359737222173216269440227 .nil)
  25640218684557064207362558262072926738779466663516144746508480627570524982739012029851242400518371947555 .nil)
  25640218684557064207362558262072926738779466663516157332843373543910375325029641246979269736858644001827 (.node (.node .nil
  25640218684557064207362558262072929661556312575938673361422009265737069063706873685797212119355157681379 .nil)
  25640218684557064207362558262072929661556319328366719325522830596244477780276701355911232346657260188707 .nil)))
  25640218684557064207362558262072929661556319328366731911857723512584328122567330573039259682997532242979 (.node (.node (.node (.node .nil
  25640218684616994310931483975481500512282584600550586052018765540481477243775768962935757909805739223267 .nil)
  25640218684616994310931483975481500512282584600550586052018765540481477243775768962935991312857895217379 .nil)
  25640218684617586718491141811080413406982300280946314080182072950147938430456864223860482220966685471623 (.node (.node .nil
  25640218684617586718491141811080413406982300280946314080182072950147938430456864223860482221346415031175 .nil)
  25640218684617586718492246042016040392176243070369661465260439892024586091858147291201467129564556194695 .nil))
  25640218684617586718492246042016040392176243070369661465260439892024586091858147291201467129944285754247 (.node (.node (.node .nil
  25640218684986380798599871003473894597755378354764095717322879567615282982555404086137855967384292763875 .nil)
  25640218684986380798599871003473894597755378354764095717322879567615282982555404086138089370436448757987 .nil)
  25640218684986380798599871003473894597755378354764095717322879567615345043427309631729166766884160828295 (.node .nil
  25640218684986380798599871003473894597755378354764095717322879567615345043427309631729166767263890387847 .nil))))))))
  25640218684986380798599871003473894597755378354764095717343356606630466011518502617070958593938554562787 (.node (.node (.node (.node (.node (.node
  (.node (.node (.node .nil 25640218684986380798599871003473894597755378354764095717343356606630466011518502617071191996990710556899 .nil)
  25640218684986380798599871003473894597755378354764095717343356606630528072390408162662269393438422627207 .nil)
  25640218684986380798599871003473894597755378354764095717343356606630528072390408162662269393818152186759 (.node (.node .nil
  25640218685034767372595447794439083773980987457873452684660721440133775266280620606554349232157546279815 .nil)
  25640218685034767372595447794439083773980987457873452684660721440133775266280620606554349232537275839367 .nil))
  25640218685034767372596552025374710759174930247296800069739088382010422927681903673895334140755417002887 (.node (.node (.node .nil
  25640218685034767372596552025374710759174930247296800069739088382010422927681903673895334141135146562439 .nil)
  25640477021377836963042483642441820577231464312545222771497522793508812258342891512184611520143771248867 .nil)
  25640477021377836963042483642441820577231464312545222771497522793508812258342891656921611784948085893347 (.node (.node .nil
  25640477021377836963042483642441820577231464320350212208873927236029539207897086969789312313515006699747 .nil)
  25640477021377836963042483642441820577231464320350212208873927236029539207897087114526312578319321344227 .nil)))
  25640477021377836963042483642441820577236261696132842802746544813452717441906080987155461910241067346147 (.node (.node (.node (.node .nil
  25640477021377836963042483642441820577236261696132842802746544813452717441906081131892462175045381990627 .nil)
  25640477021377836963042483642441820577236261703937832240122949255973444391460276444760162703612302797027 .nil)
  25640477021377836963042483642441820577236261703937832240122949255973444391460276589497162968416617441507 (.node (.node .nil
  25640477021377836963042483642441820581376991269962599928431761362748484702474028920757457070624555701475 .nil)
  25640477021377836963042483642441820581376991269962599928431761396359059798183764910228527174482797565155 .nil))
  25640477021377836963042483642441820581376991269962599928431790435852253892184807939319433885291531351075 (.node (.node (.node .nil
  25640477021377836963042483642441820581376991269962612514766654279088335044764658137885484406964827755747 .nil)
  25640477021377836963042483642441820581376991269962612514766654312698910140474394127356554510823069619427 .nil)
  25640477021377836963042483642441820581376991269962612514766683352192104234475437156447461221631803405347 (.node (.node .nil
  25640477021377836963042483642441820581381194888663294107924269686181597115239279770203582456839433008007 .nil)
  25640477021377836963042483642441820581381746412436869846198087591321814620269995343747432048482001392867 .nil))))
  25640477021377836963042483642441820581381746412436869846198087624932389715979731333218502152340243256547 (.node (.node (.node (.node (.node .nil
  25640477021377836963042483642441820581381746412436869846198116664425583809980774362309408863148977042467 .nil)
  25640477021377836963042483642441820581381746412436882432532980507661664962560624560875459384822273447139 .nil)
  25640477021377836963042483642441820581381746412436882432532980541272240058270360550346529488680515310819 (.node (.node .nil
  25640477021377836963042483642441820581381746412436882432533009580765434152271403579437436199489249096739 .nil)
  25640477021377836963042483644254281683418641068688507951972147767390696832132824240228222542821625374947 .nil))
  25640477021377836963042483644254281683418641068688507951972147767390696832132824384965222807625940019427 (.node (.node (.node .nil
  25640477021377836963042483644254281683418641076493497389348552209911423781687019697832923336192860825827 .nil)
  25640477021377836963042483644254281683418641076493497389348552209911423781687019842569923600997175470307 .nil)
  25640477021377836963042483644254281683423438452276127983221169787334602015696013715199072932918921472227 (.node (.node .nil
  25640477021377836963042483644254281683423438452276127983221169787334602015696013859936073197723236116707 .nil)
  25640477021377836963042483644254281683423438460081117420597574229855328965250209172803773726290156923107 .nil)))
  25640477021377836963042483644254281683423438460081117420597574229855328965250209317540773991094471567587 (.node (.node (.node (.node .nil
  25640477021377836963042483644254281687564168026105885108906386336630369276263961648801068093302409827555 .nil)
  25640477021377836963042483644254281687564168026105885108906386370240944371973697638272138197160651691235 .nil)
  25640477021377836963042483644254281687564168026105885108906415409734138465974740667363044907969385477155 (.node (.node .nil
  25640477021377836963042483644254281687564168026105897695241279252970219618554590865929095429642681881827 .nil)
  25640477021377836963042483644254281687564168026105897695241279286580794714264326855400165533500923745507 .nil))
  25640477021377836963042483644254281687564168026105897695241308326073988808265369884491072244309657531427 (.node (.node (.node .nil
  25640477021377836963042483644254281687568371644806579288398894660063481689029212498247193479517287134087 .nil)
  25640477021377836963042483644254281687568923168580155026672712565203699194059928071791043071159855518947 .nil)
  25640477021377836963042483644254281687568923168580155026672712598814274289769664061262113175018097382627 (.node .nil
  25640477021377836963042483644254281687568923168580155026672741638307468383770707090353019885826831168547 .nil)))))
  25640477021377836963042483644254281687568923168580167613007605481543549536350557288919070407500127573219 (.node (.node (.node (.node (.node (.node
  .nil 25640477021377836963042483644254281687568923168580167613007605515154124632060293278390140511358369436899 .nil)
  25640477021377836963042483644254281687568923168580167613007634554647318726061336307481047222167103222819 .nil)
  25640477021377836963042483644512358725616850566685965039962118116862189566945102968331136686697081415907 (.node (.node .nil
  25640477021377836963042483644512358725616850566685965039962118116862189566945102968331370089749237410019 .nil)
  25640477021377836963042483644512361674357456998863892438840808757846697782735030651348512330327051151587 .nil))
  25640477021377836963042483644512361674357456998863892438840808757846697782735030651348745733379207145699 (.node (.node (.node .nil
  25640477021377836963042483644514909382408503295551587686016444685409486964214191320905780487548774675335 .nil)
  25640477021377836963042483644514909382408503295551587686016444685409486964214191320905780487928504234887 .nil)
  25640477021377836963042485263979511022676236183795922258429587015954567303747160816236771501615695472867 (.node (.node .nil
  25640477021377836963043597682535505162547688319641112582585469137153399683233779885961366599249491077347 .nil)
  25640477021377836963043597682535505162547688319641112582585469137153399683233780030698366864053805721827 .nil)))
  25640477021377836963043597682535505162547688327446102019961873579674126632787975343566067392620726528227 (.node (.node (.node (.node .nil
  25640477021377836963043597682535505162547688327446102019961873579674126632787975488303067657425041172707 .nil)
  25640477021377836963043597682535505162552485703228732613834491157097304866796969360932216989346787174627 .nil)
  25640477021377836963043597682535505162552485703228732613834491157097304866796969505669217254151101819107 (.node (.node .nil
  25640477021377836963043597682535505162552485711033722051210895599618031816351164818536917782718022625507 .nil)
  25640477021377836963043597682535505162552485711033722051210895599618031816351164963273918047522337269987 .nil))
  25640477021377836963043597682535505166693215277058489739519707706393072127364917294534212149730275529955 (.node (.node (.node .nil
  25640477021377836963043597682535505166693215277058489739519707740003647223074653284005282253588517393635 .nil)
  25640477021377836963043597682535505166693215277058489739519736779496841317075696313096188964397251179555 .nil)
  25640477021377836963043597682535505166693215277058502325854600622732922469655546511662239486070547584227 (.node .nil
  25640477021377836963043597682535505166693215277058502325854600656343497565365282501133309589928789447907 .nil))))
  25640477021377836963043597682535505166693215277058502325854629695836691659366325530224216300737523233827 (.node (.node (.node (.node (.node .nil
  25640477021377836963043597682535505166697418895759183919012216029826184540130168143980337535945152836487 .nil)
  25640477021377836963043597682535505166697970419532759657286033934966402045160883717524187127587721221347 .nil)
  25640477021377836963043597682535505166697970419532759657286033968576977140870619706995257231445963085027 (.node (.node .nil
  25640477021377836963043597682535505166697970419532759657286063008070171234871662736086163942254696870947 .nil)
  25640477021377836963043597682535505166697970419532772243620926851306252387451512934652214463927993275619 .nil))
  25640477021377836963043597682535505166697970419532772243620926884916827483161248924123284567786235139299 (.node (.node (.node .nil
  25640477021377836963043597682535505166697970419532772243620955924410021577162291953214191278594968925219 .nil)
  25640477021377836963043597684347966268734865075784397763060094111035284257023712614004977621927345203427 .nil)
  25640477021377836963043597684347966268734865075784397763060094111035284257023712758741977886731659847907 (.node (.node .nil
  25640477021377836963043597684347966268734865083589387200436498553556011206577908071609678415298580654307 .nil)
  25640477021377836963043597684347966268734865083589387200436498553556011206577908216346678680102895298787 .nil)))
  25640477021377836963043597684347966268739662459372017794309116130979189440586902088975828012024641300707 (.node (.node (.node (.node .nil
  25640477021377836963043597684347966268739662459372017794309116130979189440586902233712828276828955945187 .nil)
  25640477021377836963043597684347966268739662467177007231685520573499916390141097546580528805395876751587 .nil)
  25640477021377836963043597684347966268739662467177007231685520573499916390141097691317529070200191396067 (.node (.node .nil
  25640477021377836963043597684347966272880392033201774919994332680274956701154850022577823172408129656035 .nil)
  25640477021377836963043597684347966272880392033201774919994332713885531796864586012048893276266371519715 .nil))
  25640477021377836963043597684347966272880392033201774919994361753378725890865629041139799987075105305635 (.node (.node (.node .nil
  25640477021377836963043597684347966272880392033201787506329225596614807043445479239705850508748401710307 .nil)
  25640477021377836963043597684347966272880392033201787506329225630225382139155215229176920612606643573987 .nil)
  25640477021377836963043597684347966272880392033201787506329254669718576233156258258267827323415377359907 (.node .nil
  25640477021377836963043597684347966272884595651902469099486841003708069113920100872023948558623006962567 .nil))))))
  25640477021377836963043597684347966272885147175676044837760658908848286618950816445567798150265575347427 (.node (.node (.node (.node (.node (.node
  (.node .nil 25640477021377836963043597684347966272885147175676044837760658942458861714660552435038868254123817211107 .nil)
  25640477021377836963043597684347966272885147175676044837760687981952055808661595464129774964932550997027 .nil)
  25640477021377836963043597684347966272885147175676057424095551825188136961241445662695825486605847401699 (.node (.node .nil
  25640477021377836963043597684347966272885147175676057424095551858798712056951181652166895590464089265379 .nil)
  25640477021377836963043597684347966272885147175676057424095580898291906150952224681257802301272823051299 .nil))
  25640477021377836963043597684606043310933074573781854851050064460506776991835991342107891765802801244387 (.node (.node (.node .nil
  25640477021377836963043597684606043310933074573781854851050064460506776991835991342108125168854957238499 .nil)
  25640477021377836963043597684606046259673681005959782249928755101491285207625919025125267409432770980067 .nil)
  25640477021377836963043597684606046259673681005959782249928755101491285207625919025125500812484926974179 (.node (.node .nil
  25640477021377836963043597684608593967724727302647477497104391029054074389105079694682535566654494503815 .nil)
  25640477021377836963043597684608593967724727302647477497104391029054074389105079694682535567034224063367 .nil)))
  25640477021377836963043756315224050397713076574519560132261515781489751358638291566800038379366989375715 (.node (.node (.node (.node .nil
  25640477021377836963043756315224050397713076574519560132261515781489751435513496220981023130223021133283 .nil)
  25640477021377836963043756315224050397713076574519560132261515781489751435513496220981023130223021751075 .nil)
  25640477021377836963043756315224050397713076574519560132261515781489751435513496220981256533275177127395 (.node (.node .nil
  25640477021377836963043756315224050397713076574519560132261515781489751435513496220981256533275177745187 .nil)
  25640477021377836963043756315224050397713076574519560132261515781489751435591448813470403169254775108487 .nil))
  25640477021377836963043756315224050397713076574519560132261515781489751435601676360503279338937270930915 (.node (.node (.node .nil
  25640477021377836963043756315224050397713076574519560132261515781489751435601676360503279338937271548707 .nil)
  25640477021377836963043756315224050397713076574519560132261515781489751435601676360503512741989426925027 .nil)
  25640477021377836963043756315224050397713076574519560132261515781489751435601676360503512741989427542819 (.node .nil
  25640477021377836963043756315224050397713076574519560132261515815100326454348027556271108483225231239395 .nil))))
  25640477021377836963043756315224050397713076574519560132261515815100326531223232210452093234081262996963 (.node (.node (.node (.node (.node .nil
  25640477021377836963043756315224050397713076574519560132261515815100326531223232210452093234081263614755 .nil)
  25640477021377836963043756315224050397713076574519560132261515815100326531223232210452326637133418991075 .nil)
  25640477021377836963043756315224050397713076574519560132261515815100326531223232210452326637133419608867 (.node (.node .nil
  25640477021377836963043756315224050397713076574519560132261515815100326531301184802941473273113016972167 .nil)
  25640477021377836963043756315224050397713076574519560132261515815100326531311412349974349442795512794595 .nil))
  25640477021377836963043756315224050397713076574519560132261515815100326531311412349974349442795513412387 (.node (.node (.node .nil
  25640477021377836963043756315224050397713076574519560132261515815100326531311412349974582845847668788707 .nil)
  25640477021377836963043756315224050397713076574519560132261515815100326531311412349974582845847669406499 .nil)
  25640477021377836963043756315224050397713076574519560132261515819933393263739405691769785210353596704995 (.node (.node .nil
  25640477021377836963043756315224050397713076574519560132261515819933393263739405691770018613405752699107 .nil)
  25640477021377836963043756315224050397713076574519560132261515819933455324611311237361096009853464769415 .nil)))
  25640477021377836963043756315224050397713076574519560132261515819933455324611311237361096010233194328967 (.node (.node (.node (.node .nil
  25640477021377836963043756315224050397713076574519561573601706069389795046470529852381497803814624326535 .nil)
  25640477021377836963043756315224050397713076574519561573601706069389795046470529852381497804194353886087 .nil)
  25640477021377836963043756315224050397713076574519561573601706069389795046470529997118498068618938971015 (.node (.node .nil
  25640477021377836963043756315224050397713076574519561573601706069389795046470529997118498068998668530567 .nil)
  25640477021377836963043756315224050397713076574519572718596408697829601700928920783928065715707261429987 .nil))
  25640477021377836963043756315224050397713076574519572718596408697829601777804125438109050466563293187555 (.node (.node (.node .nil
  25640477021377836963043756315224050397713076574519572718596408697829601777804125438109050466563293805347 .nil)
  25640477021377836963043756315224050397713076574519572718596408697829601777804125438109283869615449181667 .nil)
  25640477021377836963043756315224050397713076574519572718596408697829601777804125438109283869615449799459 (.node .nil
  25640477021377836963043756315224050397713076574519572718596408697829601777882078030598430505595047162759 .nil)))))
  25640477021377836963043756315224050397713076574519572718596408697829601777892305577631306675277542985187 (.node (.node (.node (.node (.node (.node
  .nil 25640477021377836963043756315224050397713076574519572718596408697829601777892305577631306675277543602979 .nil)
  25640477021377836963043756315224050397713076574519572718596408697829601777892305577631540078329698979299 .nil)
  25640477021377836963043756315224050397713076574519572718596408697829601777892305577631540078329699597091 (.node (.node .nil
  25640477021377836963043756315224050397713076574519572718596408731440176796638656773399135819565503293667 .nil)
  25640477021377836963043756315224050397713076574519572718596408731440176873513861427580120570421535051235 .nil))
  25640477021377836963043756315224050397713076574519572718596408731440176873513861427580120570421535669027 (.node (.node (.node .nil
  25640477021377836963043756315224050397713076574519572718596408731440176873513861427580353973473691045347 .nil)
  25640477021377836963043756315224050397713076574519572718596408731440176873513861427580353973473691663139 .nil)
  25640477021377836963043756315224050397713076574519572718596408731440176873591814020069500609453289026439 (.node (.node .nil
  25640477021377836963043756315224050397713076574519572718596408731440176873602041567102376779135784848867 .nil)
  25640477021377836963043756315224050397713076574519572718596408731440176873602041567102376779135785466659 .nil)))
  25640477021377836963043756315224050397713076574519572718596408731440176873602041567102610182187940842979 (.node (.node (.node (.node .nil
  25640477021377836963043756315224050397713076574519572718596408731440176873602041567102610182187941460771 .nil)
  25640477021377836963043756315224050397713076574519572718596408736273243606030034908897812546693868759267 .nil)
  25640477021377836963043756315224050397713076574519572718596408736273243606030034908898045949746024753379 (.node (.node .nil
  25640477021377836963043756315224050397713076574519572718596408736273305666901940454489123346193736823687 .nil)
  25640477021377836963043756315224050397713076574519572718596408736273305666901940454489123346573466383239 .nil))
  25640477021377836963043756315224050397713076574519572736425261419138605615299484328205255926104530299107 (.node (.node (.node .nil
  25640477021377836963043756315224050397713076574519572736425261419138660297227417529436496605557921884387 .nil)
  25640477021377836963043756315224050397713076574519572736448206311508457164285852700946502001320368220387 .nil)
  25640477021377836963043756315224050397713076574519572736448206311508457164285852700946735404372524214499 (.node .nil
  25640477021377836963043756315224050397713076574519572736448206311508457164374816166581265562142485719267 .nil))))
  25640477021377836963043756315224050397713076574519572736448206311508457164374816166581498965194641713379 (.node (.node (.node (.node (.node .nil
  25640477021377836964039296349713298025453473571886758539790558663685802861076002053231209490201779579107 .nil)
  25640477021377836964039296349713298025453473571886758539790558663685857543003935254462450169655171164387 .nil)
  25640477021377836964039296349713298025453473571886772642982752607174156934521414669197328392900218398947 (.node (.node .nil
  25640477021377836964039296349713298025453473571886772642982752607174156934521414669197561795952374393059 .nil)
  25640477021377836964039296349713298025453473571886772642982752607174156934610378134832091953722335897827 .nil))
  25640477021377836964039296349713298025453473571886772642982752607174156934610378134832325356774491891939 (.node (.node (.node .nil
  25640477021798723536662944628190732939876078913632881642767225267542746629510259943963322527626936658147 .nil)
  25640477021798723536662944628190732939876078913632881642767225267542746629510260088700322792431251302627 .nil)
  25640477021798723536662944628190732939876078921437871080143629710063473579064455401568023320998172109027 (.node (.node .nil
  25640477021798723536662944628190732939876078921437871080143629710063473579064455546305023585802486753507 .nil)
  25640477021798723536662944628190732939880876297220501674016247287486651813073449418934172917724232755427 .nil)))
  25640477021798723536662944628190732939880876297220501674016247287486651813073449563671173182528547399907 (.node (.node (.node (.node .nil
  25640477021798723536662944628190732939880876305025491111392651730007378762627644876538873711095468206307 .nil)
  25640477021798723536662944628190732939880876305025491111392651730007378762627645021275873975899782850787 .nil)
  25640477021798723536662944628190732944021605871050258799701463836782419073641397352536168078107721110755 (.node (.node .nil
  25640477021798723536662944628190732944021605871050258799701463870392994169351133342007238181965962974435 .nil)
  25640477021798723536662944628190732944021605871050258799701492909886188263352176371098144892774696760355 .nil))
  25640477021798723536662944628190732944021605871050271386036356753122269415932026569664195414447993165027 (.node (.node (.node .nil
  25640477021798723536662944628190732944021605871050271386036356786732844511641762559135265518306235028707 .nil)
  25640477021798723536662944628190732944021605871050271386036385826226038605642805588226172229114968814627 .nil)
  25640477021798723536662944628190732944025809489750952979193972160215531486406648201982293464322598417287 (.node .nil
  25640477021798723536662944628190732944026361013524528717467790065355748991437363775526143055965166802147 .nil)))))))
  25640477021798723536662944628190732944026361013524528717467790098966324087147099764997213159823408665827 (.node (.node (.node (.node (.node (.node
  (.node (.node .nil 25640477021798723536662944628190732944026361013524528717467819138459518181148142794088119870632142451747 .nil)
  25640477021798723536662944628190732944026361013524541303802682981695599333727992992654170392305438856419 .nil)
  25640477021798723536662944628190732944026361013524541303802683015306174429437728982125240496163680720099 (.node (.node .nil
  25640477021798723536662944628190732944026361013524541303802712054799368523438772011216147206972414506019 .nil)
  25640477021798723536662944630003194046063255669776166823241850241424631203300192672006933550304790784227 .nil))
  25640477021798723536662944630003194046063255669776166823241850241424631203300192816743933815109105428707 (.node (.node (.node .nil
  25640477021798723536662944630003194046063255677581156260618254683945358152854388129611634343676026235107 .nil)
  25640477021798723536662944630003194046063255677581156260618254683945358152854388274348634608480340879587 .nil)
  25640477021798723536662944630003194046068053053363786854490872261368536386863382146977783940402086881507 (.node (.node .nil
  25640477021798723536662944630003194046068053053363786854490872261368536386863382291714784205206401525987 .nil)
  25640477021798723536662944630003194046068053061168776291867276703889263336417577604582484733773322332387 .nil)))
  25640477021798723536662944630003194046068053061168776291867276703889263336417577749319484998577636976867 (.node (.node (.node (.node .nil
  25640477021798723536662944630003194050208782627193543980176088810664303647431330080579779100785575236835 .nil)
  25640477021798723536662944630003194050208782627193543980176088844274878743141066070050849204643817100515 .nil)
  25640477021798723536662944630003194050208782627193543980176117883768072837142109099141755915452550886435 (.node (.node .nil
  25640477021798723536662944630003194050208782627193556566510981727004153989721959297707806437125847291107 .nil)
  25640477021798723536662944630003194050208782627193556566510981760614729085431695287178876540984089154787 .nil))
  25640477021798723536662944630003194050208782627193556566511010800107923179432738316269783251792822940707 (.node (.node (.node .nil
  25640477021798723536662944630003194050212986245894238159668597134097416060196580930025904487000452543367 .nil)
  25640477021798723536662944630003194050213537769667813897942415039237633565227296503569754078643020928227 .nil)
  25640477021798723536662944630003194050213537769667813897942415072848208660937032493040824182501262791907 (.node .nil
  25640477021798723536662944630003194050213537769667813897942444112341402754938075522131730893309996577827 .nil))))
  25640477021798723536662944630003194050213537769667826484277307955577483907517925720697781414983292982499 (.node (.node (.node (.node (.node .nil
  25640477021798723536662944630003194050213537769667826484277307989188059003227661710168851518841534846179 .nil)
  25640477021798723536662944630003194050213537769667826484277337028681253097228704739259758229650268632099 .nil)
  25640477021798723536662944630261271088261465167773623911231820590896123938112471400109847694180246825187 (.node (.node .nil
  25640477021798723536662944630261271088261465167773623911231820590896123938112471400110081097232402819299 .nil)
  25640477021798723536662944630261274037002071599951551310110511231880632153902399083127223337810216560867 .nil))
  25640477021798723536662944630261274037002071599951551310110511231880632153902399083127456740862372554979 (.node (.node (.node .nil
  25640477021798723536662944630263821745053117896639246557286147159443421335381559752684491495031940084615 .nil)
  25640477021798723536662944630263821745053117896639246557286147159443421335381559752684491495411669644167 .nil)
  25640477021798723536662946249728423385320850784883581129699289489988501674914529248015482509098860882147 (.node (.node .nil
  25640477021798723536664058668284417525192302920728771453855171611187334054401148317740077606732656486627 .nil)
  25640477021798723536664058668284417525192302920728771453855171611187334054401148462477077871536971131107 .nil)))
  25640477021798723536664058668284417525192302928533760891231576053708061003955343775344778400103891937507 (.node (.node (.node (.node .nil
  25640477021798723536664058668284417525192302928533760891231576053708061003955343920081778664908206581987 .nil)
  25640477021798723536664058668284417525197100304316391485104193631131239237964337792710927996829952583907 .nil)
  25640477021798723536664058668284417525197100304316391485104193631131239237964337937447928261634267228387 (.node (.node .nil
  25640477021798723536664058668284417525197100312121380922480598073651966187518533250315628790201188034787 .nil)
  25640477021798723536664058668284417525197100312121380922480598073651966187518533395052629055005502679267 .nil))
  25640477021798723536664058668284417529337829878146148610789410180427006498532285726312923157213440939235 (.node (.node (.node .nil
  25640477021798723536664058668284417529337829878146148610789410214037581594242021715783993261071682802915 .nil)
  25640477021798723536664058668284417529337829878146148610789439253530775688243064744874899971880416588835 .nil)
  25640477021798723536664058668284417529337829878146161197124303096766856840822914943440950493553712993507 (.node .nil
  25640477021798723536664058668284417529337829878146161197124303130377431936532650932912020597411954857187 .nil)))))
  25640477021798723536664058668284417529337829878146161197124332169870626030533693962002927308220688643107 (.node (.node (.node (.node (.node (.node
  .nil 25640477021798723536664058668284417529342033496846842790281918503860118911297536575759048543428318245767 .nil)
  25640477021798723536664058668284417529342585020620418528555736409000336416328252149302898135070886630627 .nil)
  25640477021798723536664058668284417529342585020620418528555736442610911512037988138773968238929128494307 (.node (.node .nil
  25640477021798723536664058668284417529342585020620418528555765482104105606039031167864874949737862280227 .nil)
  25640477021798723536664058668284417529342585020620431114890629325340186758618881366430925471411158684899 .nil))
  25640477021798723536664058668284417529342585020620431114890629358950761854328617355901995575269400548579 (.node (.node (.node .nil
  25640477021798723536664058668284417529342585020620431114890658398443955948329660384992902286078134334499 .nil)
  25640477021798723536664058670096878631379479676872056634329796585069218628191081045783688629410510612707 .nil)
  25640477021798723536664058670096878631379479676872056634329796585069218628191081190520688894214825257187 (.node (.node .nil
  25640477021798723536664058670096878631379479684677046071706201027589945577745276503388389422781746063587 .nil)
  25640477021798723536664058670096878631379479684677046071706201027589945577745276648125389687586060708067 .nil)))
  25640477021798723536664058670096878631384277060459676665578818605013123811754270520754539019507806709987 (.node (.node (.node (.node .nil
  25640477021798723536664058670096878631384277060459676665578818605013123811754270665491539284312121354467 .nil)
  25640477021798723536664058670096878631384277068264666102955223047533850761308465978359239812879042160867 .nil)
  25640477021798723536664058670096878631384277068264666102955223047533850761308466123096240077683356805347 (.node (.node .nil
  25640477021798723536664058670096878635525006634289433791264035154308891072322218454356534179891295065315 .nil)
  25640477021798723536664058670096878635525006634289433791264035187919466168031954443827604283749536928995 .nil))
  25640477021798723536664058670096878635525006634289433791264064227412660262032997472918510994558270714915 (.node (.node (.node .nil
  25640477021798723536664058670096878635525006634289446377598928070648741414612847671484561516231567119587 .nil)
  25640477021798723536664058670096878635525006634289446377598928104259316510322583660955631620089808983267 .nil)
  25640477021798723536664058670096878635525006634289446377598957143752510604323626690046538330898542769187 (.node .nil
  25640477021798723536664058670096878635529210252990127970756543477742003485087469303802659566106172371847 .nil))))
  25640477021798723536664058670096878635529761776763703709030361382882220990118184877346509157748740756707 (.node (.node (.node (.node (.node .nil
  25640477021798723536664058670096878635529761776763703709030361416492796085827920866817579261606982620387 .nil)
  25640477021798723536664058670096878635529761776763703709030390455985990179828963895908485972415716406307 .nil)
  25640477021798723536664058670096878635529761776763716295365254299222071332408814094474536494089012810979 (.node (.node .nil
  25640477021798723536664058670096878635529761776763716295365254332832646428118550083945606597947254674659 .nil)
  25640477021798723536664058670096878635529761776763716295365283372325840522119593113036513308755988460579 .nil))
  25640477021798723536664058670354955673577689174869513722319766934540711363003359773886602773285966653667 (.node (.node (.node .nil
  25640477021798723536664058670354955673577689174869513722319766934540711363003359773886836176338122647779 .nil)
  25640477021798723536664058670354958622318295607047441121198457575525219578793287456903978416915936389347 .nil)
  25640477021798723536664058670354958622318295607047441121198457575525219578793287456904211819968092383459 (.node (.node .nil
  25640477021798723536664058670357506330369341903735136368374093503088008760272448126461246574137659913095 .nil)
  25640477021798723536664058670357506330369341903735136368374093503088008760272448126461246574517389472647 .nil)))
  25640477021798723536664217300972962760357691175607219003531218255523685729805659998578749386850154784995 (.node (.node (.node (.node .nil
  25640477021798723536664217300972962760357691175607219003531218255523685806680864652759734137706186542563 .nil)
  25640477021798723536664217300972962760357691175607219003531218255523685806680864652759734137706187160355 .nil)
  25640477021798723536664217300972962760357691175607219003531218255523685806680864652759967540758342536675 (.node (.node .nil
  25640477021798723536664217300972962760357691175607219003531218255523685806680864652759967540758343154467 .nil)
  25640477021798723536664217300972962760357691175607219003531218255523685806758817245249114176737940517767 .nil))
  25640477021798723536664217300972962760357691175607219003531218255523685806769044792281990346420436340195 (.node (.node (.node .nil
  25640477021798723536664217300972962760357691175607219003531218255523685806769044792281990346420436957987 .nil)
  25640477021798723536664217300972962760357691175607219003531218255523685806769044792282223749472592334307 .nil)
  25640477021798723536664217300972962760357691175607219003531218255523685806769044792282223749472592952099 (.node .nil
  25640477021798723536664217300972962760357691175607219003531218289134260825515395988049819490708396648675 .nil))))))
  25640477021798723536664217300972962760357691175607219003531218289134260902390600642230804241564428406243 (.node (.node (.node (.node (.node (.node
  (.node .nil 25640477021798723536664217300972962760357691175607219003531218289134260902390600642230804241564429024035 .nil)
  25640477021798723536664217300972962760357691175607219003531218289134260902390600642231037644616584400355 .nil)
  25640477021798723536664217300972962760357691175607219003531218289134260902390600642231037644616585018147 (.node (.node .nil
  25640477021798723536664217300972962760357691175607219003531218289134260902468553234720184280596182381447 .nil)
  25640477021798723536664217300972962760357691175607219003531218289134260902478780781753060450278678203875 .nil))
  25640477021798723536664217300972962760357691175607219003531218289134260902478780781753060450278678821667 (.node (.node (.node .nil
  25640477021798723536664217300972962760357691175607219003531218289134260902478780781753293853330834197987 .nil)
  25640477021798723536664217300972962760357691175607219003531218289134260902478780781753293853330834815779 .nil)
  25640477021798723536664217300972962760357691175607219003531218293967327634906774123548496217836762114275 (.node (.node .nil
  25640477021798723536664217300972962760357691175607219003531218293967327634906774123548729620888918108387 .nil)
  25640477021798723536664217300972962760357691175607219003531218293967389695778679669139807017336630178695 .nil)))
  25640477021798723536664217300972962760357691175607219003531218293967389695778679669139807017716359738247 (.node (.node (.node (.node .nil
  25640477021798723536664217300972962760357691175607220444871408543423729417637898284160208811297789735815 .nil)
  25640477021798723536664217300972962760357691175607220444871408543423729417637898284160208811677519295367 .nil)
  25640477021798723536664217300972962760357691175607220444871408543423729417637898428897209076102104380295 (.node (.node .nil
  25640477021798723536664217300972962760357691175607220444871408543423729417637898428897209076481833939847 .nil)
  25640477021798723536664217300972962760357691175607231589866111171863536072096289215706776723190426839267 .nil))
  25640477021798723536664217300972962760357691175607231589866111171863536148971493869887761474046458596835 (.node (.node (.node .nil
  25640477021798723536664217300972962760357691175607231589866111171863536148971493869887761474046459214627 .nil)
  25640477021798723536664217300972962760357691175607231589866111171863536148971493869887994877098614590947 .nil)
  25640477021798723536664217300972962760357691175607231589866111171863536148971493869887994877098615208739 (.node .nil
  25640477021798723536664217300972962760357691175607231589866111171863536149049446462377141513078212572039 .nil))))
  25640477021798723536664217300972962760357691175607231589866111171863536149059674009410017682760708394467 (.node (.node (.node (.node (.node .nil
  25640477021798723536664217300972962760357691175607231589866111171863536149059674009410017682760709012259 .nil)
  25640477021798723536664217300972962760357691175607231589866111171863536149059674009410251085812864388579 .nil)
  25640477021798723536664217300972962760357691175607231589866111171863536149059674009410251085812865006371 (.node (.node .nil
  25640477021798723536664217300972962760357691175607231589866111205474111167806025205177846827048668702947 .nil)
  25640477021798723536664217300972962760357691175607231589866111205474111244681229859358831577904700460515 .nil))
  25640477021798723536664217300972962760357691175607231589866111205474111244681229859358831577904701078307 (.node (.node (.node .nil
  25640477021798723536664217300972962760357691175607231589866111205474111244681229859359064980956856454627 .nil)
  25640477021798723536664217300972962760357691175607231589866111205474111244681229859359064980956857072419 .nil)
  25640477021798723536664217300972962760357691175607231589866111205474111244759182451848211616936454435719 (.node (.node .nil
  25640477021798723536664217300972962760357691175607231589866111205474111244769409998881087786618950258147 .nil)
  25640477021798723536664217300972962760357691175607231589866111205474111244769409998881087786618950875939 .nil)))
  25640477021798723536664217300972962760357691175607231589866111205474111244769409998881321189671106252259 (.node (.node (.node (.node .nil
  25640477021798723536664217300972962760357691175607231589866111205474111244769409998881321189671106870051 .nil)
  25640477021798723536664217300972962760357691175607231589866111210307177977197403340676523554177034168547 .nil)
  25640477021798723536664217300972962760357691175607231589866111210307177977197403340676756957229190162659 (.node (.node .nil
  25640477021798723536664217300972962760357691175607231589866111210307240038069308886267834353676902232967 .nil)
  25640477021798723536664217300972962760357691175607231589866111210307240038069308886267834354056631792519 .nil))
  25640477021798723536664217300972962760357691175607231607694963893172539986466852759983966933587695708387 (.node (.node (.node .nil
  25640477021798723536664217300972962760357691175607231607694963893172594668394785961215207613041087293667 .nil)
  25640477021798723536664217300972962760357691175607231607717908785542391535453221132725213008803533629667 .nil)
  25640477021798723536664217300972962760357691175607231607717908785542391535453221132725446411855689623779 (.node .nil
  25640477021798723536664217300972962760357691175607231607717908785542391535542184598359976569625651128547 .nil)))))
  25640477021798723536664217300972962760357691175607231607717908785542391535542184598360209972677807122659 (.node (.node (.node (.node (.node (.node
  .nil 25640477021798723537659757335462210388098088172974417411060261137719737232243370485009920497684944988387 .nil)
  25640477021798723537659757335462210388098088172974417411060261137719791914171303686241161177138336573667 .nil)
  25640477021798723537659757335462210388098088172974431514252455081208091305688783100976039400383383808227 (.node (.node .nil
  25640477021798723537659757335462210388098088172974431514252455081208091305688783100976272803435539802339 .nil)
  25640477021798723537659757335462210388098088172974431514252455081208091305777746566610802961205501307107 .nil))
  25640477021798723537659757335462210388098088172974431514252455081208091305777746566611036364257657301219 (.node (.node (.node .nil
  25640477021845885494028899163244709112594699238995122941257270937789495733843247936702887797208498514147 .nil)
  25640477021845885494028899163244709112594699238995122941257270937789495733843248081439888062012813158627 .nil)
  25640477021845885494028899165057170218781875995138408121731895911671380307633180664746498819886352640227 (.node (.node .nil
  25640477021845885494028899165057170218781875995138408121731895911671380307633180809483499084690667284707 .nil)
  25640477021845885494028900729433074836190265931900503947056330683685521216788231199436324815993667622115 .nil)))
  25640477021845885494028900729433074836195021074374773864822656912258851134584197622426299793851113313507 (.node (.node (.node (.node .nil
  25640477021845885494028900731229577165341832326668942591350675940816244542758629928616658760484421145827 .nil)
  25640477021845885494028900731229577165346587469143212509117002169389574460554596351606633738341866837219 .nil)
  25640477021845886178780326987037181241578004770242847014005070145317729467727520061872790602535392717027 (.node (.node .nil
  25640477021845886178780326987037181241578004770242847014005070145317729467727520206609790867339707361507 .nil)
  25640477021845886178780326988849642347765181526386132194479695119199614041517452789916401625213246843107 .nil))
  25640477021845886178780326988849642347765181526386132194479695119199614041517452934653401890017561487587 (.node (.node (.node .nil
  25640477021845886178780328553225546965173571463148228019804129891213754950672503324606227621320561824995 .nil)
  25640477021845886178780328553225546965178326605622497937570456119787084868468469747596202599178007516387 .nil)
  25640477021845886178780328555022049294325137857916666664098475148344478276642902053786561565811315348707 (.node .nil
  25640477021845886178780328555022049294329893000390936581864801376917808194438868476776536543668761040099 .nil))))
  25640477021845886276283461672314725790027138552812497337971794261672605772559356606440011417134458153187 (.node (.node (.node (.node (.node .nil
  25640477021845886276283461672314725790027138552812497337971794261672605772559356606440244820186614147299 .nil)
  25640477021846498113211789054712702515576082764325215490761106285852240849581184557684501544625199851747 .nil)
  25640506010706768998796011779918377039071637952601361725056581037678661501225419338179200253186864261347 (.node (.node .nil
  25640506010706768998796011779918377039071637952601361725056581037678661501225419482916200517991178905827 .nil)
  25640506010706768998796011779918379987812244384779289123935271678663169717015347021196575896816833997027 .nil))
  25640506010706768998796011779918379987812244384779289123935271678663169717015347165933576161621148641507 (.node (.node (.node .nil
  25640506010706768998797282831162915994225486035796906793234833883623478421481310713137245148101633321187 .nil)
  25640506010706768998797282831162915994225486035796906793234833883623478421481310857874245412905947965667 .nil)
  25640506010706768998797282831162915994230283419384526824483855903567383605044500188108095538198929418467 (.node (.node .nil
  25640506010706768998797282831162915994230283419384526824483855903567383605044500332845095803003244062947 .nil)
  25640506010706769682551899569479685140828855936733857814755259199973770395048919061391533734641459210467 .nil)))
  25640506010706769682551899569479685140828855936733857814755259199973770395048919206128533999445773854947 (.node (.node (.node (.node .nil
  25640506010706769682551899571292146247016032692877142995229884173855654968838851789435144757319313336547 .nil)
  25640506010706769682551899571292146247016032692877142995229884173855654968838851934172145022123627981027 .nil)
  25640506010706769682551899571497877594334853692780109226513855727007929518516630009816183940926521682147 (.node (.node .nil
  25640506010706769682551899571497877594334853692780109226513855727007929518516630154553184205730836326627 .nil)
  25640506010706769683547439603710849168054943483849085797804380245206895235109691463349103058513758464227 .nil))
  25640506010706769683547439603710849168054943483849085797804380245206895235109691608086103323318073108707 (.node (.node (.node .nil
  25640506010706769683547439603710852116795549916027013196683070886191403450899619146366478702143728199907 .nil)
  25640506010706769683547439603710852116795549916027013196683070886191403450899619291103478966948042844387 .nil)
  25640506010706769683548710654955388123208791567044630865982633091151712155365582838307147953428527524067 (.node .nil
  25640506010706769683548710654955388123208791567044630865982633091151712155365582983044148218232842168547 .nil)))))))))
  25640506010706769683548710654955388123213588950632250897231655111095617338928772313277998343525823621347 (.node (.node (.node (.node (.node (.node
  (.node (.node (.node (.node .nil 25640506010706769683548710654955388123213588950632250897231655111095617338928772458014998608330138265827 .nil)
  25640506010707360707891623799371546749628710207677653145965986940262234964991224569156887233138161128675 .nil)
  25640506010707360707891623799371546749628710207677665844108423321594951998139765467147726995055059965155 (.node (.node .nil
  25640506010707360707891623799371546749634183727359882488429521629440460229299586857212175870899670258915 .nil)
  25640506010707360707891623799371546749634183727359882488450180571086488792783931187277932962410632352995 .nil))
  25640506010707360707891623799371546753779123893780182717033534903295448311097759411557072715701240345635 (.node (.node (.node .nil
  25640506010707360707891623799371546753779123893780182717054193844941476874582103741622829807212202439715 .nil)
  25640506010707360707891623801168049078780276602446091790260332197392958290961623298337221177628914652387 .nil)
  25640506010707360707891623801168049078780276602446104488402768578725675324110164196328060939545813488867 (.node (.node .nil
  25640506010707360707891623801168049078785750122128321132723866886571183555269985586392509815390423782627 .nil)
  25640506010707360707891623801168049078785750122128321132744525828217212118754329916458266906901385876707 .nil)))
  25640506010707360707891623801168049082930690288548621361327880160426171637068158140737406660191993869347 (.node (.node (.node (.node .nil
  25640506010707360707891623801168049082930690288548621361348539102072200200552502470803163751702955963427 .nil)
  25640506010707361307892406466641613998469778280448847228537185685251801839266149883066864703362355606407 .nil)
  25640506010707361307892406466641613998469778288253836665913590127772528788820345340671565496733591057287 (.node (.node .nil
  25640506010707361386613793768111758117727886004687975874677013073007201232036264109576866365965321671907 .nil)
  25640506010707361386613793768111758117727886004687988572819449454339918265184805007567706127882220508387 .nil))
  25640506010707361386613793768111758117733359524370205217140547762185426496344626397632155003726830802147 (.node (.node (.node .nil
  25640506010707361386613793768111758117733359524370205217161206703831455059828970727697912095237792896227 .nil)
  25640506010707361386613793768111758121878299690790505445744561036040414578142798951977051848528400888867 .nil)
  25640506010707361386613793768111758121878299690790505445765219977686443141627143282042808940039362982947 (.node (.node .nil
  25640506010707361386613793769908260446879452399456414518971358330137924558006662838757200310456075195619 .nil)
  25640506010707361386613793769908260446879452399456427217113794711470641591155203736748040072372974032099 .nil))))
  25640506010707361386613793769908260446884925919138643861434893019316149822315025126812488948217584325859 (.node (.node (.node (.node (.node .nil
  25640506010707361386613793769908260446884925919138643861455551960962178385799369456878246039728546419939 .nil)
  25640506010707361386613793769908260451029866085558944090038906293171137904113197681157385793019154412579 .nil)
  25640506010707361386613793769908260451029866085558944090059565234817166467597542011223142884530116506659 (.node (.node .nil
  25863766835489057130810944119615882699900231060457950226149104045357335206219258434312958643608422656227 .nil)
  25863766835489057130810944119615882699900231060457950226149104045357335206219258579049958908412737300707 .nil))
  25863766835489057130810944119615882699900231068262939663525508487878062155773453891917659436979658107107 (.node (.node (.node .nil
  25863766835489057130810944119615882699900231068262939663525508487878062155773454036654659701783972751587 .nil)
  25863766835489057130810944119615885648640837492635877625027794686341843422009186117330334287238392391907 .nil)
  25863766835489057130810944119615885648640837492635877625027794686341843422009186262067334552042707036387 (.node (.node .nil
  25863766835489057130810944119615885648640837500440867062404199128862570371563381574935035080609627842787 .nil)
  25863766835489057130810944119615885648640837500440867062404199128862570371563381719672035345413942487267 .nil)))
  25863766835489057130810944119615886068518494852213650766350901002462087257096116341464889531813045414115 (.node (.node (.node (.node .nil
  25863766835489057130810944119615886068518494852213650766350901035776720182151804341091560276266246154467 .nil)
  25863766835489057130812058159709567285216455067553840037237050389001922631110146808089713722714142484707 .nil)
  25863766835489057130812058159709567285216455067553840037237050389001922631110146952826713987518457129187 (.node (.node .nil
  25863766835489057130812058159709567285216455075358829474613454831522649580664342265694414516085377935587 .nil)
  25863766835489057130812058159709567285216455075358829474613454831522649580664342410431414780889692580067 .nil))
  25863766835489057130812058159709570233957061499731767436115741029986430846900074491107089366344112220387 (.node (.node (.node .nil
  25863766835489057130812058159709570233957061499731767436115741029986430846900074635844089631148426864867 .nil)
  25863766835489057130812058159709570233957061507536756873492145472507157796454269948711790159715347671267 .nil)
  25863766835489057130812058159709570233957061507536756873492145472507157796454270093448790424519662315747 (.node .nil
  25863766835489057130812058159709570653834718859309540577438847346106674681987004715241644610918765242595 .nil)))))
  25863766835489057130812058159709570653834718859309540577438847379421307607042692714868315355371965982947 (.node (.node (.node (.node (.node (.node
  .nil 25863766835489057130812182994252074317261772869008502783875759776018276154029529828752124804679251732707 .nil)
  25863766835489057130812182994252074317261772869008502783875759776018276154029529973489125069483566377187 .nil)
  25863766835489057131773609627495227070564429101389770386657689355251370925694696809795277228932417136867 (.node (.node .nil
  25863766835489057131773609627495227070564429101389770386657689355251370925694696954532277493736731781347 .nil)
  25863766835489057131774587352571577438098320943311911663603434995833011202757770275403351868813279439075 .nil))
  25863766835489057131774587352571577438098320943311911663603434995833065403209608467315575334736892733667 (.node (.node (.node .nil
  25863766835549578944437956608891219749241851775248654044227359080718514912023686673062959483620614154467 .nil)
  25863766835549578944437956608891219749241851775248654044227359080718514912023686817799959748424928798947 .nil)
  25863766835549578944437956608891222697982458207426581443106049721703023127813614356080335127250583890147 (.node (.node .nil
  25863766835549578944437956608891222697982458207426581443106049721703023127813614500817335392054898534627 .nil)
  25863766835549579725695993063774326710141008414742491655405879689666452579180118378967426676421883013347 .nil)))
  25863766835549579725695993063774326710141008414742491655405879689666452579180118523704426941226197657827 (.node (.node (.node (.node .nil
  25863766835549579725695993063774326710145805798330111686654901709610357762743307853938277066519179110627 .nil)
  25863766835549579725695993063774326710145805798330111686654901709610357762743307998675277331323493755107 .nil)
  25863766835970465518058417594640132111886466376336312915497061554752449283191055104841670491103779563747 (.node (.node .nil
  25863766835970465518058417594640132111886466376336312915497061554752449283191055249578670755908094208227 .nil)
  25863766835970465518058417594640135060627072808514240314375752195736957498980982787859046134733749299427 .nil))
  25863766835970465518058417594640135060627072808514240314375752195736957498980982932596046399538063943907 (.node (.node (.node .nil
  25863766835970466299316454049523239072785623015830150526675582163700386950347486810746137683905048422627 .nil)
  25863766835970466299316454049523239072785623015830150526675582163700386950347486955483137948709363067107 .nil)
  25863766835970466299316454049523239072790420399417770557924604183644292133910676285716988074002344519907 (.node .nil
  25863766835970466299316454049523239072790420399417770557924604183644292133910676430453988338806659164387 .nil))))
  25863767199247124816938148303849779899544906441500956015290707061632378868858229196947453134727116788963 (.node (.node (.node (.node (.node .nil
  25863767199247124816938148303849779899544906441500956015290707095242953964567965186418523238585358652643 .nil)
  25863767199247124816938148303849779899544906441500956015290736134736148058569008215509429949394092438563 .nil)
  25863767199247124816938148303849779899544906441500968713433143442965095902006770094938292896644015625443 (.node (.node .nil
  25863767199247124816938148303849779899544906441500968713433143476575670997716506084409363000502257489123 .nil)
  25863767199247124816938148303849779899544906441500968713433172516068865091717549113500269711310991275043 .nil))
  25863767199247124816938148303849779899544906441500970521549560117903818747469146618689129586003642682851 (.node (.node (.node .nil
  25863767199247124816938148303849779899544906441500970521549560117903818747469146618689129586003643300643 .nil)
  25863767199247124816938148303849779899544906441500970521549560117903818747469146762151716011998359588323 .nil)
  25863767199247124816938148303849779899544906441500970521549560117903818747469146762151716011998360206115 (.node (.node .nil
  25863767199247124816938148303849779899549703825088576046539729081576284052421418671918303524824412886243 .nil)
  25863767199247124816938148303849779899549703825088576046539729115186859148131154661389373628682654749923 .nil)))
  25863767199247124816938148303849779899549703825088576046539758154680053242132197690480280339491388535843 (.node (.node (.node (.node .nil
  25863767199247124816938148303849779899549703825088588744682165462909001085569959569909143286741311722723 .nil)
  25863767199247124816938148303849779899549703825088588744682165496519576181279695559380213390599553586403 .nil)
  25863767199247124816938148303849779899549703825088588744682194536012770275280738588471120101408287372323 (.node (.node .nil
  25863767199247124816938148303849779899549703825088590552798582137847723931032336093659979976100938780131 .nil)
  25863767199247124816938148303849779899549703825088590552798582137847723931032336093659979976100939397923 .nil))
  25863767199247124816938148303849779899549703825088590552798582137847723931032336237122566402095655685603 (.node (.node (.node .nil
  25863767199247124816938148303849779899549703825088590552798582137847723931032336237122566402095656303395 .nil)
  25863767199247124816938148303849779899550241399264574104893570479269990758350157670054600827115533014243 .nil)
  25863767199247124816938148303849779903690426637810718722262141136622985157704406501567631869444234188003 (.node .nil
  25863767199247124816938148303849779903690433390238764686362962467130393874274234171681652096746336695331 .nil))))))
  25863767199247124816938148303849779903690433390238777272697855383470244216564863388809679433086608749603 (.node (.node (.node (.node (.node (.node
  (.node .nil 25863767199247124816938148303849779903694637008928489110195316526945384878602077244920371074846787325411 .nil)
  25863767199247124816938148303849779903694637008928489110195316526945384878602077244920371074846787943203 .nil)
  25863767199247124816938148303849779903694637008928489110195316526945384878602077244920604477898943319523 (.node (.node .nil
  25863767199247124816938148303849779903694637008928489110195316526945384878602077244920604477898943937315 .nil)
  25863767199247124816938148303849779903695188532713034604129288695703723792070200594671627074603782386723 .nil))
  25863767199247124816938148303849779903695188532713047190464181612043574134360829811799654410944054440995 (.node (.node (.node .nil
  25863767199247124816938148305646282228696472836269394659585052318763102194828627926127787079217870312675 .nil)
  25863767199247124816938148305646282228696472836269394659585052352373677290538363915598857183076112176355 .nil)
  25863767199247124816938148305646282228696472836269394659585081391866871384539406944689763893884845962275 (.node (.node .nil
  25863767199247124816938148305646282228696472836269407357727488700095819227977168824118626841134769149155 .nil)
  25863767199247124816938148305646282228696472836269407357727488733706394323686904813589696944993011012835 .nil)))
  25863767199247124816938148305646282228696472836269407357727517773199588417687947842680603655801744798755 (.node (.node (.node (.node .nil
  25863767199247124816938148305646282228696472836269409165843905375034542073439545347869463530494396206563 .nil)
  25863767199247124816938148305646282228696472836269409165843905375034542073439545347869463530494396824355 .nil)
  25863767199247124816938148305646282228696472836269409165843905375034542073439545491332049956489113112035 (.node (.node .nil
  25863767199247124816938148305646282228696472836269409165843905375034542073439545491332049956489113729827 .nil)
  25863767199247124816938148305646282228701270219857014690834074338707007378391817401098637469315166409955 .nil))
  25863767199247124816938148305646282228701270219857014690834074372317582474101553390569707573173408273635 (.node (.node (.node .nil
  25863767199247124816938148305646282228701270219857014690834103411810776568102596419660614283982142059555 .nil)
  25863767199247124816938148305646282228701270219857027388976510720039724411540358299089477231232065246435 .nil)
  25863767199247124816938148305646282228701270219857027388976510753650299507250094288560547335090307110115 (.node .nil
  25863767199247124816938148305646282228701270219857027388976539793143493601251137317651454045899040896035 .nil))))
  25863767199247124816938148305646282228701270219857029197092927394978447257002734822840313920591692303843 (.node (.node (.node (.node (.node .nil
  25863767199247124816938148305646282228701270219857029197092927394978447257002734822840313920591692921635 .nil)
  25863767199247124816938148305646282228701270219857029197092927394978447257002734966302900346586409209315 .nil)
  25863767199247124816938148305646282228701270219857029197092927394978447257002734966302900346586409827107 (.node (.node .nil
  25863767199247124816938148305646282228701807794033012749187915736400714084320556399234934771606286537955 .nil)
  25863767199247124816938148305646282232841993032579157366556486393753708483674805230747965813934987711715 .nil))
  25863767199247124816938148305646282232841999785007203330657307724261117200244632900861986041237090219043 (.node (.node (.node .nil
  25863767199247124816938148305646282232841999785007215916992200640600967542535262117990013377577362273315 .nil)
  25863767199247124816938148305646282232846203403696927754489661784076108204572475974100705019337540849123 .nil)
  25863767199247124816938148305646282232846203403696927754489661784076108204572475974100705019337541466915 (.node (.node .nil
  25863767199247124816938148305646282232846203403696927754489661784076108204572475974100938422389696843235 .nil)
  25863767199247124816938148305646282232846203403696927754489661784076108204572475974100938422389697461027 .nil)))
  25863767199247124816938148305646282232846754927481473248423633952834447118040599323851961019094535910435 (.node (.node (.node (.node .nil
  25863767199247124816938148305646282232846754927481485834758526869174297460331228540979988355434807964707 .nil)
  25863767199247124816938148305906906919884142897042741208398357942099005124230297323183093406908592985315 .nil)
  25863767199247124816938148305906906919884142897042753906540794323431722157378838221173933168825491821795 (.node (.node .nil
  25863767199247124816938148305906910284210528484082683523580779518867655521237009236957876493469848736995 .nil)
  25863767199247124816938148305906910284210528484082683523601438460513684084721353567023633584980810831075 .nil))
  25863767199247124816938148305909457996553459720139996351963664165803051246295579665326972487844142658595 (.node (.node (.node .nil
  25863767199247124816938148305909457996553459720139996351984323107449079809779923995392729579355104752675 .nil)
  25863767199247124816938149925590563930835442433807805521937582842640610315525572371746968575767857476643 .nil)
  25863767199247124816939252534785406884738849230924303400369074003509026530259512264288438043324987512035 (.node .nil
  25863767199247124816939252534785406884738849230924303400369074037119601625969248253759508147183229375715 .nil)))))
  25863767199247124816939252534785406884738849230924303400369103076612795719970291282850414857991963161635 (.node (.node (.node (.node (.node (.node
  .nil 25863767199247124816939252534785406884738849230924316098511510384841743563408053162279277805241886348515 .nil)
  25863767199247124816939252534785406884738849230924316098511510418452318659117789151750347909100128212195 .nil)
  25863767199247124816939252534785406884738849230924316098511539457945512753118832180841254619908861998115 (.node (.node .nil
  25863767199247124816939252534785406884738849230924317906627927059780466408870429686030114494601513405923 .nil)
  25863767199247124816939252534785406884738849230924317906627927059780466408870429686030114494601514023715 .nil))
  25863767199247124816939252534785406884738849230924317906627927059780466408870429829492700920596230311395 (.node (.node (.node .nil
  25863767199247124816939252534785406884738849230924317906627927059780466408870429829492700920596230929187 .nil)
  25863767199247124816939252534785406884743646614511923431618096023452931713822701739259288433422283609315 .nil)
  25863767199247124816939252534785406884743646614511923431618096057063506809532437728730358537280525472995 (.node (.node .nil
  25863767199247124816939252534785406884743646614511923431618125096556700903533480757821265248089259258915 .nil)
  25863767199247124816939252534785406884743646614511936129760532404785648746971242637250128195339182445795 .nil)))
  25863767199247124816939252534785406884743646614511936129760532438396223842680978626721198299197424309475 (.node (.node (.node (.node .nil
  25863767199247124816939252534785406884743646614511936129760561477889417936682021655812105010006158095395 .nil)
  25863767199247124816939252534785406884743646614511937937876949079724371592433619161000964884698809503203 .nil)
  25863767199247124816939252534785406884743646614511937937876949079724371592433619161000964884698810120995 (.node (.node .nil
  25863767199247124816939252534785406884743646614511937937876949079724371592433619304463551310693526408675 .nil)
  25863767199247124816939252534785406884743646614511937937876949079724371592433619304463551310693527026467 .nil))
  25863767199247124816939252534785406884744184188687921489971937421146638419751440737395585735713403737315 (.node (.node (.node .nil
  25863767199247124816939252534785406888884369427234066107340508078499632819105689568908616778042104911075 .nil)
  25863767199247124816939252534785406888884376179662112071441329409007041535675517239022637005344207418403 .nil)
  25863767199247124816939252534785406888884376179662124657776222325346891877966146456150664341684479472675 (.node .nil
  25863767199247124816939252534785406888888579798351836495273683468822032540003360312261355983444658048483 .nil))))
  25863767199247124816939252534785406888888579798351836495273683468822032540003360312261355983444658666275 (.node (.node (.node (.node (.node .nil
  25863767199247124816939252534785406888888579798351836495273683468822032540003360312261589386496814042595 .nil)
  25863767199247124816939252534785406888888579798351836495273683468822032540003360312261589386496814660387 .nil)
  25863767199247124816939252534785406888889131322136381989207655637580371453471483662012611983201653109795 (.node (.node .nil
  25863767199247124816939252534785406888889131322136394575542548553920221795762112879140639319541925164067 .nil)
  25863767199247124816939252536581909213890415625692742044663419260639749856229910993468771987815741035747 .nil))
  25863767199247124816939252536581909213890415625692742044663419294250324951939646982939842091673982899427 (.node (.node (.node .nil
  25863767199247124816939252536581909213890415625692742044663448333743519045940690012030748802482716685347 .nil)
  25863767199247124816939252536581909213890415625692754742805855641972466889378451891459611749732639872227 .nil)
  25863767199247124816939252536581909213890415625692754742805855675583041985088187880930681853590881735907 (.node (.node .nil
  25863767199247124816939252536581909213890415625692754742805884715076236079089230910021588564399615521827 .nil)
  25863767199247124816939252536581909213890415625692756550922272316911189734840828415210448439092266929635 .nil)))
  25863767199247124816939252536581909213890415625692756550922272316911189734840828415210448439092267547427 (.node (.node (.node (.node .nil
  25863767199247124816939252536581909213890415625692756550922272316911189734840828558673034865086983835107 .nil)
  25863767199247124816939252536581909213890415625692756550922272316911189734840828558673034865086984452899 .nil)
  25863767199247124816939252536581909213895213009280362075912441280583655039793100468439622377913037133027 (.node (.node .nil
  25863767199247124816939252536581909213895213009280362075912441314194230135502836457910692481771278996707 .nil)
  25863767199247124816939252536581909213895213009280362075912470353687424229503879487001599192580012782627 .nil))
  25863767199247124816939252536581909213895213009280374774054877661916372072941641366430462139829935969507 (.node (.node (.node .nil
  25863767199247124816939252536581909213895213009280374774054877695526947168651377355901532243688177833187 .nil)
  25863767199247124816939252536581909213895213009280374774054906735020141262652420384992438954496911619107 .nil)
  25863767199247124816939252536581909213895213009280376582171294336855094918404017890181298829189563026915 (.node .nil
  25863767199247124816939252536581909213895213009280376582171294336855094918404017890181298829189563644707 .nil)))))))
  25863767199247124816939252536581909213895213009280376582171294336855094918404018033643885255184279932387 (.node (.node (.node (.node (.node (.node
  (.node (.node .nil 25863767199247124816939252536581909213895213009280376582171294336855094918404018033643885255184280550179 .nil)
  25863767199247124816939252536581909213895750583456360134266282678277361745721839466575919680204157261027 .nil)
  25863767199247124816939252536581909218035935822002504751634853335630356145076088298088950722532858434787 (.node (.node .nil
  25863767199247124816939252536581909218035942574430550715735674666137764861645915968202970949834960942115 .nil)
  25863767199247124816939252536581909218035942574430563302070567582477615203936545185330998286175232996387 .nil))
  25863767199247124816939252536581909218040146193120275139568028725952755865973759041441689927935411572195 (.node (.node (.node .nil
  25863767199247124816939252536581909218040146193120275139568028725952755865973759041441689927935412189987 .nil)
  25863767199247124816939252536581909218040146193120275139568028725952755865973759041441923330987567566307 .nil)
  25863767199247124816939252536581909218040146193120275139568028725952755865973759041441923330987568184099 (.node (.node .nil
  25863767199247124816939252536581909218040697716904820633502000894711094779441882391192945927692406633507 .nil)
  25863767199247124816939252536581909218040697716904833219836893811050945121732511608320973264032678687779 .nil)))
  25863767199247124816939252536842533905078085686466088593476724883975652785631580390524078315506463708387 (.node (.node (.node (.node .nil
  25863767199247124816939252536842533905078085686466101291619161265308369818780121288514918077423362544867 .nil)
  25863767199247124816939252536842537269404471273506030908659146460744303182638292304298861402067719460067 .nil)
  25863767199247124816939252536842537269404471273506030908679805402390331746122636634364618493578681554147 (.node (.node .nil
  25863767199247124816939252536845084981747402509563343737042031107679698907696862732667957396442013381667 .nil)
  25863767199247124816939252536845084981747402509563343737062690049325727471181207062733714487952975475747 .nil))
  25863767199615918119858780877640721496285704195165348318360264879469301394789335627664654089959777678215 (.node (.node (.node .nil
  25863767199615918119858780877640721496290501578752968349609286899413206578352525102635504480057073775495 .nil)
  25863767199615918119858780877640721496291184688737428392389478496315364063055914847005993567215303177095 .nil)
  25863767199615918119858780877640721496291184688737428392389478496315418263507753038918217033138916471687 (.node .nil
  25863767199615918119858780879453182602472880951308633498834889853351185968579268355708265112637631804295 .nil))))
  25863767199615918119858780879453182602477678334896253530083911873295091152142457830679115502734927901575 (.node (.node (.node (.node (.node .nil
  25863767199615918119858780879453182602478361444880713572864103470197248636845847575049604589893157303175 .nil)
  25863767199615918119858780879453182602478361444880713572864103470197302837297685766961828055816770597767 .nil)
  25863767199615918119858782443829086885170453043880972485386505440510040755071216271059585591289270416263 (.node (.node .nil
  25863767199615918119858782443829086885175208186355242403152831669083370672867182694049560569146716107655 .nil)
  25863767199615918119858782445417222426390898316890559734572581325432778309274849766137888380675737957255 .nil))
  25863767199615918119858782445417222426390898316890559734572581325432778309363029905660144589389987754887 (.node (.node (.node .nil
  25863767199615918119858782445625589214322019438649411129680850697640764081041615000239919535780023939975 .nil)
  25863767199615918119858782445625589214326774581123681047447176926214093998837581423229894513637469631367 .nil)
  25863767199615918798580950846380932864384879992175671047071291012214267661834375168084633222786938221447 (.node (.node .nil
  25863767199615918798580950846380932864389677375763291078320313032158172845397564643055483612884234318727 .nil)
  25863767199615918798580950846380932864390360485747751121100504629060330330100954387425972700042463720327 .nil)))
  25863767199615918798580950846380932864390360485747751121100504629060384530552792579338196165966077014919 (.node (.node (.node (.node .nil
  25863767199615918798580950848193393970572056748318956227545915986096152235624307896128244245464792347527 .nil)
  25863767199615918798580950848193393970576854131906576258794938006040057419187497371099094635562088444807 .nil)
  25863767199615918798580950848193393970577537241891036301575129602942214903890887115469583722720317846407 (.node (.node .nil
  25863767199615918798580950848193393970577537241891036301575129602942269104342725307381807188643931140999 .nil)
  25863767199615918798580952412569298253269628840891295214097531573255007022116255811479564724116430959495 .nil))
  25863767199615918798580952412569298253274383983365565131863857801828336939912222234469539701973876650887 (.node (.node (.node .nil
  25863767199615918798580952414157433794490074113900882463283607458177744576319889306557867513502898500487 .nil)
  25863767199615918798580952414157433794490074113900882463283607458177744576408069446080123722217148298119 .nil)
  25863767199615918798580952414365800582421195235659733858391876830385730348086654540659898668607184483207 (.node .nil
  25863767199615918798580952414365800582425950378134003776158203058959060265882620963649873646464630174599 .nil)))))
  25863767199615918898009281856361813850439765815507784087746179313616543901741649242779743337605875544967 (.node (.node (.node (.node (.node (.node
  .nil 25863767199615918898009281856361813850439765823312773525122583756137270851295844700384444130977110995847 .nil)
  25863767199616530816767770890603172394346170306759749197728992529147957173921147769661558720714914313095 .nil)
  25863767199664305471042454287208450266543593618428094619769355551618215704681985579641320145917977597155 (.node (.node .nil
  25863767199664305471042454287208450266543593618428094619769355585228790800391721569112390249776219460835 .nil)
  25863767199664305471042454287208450266543593618428094619769384624721984894392764598203296960584953246755 .nil))
  25863767199664305471042454287208450266543593618428107317911791932950932737830526477632159907834876433635 (.node (.node (.node .nil
  25863767199664305471042454287208450266543593618428107317911791966561507833540262467103230011693118297315 .nil)
  25863767199664305471042454287208450266543593618428107317911821006054701927541305496194136722501852083235 .nil)
  25863767199664305471042454287208450266543593618428109126028208607889655583292903001382996597194503491043 (.node (.node .nil
  25863767199664305471042454287208450266543593618428109126028208607889655583292903001382996597194504108835 .nil)
  25863767199664305471042454287208450266543593618428109126028208607889655583292903144845583023189220396515 .nil)))
  25863767199664305471042454287208450266543593618428109126028208607889655583292903144845583023189221014307 (.node (.node (.node (.node .nil
  25863767199664305471042454287208450266548391002015714651018377571562120888245175054612170536015273694435 .nil)
  25863767199664305471042454287208450266548391002015714651018377605172695983954911044083240639873515558115 .nil)
  25863767199664305471042454287208450266548391002015714651018406644665890077955954073174147350682249344035 (.node (.node .nil
  25863767199664305471042454287208450266548391002015727349160813952894837921393715952603010297932172530915 .nil)
  25863767199664305471042454287208450266548391002015727349160813986505413017103451942074080401790414394595 .nil))
  25863767199664305471042454287208450266548391002015727349160843025998607111104494971164987112599148180515 (.node (.node (.node .nil
  25863767199664305471042454287208450266548391002015729157277230627833560766856092476353846987291799588323 .nil)
  25863767199664305471042454287208450266548391002015729157277230627833560766856092476353846987291800206115 .nil)
  25863767199664305471042454287208450266548391002015729157277230627833560766856092619816433413286516493795 (.node .nil
  25863767199664305471042454287208450266548391002015729157277230627833560766856092619816433413286517111587 .nil))))
  25863767199664305471042454287208450266548928576191712709372218969255827594173914052748467838306393822435 (.node (.node (.node (.node (.node .nil
  25863767199664305471042454287208450270689113814737857326740789626608821993528162884261498880635094996195 .nil)
  25863767199664305471042454287208450270689120567165903290841610957116230710097990554375519107937197503523 .nil)
  25863767199664305471042454287208450270689120567165915877176503873456081052388619771503546444277469557795 (.node (.node .nil
  25863767199664305471042454287208450270693324185855627714673965016931221714425833627614238086037648133603 .nil)
  25863767199664305471042454287208450270693324185855627714673965016931221714425833627614238086037648751395 .nil))
  25863767199664305471042454287208450270693324185855627714673965016931221714425833627614471489089804127715 (.node (.node (.node .nil
  25863767199664305471042454287208450270693324185855627714673965016931221714425833627614471489089804745507 .nil)
  25863767199664305471042454287208450270693875709640173208607937185689560627893956977365494085794643194915 .nil)
  25863767199664305471042454287208450270693875709640185794942830102029410970184586194493521422134915249187 (.node (.node .nil
  25863767199664305471042454289004952595695160013196533264063700808748939030652384308821654090408731120867 .nil)
  25863767199664305471042454289004952595695160013196533264063700842359514126362120298292724194266972984547 .nil)))
  25863767199664305471042454289004952595695160013196533264063729881852708220363163327383630905075706770467 (.node (.node (.node (.node .nil
  25863767199664305471042454289004952595695160013196545962206137190081656063800925206812493852325629957347 .nil)
  25863767199664305471042454289004952595695160013196545962206137223692231159510661196283563956183871821027 .nil)
  25863767199664305471042454289004952595695160013196545962206166263185425253511704225374470666992605606947 (.node (.node .nil
  25863767199664305471042454289004952595695160013196547770322553865020378909263301730563330541685257014755 .nil)
  25863767199664305471042454289004952595695160013196547770322553865020378909263301730563330541685257632547 .nil))
  25863767199664305471042454289004952595695160013196547770322553865020378909263301874025916967679973920227 (.node (.node (.node .nil
  25863767199664305471042454289004952595695160013196547770322553865020378909263301874025916967679974538019 .nil)
  25863767199664305471042454289004952595699957396784153295312722828692844214215573783792504480506027218147 .nil)
  25863767199664305471042454289004952595699957396784153295312722862303419309925309773263574584364269081827 (.node .nil
  25863767199664305471042454289004952595699957396784153295312751901796613403926352802354481295173002867747 .nil))))))
  25863767199664305471042454289004952595699957396784165993455159210025561247364114681783344242422926054627 (.node (.node (.node (.node (.node (.node
  (.node .nil 25863767199664305471042454289004952595699957396784165993455159243636136343073850671254414346281167918307 .nil)
  25863767199664305471042454289004952595699957396784165993455188283129330437074893700345321057089901704227 .nil)
  25863767199664305471042454289004952595699957396784167801571575884964284092826491205534180931782553112035 (.node (.node .nil
  25863767199664305471042454289004952595699957396784167801571575884964284092826491205534180931782553729827 .nil)
  25863767199664305471042454289004952595699957396784167801571575884964284092826491348996767357777270017507 .nil))
  25863767199664305471042454289004952595699957396784167801571575884964284092826491348996767357777270635299 (.node (.node (.node .nil
  25863767199664305471042454289004952595700494970960151353666564226386550920144312781928801782797147346147 .nil)
  25863767199664305471042454289004952599840680209506295971035134883739545319498561613441832825125848519907 .nil)
  25863767199664305471042454289004952599840686961934341935135956214246954036068389283555853052427951027235 (.node (.node .nil
  25863767199664305471042454289004952599840686961934354521470849130586804378359018500683880388768223081507 .nil)
  25863767199664305471042454289004952599844890580624066358968310274061945040396232356794572030528401657315 .nil)))
  25863767199664305471042454289004952599844890580624066358968310274061945040396232356794572030528402275107 (.node (.node (.node (.node .nil
  25863767199664305471042454289004952599844890580624066358968310274061945040396232356794805433580557651427 .nil)
  25863767199664305471042454289004952599844890580624066358968310274061945040396232356794805433580558269219 .nil)
  25863767199664305471042454289004952599845442104408611852902282442820283953864355706545828030285396718627 (.node (.node .nil
  25863767199664305471042454289004952599845442104408624439237175359160134296154984923673855366625668772899 .nil)
  25863767199664305471042454289265577286882830073969879812877006432084841960054053705876960418099453793507 .nil))
  25863767199664305471042454289265577286882830073969892511019442813417558993202594603867800180016352629987 (.node (.node (.node .nil
  25863767199664305471042454289265580651209215661009822128059428008853492357060765619651743504660709545187 .nil)
  25863767199664305471042454289265580651209215661009822128080086950499520920545109949717500596171671639267 .nil)
  25863767199664305471042454289268128363552146897067134956442312655788888082119336048020839499035003466787 (.node .nil
  25863767199664305471042454289268128363552146897067134956462971597434916645603680378086596590545965560867 .nil))))
  25863767199664305471042455908949234297834129610734944126416231332626447151349328754440835586958718284835 (.node (.node (.node (.node (.node .nil
  25863767199664305471043558518144077251737536407851442004847722493494863366083268646982305054515848320227 .nil)
  25863767199664305471043558518144077251737536407851442004847722527105438461793004636453375158374090183907 .nil)
  25863767199664305471043558518144077251737536407851442004847751566598632555794047665544281869182823969827 (.node (.node .nil
  25863767199664305471043558518144077251737536407851454702990158874827580399231809544973144816432747156707 .nil)
  25863767199664305471043558518144077251737536407851454702990158908438155494941545534444214920290989020387 .nil))
  25863767199664305471043558518144077251737536407851454702990187947931349588942588563535121631099722806307 (.node (.node (.node .nil
  25863767199664305471043558518144077251737536407851456511106575549766303244694186068723981505792374214115 .nil)
  25863767199664305471043558518144077251737536407851456511106575549766303244694186068723981505792374831907 .nil)
  25863767199664305471043558518144077251737536407851456511106575549766303244694186212186567931787091119587 (.node (.node .nil
  25863767199664305471043558518144077251737536407851456511106575549766303244694186212186567931787091737379 .nil)
  25863767199664305471043558518144077251742333791439062036096744513438768549646458121953155444613144417507 .nil)))
  25863767199664305471043558518144077251742333791439062036096744547049343645356194111424225548471386281187 (.node (.node (.node (.node .nil
  25863767199664305471043558518144077251742333791439062036096773586542537739357237140515132259280120067107 .nil)
  25863767199664305471043558518144077251742333791439074734239180894771485582794999019943995206530043253987 .nil)
  25863767199664305471043558518144077251742333791439074734239180928382060678504735009415065310388285117667 (.node (.node .nil
  25863767199664305471043558518144077251742333791439074734239209967875254772505778038505972021197018903587 .nil)
  25863767199664305471043558518144077251742333791439076542355597569710208428257375543694831895889670311395 .nil))
  25863767199664305471043558518144077251742333791439076542355597569710208428257375543694831895889670929187 (.node (.node (.node .nil
  25863767199664305471043558518144077251742333791439076542355597569710208428257375687157418321884387216867 .nil)
  25863767199664305471043558518144077251742333791439076542355597569710208428257375687157418321884387834659 .nil)
  25863767199664305471043558518144077251742871365615060094450585911132475255575197120089452746904264545507 (.node .nil
  25863767199664305471043558518144077255883056604161204711819156568485469654929445951602483789232965719267 .nil)))))
  25863767199664305471043558518144077255883063356589250675919977898992878371499273621716504016535068226595 (.node (.node (.node (.node (.node (.node
  .nil 25863767199664305471043558518144077255883063356589263262254870815332728713789902838844531352875340280867 .nil)
  25863767199664305471043558518144077255887266975278975099752331958807869375827116694955222994635518856675 .nil)
  25863767199664305471043558518144077255887266975278975099752331958807869375827116694955222994635519474467 (.node (.node .nil
  25863767199664305471043558518144077255887266975278975099752331958807869375827116694955456397687674850787 .nil)
  25863767199664305471043558518144077255887266975278975099752331958807869375827116694955456397687675468579 .nil))
  25863767199664305471043558518144077255887818499063520593686304127566208289295240044706478994392513917987 (.node (.node (.node .nil
  25863767199664305471043558518144077255887818499063533180021197043906058631585869261834506330732785972259 .nil)
  25863767199664305471043558519940579580889102802619880649142067750625586692053667376162638999006601843939 .nil)
  25863767199664305471043558519940579580889102802619880649142067784236161787763403365633709102864843707619 (.node (.node .nil
  25863767199664305471043558519940579580889102802619880649142096823729355881764446394724615813673577493539 .nil)
  25863767199664305471043558519940579580889102802619893347284504131958303725202208274153478760923500680419 .nil)))
  25863767199664305471043558519940579580889102802619893347284504165568878820911944263624548864781742544099 (.node (.node (.node (.node .nil
  25863767199664305471043558519940579580889102802619893347284533205062072914912987292715455575590476330019 .nil)
  25863767199664305471043558519940579580889102802619895155400920806897026570664584797904315450283127737827 .nil)
  25863767199664305471043558519940579580889102802619895155400920806897026570664584797904315450283128355619 (.node (.node .nil
  25863767199664305471043558519940579580889102802619895155400920806897026570664584941366901876277844643299 .nil)
  25863767199664305471043558519940579580889102802619895155400920806897026570664584941366901876277845261091 .nil))
  25863767199664305471043558519940579580893900186207500680391089770569491875616856851133489389103897941219 (.node (.node (.node .nil
  25863767199664305471043558519940579580893900186207500680391089804180066971326592840604559492962139804899 .nil)
  25863767199664305471043558519940579580893900186207500680391118843673261065327635869695466203770873590819 .nil)
  25863767199664305471043558519940579580893900186207513378533526151902208908765397749124329151020796777699 (.node .nil
  25863767199664305471043558519940579580893900186207513378533526185512784004475133738595399254879038641379 .nil))))
  25863767199664305471043558519940579580893900186207513378533555225005978098476176767686305965687772427299 (.node (.node (.node (.node (.node .nil
  25863767199664305471043558519940579580893900186207515186649942826840931754227774272875165840380423835107 .nil)
  25863767199664305471043558519940579580893900186207515186649942826840931754227774272875165840380424452899 .nil)
  25863767199664305471043558519940579580893900186207515186649942826840931754227774416337752266375140740579 (.node (.node .nil
  25863767199664305471043558519940579580893900186207515186649942826840931754227774416337752266375141358371 .nil)
  25863767199664305471043558519940579580894437760383498738744931168263198581545595849269786691395018069219 .nil))
  25863767199664305471043558519940579585034622998929643356113501825616192980899844680782817733723719242979 (.node (.node (.node .nil
  25863767199664305471043558519940579585034629751357689320214323156123601697469672350896837961025821750307 .nil)
  25863767199664305471043558519940579585034629751357701906549216072463452039760301568024865297366093804579 .nil)
  25863767199664305471043558519940579585038833370047413744046677215938592701797515424135556939126272380387 (.node (.node .nil
  25863767199664305471043558519940579585038833370047413744046677215938592701797515424135556939126272998179 .nil)
  25863767199664305471043558519940579585038833370047413744046677215938592701797515424135790342178428374499 .nil)))
  25863767199664305471043558519940579585038833370047413744046677215938592701797515424135790342178428992291 (.node (.node (.node (.node .nil
  25863767199664305471043558519940579585039384893831959237980649384696931615265638773886812938883267441699 .nil)
  25863767199664305471043558519940579585039384893831971824315542301036781957556267991014840275223539495971 .nil)
  25863767199664305471043558520201204272076772863393227197955373373961489621455336773217945326697324516579 (.node (.node .nil
  25863767199664305471043558520201204272076772863393239896097809755294206654603877671208785088614223353059 .nil)
  25863767199664305471043558520201207636403158450433169513137794950730140018462048686992728413258580268259 .nil))
  25863767199664305471043558520201207636403158450433169513158453892376168581946393017058485504769542362339 (.node (.node (.node .nil
  25863767199664305471043558520203755348746089686490482341520679597665535743520619115361824407632874189859 .nil)
  25863767199664305471043558520203755348746089686490482341541338539311564307004963445427581499143836283939 .nil)
  25863993881110020669427532304030578660582889277941179015551657175128946078413664364841544037852511938787 (.node .nil
  25863993881110020669427532304030578660582889277941179015551657175128946078413664364841777440904667932899 .nil))))))))
  25863993881110020669427532304030578660587686661528799046800679195072851261976853839812394427949808036067 (.node (.node (.node (.node (.node (.node
  (.node (.node (.node .nil 25863993881110020669427532304030578660587686661528799046800679195072851261976853839812627831001964030179 .nil)
  25863993881110020669427532304030578664732619845368697604197413589003647614390531664869551818438488912775 .nil)
  25863993881110020669427532304030578664732619845368697604197413589003647614390531664869551818818218472327 (.node (.node .nil
  25863993881110020669427532305843039766770066034084464196026282149010830652203597092885155060530366064867 .nil)
  25863993881110020669427532305843039766770066034084464196026282149010830652203597092885388463582522058979 .nil))
  25863993881110020669427532305843039766774863417672084227275304168954735835766786567856005450627662162147 (.node (.node (.node .nil
  25863993881110020669427532305843039766774863417672084227275304168954735835766786567856238853679818156259 .nil)
  25863993881110020669427532305843039770919796601511982784672038562885532188180464392913162841116343038855 .nil)
  25863993881110020669427532305843039770919796601511982784672038562885532188180464392913162841496072598407 (.node (.node .nil
  25863993881110020669427532306101120088132074669812417291262123353605529844298479276438800777636266846435 .nil)
  25863993881110020669427532306101120088132074669812417291262123353605529844298479276439034180688422840547 .nil)))
  25863993881110020669427532306101120088132074669812417291262123353605529844399447866972706193105818776455 (.node (.node (.node (.node .nil
  25863993881110020669427532306101120088132074669812417291262123353605529844399447866972706193485548336007 .nil)
  25863993881110020669427532306101120088132074669812417291282600392620712873261577807371903404190528645347 .nil)
  25863993881110020669427532306101120088132074669812417291282600392620712873261577807372136807242684639459 (.node (.node .nil
  25863993881110020669427532306101120088132074669812417291282600392620712873362546397905808819660080575367 .nil)
  25863993881110020669427532306101120088132074669812417291282600392620712873362546397905808820039810134919 .nil))
  25863993881110021354178960127823050789566194809188903088299456382657179812297936490011446843179406141667 (.node (.node (.node .nil
  25863993881110021354178960127823050789566194809188903088299456382657179812297936490011680246231562135779 .nil)
  25863993881110021354178960127823050789570992192776523119548478402601084995861125964982297233276702238947 .nil)
  25863993881110021354178960127823050789570992192776523119548478402601084995861125964982530636328858233059 (.node (.node .nil
  25863993881110021354178960127823050793715925376616421676945212796531881348274803790039454623765383115655 .nil)
  25863993881110021354178960127823050793715925376616421676945212796531881348274803790039454624145112675207 .nil))))
  25863993881110021354178960129635511895753371565332188268774081356539064386087869218055057865857260267747 (.node (.node (.node (.node (.node .nil
  25863993881110021354178960129635511895753371565332188268774081356539064386087869218055291268909416261859 .nil)
  25863993881110021354178960129635511895758168948919808300023103376482969569651058693025908255954556365027 .nil)
  25863993881110021354178960129635511895758168948919808300023103376482969569651058693026141659006712359139 (.node (.node .nil
  25863993881110021354178960129635511899903102132759706857419837770413765922064736518083065646443237241735 .nil)
  25863993881110021354178960129635511899903102132759706857419837770413765922064736518083065646822966801287 .nil))
  25863993881110021354178960129893592217115380201060141364009922561133763578182751401608703582963161049315 (.node (.node (.node .nil
  25863993881110021354178960129893592217115380201060141364009922561133763578182751401608936986015317043427 .nil)
  25863993881110021354178960129893592217115380201060141364009922561133763578283719992142608998432712979335 .nil)
  25863993881110021354178960129893592217115380201060141364009922561133763578283719992142608998812442538887 (.node (.node .nil
  25863993881110021354178960129893592217115380201060141364030399600148946607145849932541806209517422848227 .nil)
  25863993881110021354178960129893592217115380201060141364030399600148946607145849932542039612569578842339 .nil)))
  25863993881110021354178960129893592217115380201060141364030399600148946607246818523075711624986974778247 (.node (.node (.node (.node .nil
  25863993881110021354178960129893592217115380201060141364030399600148946607246818523075711625366704337799 .nil)
  25863993881110021430909260687025339636424765726374101050856442306448163348587884764957443189369344829667 .nil)
  25863993881110021430909260687025339636424765726374101050856442306448163348587884764957676592421500823779 (.node (.node .nil
  25863993881110612377557943390324073633893936266793756580563895403548135973463784824853924943004004198627 .nil)
  25863993881110612377557943390324073633893936266793756580563895403548135973463784824854158346056160192739 .nil))
  25863993881110612378521746818026456102970777133417820114846531810428422941233052120988549026173068800903 (.node (.node (.node .nil
  25863993881110612378521746818026456102970777133417820114846531810428422941233052120988549026552798360455 .nil)
  25863993881110612378521746819822958432122343528186258759140877067559146267203450850168882970663822324615 .nil)
  25863993881110612378521746819822958432122343528186258759140877067559146267203450850168882971043551884167 (.node .nil
  25863993881110612978522527919535580545717924762462478944796352752234274374357912371799297873505769660195 .nil)))))
  25863993881110612978522527919535580545717924762462478944796352752234274374357912498832876267430961394567 (.node (.node (.node (.node (.node (.node
  .nil 25863993881110612978522527919535580545717924762462478944796352752234274374357912515261884299500486565667 .nil)
  25863993881110612978522527919535580545717924762462478944796352752234274453858898155945011993481112660195 .nil)
  25863993881110612978522527919535580545717924762462478944796352752234274453858898155945245396533268654307 (.node (.node .nil
  25863993881110612978522527919535580545717924762462478944796352752234274453959866746478917408950664590215 .nil)
  25863993881110612978522527919535580545717924762462478944796352752234274453959866746478917409330394149767 .nil))
  25863993881110612978522527919535580545717924762462478944796352756049390196303787740109915370937308967815 (.node (.node (.node .nil
  25863993881110612978522527919535580545717924762462478944796352756049390196303787740109915371317038527367 .nil)
  25863993881110612978522527919535580545717924762462478944796352785548907299413600371425968617958970400547 .nil)
  25863993881110612978522527919535580545717924762462478944796352785548907299413600498459547011884162134919 (.node (.node .nil
  25863993881110612978522527919535580545717924762462478944796352785548907299413600514888555043953687306019 .nil)
  25863993881110612978522527919535580545717924762462478944796352785548907378914586155571682737934313400547 .nil)))
  25863993881110612978522527919535580545717924762462478944796352785548907378914586155571916140986469394659 (.node (.node (.node (.node .nil
  25863993881110612978522527919535580545717924762462478944796352785548907379015554746105588153403865330567 .nil)
  25863993881110612978522527919535580545717924762462478944796352785548907379015554746105588153783594890119 .nil)
  25863993881110613056247232155931132566536294797859606336897530601359884582442704406513421445284373345315 (.node (.node .nil
  25863993881110613056247232155931132566536294797859618923232423517699734924733333623641448781624645399587 .nil)
  25863993881110613056247232157521903213658208399812323279700687334257466926131182696800604194451122992007 .nil))
  25863993881110613056247232157521903213662963542286593197467013562830796843927149119790579172308568683399 (.node (.node (.node .nil
  25863993881110613056247232157727634895687861192628044981191875858490607908413103135693755389775126869027 .nil)
  25863993881110613056247232157727634895687861192628057567526768774830458250703732352821782726115398923299 .nil)
  25863993881110613057243916786766667471069952930428142843557557943173389208278091661408528159000229344135 (.node .nil
  25863993881110613057243916786766667471069952930428142843557557943173389208278091661408528159379958903687 .nil))))
  25863993881110613057243916788563169800221519325196581487851903200304112534248490390588862103490982867847 (.node (.node (.node (.node (.node .nil
  25863993881110613057243916788563169800221519325196581487851903200304112534248490390588862103870712427399 .nil)
  25864023621839253953236655610742877844610327768807030443456967796158538955661390278469083664468036850915 .nil)
  25864023621839253953236655610742877844610327768807030443456967829769114051371126267940153768326278714595 (.node (.node .nil
  25864023621839253953236655610742877844610327768807030443456996869262308145372169297031060479135012500515 .nil)
  25864023621839253953236655610742877844610327768807043141599404177491255988809931176459923426384935687395 .nil))
  25864023621839253953236655610742877844610327768807043141599404211101831084519667165930993530243177551075 (.node (.node (.node .nil
  25864023621839253953236655610742877844610327768807043141599433250595025178520710195021900241051911336995 .nil)
  25864023621839253953236655610742877844610327768807044949715820852429978834272307700210760115744562744803 .nil)
  25864023621839253953236655610742877844610327768807044949715820852429978834272307700210760115744563362595 (.node (.node .nil
  25864023621839253953236655610742877844610327768807044949715820852429978834272307843673346541739279650275 .nil)
  25864023621839253953236655610742877844610327768807044949715820852429978834272307843673346541739280268067 .nil)))
  25864023621839253953236655610742877844615125152394650474705989816102444139224579753439934054565332948195 (.node (.node (.node (.node .nil
  25864023621839253953236655610742877844615125152394650474705989849713019234934315742911004158423574811875 .nil)
  25864023621839253953236655610742877844615125152394650474706018889206213328935358772001910869232308597795 .nil)
  25864023621839253953236655610742877844615125152394663172848426197435161172373120651430773816482231784675 (.node (.node .nil
  25864023621839253953236655610742877844615125152394663172848426231045736268082856640901843920340473648355 .nil)
  25864023621839253953236655610742877844615125152394663172848455270538930362083899669992750631149207434275 .nil))
  25864023621839253953236655610742877844615125152394664980964842872373884017835497175181610505841858842083 (.node (.node (.node .nil
  25864023621839253953236655610742877844615125152394664980964842872373884017835497175181610505841859459875 .nil)
  25864023621839253953236655610742877844615125152394664980964842872373884017835497318644196931836575747555 .nil)
  25864023621839253953236655610742877844615125152394664980964842872373884017835497318644196931836576365347 (.node .nil
  25864023621839253953236655610742877844615662726570648533059831213796150845153318751576231356856453076195 .nil))))))
  25864023621839253953236655610742877848755847965116793150428401871149145244507567583089262399185154249955 (.node (.node (.node (.node (.node (.node
  (.node .nil 25864023621839253953236655610742877848755854717544839114529223201656553961077395253203282626487256757283 .nil)
  25864023621839253953236655610742877848755854717544851700864116117996404303368024470331309962827528811555 .nil)
  25864023621839253953236655610742877848760058336234563538361577261471544965405238326442001604587707387363 (.node (.node .nil
  25864023621839253953236655610742877848760058336234563538361577261471544965405238326442001604587708005155 .nil)
  25864023621839253953236655610742877848760058336234563538361577261471544965405238326442235007639863381475 .nil))
  25864023621839253953236655610742877848760058336234563538361577261471544965405238326442235007639863999267 (.node (.node (.node .nil
  25864023621839253953236655610742877848760609860019109032295549430229883878873361676193257604344702448675 .nil)
  25864023621839253953236655610742877848760609860019121618630442346569734221163990893321284940684974502947 .nil)
  25864023621839253953236655612539380173761894163575469087751313053289262281631789007649417608958790374627 (.node (.node .nil
  25864023621839253953236655612539380173761894163575469087751313086899837377341524997120487712817032238307 .nil)
  25864023621839253953236655612539380173761894163575469087751342126393031471342568026211394423625766024227 .nil)))
  25864023621839253953236655612539380173761894163575481785893749434621979314780329905640257370875689211107 (.node (.node (.node (.node .nil
  25864023621839253953236655612539380173761894163575481785893749468232554410490065895111327474733931074787 .nil)
  25864023621839253953236655612539380173761894163575481785893778507725748504491108924202234185542664860707 .nil)
  25864023621839253953236655612539380173761894163575483594010166109560702160242706429391094060235316268515 (.node (.node .nil
  25864023621839253953236655612539380173761894163575483594010166109560702160242706429391094060235316886307 .nil)
  25864023621839253953236655612539380173761894163575483594010166109560702160242706572853680486230033173987 .nil))
  25864023621839253953236655612539380173761894163575483594010166109560702160242706572853680486230033791779 (.node (.node (.node .nil
  25864023621839253953236655612539380173766691547163089119000335073233167465194978482620267999056086471907 .nil)
  25864023621839253953236655612539380173766691547163089119000335106843742560904714472091338102914328335587 .nil)
  25864023621839253953236655612539380173766691547163089119000364146336936654905757501182244813723062121507 (.node .nil
  25864023621839253953236655612539380173766691547163101817142771454565884498343519380611107760972985308387 .nil))))
  25864023621839253953236655612539380173766691547163101817142771488176459594053255370082177864831227172067 (.node (.node (.node (.node (.node .nil
  25864023621839253953236655612539380173766691547163101817142800527669653688054298399173084575639960957987 .nil)
  25864023621839253953236655612539380173766691547163103625259188129504607343805895904361944450332612365795 .nil)
  25864023621839253953236655612539380173766691547163103625259188129504607343805895904361944450332612983587 (.node (.node .nil
  25864023621839253953236655612539380173766691547163103625259188129504607343805896047824530876327329271267 .nil)
  25864023621839253953236655612539380173766691547163103625259188129504607343805896047824530876327329889059 .nil))
  25864023621839253953236655612539380173767229121339087177354176470926874171123717480756565301347206599907 (.node (.node (.node .nil
  25864023621839253953236655612539380177907414359885231794722747128279868570477966312269596343675907773667 .nil)
  25864023621839253953236655612539380177907421112313277758823568458787277287047793982383616570978010280995 .nil)
  25864023621839253953236655612539380177907421112313290345158461375127127629338423199511643907318282335267 (.node (.node .nil
  25864023621839253953236655612539380177911624731003002182655922518602268291375637055622335549078460911075 .nil)
  25864023621839253953236655612539380177911624731003002182655922518602268291375637055622335549078461528867 .nil)))
  25864023621839253953236655612539380177911624731003002182655922518602268291375637055622568952130616905187 (.node (.node (.node (.node .nil
  25864023621839253953236655612539380177911624731003002182655922518602268291375637055622568952130617522979 .nil)
  25864023621839253953236655612539380177912176254787547676589894687360607204843760405373591548835455972387 .nil)
  25864023621839253953236655612539380177912176254787560262924787603700457547134389622501618885175728026659 (.node (.node .nil
  25864023621839253953236655612800004864949564224348815636564618676625165211033458404704723936649513047267 .nil)
  25864023621839253953236655612800004864949564224348828334707055057957882244181999302695563698566411883747 .nil))
  25864023621839253953236655612800008229275949811388757951747040253393815608040170318479507023210768798947 (.node (.node (.node .nil
  25864023621839253953236655612800008229275949811388757951767699195039844171524514648545264114721730893027 .nil)
  25864023621839253953236655612802555941618881047446070780129924900329211333098740746848603017585062720547 .nil)
  25864023621839253953236655612802555941618881047446070780150583841975239896583085076914360109096024814627 (.node .nil
  25864023621839253953236657232483661875900863761113879950103843577166770402328733453268599105508777538595 .nil)))))
  25864023621839253953237759841678504829804270558230377828535334738035186617062673345810068573065907573987 (.node (.node (.node (.node (.node (.node
  .nil 25864023621839253953237759841678504829804270558230377828535334771645761712772409335281138676924149437667 .nil)
  25864023621839253953237759841678504829804270558230377828535363811138955806773452364372045387732883223587 .nil)
  25864023621839253953237759841678504829804270558230390526677771119367903650211214243800908334982806410467 (.node (.node .nil
  25864023621839253953237759841678504829804270558230390526677771152978478745920950233271978438841048274147 .nil)
  25864023621839253953237759841678504829804270558230390526677800192471672839921993262362885149649782060067 .nil))
  25864023621839253953237759841678504829804270558230392334794187794306626495673590767551745024342433467875 (.node (.node (.node .nil
  25864023621839253953237759841678504829804270558230392334794187794306626495673590767551745024342434085667 .nil)
  25864023621839253953237759841678504829804270558230392334794187794306626495673590911014331450337150373347 .nil)
  25864023621839253953237759841678504829804270558230392334794187794306626495673590911014331450337150991139 (.node (.node .nil
  25864023621839253953237759841678504829809067941817997859784356757979091800625862820780918963163203671267 .nil)
  25864023621839253953237759841678504829809067941817997859784356791589666896335598810251989067021445534947 .nil)))
  25864023621839253953237759841678504829809067941817997859784385831082860990336641839342895777830179320867 (.node (.node (.node (.node .nil
  25864023621839253953237759841678504829809067941818010557926793139311808833774403718771758725080102507747 .nil)
  25864023621839253953237759841678504829809067941818010557926793172922383929484139708242828828938344371427 .nil)
  25864023621839253953237759841678504829809067941818010557926822212415578023485182737333735539747078157347 (.node (.node .nil
  25864023621839253953237759841678504829809067941818012366043209814250531679236780242522595414439729565155 .nil)
  25864023621839253953237759841678504829809067941818012366043209814250531679236780242522595414439730182947 .nil))
  25864023621839253953237759841678504829809067941818012366043209814250531679236780385985181840434446470627 (.node (.node (.node .nil
  25864023621839253953237759841678504829809067941818012366043209814250531679236780385985181840434447088419 .nil)
  25864023621839253953237759841678504829809605515993995918138198155672798506554601818917216265454323799267 .nil)
  25864023621839253953237759841678504833949790754540140535506768813025792905908850650430247307783024973027 (.node .nil
  25864023621839253953237759841678504833949797506968186499607590143533201622478678320544267535085127480355 .nil))))
  25864023621839253953237759841678504833949797506968199085942483059873051964769307537672294871425399534627 (.node (.node (.node (.node (.node .nil
  25864023621839253953237759841678504833954001125657910923439944203348192626806521393782986513185578110435 .nil)
  25864023621839253953237759841678504833954001125657910923439944203348192626806521393782986513185578728227 .nil)
  25864023621839253953237759841678504833954001125657910923439944203348192626806521393783219916237734104547 (.node (.node .nil
  25864023621839253953237759841678504833954001125657910923439944203348192626806521393783219916237734722339 .nil)
  25864023621839253953237759841678504833954552649442456417373916372106531540274644743534242512942573171747 .nil))
  25864023621839253953237759841678504833954552649442469003708809288446381882565273960662269849282845226019 (.node (.node (.node .nil
  25864023621839253953237759843475007158955836952998816472829679995165909943033072074990402517556661097699 .nil)
  25864023621839253953237759843475007158955836952998816472829680028776485038742808064461472621414902961379 .nil)
  25864023621839253953237759843475007158955836952998816472829709068269679132743851093552379332223636747299 (.node (.node .nil
  25864023621839253953237759843475007158955836952998829170972116376498626976181612972981242279473559934179 .nil)
  25864023621839253953237759843475007158955836952998829170972116410109202071891348962452312383331801797859 .nil)))
  25864023621839253953237759843475007158955836952998829170972145449602396165892391991543219094140535583779 (.node (.node (.node (.node .nil
  25864023621839253953237759843475007158955836952998830979088533051437349821643989496732078968833186991587 .nil)
  25864023621839253953237759843475007158955836952998830979088533051437349821643989496732078968833187609379 .nil)
  25864023621839253953237759843475007158955836952998830979088533051437349821643989640194665394827903897059 (.node (.node .nil
  25864023621839253953237759843475007158955836952998830979088533051437349821643989640194665394827904514851 .nil)
  25864023621839253953237759843475007158960634336586436504078702015109815126596261549961252907653957194979 .nil))
  25864023621839253953237759843475007158960634336586436504078702048720390222305997539432323011512199058659 (.node (.node (.node .nil
  25864023621839253953237759843475007158960634336586436504078731088213584316307040568523229722320932844579 .nil)
  25864023621839253953237759843475007158960634336586449202221138396442532159744802447952092669570856031459 .nil)
  25864023621839253953237759843475007158960634336586449202221138430053107255454538437423162773429097895139 (.node .nil
  25864023621839253953237759843475007158960634336586449202221167469546301349455581466514069484237831681059 .nil)))))))
  25864023621839253953237759843475007158960634336586451010337555071381255005207178971702929358930483088867 (.node (.node (.node (.node (.node (.node
  (.node (.node .nil 25864023621839253953237759843475007158960634336586451010337555071381255005207178971702929358930483706659 .nil)
  25864023621839253953237759843475007158960634336586451010337555071381255005207179115165515784925199994339 .nil)
  25864023621839253953237759843475007158960634336586451010337555071381255005207179115165515784925200612131 (.node (.node .nil
  25864023621839253953237759843475007158961171910762434562432543412803521832525000548097550209945077322979 .nil)
  25864023621839253953237759843475007163101357149308579179801114070156516231879249379610581252273778496739 .nil))
  25864023621839253953237759843475007163101363901736625143901935400663924948449077049724601479575881004067 (.node (.node (.node .nil
  25864023621839253953237759843475007163101363901736637730236828317003775290739706266852628815916153058339 .nil)
  25864023621839253953237759843475007163105567520426349567734289460478915952776920122963320457676331634147 .nil)
  25864023621839253953237759843475007163105567520426349567734289460478915952776920122963320457676332251939 (.node (.node .nil
  25864023621839253953237759843475007163105567520426349567734289460478915952776920122963553860728487628259 .nil)
  25864023621839253953237759843475007163105567520426349567734289460478915952776920122963553860728488246051 .nil)))
  25864023621839253953237759843475007163106119044210895061668261629237254866245043472714576457433326695459 (.node (.node (.node (.node .nil
  25864023621839253953237759843475007163106119044210907648003154545577105208535672689842603793773598749731 .nil)
  25864023621839253953237759843735631850143507013772163021642985618501812872434741472045708845247383770339 .nil)
  25864023621839253953237759843735631850143507013772175719785421999834529905583282370036548607164282606819 (.node (.node .nil
  25864023621839253953237759843735635214469892600812105336825407195270463269441453385820491931808639522019 .nil)
  25864023621839253953237759843735635214469892600812105336846066136916491832925797715886249023319601616099 .nil))
  25864023621839253953237759843738182926812823836869418165208291842205858994500023814189587926182933443619 (.node (.node (.node .nil
  25864023621839253953237759843738182926812823836869418165228950783851887557984368144255345017693895537699 .nil)
  25864023622208047256157288184533819441351125522471422746526525613995461481592496709186284619700697740167 .nil)
  25864023622208047256157288184533819441355922906059042777775547633939366665155686184157135009797993837447 (.node .nil
  25864023622208047256157288184533819441356606016043502820555739230841524149859075928527624096956223239047 .nil))))
  25864023622208047256157288184533819441356606016043502820555739230841578350310914120439847562879836533639 (.node (.node (.node (.node (.node .nil
  25864023622208047256157288186346280547538302278614707927001150587877346055382429437229895642378551866247 .nil)
  25864023622208047256157288186346280547543099662202327958250172607821251238945618912200746032475847963527 .nil)
  25864023622208047256157288186346280547543782772186788001030364204723408723649008656571235119634077365127 (.node (.node .nil
  25864023622208047256157288186346280547543782772186788001030364204723462924100846848483458585557690659719 .nil)
  25864023622208047256157289750722184830235874371187046913552766175036200841874377352581216121030190478215 .nil))
  25864023622208047256157289750722184830240629513661316831319092403609530759670343775571191098887636169607 (.node (.node (.node .nil
  25864023622208047256157289752310320371456319644196634162738842059958938396078010847659518910416658019207 .nil)
  25864023622208047256157289752310320371456319644196634162738842059958938396166190987181775119130907816839 .nil)
  25864023622208047256157289752518687159387440765955485557847111432166924167844776081761550065520944001927 (.node (.node .nil
  25864023622208047256157289752518687159392195908429755475613437660740254085640742504751525043378389693319 .nil)
  25864023622208047934879458153274030809450301319481745475237551746740427748637536249606263752527858283399 .nil)))
  25864023622208047934879458153274030809455098703069365506486573766684332932200725724577114142625154380679 (.node (.node (.node (.node .nil
  25864023622208047934879458153274030809455781813053825549266765363586490416904115468947603229783383782279 .nil)
  25864023622208047934879458153274030809455781813053825549266765363586544617355953660859826695706997076871 .nil)
  25864023622208047934879458155086491915637478075625030655712176720622312322427468977649874775205712409479 (.node (.node .nil
  25864023622208047934879458155086491915642275459212650686961198740566217505990658452620725165303008506759 .nil)
  25864023622208047934879458155086491915642958569197110729741390337468374990694048196991214252461237908359 .nil))
  25864023622208047934879458155086491915642958569197110729741390337468429191145886388903437718384851202951 (.node (.node (.node .nil
  25864023622208047934879459719462396198335050168197369642263792307781167108919416893001195253857351021447 .nil)
  25864023622208047934879459719462396198339805310671639560030118536354497026715383315991170231714796712839 .nil)
  25864023622208047934879459721050531739555495441206956891449868192703904663123050388079498043243818562439 (.node .nil
  25864023622208047934879459721050531739555495441206956891449868192703904663211230527601754251958068360071 .nil)))))
  25864023622208047934879459721258898527486616562965808286558137564911890434889815622181529198348104545159 (.node (.node (.node (.node (.node (.node
  .nil 25864023622208047934879459721258898527491371705440078204324463793485220352685782045171504176205550236551 .nil)
  25864023622208048034307789163254911795505187142813858515912440048142703988544810324301373867346795606919 .nil)
  25864023622208048034307789163254911795505187150618847953288844490663430938099005781906074660718031057799 (.node (.node .nil
  25864023622208659953066278197496270339411591634065823625895253263674117260724308851183189250455834375047 .nil)
  25864023622256434607340961594101548211609014945734169047935616286144375791485146661162950675658897659107 .nil))
  25864023622256434607340961594101548211609014945734169047935616319754950887194882650634020779517139522787 (.node (.node (.node .nil
  25864023622256434607340961594101548211609014945734169047935645359248144981195925679724927490325873308707 .nil)
  25864023622256434607340961594101548211609014945734181746078052667477092824633687559153790437575796495587 .nil)
  25864023622256434607340961594101548211609014945734181746078052701087667920343423548624860541434038359267 (.node (.node .nil
  25864023622256434607340961594101548211609014945734181746078081740580862014344466577715767252242772145187 .nil)
  25864023622256434607340961594101548211609014945734183554194469342415815670096064082904627126935423552995 .nil)))
  25864023622256434607340961594101548211609014945734183554194469342415815670096064082904627126935424170787 (.node (.node (.node (.node .nil
  25864023622256434607340961594101548211609014945734183554194469342415815670096064226367213552930140458467 .nil)
  25864023622256434607340961594101548211609014945734183554194469342415815670096064226367213552930141076259 .nil)
  25864023622256434607340961594101548211613812329321789079184638306088280975048336136133801065756193756387 (.node (.node .nil
  25864023622256434607340961594101548211613812329321789079184638339698856070758072125604871169614435620067 .nil)
  25864023622256434607340961594101548211613812329321789079184667379192050164759115154695777880423169405987 .nil))
  25864023622256434607340961594101548211613812329321801777327074687420998008196877034124640827673092592867 (.node (.node (.node .nil
  25864023622256434607340961594101548211613812329321801777327074721031573103906613023595710931531334456547 .nil)
  25864023622256434607340961594101548211613812329321801777327103760524767197907656052686617642340068242467 .nil)
  25864023622256434607340961594101548211613812329321803585443491362359720853659253557875477517032719650275 (.node .nil
  25864023622256434607340961594101548211613812329321803585443491362359720853659253557875477517032720268067 .nil))))
  25864023622256434607340961594101548211613812329321803585443491362359720853659253701338063943027436555747 (.node (.node (.node (.node (.node .nil
  25864023622256434607340961594101548211613812329321803585443491362359720853659253701338063943027437173539 .nil)
  25864023622256434607340961594101548211614349903497787137538479703781987680977075134270098368047313884387 .nil)
  25864023622256434607340961594101548215754535142043931754907050361134982080331323965783129410376015058147 (.node (.node .nil
  25864023622256434607340961594101548215754541894471977719007871691642390796901151635897149637678117565475 .nil)
  25864023622256434607340961594101548215754541894471990305342764607982241139191780853025176974018389619747 .nil))
  25864023622256434607340961594101548215758745513161702142840225751457381801228994709135868615778568195555 (.node (.node (.node .nil
  25864023622256434607340961594101548215758745513161702142840225751457381801228994709135868615778568813347 .nil)
  25864023622256434607340961594101548215758745513161702142840225751457381801228994709136102018830724189667 .nil)
  25864023622256434607340961594101548215758745513161702142840225751457381801228994709136102018830724807459 (.node (.node .nil
  25864023622256434607340961594101548215759297036946247636774197920215720714697118058887124615535563256867 .nil)
  25864023622256434607340961594101548215759297036946260223109090836555571056987747276015151951875835311139 .nil)))
  25864023622256434607340961595898050540760581340502607692229961543275099117455545390343284620149651182819 (.node (.node (.node (.node .nil
  25864023622256434607340961595898050540760581340502607692229961576885674213165281379814354724007893046499 .nil)
  25864023622256434607340961595898050540760581340502607692229990616378868307166324408905261434816626832419 .nil)
  25864023622256434607340961595898050540760581340502620390372397924607816150604086288334124382066550019299 (.node (.node .nil
  25864023622256434607340961595898050540760581340502620390372397958218391246313822277805194485924791882979 .nil)
  25864023622256434607340961595898050540760581340502620390372426997711585340314865306896101196733525668899 .nil))
  25864023622256434607340961595898050540760581340502622198488814599546538996066462812084961071426177076707 (.node (.node (.node .nil
  25864023622256434607340961595898050540760581340502622198488814599546538996066462812084961071426177694499 .nil)
  25864023622256434607340961595898050540760581340502622198488814599546538996066462955547547497420893982179 .nil)
  25864023622256434607340961595898050540760581340502622198488814599546538996066462955547547497420894599971 (.node .nil
  25864023622256434607340961595898050540765378724090227723478983563219004301018734865314135010246947280099 .nil))))))
  25864023622256434607340961595898050540765378724090227723478983596829579396728470854785205114105189143779 (.node (.node (.node (.node (.node (.node
  (.node .nil 25864023622256434607340961595898050540765378724090227723479012636322773490729513883876111824913922929699 .nil)
  25864023622256434607340961595898050540765378724090240421621419944551721334167275763304974772163846116579 .nil)
  25864023622256434607340961595898050540765378724090240421621419978162296429877011752776044876022087980259 (.node (.node .nil
  25864023622256434607340961595898050540765378724090240421621449017655490523878054781866951586830821766179 .nil)
  25864023622256434607340961595898050540765378724090242229737836619490444179629652287055811461523473173987 .nil))
  25864023622256434607340961595898050540765378724090242229737836619490444179629652287055811461523473791779 (.node (.node (.node .nil
  25864023622256434607340961595898050540765378724090242229737836619490444179629652430518397887518190079459 .nil)
  25864023622256434607340961595898050540765378724090242229737836619490444179629652430518397887518190697251 .nil)
  25864023622256434607340961595898050540765916298266225781832824960912711006947473863450432312538067408099 (.node (.node .nil
  25864023622256434607340961595898050544906101536812370399201395618265705406301722694963463354866768581859 .nil)
  25864023622256434607340961595898050544906108289240416363302216948773114122871550365077483582168871089187 .nil)))
  25864023622256434607340961595898050544906108289240428949637109865112964465162179582205510918509143143459 (.node (.node (.node (.node .nil
  25864023622256434607340961595898050544910311907930140787134571008588105127199393438316202560269321719267 .nil)
  25864023622256434607340961595898050544910311907930140787134571008588105127199393438316202560269322337059 .nil)
  25864023622256434607340961595898050544910311907930140787134571008588105127199393438316435963321477713379 (.node (.node .nil
  25864023622256434607340961595898050544910311907930140787134571008588105127199393438316435963321478331171 .nil)
  25864023622256434607340961595898050544910863431714686281068543177346444040667516788067458560026316780579 .nil))
  25864023622256434607340961595898050544910863431714698867403436093686294382958146005195485896366588834851 (.node (.node (.node .nil
  25864023622256434607340961596158675231948251401275954241043267166611002046857214787398590947840373855459 .nil)
  25864023622256434607340961596158675231948251401275966939185703547943719080005755685389430709757272691939 .nil)
  25864023622256434607340961596158678596274636988315896556225688743379652443863926701173374034401629607139 (.node .nil
  25864023622256434607340961596158678596274636988315896556246347685025681007348271031239131125912591701219 .nil))))
  25864023622256434607340961596161226308617568224373209384608573390315048168922497129542470028775923528739 (.node (.node (.node (.node (.node .nil
  25864023622256434607340961596161226308617568224373209384629232331961076732406841459608227120286885622819 .nil)
  25864023622256434607340963215842332242899550938041018554582492067152607238152489835962466116699638346787 .nil)
  25864023622256434607342065825037175196802957735157516433013983228021023452886429728503935584256768382179 (.node (.node .nil
  25864023622256434607342065825037175196802957735157516433013983261631598548596165717975005688115010245859 .nil)
  25864023622256434607342065825037175196802957735157516433014012301124792642597208747065912398923744031779 .nil))
  25864023622256434607342065825037175196802957735157529131156419609353740486034970626494775346173667218659 (.node (.node (.node .nil
  25864023622256434607342065825037175196802957735157529131156419642964315581744706615965845450031909082339 .nil)
  25864023622256434607342065825037175196802957735157529131156448682457509675745749645056752160840642868259 .nil)
  25864023622256434607342065825037175196802957735157530939272836284292463331497347150245612035533294276067 (.node (.node .nil
  25864023622256434607342065825037175196802957735157530939272836284292463331497347150245612035533294893859 .nil)
  25864023622256434607342065825037175196802957735157530939272836284292463331497347293708198461528011181539 .nil)))
  25864023622256434607342065825037175196802957735157530939272836284292463331497347293708198461528011799331 (.node (.node (.node (.node .nil
  25864023622256434607342065825037175196807755118745136464263005247964928636449619203474785974354064479459 .nil)
  25864023622256434607342065825037175196807755118745136464263005281575503732159355192945856078212306343139 .nil)
  25864023622256434607342065825037175196807755118745136464263034321068697826160398222036762789021040129059 (.node (.node .nil
  25864023622256434607342065825037175196807755118745149162405441629297645669598160101465625736270963315939 .nil)
  25864023622256434607342065825037175196807755118745149162405441662908220765307896090936695840129205179619 .nil))
  25864023622256434607342065825037175196807755118745149162405470702401414859308939120027602550937938965539 (.node (.node (.node .nil
  25864023622256434607342065825037175196807755118745150970521858304236368515060536625216462425630590373347 .nil)
  25864023622256434607342065825037175196807755118745150970521858304236368515060536625216462425630590991139 .nil)
  25864023622256434607342065825037175196807755118745150970521858304236368515060536768679048851625307278819 (.node .nil
  25864023622256434607342065825037175196807755118745150970521858304236368515060536768679048851625307896611 .nil)))))
  25864023622256434607342065825037175196808292692921134522616846645658635342378358201611083276645184607459 (.node (.node (.node (.node (.node (.node
  .nil 25864023622256434607342065825037175200948477931467279139985417303011629741732607033124114318973885781219 .nil)
  25864023622256434607342065825037175200948484683895325104086238633519038458302434703238134546275988288547 .nil)
  25864023622256434607342065825037175200948484683895337690421131549858888800593063920366161882616260342819 (.node (.node .nil
  25864023622256434607342065825037175200952688302585049527918592693334029462630277776476853524376438918627 .nil)
  25864023622256434607342065825037175200952688302585049527918592693334029462630277776476853524376439536419 .nil))
  25864023622256434607342065825037175200952688302585049527918592693334029462630277776477086927428594912739 (.node (.node (.node .nil
  25864023622256434607342065825037175200952688302585049527918592693334029462630277776477086927428595530531 .nil)
  25864023622256434607342065825037175200953239826369595021852564862092368376098401126228109524133433979939 .nil)
  25864023622256434607342065825037175200953239826369607608187457778432218718389030343356136860473706034211 (.node (.node .nil
  25864023622256434607342065826833677525954524129925955077308328485151746778856828457684269528747521905891 .nil)
  25864023622256434607342065826833677525954524129925955077308328518762321874566564447155339632605763769571 .nil)))
  25864023622256434607342065826833677525954524129925955077308357558255515968567607476246246343414497555491 (.node (.node (.node (.node .nil
  25864023622256434607342065826833677525954524129925967775450764866484463812005369355675109290664420742371 .nil)
  25864023622256434607342065826833677525954524129925967775450764900095038907715105345146179394522662606051 .nil)
  25864023622256434607342065826833677525954524129925967775450793939588233001716148374237086105331396391971 (.node (.node .nil
  25864023622256434607342065826833677525954524129925969583567181541423186657467745879425945980024047799779 .nil)
  25864023622256434607342065826833677525954524129925969583567181541423186657467745879425945980024048417571 .nil))
  25864023622256434607342065826833677525954524129925969583567181541423186657467746022888532406018764705251 (.node (.node (.node .nil
  25864023622256434607342065826833677525954524129925969583567181541423186657467746022888532406018765323043 .nil)
  25864023622256434607342065826833677525959321513513575108557350505095651962420017932655119918844818003171 .nil)
  25864023622256434607342065826833677525959321513513575108557350538706227058129753922126190022703059866851 (.node .nil
  25864023622256434607342065826833677525959321513513575108557379578199421152130796951217096733511793652771 .nil))))
  25864023622256434607342065826833677525959321513513587806699786886428368995568558830645959680761716839651 (.node (.node (.node (.node (.node .nil
  25864023622256434607342065826833677525959321513513587806699786920038944091278294820117029784619958703331 .nil)
  25864023622256434607342065826833677525959321513513587806699815959532138185279337849207936495428692489251 .nil)
  25864023622256434607342065826833677525959321513513589614816203561367091841030935354396796370121343897059 (.node (.node .nil
  25864023622256434607342065826833677525959321513513589614816203561367091841030935354396796370121344514851 .nil)
  25864023622256434607342065826833677525959321513513589614816203561367091841030935497859382796116060802531 .nil))
  25864023622256434607342065826833677525959321513513589614816203561367091841030935497859382796116061420323 (.node (.node (.node .nil
  25864023622256434607342065826833677525959859087689573166911191902789358668348756930791417221135938131171 .nil)
  25864023622256434607342065826833677530100044326235717784279762560142353067703005762304448263464639304931 .nil)
  25864023622256434607342065826833677530100051078663763748380583890649761784272833432418468490766741812259 (.node (.node .nil
  25864023622256434607342065826833677530100051078663776334715476806989612126563462649546495827107013866531 .nil)
  25864023622256434607342065826833677530104254697353488172212937950464752788600676505657187468867192442339 .nil)))
  25864023622256434607342065826833677530104254697353488172212937950464752788600676505657187468867193060131 (.node (.node (.node (.node .nil
  25864023622256434607342065826833677530104254697353488172212937950464752788600676505657420871919348436451 .nil)
  25864023622256434607342065826833677530104254697353488172212937950464752788600676505657420871919349054243 .nil)
  25864023622256434607342065826833677530104806221138033666146910119223091702068799855408443468624187503651 (.node (.node .nil
  25864023622256434607342065826833677530104806221138046252481803035562942044359429072536470804964459557923 .nil)
  25864023622256434607342065827094302217142194190699301626121634108487649708258497854739575856438244578531 .nil))
  25864023622256434607342065827094302217142194190699314324264070489820366741407038752730415618355143415011 (.node (.node (.node .nil
  25864023622256434607342065827094305581468579777739243941304055685256300105265209768514358942999500330211 .nil)
  25864023622256434607342065827094305581468579777739243941324714626902328668749554098580116034510462424291 .nil)
  25864023622256434607342065827096853293811511013796556769686940332191695830323780196883454937373794251811 (.node .nil
  25864023622256434607342065827096853293811511013796556769707599273837724393808124526949212028884756345891 .nil)))))))))

def med6aFront0 : List (ℕ × ℕ × ℕ × ℕ) := [
  (558517274771456, 18, 4, 18297342870051752168583332), (558517274771456, 18, 5, 18297342870051752168583333),
  (558517274771456, 18, 14, 18297342870051752168584126)]

def med6aFront1 : List (ℕ × ℕ × ℕ × ℕ) := [
  (558517274771456, 18, 15, 18297342870051752168584127), (558517207924736, 26, 0, 18297342870051752168584240),
  (558517207924736, 26, 1, 18297342870051752168584241), (558517074231296, 26, 14, 18297342870051752169293774),
  (558517074231296, 26, 15, 18297342870051752169293775), (558499961470976, 34, 0, 18297342870051752169293888),
  (558499961470976, 34, 1, 18297342870051752169293889)]

def med6aFront2 : List (ℕ × ℕ × ℕ × ℕ) := [
  (558499961470976, 34, 4, 18297342870051752169294676), (558499961470976, 34, 5, 18297342870051752169294677),
  (558517274771456, 18, 4, 18297342870352104757260452), (558517274771456, 18, 5, 18297342870352104757260453),
  (558517274771456, 18, 14, 18297342870352104757261246)]

def med6aFront3 : List (ℕ × ℕ × ℕ × ℕ) := [
  (558517274771456, 18, 15, 18297342870352104757261247), (558517207924736, 26, 0, 18297342870352104757261360),
  (558517207924736, 26, 1, 18297342870352104757261361), (558517074231296, 26, 14, 18297342870352104757970894),
  (558517074231296, 26, 15, 18297342870352104757970895), (558499961470976, 34, 0, 18297342870352104757971008),
  (558499961470976, 34, 1, 18297342870352104757971009)]

def med6aFront4 : List (ℕ × ℕ × ℕ × ℕ) := [
  (558499961470976, 34, 4, 18297342870352104757971796), (558499961470976, 34, 5, 18297342870352104757971797),
  (558517271932928, 22, 0, 18297342870385760418594800), (558517271932928, 22, 1, 18297342870385760418594801),
  (558517271932928, 22, 0, 18297342870385760907246320)]

def med6aFront5 : List (ℕ × ℕ × ℕ × ℕ) := [
  (558517271932928, 22, 1, 18297342870385760907246321), (558517158785024, 26, 0, 18297342870385760976825600),
  (558517158785024, 26, 1, 18297342870385760976825601), (558517158785024, 26, 10, 18297342870385760976826394),
  (558517158785024, 26, 11, 18297342870385760976826395), (558512930926592, 32, 4, 18297342870385760976826484),
  (558512930926592, 32, 5, 18297342870385760976826485), (558514038222848, 30, 14, 18297342870385760977512462),
  (558514038222848, 30, 15, 18297342870385760977512463), (558240234057728, 38, 0, 18297342870385760977512576),
  (558240234057728, 38, 1, 18297342870385760977512577), (558510816997376, 32, 10, 18297342870385760977513274),
  (558510816997376, 32, 11, 18297342870385760977513275), (558240234057728, 38, 4, 18297342870385760977513364),
  (558240234057728, 38, 5, 18297342870385760977513365), (558517225828352, 16, 4, 18297342870386197096060100),
  (558517225828352, 16, 5, 18297342870386197096060101), (558504290791424, 26, 14, 18297342870386197166327054),
  (558504290791424, 26, 15, 18297342870386197166327055), (558487178031104, 34, 0, 18297342870386197166327168),
  (558487178031104, 34, 1, 18297342870386197166327169), (558487178031104, 34, 10, 18297342870386197166327962),
  (558487178031104, 34, 11, 18297342870386197166327963), (557404846272512, 40, 4, 18297342870386197166328052),
  (557404846272512, 40, 5, 18297342870386197166328053), (557688314114048, 38, 14, 18297342870386197167014030),
  (557688314114048, 38, 15, 18297342870386197167014031), (487594447843328, 46, 0, 18297342870386197167014144),
  (487594447843328, 46, 1, 18297342870386197167014145), (556863680393216, 40, 10, 18297342870386197167014842),
  (556863680393216, 40, 11, 18297342870386197167014843), (487594447843328, 46, 4, 18297342870386197167014932),
  (487594447843328, 46, 5, 18297342870386197167014933), (558517175164928, 12, 10, 18297342870386197595185802),
  (558517175164928, 12, 11, 18297342870386197595185803), (558517175164928, 12, 14, 18297342870386197595186590),
  (558517175164928, 12, 15, 18297342870386197595186591), (558517174120448, 20, 0, 18297342870386197595186704),
  (558517174120448, 20, 1, 18297342870386197595186705), (558517040427008, 20, 14, 18297342870386197595896238),
  (558517040427008, 20, 15, 18297342870386197595896239), (558499861606400, 34, 4, 18297342870386197595897236),
  (558499861606400, 34, 5, 18297342870386197595897237), (558510783574016, 24, 10, 18297342870386197650652426),
  (558510783574016, 24, 11, 18297342870386197650652427), (558509726609408, 30, 4, 18297342870386197650652516),
  (558509726609408, 30, 5, 18297342870386197650652517), (558509726609408, 30, 14, 18297342870386197650653310),
  (558509726609408, 30, 15, 18297342870386197650653311), (558235922444288, 38, 0, 18297342870386197650653424),
  (558235922444288, 38, 1, 18297342870386197650653425), (557688314114048, 38, 14, 18297342870386197651362958),
  (557688314114048, 38, 15, 18297342870386197651362959), (487594447843328, 46, 0, 18297342870386197651363072),
  (487594447843328, 46, 1, 18297342870386197651363073), (556863680393216, 40, 10, 18297342870386197651363770),
  (556863680393216, 40, 11, 18297342870386197651363771), (487594447843328, 46, 4, 18297342870386197651363860),
  (487594447843328, 46, 5, 18297342870386197651363861), (558517247031296, 24, 0, 18297343129549982553172704),
  (558517247031296, 24, 1, 18297343129549982553172705), (558517247031296, 24, 10, 18297343129549982553173498),
  (558517247031296, 24, 11, 18297343129549982553173499), (558516190066688, 30, 4, 18297343129549982553173588),
  (558516190066688, 30, 5, 18297343129549982553173589), (558448015849472, 36, 0, 18297343129549982553859680),
  (558448015849472, 36, 1, 18297343129549982553859681)]

def med6aFront6 : List (ℕ × ℕ × ℕ × ℕ) := [
  (558515661584384, 30, 10, 18297343129549982553860378), (558515661584384, 30, 11, 18297343129549982553860379),
  (558448015849472, 36, 4, 18297343129549982553860468), (558448015849472, 36, 5, 18297343129549982553860469),
  (558517225889792, 12, 0, 18297343129592749804884368), (558517225889792, 12, 1, 18297343129592749804884369),
  (558517023782912, 20, 14, 18297343129592749875150510), (558517023782912, 20, 15, 18297343129592749875150511),
  (558499844962304, 34, 4, 18297343129592749875151508), (558499844962304, 34, 5, 18297343129592749875151509),
  (558504274147328, 32, 14, 18297343129592749875837486), (558504274147328, 32, 15, 18297343129592749875837487),
  (557409057486848, 40, 0, 18297343129592749875837600), (557409057486848, 40, 1, 18297343129592749875837601),
  (558491389245440, 34, 10, 18297343129592749875838298), (558491389245440, 34, 11, 18297343129592749875838299),
  (557409057486848, 40, 4, 18297343129592749875838388), (557409057486848, 40, 5, 18297343129592749875838389),
  (558517158520832, 12, 10, 18297343129592750363091594), (558517158520832, 12, 11, 18297343129592750363091595),
  (558517158262784, 18, 4, 18297343129592750363091684), (558517158262784, 18, 5, 18297343129592750363091685),
  (558517158520832, 12, 14, 18297343129592750363092382), (558517158520832, 12, 15, 18297343129592750363092383),
  (558517157476352, 20, 0, 18297343129592750363092496), (558517157476352, 20, 1, 18297343129592750363092497),
  (558517023782912, 20, 14, 18297343129592750363802030), (558517023782912, 20, 15, 18297343129592750363802031),
  (558499844962304, 34, 4, 18297343129592750363803028), (558499844962304, 34, 5, 18297343129592750363803029),
  (558509709965312, 30, 4, 18297343129592750418558308), (558509709965312, 30, 5, 18297343129592750418558309),
  (558509709965312, 30, 14, 18297343129592750418559102), (558509709965312, 30, 15, 18297343129592750418559103),
  (558235905800192, 38, 0, 18297343129592750418559216), (558235905800192, 38, 1, 18297343129592750418559217),
  (557688297469952, 38, 14, 18297343129592750419268750), (557688297469952, 38, 15, 18297343129592750419268751),
  (487594431199232, 46, 0, 18297343129592750419268864), (487594431199232, 46, 1, 18297343129592750419268865),
  (556863663749120, 40, 10, 18297343129592750419269562), (556863663749120, 40, 11, 18297343129592750419269563),
  (487594431199232, 46, 4, 18297343129592750419269652), (487594431199232, 46, 5, 18297343129592750419269653),
  (558514030032896, 16, 10, 18297343129593172058954442), (558514030032896, 16, 11, 18297343129593172058954443),
  (558514025904128, 22, 4, 18297343129593172058954532), (558514025904128, 22, 5, 18297343129593172058954533),
  (558514030032896, 16, 14, 18297343129593172058955230), (558514030032896, 16, 15, 18297343129593172058955231),
  (558513497421824, 22, 10, 18297343129593172059641322), (558513497421824, 22, 11, 18297343129593172059641323),
  (558444782139392, 36, 0, 18297343129593172059642320), (558444782139392, 36, 1, 18297343129593172059642321),
  (557686183540736, 32, 14, 18297343129593172129221486), (557686183540736, 32, 15, 18297343129593172129221487),
  (556590966880256, 40, 0, 18297343129593172129221600), (556590966880256, 40, 1, 18297343129593172129221601),
  (556590966880256, 40, 10, 18297343129593172129222394), (556590966880256, 40, 11, 18297343129593172129222395),
  (487321734330368, 46, 4, 18297343129593172129222484), (487321734330368, 46, 5, 18297343129593172129222485),
  (505463676188672, 44, 14, 18297343129593172129908462), (505463676188672, 44, 15, 18297343129593172129908463),
  (452687118055424, 46, 10, 18297343129593172129909274), (452687118055424, 46, 11, 18297343129593172129909275),
  (558510783444992, 18, 10, 18297343129593172558080234), (558510783444992, 18, 11, 18297343129593172558080235),
  (558510783444992, 18, 14, 18297343129593172558081022), (558510783444992, 18, 15, 18297343129593172558081023),
  (558510716598272, 26, 0, 18297343129593172558081136), (558510716598272, 26, 1, 18297343129593172558081137),
  (558502160218112, 26, 14, 18297343129593172558790670), (558502160218112, 26, 15, 18297343129593172558790671),
  (558485047457792, 34, 0, 18297343129593172558790784), (558485047457792, 34, 1, 18297343129593172558790785),
  (558485047457792, 34, 10, 18297343129593172558791578), (558485047457792, 34, 11, 18297343129593172558791579),
  (557402715699200, 40, 4, 18297343129593172558791668), (557402715699200, 40, 5, 18297343129593172558791669),
  (558101721626624, 30, 10, 18297343129593172613546858), (558101721626624, 30, 11, 18297343129593172613546859),
  (558034075891712, 36, 4, 18297343129593172613546948), (558034075891712, 36, 5, 18297343129593172613546949),
  (558034075891712, 36, 14, 18297343129593172613547742), (558034075891712, 36, 15, 18297343129593172613547743),
  (540510609324032, 44, 0, 18297343129593172613547856), (540510609324032, 44, 1, 18297343129593172613547857),
  (505463676188672, 44, 14, 18297343129593172614257390), (505463676188672, 44, 15, 18297343129593172614257391),
  (452687118055424, 46, 10, 18297343129593172614258202), (452687118055424, 46, 11, 18297343129593172614258203),
  (558517275164672, 20, 4, 18297343129856350961935284), (558517275164672, 20, 5, 18297343129856350961935285),
  (558514030032896, 16, 10, 18297343129890880033643210), (558514030032896, 16, 11, 18297343129890880033643211),
  (558514025904128, 22, 4, 18297343129890880033643300), (558514025904128, 22, 5, 18297343129890880033643301),
  (558514030032896, 16, 14, 18297343129890880033643998), (558514030032896, 16, 15, 18297343129890880033643999),
  (558513497421824, 22, 10, 18297343129890880034330090), (558513497421824, 22, 11, 18297343129890880034330091),
  (558444782139392, 36, 0, 18297343129890880034331088), (558444782139392, 36, 1, 18297343129890880034331089),
  (557686183540736, 32, 14, 18297343129890880103910254), (557686183540736, 32, 15, 18297343129890880103910255),
  (556590966880256, 40, 0, 18297343129890880103910368), (556590966880256, 40, 1, 18297343129890880103910369),
  (556590966880256, 40, 10, 18297343129890880103911162), (556590966880256, 40, 11, 18297343129890880103911163),
  (487321734330368, 46, 4, 18297343129890880103911252), (487321734330368, 46, 5, 18297343129890880103911253),
  (505463676188672, 44, 14, 18297343129890880104597230), (505463676188672, 44, 15, 18297343129890880104597231),
  (452687118055424, 46, 10, 18297343129890880104598042), (452687118055424, 46, 11, 18297343129890880104598043),
  (558510783444992, 18, 10, 18297343129890880532769002), (558510783444992, 18, 11, 18297343129890880532769003),
  (558510783444992, 18, 14, 18297343129890880532769790), (558510783444992, 18, 15, 18297343129890880532769791),
  (558510716598272, 26, 0, 18297343129890880532769904), (558510716598272, 26, 1, 18297343129890880532769905),
  (558502160218112, 26, 14, 18297343129890880533479438), (558502160218112, 26, 15, 18297343129890880533479439),
  (558485047457792, 34, 0, 18297343129890880533479552), (558485047457792, 34, 1, 18297343129890880533479553),
  (558485047457792, 34, 10, 18297343129890880533480346), (558485047457792, 34, 11, 18297343129890880533480347),
  (557402715699200, 40, 4, 18297343129890880533480436), (557402715699200, 40, 5, 18297343129890880533480437),
  (558101721626624, 30, 10, 18297343129890880588235626), (558101721626624, 30, 11, 18297343129890880588235627),
  (558034075891712, 36, 4, 18297343129890880588235716), (558034075891712, 36, 5, 18297343129890880588235717),
  (558034075891712, 36, 14, 18297343129890880588236510), (558034075891712, 36, 15, 18297343129890880588236511),
  (540510609324032, 44, 0, 18297343129890880588236624), (540510609324032, 44, 1, 18297343129890880588236625),
  (505463676188672, 44, 14, 18297343129890880588946158), (505463676188672, 44, 15, 18297343129890880588946159),
  (452687118055424, 46, 10, 18297343129890880588946970), (452687118055424, 46, 11, 18297343129890880588946971)]

def med6aFront7 : List (ℕ × ℕ × ℕ × ℕ) := [
  (558517274771456, 18, 4, 18297527483572498092454052), (558517274771456, 18, 5, 18297527483572498092454053),
  (558517274771456, 18, 14, 18297527483572498092454846)]

def med6aFront8 : List (ℕ × ℕ × ℕ × ℕ) := [
  (558517274771456, 18, 15, 18297527483572498092454847), (558517207924736, 26, 0, 18297527483572498092454960),
  (558517207924736, 26, 1, 18297527483572498092454961), (558517074231296, 26, 14, 18297527483572498093164494),
  (558517074231296, 26, 15, 18297527483572498093164495), (558499961470976, 34, 0, 18297527483572498093164608),
  (558499961470976, 34, 1, 18297527483572498093164609)]

def med6aFront9 : List (ℕ × ℕ × ℕ × ℕ) := [
  (558499961470976, 34, 4, 18297527483572498093165396), (558499961470976, 34, 5, 18297527483572498093165397),
  (558517274771456, 18, 4, 18297527483872850681131172), (558517274771456, 18, 5, 18297527483872850681131173),
  (558517274771456, 18, 14, 18297527483872850681131966)]

def med6aFront10 : List (ℕ × ℕ × ℕ × ℕ) := [
  (558517274771456, 18, 15, 18297527483872850681131967), (558517207924736, 26, 0, 18297527483872850681132080),
  (558517207924736, 26, 1, 18297527483872850681132081), (558517074231296, 26, 14, 18297527483872850681841614),
  (558517074231296, 26, 15, 18297527483872850681841615), (558499961470976, 34, 0, 18297527483872850681841728),
  (558499961470976, 34, 1, 18297527483872850681841729)]

def med6aFront11 : List (ℕ × ℕ × ℕ × ℕ) := [
  (558499961470976, 34, 4, 18297527483872850681842516), (558499961470976, 34, 5, 18297527483872850681842517),
  (558517271932928, 22, 0, 18297527483906506342465520), (558517271932928, 22, 1, 18297527483906506342465521),
  (558517271932928, 22, 0, 18297527483906506831117040)]

def med6aFront12 : List (ℕ × ℕ × ℕ × ℕ) := [
  (558517271932928, 22, 1, 18297527483906506831117041), (558517158785024, 26, 0, 18297527483906506900696320),
  (558517158785024, 26, 1, 18297527483906506900696321), (558517158785024, 26, 10, 18297527483906506900697114),
  (558517158785024, 26, 11, 18297527483906506900697115), (558512930926592, 32, 4, 18297527483906506900697204),
  (558512930926592, 32, 5, 18297527483906506900697205), (558514038222848, 30, 14, 18297527483906506901383182),
  (558514038222848, 30, 15, 18297527483906506901383183), (558240234057728, 38, 0, 18297527483906506901383296),
  (558240234057728, 38, 1, 18297527483906506901383297), (558510816997376, 32, 10, 18297527483906506901383994),
  (558510816997376, 32, 11, 18297527483906506901383995), (558240234057728, 38, 4, 18297527483906506901384084),
  (558240234057728, 38, 5, 18297527483906506901384085), (558517225828352, 16, 4, 18297527483906943019930820),
  (558517225828352, 16, 5, 18297527483906943019930821), (558504290791424, 26, 14, 18297527483906943090197774),
  (558504290791424, 26, 15, 18297527483906943090197775), (558487178031104, 34, 0, 18297527483906943090197888),
  (558487178031104, 34, 1, 18297527483906943090197889), (558487178031104, 34, 10, 18297527483906943090198682),
  (558487178031104, 34, 11, 18297527483906943090198683), (557404846272512, 40, 4, 18297527483906943090198772),
  (557404846272512, 40, 5, 18297527483906943090198773), (557688314114048, 38, 14, 18297527483906943090884750),
  (557688314114048, 38, 15, 18297527483906943090884751), (487594447843328, 46, 0, 18297527483906943090884864),
  (487594447843328, 46, 1, 18297527483906943090884865), (556863680393216, 40, 10, 18297527483906943090885562),
  (556863680393216, 40, 11, 18297527483906943090885563), (487594447843328, 46, 4, 18297527483906943090885652),
  (487594447843328, 46, 5, 18297527483906943090885653), (558517175164928, 12, 10, 18297527483906943519056522),
  (558517175164928, 12, 11, 18297527483906943519056523), (558517175164928, 12, 14, 18297527483906943519057310),
  (558517175164928, 12, 15, 18297527483906943519057311), (558517174120448, 20, 0, 18297527483906943519057424),
  (558517174120448, 20, 1, 18297527483906943519057425), (558517040427008, 20, 14, 18297527483906943519766958),
  (558517040427008, 20, 15, 18297527483906943519766959), (558499861606400, 34, 4, 18297527483906943519767956),
  (558499861606400, 34, 5, 18297527483906943519767957), (558510783574016, 24, 10, 18297527483906943574523146),
  (558510783574016, 24, 11, 18297527483906943574523147), (558509726609408, 30, 4, 18297527483906943574523236),
  (558509726609408, 30, 5, 18297527483906943574523237), (558509726609408, 30, 14, 18297527483906943574524030),
  (558509726609408, 30, 15, 18297527483906943574524031), (558235922444288, 38, 0, 18297527483906943574524144),
  (558235922444288, 38, 1, 18297527483906943574524145), (557688314114048, 38, 14, 18297527483906943575233678),
  (557688314114048, 38, 15, 18297527483906943575233679), (487594447843328, 46, 0, 18297527483906943575233792),
  (487594447843328, 46, 1, 18297527483906943575233793), (556863680393216, 40, 10, 18297527483906943575234490),
  (556863680393216, 40, 11, 18297527483906943575234491), (487594447843328, 46, 4, 18297527483906943575234580),
  (487594447843328, 46, 5, 18297527483906943575234581), (558517213346816, 18, 14, 18297548170903799378197646),
  (558517213346816, 18, 15, 18297548170903799378197647), (558517146500096, 26, 0, 18297548170903799378197760),
  (558517146500096, 26, 1, 18297548170903799378197761), (558517146500096, 26, 10, 18297548170903799378198554),
  (558517146500096, 26, 11, 18297548170903799378198555), (558512918641664, 32, 4, 18297548170903799378198644),
  (558512918641664, 32, 5, 18297548170903799378198645), (558514025937920, 30, 14, 18297548170903799378884622),
  (558514025937920, 30, 15, 18297548170903799378884623), (558240221772800, 38, 0, 18297548170903799378884736),
  (558240221772800, 38, 1, 18297548170903799378884737), (558510804712448, 32, 10, 18297548170903799378885434),
  (558510804712448, 32, 11, 18297548170903799378885435), (558240221772800, 38, 4, 18297548170903799378885524),
  (558240221772800, 38, 5, 18297548170903799378885525), (558517247031296, 10, 10, 18297548170903799866138730)]

def med6aFront13 : List (ℕ × ℕ × ℕ × ℕ) := [
  (558517247031296, 10, 11, 18297548170903799866138731), (558517247031296, 10, 14, 18297548170903799866139518),
  (558517247031296, 10, 15, 18297548170903799866139519), (558517246770176, 18, 0, 18297548170903799866139632),
  (558517246770176, 18, 1, 18297548170903799866139633), (558517213346816, 18, 14, 18297548170903799866849166),
  (558517213346816, 18, 15, 18297548170903799866849167), (558517146500096, 26, 0, 18297548170903799866849280),
  (558517146500096, 26, 1, 18297548170903799866849281), (558517146500096, 26, 10, 18297548170903799866850074),
  (558517146500096, 26, 11, 18297548170903799866850075), (558512918641664, 32, 4, 18297548170903799866850164),
  (558512918641664, 32, 5, 18297548170903799866850165), (558446933851136, 36, 0, 18297548170903799921606352),
  (558446933851136, 36, 1, 18297548170903799921606353), (532059736914944, 44, 10, 18297548170904221632956410),
  (532059736914944, 44, 11, 18297548170904221632956411), (558515636550656, 24, 0, 18297548170904222061128272),
  (558515636550656, 24, 1, 18297548170904222061128273)]

def med6aFront14 : List (ℕ × ℕ × ℕ × ℕ) := [
  (532059736914944, 44, 10, 18297548170904222117305338), (532059736914944, 44, 11, 18297548170904222117305339),
  (558517263933440, 12, 0, 18456871301828898668125728), (558517263933440, 12, 1, 18456871301828898668125729),
  (558517263933440, 12, 10, 18456871301828898668126522), (558517263933440, 12, 11, 18456871301828898668126523),
  (558517263675392, 18, 4, 18456871301828898668126612), (558517263675392, 18, 5, 18456871301828898668126613),
  (558517247031296, 24, 0, 18456871301828898668812704), (558517247031296, 24, 1, 18456871301828898668812705),
  (558517263546368, 18, 10, 18456871301828898668813402), (558517263546368, 18, 11, 18456871301828898668813403),
  (558517247031296, 24, 4, 18456871301828898668813492), (558517247031296, 24, 5, 18456871301828898668813493),
  (558517213409792, 10, 4, 18456871301872088173907556), (558517213409792, 10, 5, 18456871301872088173907557),
  (558517213406720, 12, 0, 18456871301872088173908368), (558517213406720, 12, 1, 18456871301872088173908369),
  (558517213280768, 10, 10, 18456871301872088174594346), (558517213280768, 10, 11, 18456871301872088174594347),
  (558517213216256, 16, 4, 18456871301872088174594436), (558517213216256, 16, 5, 18456871301872088174594437),
  (558517213216256, 16, 14, 18456871301872088174595230), (558517213216256, 16, 15, 18456871301872088174595231),
  (558517011299840, 20, 14, 18456871301872088244174510), (558517011299840, 20, 15, 18456871301872088244174511)]

def med6aFront15 : List (ℕ × ℕ × ℕ × ℕ) := [
  (558499832479232, 34, 4, 18456871301872088244175508), (558499832479232, 34, 5, 18456871301872088244175509),
  (558504261664256, 32, 14, 18456871301872088244861486), (558504261664256, 32, 15, 18456871301872088244861487),
  (557409045003776, 40, 0, 18456871301872088244861600), (557409045003776, 40, 1, 18456871301872088244861601),
  (558491376762368, 34, 10, 18456871301872088244862298), (558491376762368, 34, 11, 18456871301872088244862299),
  (557409045003776, 40, 4, 18456871301872088244862388), (557409045003776, 40, 5, 18456871301872088244862389),
  (558517146037760, 12, 10, 18456871301872088732115594), (558517146037760, 12, 11, 18456871301872088732115595),
  (558517145779712, 18, 4, 18456871301872088732115684), (558517145779712, 18, 5, 18456871301872088732115685),
  (558517146037760, 12, 14, 18456871301872088732116382), (558517146037760, 12, 15, 18456871301872088732116383),
  (558517144993280, 20, 0, 18456871301872088732116496), (558517144993280, 20, 1, 18456871301872088732116497),
  (558517011299840, 20, 14, 18456871301872088732826030), (558517011299840, 20, 15, 18456871301872088732826031),
  (558499832479232, 34, 4, 18456871301872088732827028), (558499832479232, 34, 5, 18456871301872088732827029),
  (558509697482240, 30, 4, 18456871301872088787582308), (558509697482240, 30, 5, 18456871301872088787582309),
  (558509697482240, 30, 14, 18456871301872088787583102), (558509697482240, 30, 15, 18456871301872088787583103),
  (558235893317120, 38, 0, 18456871301872088787583216), (558235893317120, 38, 1, 18456871301872088787583217),
  (557688284986880, 38, 14, 18456871301872088788292750), (557688284986880, 38, 15, 18456871301872088788292751),
  (487594418716160, 46, 0, 18456871301872088788292864), (487594418716160, 46, 1, 18456871301872088788292865),
  (556863651266048, 40, 10, 18456871301872088788293562), (556863651266048, 40, 11, 18456871301872088788293563),
  (487594418716160, 46, 4, 18456871301872088788293652), (487594418716160, 46, 5, 18456871301872088788293653),
  (558444769656320, 36, 0, 18456871301872510428666320), (558444769656320, 36, 1, 18456871301872510428666321),
  (557686171057664, 32, 14, 18456871301872510498245486), (557686171057664, 32, 15, 18456871301872510498245487),
  (556590954397184, 40, 0, 18456871301872510498245600), (556590954397184, 40, 1, 18456871301872510498245601),
  (556590954397184, 40, 10, 18456871301872510498246394), (556590954397184, 40, 11, 18456871301872510498246395),
  (487321721847296, 46, 4, 18456871301872510498246484), (487321721847296, 46, 5, 18456871301872510498246485),
  (505463663705600, 44, 14, 18456871301872510498932462), (505463663705600, 44, 15, 18456871301872510498932463),
  (452687105572352, 46, 10, 18456871301872510498933274), (452687105572352, 46, 11, 18456871301872510498933275),
  (558510770961920, 18, 10, 18456871301872510927104234), (558510770961920, 18, 11, 18456871301872510927104235),
  (558510770961920, 18, 14, 18456871301872510927105022), (558510770961920, 18, 15, 18456871301872510927105023),
  (558510704115200, 26, 0, 18456871301872510927105136), (558510704115200, 26, 1, 18456871301872510927105137),
  (558502147735040, 26, 14, 18456871301872510927814670), (558502147735040, 26, 15, 18456871301872510927814671),
  (558485034974720, 34, 0, 18456871301872510927814784), (558485034974720, 34, 1, 18456871301872510927814785),
  (558485034974720, 34, 10, 18456871301872510927815578), (558485034974720, 34, 11, 18456871301872510927815579),
  (557402703216128, 40, 4, 18456871301872510927815668), (557402703216128, 40, 5, 18456871301872510927815669),
  (558101709143552, 30, 10, 18456871301872510982570858), (558101709143552, 30, 11, 18456871301872510982570859),
  (558034063408640, 36, 4, 18456871301872510982570948), (558034063408640, 36, 5, 18456871301872510982570949),
  (558034063408640, 36, 14, 18456871301872510982571742), (558034063408640, 36, 15, 18456871301872510982571743),
  (540510596840960, 44, 0, 18456871301872510982571856), (540510596840960, 44, 1, 18456871301872510982571857),
  (505463663705600, 44, 14, 18456871301872510983281390), (505463663705600, 44, 15, 18456871301872510983281391),
  (452687105572352, 46, 10, 18456871301872510983282202), (452687105572352, 46, 11, 18456871301872510983282203),
  (558517213409792, 10, 4, 18456871302172440762584676), (558517213409792, 10, 5, 18456871302172440762584677),
  (558517213406720, 12, 0, 18456871302172440762585488), (558517213406720, 12, 1, 18456871302172440762585489),
  (558517213280768, 10, 10, 18456871302172440763271466), (558517213280768, 10, 11, 18456871302172440763271467),
  (558517213216256, 16, 4, 18456871302172440763271556), (558517213216256, 16, 5, 18456871302172440763271557),
  (558517213216256, 16, 14, 18456871302172440763272350), (558517213216256, 16, 15, 18456871302172440763272351),
  (558517011299840, 20, 14, 18456871302172440832851630), (558517011299840, 20, 15, 18456871302172440832851631),
  (558499832479232, 34, 4, 18456871302172440832852628), (558499832479232, 34, 5, 18456871302172440832852629),
  (558504261664256, 32, 14, 18456871302172440833538606), (558504261664256, 32, 15, 18456871302172440833538607),
  (557409045003776, 40, 0, 18456871302172440833538720), (557409045003776, 40, 1, 18456871302172440833538721),
  (558491376762368, 34, 10, 18456871302172440833539418), (558491376762368, 34, 11, 18456871302172440833539419),
  (557409045003776, 40, 4, 18456871302172440833539508), (557409045003776, 40, 5, 18456871302172440833539509),
  (558517146037760, 12, 10, 18456871302172441320792714), (558517146037760, 12, 11, 18456871302172441320792715),
  (558517145779712, 18, 4, 18456871302172441320792804), (558517145779712, 18, 5, 18456871302172441320792805),
  (558517146037760, 12, 14, 18456871302172441320793502), (558517146037760, 12, 15, 18456871302172441320793503),
  (558517144993280, 20, 0, 18456871302172441320793616), (558517144993280, 20, 1, 18456871302172441320793617),
  (558517011299840, 20, 14, 18456871302172441321503150), (558517011299840, 20, 15, 18456871302172441321503151),
  (558499832479232, 34, 4, 18456871302172441321504148), (558499832479232, 34, 5, 18456871302172441321504149),
  (558509697482240, 30, 4, 18456871302172441376259428), (558509697482240, 30, 5, 18456871302172441376259429),
  (558509697482240, 30, 14, 18456871302172441376260222), (558509697482240, 30, 15, 18456871302172441376260223),
  (558235893317120, 38, 0, 18456871302172441376260336), (558235893317120, 38, 1, 18456871302172441376260337),
  (557688284986880, 38, 14, 18456871302172441376969870), (557688284986880, 38, 15, 18456871302172441376969871),
  (487594418716160, 46, 0, 18456871302172441376969984), (487594418716160, 46, 1, 18456871302172441376969985),
  (556863651266048, 40, 10, 18456871302172441376970682), (556863651266048, 40, 11, 18456871302172441376970683),
  (487594418716160, 46, 4, 18456871302172441376970772), (487594418716160, 46, 5, 18456871302172441376970773),
  (532058654850560, 44, 10, 18456871302206097596512250), (532058654850560, 44, 11, 18456871302206097596512251)]

def med6aFront16 : List (ℕ × ℕ × ℕ × ℕ) := [
  (531921224285696, 30, 10, 18456871561413509177079210), (531921224285696, 30, 11, 18456871561413509177079211)]

def med6aFront17 : List (ℕ × ℕ × ℕ × ℕ) := [
  (531921224285696, 30, 14, 18456871561413509177079998), (531921224285696, 30, 15, 18456871561413509177079999),
  (531647420120576, 38, 0, 18456871561413509177080112), (531647420120576, 38, 1, 18456871561413509177080113),
  (496600486985216, 38, 14, 18456871561413509177789646)]

def med6aFront18 : List (ℕ × ℕ × ℕ × ℕ) := [
  (496600486985216, 38, 15, 18456871561413509177789647), (426506620714496, 46, 0, 18456871561413509177789760),
  (426506620714496, 46, 1, 18456871561413509177789761), (426506620714496, 46, 10, 18456871561413509177790554),
  (426506620714496, 46, 11, 18456871561413509177790555), (558515653326848, 10, 0, 18456871561676687026318192),
  (558515653326848, 10, 1, 18456871561676687026318193), (558515653326848, 10, 0, 18456871561676687510667120),
  (558515653326848, 10, 1, 18456871561676687510667121), (558515602800128, 18, 14, 18456871561676687580933262),
  (558515602800128, 18, 15, 18456871561676687580933263), (558515535953408, 26, 0, 18456871561676687580933376),
  (558515535953408, 26, 1, 18456871561676687580933377), (558515535953408, 26, 10, 18456871561676687580934170),
  (558515535953408, 26, 11, 18456871561676687580934171), (558511308094976, 32, 4, 18456871561676687580934260),
  (558511308094976, 32, 5, 18456871561676687580934261), (558238611226112, 38, 0, 18456871561676687581620352),
  (558238611226112, 38, 1, 18456871561676687581620353), (558509194165760, 32, 10, 18456871561676687581621050),
  (558509194165760, 32, 11, 18456871561676687581621051), (558238611226112, 38, 4, 18456871561676687581621140),
  (558238611226112, 38, 5, 18456871561676687581621141), (558513489067520, 16, 10, 18456871561677123700854666),
  (558513489067520, 16, 11, 18456871561677123700854667), (558500562288128, 26, 14, 18456871561677123770434830),
  (558500562288128, 26, 15, 18456871561677123770434831), (558483449527808, 34, 0, 18456871561677123770434944),
  (558483449527808, 34, 1, 18456871561677123770434945), (558483449527808, 34, 10, 18456871561677123770435738),
  (558483449527808, 34, 11, 18456871561677123770435739), (557401117769216, 40, 4, 18456871561677123770435828),
  (557401117769216, 40, 5, 18456871561677123770435829), (557684585610752, 38, 14, 18456871561677123771121806),
  (557684585610752, 38, 15, 18456871561677123771121807), (487590719340032, 46, 0, 18456871561677123771121920),
  (487590719340032, 46, 1, 18456871561677123771121921), (556859951889920, 40, 10, 18456871561677123771122618),
  (556859951889920, 40, 11, 18456871561677123771122619), (487590719340032, 46, 4, 18456871561677123771122708),
  (487590719340032, 46, 5, 18456871561677123771122709), (558509185515008, 18, 10, 18456871561677124258375914),
  (558509185515008, 18, 11, 18456871561677124258375915), (558509168999936, 24, 4, 18456871561677124258376004),
  (558509168999936, 24, 5, 18456871561677124258376005), (558509185515008, 18, 14, 18456871561677124258376702),
  (558509185515008, 18, 15, 18456871561677124258376703), (558509118668288, 26, 0, 18456871561677124258376816),
  (558509118668288, 26, 1, 18456871561677124258376817), (558500562288128, 26, 14, 18456871561677124259086350),
  (558500562288128, 26, 15, 18456871561677124259086351), (558483449527808, 34, 0, 18456871561677124259086464),
  (558483449527808, 34, 1, 18456871561677124259086465), (558483449527808, 34, 10, 18456871561677124259087258),
  (558483449527808, 34, 11, 18456871561677124259087259)]

def med6aFront19 : List (ℕ × ℕ × ℕ × ℕ) := [
  (557401117769216, 40, 4, 18456871561677124259087348), (557401117769216, 40, 5, 18456871561677124259087349),
  (558032477961728, 36, 4, 18456871561677124313842628), (558032477961728, 36, 5, 18456871561677124313842629),
  (558032477961728, 36, 14, 18456871561677124313843422), (558032477961728, 36, 15, 18456871561677124313843423),
  (540509011394048, 44, 0, 18456871561677124313843536), (540509011394048, 44, 1, 18456871561677124313843537),
  (505462078258688, 44, 14, 18456871561677124314553070), (505462078258688, 44, 15, 18456871561677124314553071),
  (452685520125440, 46, 10, 18456871561677124314553882), (452685520125440, 46, 11, 18456871561677124314553883),
  (531921224285696, 30, 10, 18456871561711217151767978), (531921224285696, 30, 11, 18456871561711217151767979)]

def med6aFront20 : List (ℕ × ℕ × ℕ × ℕ) := [
  (531921224285696, 30, 14, 18456871561711217151768766), (531921224285696, 30, 15, 18456871561711217151768767),
  (531647420120576, 38, 0, 18456871561711217151768880), (531647420120576, 38, 1, 18456871561711217151768881),
  (496600486985216, 38, 14, 18456871561711217152478414)]

def med6aFront21 : List (ℕ × ℕ × ℕ × ℕ) := [
  (496600486985216, 38, 15, 18456871561711217152478415), (426506620714496, 46, 0, 18456871561711217152478528),
  (426506620714496, 46, 1, 18456871561711217152478529), (426506620714496, 46, 10, 18456871561711217152479322),
  (426506620714496, 46, 11, 18456871561711217152479323), (558517275459584, 20, 4, 18457033325861686412620724),
  (558517275459584, 20, 5, 18457033325861686412620725), (558517275459584, 20, 4, 18457033325861686901272244),
  (558517275459584, 20, 5, 18457033325861686901272245), (558517259350016, 24, 0, 18457033325861686956028432),
  (558517259350016, 24, 1, 18457033325861686956028433), (558517225797632, 18, 14, 18457033325862108666690702),
  (558517225797632, 18, 15, 18457033325862108666690703), (558517158950912, 26, 0, 18457033325862108666690816),
  (558517158950912, 26, 1, 18457033325862108666690817), (558517158950912, 26, 10, 18457033325862108666691610),
  (558517158950912, 26, 11, 18457033325862108666691611), (558512931092480, 32, 4, 18457033325862108666691700),
  (558512931092480, 32, 5, 18457033325862108666691701), (558514038388736, 30, 14, 18457033325862108667377678),
  (558514038388736, 30, 15, 18457033325862108667377679), (558240234223616, 38, 0, 18457033325862108667377792),
  (558240234223616, 38, 1, 18457033325862108667377793), (558510817163264, 32, 10, 18457033325862108667378490),
  (558510817163264, 32, 11, 18457033325862108667378491), (558240234223616, 38, 4, 18457033325862108667378580),
  (558240234223616, 38, 5, 18457033325862108667378581), (558517276123136, 12, 0, 18457033325862109095550352),
  (558517276123136, 12, 1, 18457033325862109095550353), (558517247031296, 22, 4, 18457033325862109151016164),
  (558517247031296, 22, 5, 18457033325862109151016165), (558517247031296, 22, 14, 18457033325862109151016958),
  (558517247031296, 22, 15, 18457033325862109151016959), (558516177483776, 30, 0, 18457033325862109151017072),
  (558516177483776, 30, 1, 18457033325862109151017073)]

def med6aFront22 : List (ℕ × ℕ × ℕ × ℕ) := [
  (558514038388736, 30, 14, 18457033325862109151726606), (558514038388736, 30, 15, 18457033325862109151726607),
  (558240234223616, 38, 0, 18457033325862109151726720), (558240234223616, 38, 1, 18457033325862109151726721),
  (558510817163264, 32, 10, 18457033325862109151727418), (558510817163264, 32, 11, 18457033325862109151727419),
  (558240234223616, 38, 4, 18457033325862109151727508), (558240234223616, 38, 5, 18457033325862109151727509),
  (531921224285696, 30, 10, 18457054549406399476463018), (531921224285696, 30, 11, 18457054549406399476463019)]

def med6aFront23 : List (ℕ × ℕ × ℕ × ℕ) := [
  (531921224285696, 30, 14, 18457054549406399476463806), (531921224285696, 30, 15, 18457054549406399476463807),
  (531647420120576, 38, 0, 18457054549406399476463920), (531647420120576, 38, 1, 18457054549406399476463921),
  (496600486985216, 38, 14, 18457054549406399477173454)]

def med6aFront24 : List (ℕ × ℕ × ℕ × ℕ) := [
  (496600486985216, 38, 15, 18457054549406399477173455), (426506620714496, 46, 0, 18457054549406399477173568),
  (426506620714496, 46, 1, 18457054549406399477173569), (426506620714496, 46, 10, 18457054549406399477174362),
  (426506620714496, 46, 11, 18457054549406399477174363), (558515653326848, 10, 0, 18457054549669577325702000),
  (558515653326848, 10, 1, 18457054549669577325702001), (558515653326848, 10, 0, 18457054549669577810050928),
  (558515653326848, 10, 1, 18457054549669577810050929), (558515602800128, 18, 14, 18457054549669577880317070),
  (558515602800128, 18, 15, 18457054549669577880317071), (558515535953408, 26, 0, 18457054549669577880317184),
  (558515535953408, 26, 1, 18457054549669577880317185), (558515535953408, 26, 10, 18457054549669577880317978),
  (558515535953408, 26, 11, 18457054549669577880317979), (558511308094976, 32, 4, 18457054549669577880318068),
  (558511308094976, 32, 5, 18457054549669577880318069), (558238611226112, 38, 0, 18457054549669577881004160),
  (558238611226112, 38, 1, 18457054549669577881004161), (558509194165760, 32, 10, 18457054549669577881004858),
  (558509194165760, 32, 11, 18457054549669577881004859), (558238611226112, 38, 4, 18457054549669577881004948),
  (558238611226112, 38, 5, 18457054549669577881004949), (558513489067520, 16, 10, 18457054549670014000238474),
  (558513489067520, 16, 11, 18457054549670014000238475), (558500562288128, 26, 14, 18457054549670014069818638),
  (558500562288128, 26, 15, 18457054549670014069818639), (558483449527808, 34, 0, 18457054549670014069818752),
  (558483449527808, 34, 1, 18457054549670014069818753), (558483449527808, 34, 10, 18457054549670014069819546),
  (558483449527808, 34, 11, 18457054549670014069819547), (557401117769216, 40, 4, 18457054549670014069819636),
  (557401117769216, 40, 5, 18457054549670014069819637), (557684585610752, 38, 14, 18457054549670014070505614),
  (557684585610752, 38, 15, 18457054549670014070505615), (487590719340032, 46, 0, 18457054549670014070505728),
  (487590719340032, 46, 1, 18457054549670014070505729), (556859951889920, 40, 10, 18457054549670014070506426),
  (556859951889920, 40, 11, 18457054549670014070506427), (487590719340032, 46, 4, 18457054549670014070506516),
  (487590719340032, 46, 5, 18457054549670014070506517), (558509185515008, 18, 10, 18457054549670014557759722),
  (558509185515008, 18, 11, 18457054549670014557759723), (558509168999936, 24, 4, 18457054549670014557759812),
  (558509168999936, 24, 5, 18457054549670014557759813), (558509185515008, 18, 14, 18457054549670014557760510),
  (558509185515008, 18, 15, 18457054549670014557760511), (558509118668288, 26, 0, 18457054549670014557760624),
  (558509118668288, 26, 1, 18457054549670014557760625), (558500562288128, 26, 14, 18457054549670014558470158),
  (558500562288128, 26, 15, 18457054549670014558470159), (558483449527808, 34, 0, 18457054549670014558470272),
  (558483449527808, 34, 1, 18457054549670014558470273), (558483449527808, 34, 10, 18457054549670014558471066),
  (558483449527808, 34, 11, 18457054549670014558471067)]

def med6aFront25 : List (ℕ × ℕ × ℕ × ℕ) := [
  (557401117769216, 40, 4, 18457054549670014558471156), (557401117769216, 40, 5, 18457054549670014558471157),
  (558032477961728, 36, 4, 18457054549670014613226436), (558032477961728, 36, 5, 18457054549670014613226437),
  (558032477961728, 36, 14, 18457054549670014613227230), (558032477961728, 36, 15, 18457054549670014613227231),
  (540509011394048, 44, 0, 18457054549670014613227344), (540509011394048, 44, 1, 18457054549670014613227345),
  (505462078258688, 44, 14, 18457054549670014613936878), (505462078258688, 44, 15, 18457054549670014613936879),
  (452685520125440, 46, 10, 18457054549670014613937690), (452685520125440, 46, 11, 18457054549670014613937691),
  (531921224285696, 30, 10, 18457054549704107451151786), (531921224285696, 30, 11, 18457054549704107451151787)]

def med6aFront26 : List (ℕ × ℕ × ℕ × ℕ) := [
  (531921224285696, 30, 14, 18457054549704107451152574), (531921224285696, 30, 15, 18457054549704107451152575),
  (531647420120576, 38, 0, 18457054549704107451152688), (531647420120576, 38, 1, 18457054549704107451152689),
  (496600486985216, 38, 14, 18457054549704107451862222)]

def med6aFront27 : List (ℕ × ℕ × ℕ × ℕ) := [
  (496600486985216, 38, 15, 18457054549704107451862223), (426506620714496, 46, 0, 18457054549704107451862336),
  (426506620714496, 46, 1, 18457054549704107451862337), (426506620714496, 46, 10, 18457054549704107451863130),
  (426506620714496, 46, 11, 18457054549704107451863131)]

theorem med6a_fronts : med6aEnum.fronts 8 = med6aFront0 ++ (med6aFront1 ++ (med6aFront2 ++ (med6aFront3 ++ (med6aFront4 ++ (med6aFront5 ++ (med6aFront6 ++ (med6aFront7 ++ (med6aFront8 ++ (med6aFront9 ++ (med6aFront10 ++ (med6aFront11 ++ (med6aFront12 ++ (med6aFront13 ++ (med6aFront14 ++ (med6aFront15 ++ (med6aFront16 ++ (med6aFront17 ++ (med6aFront18 ++ (med6aFront19 ++ (med6aFront20 ++ (med6aFront21 ++ (med6aFront22 ++ (med6aFront23 ++ (med6aFront24 ++ (med6aFront25 ++ (med6aFront26 ++ (med6aFront27))))))))))))))))))))))))))) := by decide +kernel

end MinCert
end Peano
