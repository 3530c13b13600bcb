import Verif.Lemmas.MinRun
import Verif.Lemmas.MinPairs

set_option autoImplicit false

/-
Two patterns, grid 2: no curve has less dilation.  This file is generated.
-/
namespace Peano
namespace MinCert

/-- Table of links and of their specs. -/
def b2Env : Env where
  N := 2
  G := 4
  m := 2
  S := 1
  W := 3
  B := 72
  L := 8
  links := [([0, 0], [0, 1]), ([0, 0], [1, 0]), ([0, 1], [0, 0]), ([0, 1], [1, 1]), ([1, 0], [0, 0]), ([1, 0], [1, 1]), ([1, 1], [0, 1]), ([1, 1], [1, 0])]
  doms := [

    [⟨[(0, false), (1, false)], false, 0⟩, ⟨[(0, false), (1, true)], true, 0⟩, ⟨[(0, false), (1, false)], false, 1⟩, ⟨[(0, false), (1, true)], true, 1⟩],
    [⟨[(1, false), (0, false)], false, 0⟩, ⟨[(1, true), (0, false)], true, 0⟩, ⟨[(1, false), (0, false)], false, 1⟩, ⟨[(1, true), (0, false)], true, 1⟩],
    [⟨[(0, false), (1, false)], true, 0⟩, ⟨[(0, false), (1, true)], false, 0⟩, ⟨[(0, false), (1, false)], true, 1⟩, ⟨[(0, false), (1, true)], false, 1⟩],
    [⟨[(1, false), (0, true)], false, 0⟩, ⟨[(1, true), (0, true)], true, 0⟩, ⟨[(1, false), (0, true)], false, 1⟩, ⟨[(1, true), (0, true)], true, 1⟩],
    [⟨[(1, false), (0, false)], true, 0⟩, ⟨[(1, true), (0, false)], false, 0⟩, ⟨[(1, false), (0, false)], true, 1⟩, ⟨[(1, true), (0, false)], false, 1⟩],
    [⟨[(0, true), (1, false)], false, 0⟩, ⟨[(0, true), (1, true)], true, 0⟩, ⟨[(0, true), (1, false)], false, 1⟩, ⟨[(0, true), (1, true)], true, 1⟩],
    [⟨[(1, false), (0, true)], true, 0⟩, ⟨[(1, true), (0, true)], false, 0⟩, ⟨[(1, false), (0, true)], true, 1⟩, ⟨[(1, true), (0, true)], false, 1⟩],
    [⟨[(0, true), (1, false)], true, 0⟩, ⟨[(0, true), (1, true)], false, 0⟩, ⟨[(0, true), (1, false)], true, 1⟩, ⟨[(0, true), (1, true)], false, 1⟩]]

/-- Data of the search of paths. -/
def b2Enum0 : Enum where
  L := 8
  B := 72
  ones := 4
  offs := [1, 2, 3, 4]
  trans := [
    [(1, 6), (1, 7), (2, 4), (2, 5), (5, 0), (5, 1)], [(3, 6), (3, 7), (6, 2), (6, 3), (7, 0), (7, 1)],
    [(0, 6), (0, 7), (1, 4), (1, 5), (3, 2), (3, 3)], [(5, 4), (5, 5), (7, 2), (7, 3), (8, 0), (8, 1)],
    [(0, 6), (0, 7), (1, 4), (1, 5), (3, 2), (3, 3)], [(5, 4), (5, 5), (7, 2), (7, 3), (8, 0), (8, 1)],
    [(1, 6), (1, 7), (2, 4), (2, 5), (5, 0), (5, 1)], [(3, 6), (3, 7), (6, 2), (6, 3), (7, 0), (7, 1)]]
  U := 432
  F := 32
  starts := [(4, 0), (4, 1)]
  finals := [(5, 0), (5, 6)]

/-- Data of the search of paths. -/
def b2Enum1 : Enum where
  L := 8
  B := 72
  ones := 4
  offs := [1, 2, 3, 4]
  trans := [
    [(1, 6), (1, 7), (2, 4), (2, 5), (5, 0), (5, 1)], [(3, 6), (3, 7), (6, 2), (6, 3), (7, 0), (7, 1)],
    [(0, 6), (0, 7), (1, 4), (1, 5), (3, 2), (3, 3)], [(5, 4), (5, 5), (7, 2), (7, 3), (8, 0), (8, 1)],
    [(0, 6), (0, 7), (1, 4), (1, 5), (3, 2), (3, 3)], [(5, 4), (5, 5), (7, 2), (7, 3), (8, 0), (8, 1)],
    [(1, 6), (1, 7), (2, 4), (2, 5), (5, 0), (5, 1)], [(3, 6), (3, 7), (6, 2), (6, 3), (7, 0), (7, 1)]]
  U := 432
  F := 32
  starts := [(4, 0), (4, 1)]
  finals := [(5, 0), (5, 6)]

def b2Tab : Tab := ⟨b2Env, [([0, 0], [0, 1]), ([0, 0], [0, 1])], [b2Enum0, b2Enum1]⟩

theorem b2_ok : b2Tab.Ok 2 2 2 2 := Fast.ok_sound (by decide +kernel)

def b2Tree0 : CT :=
  .node .nil 12612142 .nil

def b2Tree1 : CT :=
  .node .nil 12612142 .nil

def b2Pairs0 : List (List ℕ) := [
  [12612142, 12612142]]

theorem b2_pairs : (b2Tree0.toList.all fun P => b2Tree1.toList.all fun Q => (b2Pairs0).contains [P, Q]) = true := Fast.pairs_sound (by decide +kernel)

theorem b2_paths0 : ∀ P ∈ b2Enum0.all 4, P ∈ b2Tree0.toList :=
  b2Enum0.allF_sound 4 b2Tree0 (by decide +kernel)

theorem b2_paths1 : ∀ P ∈ b2Enum1.all 4, P ∈ b2Tree1.toList :=
  b2Enum1.allF_sound 4 b2Tree1 (by decide +kernel)

theorem b2_l1_0_0 : Refs .l1 2 9 1 b2Env
    [⟨[12612142, 12612142], [(1, ⟨[(0, false), (1, false)], false, 0⟩)]⟩] :=
  ⟨[
  0, 36897992022998253573, 8, 36897992025145802757, 4722942978943776457229, 24, 4722942979218663211013, 604536701304803386525213,
  4722942979218696307213, 20, 77380697767014833475227161, 604536701339988891402245, 16, 36906999772008808469, 604684284264596612908573,
  36906999772009070613, 4724095970817161038365, 16, 14169130572866587328533, 232147035305881356581472781, 1813648713326923212062741,
  1813648713327198098292757, 20, 604536701304803386525209, 4722942979218663145477, 4722942978943810011661, 24, 604536701339988883079173,
  77380697767014833475226653, 12, 28, 36897992849779785757, 604536703679883810702353, 14169117202807341383709, 110696228143686418461,
  232146815091171758599833113, 1813646992952140442371609, 14169117132023117383193, 16, 14169130572866587328533, 232147035305846171144030733,
  1813648713326923212062741, 1813648713327198098292757, 20, 4722942978943776457241, 8, 4722942979218662752793, 604536701304803386526733, 24,
  3803495213099154383531499979289, 77380697767014833475421725, 12, 36897992300023971853, 14169117132026280345613, 1813646992952143605334029,
  110696227593930604557, 604536701304807707049989, 4722942978943810207749, 36897992022998515717, 24, 8, 12, 36897992300023709709,
  110687220394675601421, 1813499419000103684472845, 14167964211071429050381, 77380697767014833475423757, 12, 4722943014403068592141,
  1813501427569800201306125, 232146924620966496064176141, 1813647848600885270872077, 604536701304807740342277, 604536701304803386526749,
  4722942979218696307225, 4722942978943810469893, 24, 8, 4722942979218662752797, 604536701304803386527245, 4722942979218696503301, 20,
  77380697767014833475487257, 3803187541478071484784612215813, 12, 36897992297876422669, 4724095935908690657293, 36906999497131163661,
  604684279866957050019853, 604536701339993152815109, 4722942978943776457245, 36897992025146064901, 20, 604536701304803386527257, 8, 12,
  36897992300023709709, 110687220394675601421, 14167964210933990096909, 1813499419017558431563789, 77380697767014833475488781,
  604536701339993177784325, 12, 4722943014128182296589, 1813501139339149163298829, 604685135497833790767117, 77399697343828409356320781,
  4722942978943810011677, 4722942979218696699909], Run.run_any (by decide +kernel)⟩

theorem b2_l1_0_1 : Refs .l1 2 9 1 b2Env
    [⟨[12612142, 12612142], [(1, ⟨[(0, false), (1, true)], true, 0⟩)]⟩] :=
  ⟨[
  8, 0, 14167964175334104891913, 110687220119797694469, 20, 1813499414442765426166793, 14167964175334104891929, 110687220117650407429, 24, 12,
  14167964210384234283021, 110687220394675601421, 1813499419000103684472845, 14167964211071429050381, 232127925048673974549351945, 12,
  14167964210384234283021, 110687220394675601421, 14169117132438596943885, 110696227593930342413, 12, 14167964210384234283021, 110687220394675601421,
  4724111628278228516877, 14169130572593856970765, 24, 14167964175334104891933, 1813499414442765426167305, 110687220119797956613, 20,
  232127925048673974549416969, 12, 14167964210384234283021, 110687220394675601421, 14167964210933990096909, 1813499419017558431563789, 12,
  14167964210384234283021, 110687220394675601421, 36906999499278450701, 4724095936460593758221, 12, 14167964210384234283021, 110687220394675601421,
  4724111628278228516877, 14169130572593856970765, 0, 1813499986382460150808581, 1813499986382735037038597, 20, 232127998256954899303498265,
  232127998256990084740940313, 14167968643612970188805, 24, 29712383776894730846840359965, 29712383776890227110847777821, 28, 4722949700124123004957,
  14167968644439751458845, 14169117202807341383709, 110696228143686418461, 1813499986382460184625157, 24, 232127998256990084740940317,
  232127998256954899303498269, 14167968643615117737989, 20, 29712383776890227110847778329, 29712383776894730846840360473, 16, 4724095970817127677973,
  4724095971092013907989, 36906999772009070613, 4724095970817161038365, 1813499986382735070855173, 24, 0, 232128182724430821878399497,
  1813501427534615795924997, 12, 232128182728917238415556621, 1813501427569800201306125, 20, 29712407388727145200435137545,
  3803495213099154383531499979289, 4724095935907675439117, 232146924620966496064176141, 1813647848600885270872077, 1813501427534615829217285, 0,
  29712407461935426117682266117, 29712407461935461303161323525, 20, 3803188155127734543063330062873, 3803188155127739046804649411097,
  1813501432002894660763653, 3803188155127739047349044904473, 29712407461935461307414413317, 28, 1813647001888974115897373, 14169117202395024523293,
  0, 232146814514657824878953485, 1813646988395764256866829, 20, 29714792257876201584506307597, 12, 1813646992881774861156365,
  14169117132026280345613, 1813646992952143605334029, 110696227593930604557, 36907000049034526749, 14169117202807341383709, 14169117096841908256773,
  110696228143686418461, 20, 0, 486808086283572897177658968113157, 486808086283572901681400320753669, 486808086283572897178207616696325,
  486808086283572901681948969336837, 0, 3803188174017204978283263820297, 29712407609509413892837998597, 29712407609509378711653646341,
  29712407609509413897124380677, 0, 1268114837300394714538856023581, 9907147166409333707334813213, 604684275293538434285573,
  77399587237572919588553245, 0, 3803497026303992826039151690765, 29714820517999943953430872589, 232147035296874287249948677,
  232147035296874562136178693, 20, 0, 29712402739568943248036986885, 29712402739568978433507721221, 29712402739568943252323368965, 24,
  3803187550664829239488988316189, 3803187550664824735748734321181, 1813501143772520656601093, 3803187550664824736297391227421, 0,
  232128145830942674450907657, 1813501139304239644147717, 1813501139303964791209989, 12, 232128145835428816110157837, 1813501139339149163298829,
  604685135497833790767117, 24, 3803187541478071484784612215813, 29712402666360662329716182537, 14169117131748231282701, 77399697343828409356320781,
  16, 604684284264596612908045, 4724095970817161038349, 36906999772009070613, 0, 77399587237467235425518605, 604684275292712776761869,
  4724095900724318568453, 24, 12, 604684279778996119797773, 4724095935908690657293, 36906999497131163661, 604684279866957050019853,
  9907147166395806134466708493, 36906999774156619797, 4724095970817161038365, 24, 0, 3803187574276661653837256327689, 29712402924036419170603565061,
  29712402924036383989460828165, 29712402924036419174873300997, 0, 486808009516783351648706365947909, 486808009516783356152446661558277,
  486808009516783351649260382912517, 486808009516783356152992089112581, 0, 3803493409009025127160358241817, 29714792257883008805940299289,
  232146814514711006296408601, 1813646988396179736690693, 0, 1268119059057983990357158855693, 9907180148890499924665303565,
  77399844913207030661447685, 77399844913207305547677701], Run.run_any (by decide +kernel)⟩

theorem b2_l1_0_2 : Refs .l1 2 9 1 b2Env
    [⟨[12612142, 12612142], [(1, ⟨[(0, false), (1, false)], false, 1⟩)]⟩] :=
  ⟨[
  20, 0, 604684847232273233608709, 8, 4724100369004282183685, 77399660445730973901914637, 24, 604684847232548119969797, 9907156537053564659445073437,
  28, 4722956455523564060701, 14169117202395024523293, 4724100369828916166685, 110696228143686418461, 9907156537053565204905920029,
  77399660445730978163327501, 604684847232273266900997, 24, 8, 12, 4722956454973807984653, 110687220394675601421, 4724100369279160090637,
  14167964211071429050381, 9907156537053564659445075469, 604684847232548153262085, 9907156537053565204905922061, 77399660445730973901914653,
  4724100369004282445829, 77399660445730978163327517, 8, 12, 1813499418929597501341709, 110687220394675601421, 14167964210933990096909, 24,
  14167964211071429050381, 0, 232127925055481741444187161, 14167964175749618008069, 1813499414495951105032729, 29712374407101662904856282137,
  110696227593930342413, 1813499419017558431563789, 0, 9907161332632832184502386693, 9907161332632867369914859525, 9907161332632832188772122629, 24,
  1268116650577007023349102019101, 1268116650577002519616305496605, 604685139931205284069381, 1268116650577002520162831696413, 24, 0,
  3803188145757945978864787325977, 232128182724484007499071493, 3803495213099154383531499979289, 3803495213099154383531499979289, 0,
  162318934305542107983349576826885, 162318934305542112487087708438533, 162318934305542107983896144642053, 162318934305542112487632128901125, 0,
  3803493409118840900474160417805, 232146814521413629179331085, 29714792258740944534954380301, 1813646988448543977963525, 0,
  1268116674188834934511099707913, 9907161517100308107052318725, 9907161517100272925867966469, 9907161517100308111338700805, 0,
  77399697339219125590819337, 604685135462924271616005, 604685135462649418678277, 12, 77399697343740448426098701, 1813501139339149163298829,
  604685135497833790767117, 24, 3803187541478071484784612215813, 9907161259420048075624877577, 14169117131748231282701, 77399697343828409356320781,
  0, 4724095900448416858633, 8, 36906999224400543749, 604684275257397357905417, 16, 4724095970817161038345, 24, 4724095971092014235669,
  77399587232946861811895817, 4724095971092047333901, 604684284264596612908573, 36906999772009070613, 24, 4724095971092047527957,
  77399587232946861811895817, 36906999774156619797, 4724095970817161038365, 4724095900448416858637, 36906999222253256709, 24, 8, 12,
  4724095935773398990861, 110687220394675601421, 36906999499278450701, 14167964211071429050381, 77399587232946861812155913, 16,
  4724095970817161038345, 4724095971092014235669, 36906999772009070613, 4724095971092047527957, 12, 4724095935771251703821, 4724095935908690657293,
  36906999497131163661, 604684279866957050019853, 604684275257397357907465, 36906999224400805893, 4724095900448416858653, 24, 8, 0,
  3803183924110172476360286669853, 16, 1813499414478358918988293, 14167964246255801139221, 232127926210655045864983581, 1813499423520742545820189,
  29712374407110722471564741661, 232127925055552519309099549, 0, 162319241372700290099159985487877, 162319241372700294602892748718085,
  162319241372700290099710781423621, 162319241372700294603443544653829, 0, 3803495212916128095220623541273, 232146924616462896403513349,
  29714806350907250743911121433, 232146924616462896436805637, 0, 1268119073151008232295129678345, 9907180258992286995948437509,
  9907180258992251814805700613, 9907180258992287000218173445, 0, 9907180222098763663083503621, 8, 604686292852709890654213,
  1268119068428641748874688463373, 1268119068428646253157207245325, 1268119068428641749425476076045, 9907180222098763667386531845,
  9907180222098798852790681605, 28, 1813647001889386432757789, 0, 232146814521413224320009241, 8, 110687220944431677469,
  29714792258740892712961246233, 14169117202395024523293, 16, 1813646997402558652548121, 1813646997402558652548633, 14169117167207489473049,
  110696227868808511509, 1813646988448540815000089, 14169117097254225117189, 14169117202807341383709, 110696228143686418461, 16,
  232147035305846171144030729, 8, 14169130572868734877717, 0, 77399844913171715300786697, 9907180148885979558500697609, 604686288384154025787397,
  604686288384428912017413, 232147035305881356581472781, 232147035305846171144030733, 1813648713326923212062741, 1813648713327198098292757], Run.run_any (by decide +kernel)⟩

theorem b2_l1_0_3 : Refs .l1 2 9 1 b2Env
    [⟨[12612142, 12612142], [(1, ⟨[(0, false), (1, true)], true, 1⟩)]⟩] :=
  ⟨[
  24, 8, 12, 1813499418929734940295181, 110687220394675601421, 20, 0, 232127925057733541257872413, 14167964175887056961541,
  29712374407389893281007928349, 1813499414513543291077149, 14167964210933990096909, 36906999499278450701, 1813499419000103684472845,
  14167964211071429050381, 0, 29714806424108723897484115973, 29714806424108759082888265733, 20, 3803495222285916658877966844441,
  3803495222285921162609698013721, 1813647853033979730329605, 3803495222285921163160485626393, 29714806424108759087191293957, 0,
  232146924616409715044254217, 1813647848565700865490949, 12, 232146924620896127319998477, 1813501427569800201306125, 20,
  29714806350900443525664541705, 3803495213099154383531499979289, 4724095935907675439117, 232146924620966496064176141, 1813647848600885270872077,
  1813647848565700898783237, 20, 0, 486847390879820208001391276720133, 486847390879820212505127260979205, 486847390879820208001935697182725,
  486847390879820212505673828794373, 0, 3803187541295324401925277942813, 232128145831013452265947141, 3803187541478071484784612215813,
  3803187541478071484784612215813, 0, 1268114837446815745623925591565, 77399587246509750099116557, 604684275363357422649349,
  9907147167553248012686921229, 0, 3803495241175387094639100035593, 29714806571682711672598233093, 29714806571682676491455496197,
  29714806571682711676867969029, 0, 1813647560335049827483653, 8, 14169121565119724322821, 232146887722886377917907469, 232146887722921567616762381,
  20, 29714801628529456373492155929, 1813647560335324713713669, 16, 4724095970817127940117, 4724095970817161038349, 36906999772009070613,
  4724095971092047462421, 29714801628533960654945584665, 20, 232146887722886377917907481, 8, 12, 4722958706773621669901, 110687220394675601421,
  14167964210933990096909, 14169121565394602229773, 29714801628529456373492157453, 29714801628533960654945586189, 1813647560335049860775941,
  14169121565117577035781, 232146887722921567616762393, 1813647560335324747005957, 28, 14169117202257585569821, 8, 110687220944431677469,
  1813647001906428862988317, 14169117202395024523293, 20, 0, 14169117096838745293321, 232146814514606002885823497, 1813646988395359397547017,
  110696227319052697605, 14167977651639006199837, 16, 4724095971092047333897, 4724095970817161038349, 36906999772009070613, 36906999774156619797, 16,
  14169117167207489473033, 1813646997402558652548633, 14169117167207489473049, 110696227868808511509, 20, 0, 14169117096838745293321, 8,
  110696227319052435461, 1813646988395359397545481, 14169117096838745293325, 232146814514606002885823497, 1813646988395359397547017,
  110696227319052697605, 8, 12, 14169117131888841129997, 110687220394675601421, 14167964210933990096909, 110696227593930342413, 0,
  14169117096838745293321, 1813646988395359397545481, 232146814514606002886018569, 110696227319052697605, 12, 14169117131888841392141,
  14169117132026280345613, 1813646992952143605334029, 110696227593930604557, 4724102621628729851933, 36907000049034526749, 14169117202807341383709,
  110696228143686418461, 20, 0, 29714820591208172506419953669, 8, 1813648717725110332751877, 3803497035674646080821754069517,
  3803497035674650585107468911117, 3803497035674646081366149562893, 29714820591208172510673043461, 29714820591208207696152100869, 8, 0,
  3803183924146777734131554061849, 28, 1813499414531135477121541, 14167964280887221161497, 1813499428006749987147289, 232127926787168983847013913,
  232127925057786726936740377, 29712374407396701047902768665, 0, 486847621180188844588249083215877, 486847621180188849091980789415941,
  486847621180188844588794510770181, 486847621180188849092534806380549, 0, 3803497040397017067977122513417, 29714820628101695839284887557,
  29714820628101660658100535301, 29714820628101695843571269637, 0, 1268116641207497682599121323037, 77399697339325084581888005,
  77399697339324809728950277, 9907161259433575645305635357, 16, 604684284264596612908061, 8, 36906999774156357653, 0, 77399587246474434680259613,
  9907147167548727639073293341, 4724095901274074382341, 604684275363081520939549, 604684284264596612908573, 4724095970817161038349,
  36906999772009070613, 4724095970817161038365, 16, 232147035305881356581472777, 8, 14169130572868734877717, 0, 232147035296874157326729737,
  29714820517999892137821406729, 1813648713256554467885061, 1813648713256829354115077, 232147035305881356581472781, 232147035305846171144030733,
  1813648713326923212062741, 1813648713327198098292757], Run.run_any (by decide +kernel)⟩

theorem b2_l1_run0 : Refs .l1 2 9 1 b2Env
    (b2Pairs0.map fun ps => ⟨ps, []⟩) :=
  Refs.node (k := 1) (st := [⟨[12612142, 12612142], [(1, ⟨[(0, false), (1, false)], false, 0⟩)]⟩,
      ⟨[12612142, 12612142], [(1, ⟨[(0, false), (1, true)], true, 0⟩)]⟩,
      ⟨[12612142, 12612142], [(1, ⟨[(0, false), (1, false)], false, 1⟩)]⟩,
      ⟨[12612142, 12612142], [(1, ⟨[(0, false), (1, true)], true, 1⟩)]⟩])
    (by decide +kernel) (b2_l1_0_0.cons (b2_l1_0_1.cons (b2_l1_0_2.cons b2_l1_0_3)))

theorem b2_linf_0_1 : Refs .linf 2 6 1 b2Env
    [⟨[12612142, 12612142], [(3, ⟨[(1, false), (0, true)], true, 0⟩), (1, ⟨[(0, false), (1, false)], false, 0⟩)]⟩] :=
  ⟨[
  8, 0, 604536703556738508391441, 1813499416659515102200849, 20, 77380698055350625312441361, 232127925332506029320045585, 604684277509328184804369,
  24, 29712374442560877441390216209, 16, 604536712616714321267733, 162279085688138652498843280867861, 9904729499512247439650524189,
  77380699214939433122269725, 16, 604536712634306507312149, 1813499425737357987417109, 29714792442926910295339567641, 1813646999689947697384469,
  77399844915423646069031953, 24, 232127925332523621506090001, 77380698055368217498485777, 1813646990612104778613777, 20, 28,
  604536712687083065445393, 162279085688249332963285538177569, 77380699224034728615087121, 9904729500678785158782913553,
  29712374442563111649017857041, 28, 604536712687083065445409, 1813499425790134545550369, 604684286639672775412769, 9907147352317926325189218333,
  232147035299090902657532945, 604536703609515066524689, 16, 604536703627107252569105, 24, 232128182726717940239959057, 9904729352231151833582666769,
  232146814807391930597508113, 20, 1267805357085587522794819683345, 29712407609511701011199165457, 28, 604536712687083065445409,
  162318702220231062488632258987549, 604684286639672775412769, 9907147352317926325189218333, 29714820518292678059099161617, 20,
  77380698064357824567182353, 24, 0, 604536712563937763134469, 29712407390163845841571286021, 486808082680445321661512998584857,
  29714806352337143625601256453, 1267805357086443224316206122001, 29714792295352957835602297873, 9907161517102595225413485585,
  604684277579696928982033, 24, 29714806351193282226721653777, 9904729499512247439650524189, 29714792442926910295339567641, 28,
  77380699223946636730305557, 3803497026489901435287177792533, 9907180150342910804492291093, 29714820519452319647820418069, 24,
  232146924618696829144400913, 77380698064375416753226769, 1813646990682473522791441, 20, 9904729352240141440651363345,
  29714820628103982957646054417, 28, 604536712687083065445409, 162318702220231062488632258987549, 604684286639672775412769,
  9907147352317926325189218333, 28, 77380699223981822167747605, 3803497026489901470472615234581, 9907180150342945989929733141,
  29714820519452354833257860117, 28, 604536703679883810702353, 20, 9904729353095825369851757585, 232128145833282569378989073,
  77399587536991926030959633, 24, 29712402924038759065531188241, 1267805357196265753029449352209, 16, 604536712634306507312149,
  486847159384804689138739451332121, 29714792442926910295339567641, 1813646999689947697384469, 9907180149190024615212090385, 20,
  77380698071113224008238097, 77399697341594201694929937, 604684277632473487115281, 24, 9907180258994626890876060689, 9904729353102598361478857745,
  16, 604536712634306507312149, 486847159384804689138739451332121, 29714792442926910295339567641, 1813646999689947697384469, 16,
  77399844924553990626085909, 1268119059243892582975013259789, 9907180150342910804492291093, 9907180150342945989929733141, 24, 20,
  1267805357197411901542429099025, 0, 604536712563937763134469, 29712402667797362971917683717, 9907161260861216727182085125,
  486808005309193154555620895359517, 9907147204744009050897777681, 29714806571685051567525856273, 77380698071130816194282513,
  1813646990735250080924689, 20, 9904729500678785158782913553, 9907161259724163505375413265, 9907147352317926325189218333, 16,
  232147035308221247214586901, 3803497026489896914921013512717, 29714820519452319647820418069, 29714820519452354833257860117], Run.run_any (by decide +kernel)⟩

theorem b2_linf_0_2 : Refs .linf 2 6 1 b2Env
    [⟨[12612142, 12612142], [(3, ⟨[(1, true), (0, true)], false, 0⟩), (1, ⟨[(0, false), (1, false)], false, 0⟩)]⟩] :=
  ⟨[
  8, 0, 604536703557013394686993, 1813499416659789988496401, 20, 77380698055350900198736913, 232127925332506304206341137, 604684277509603071099921,
  24, 29712374442560877716276511761, 9904729351084986003303171089, 16, 604536712634306507312149, 1813499425737357987417109,
  29714792442926910295339567641, 1813646999689947697384469, 77399844915423920955327505, 24, 232127925332523896392385553, 77380698055368492384781329,
  1813646990612379664909329, 20, 9904729351087220210930811921, 29712374442563111923904152593, 28, 604536712687083065445409,
  1813499425790134545550369, 604684286639672775412769, 9907147352317926325189218333, 232147035299091177543828497, 9904729351942815769006573581, 24,
  16, 77380698064304913833264145, 29712407389019931536219178001, 20, 9904729352237836730103759889, 0, 604536712563937763134469,
  29712407390163845841571286021, 486808082680445321661512998584857, 29714806352337143625601256453, 77399587530236392414118929,
  3803495212952740160205876102161, 29714806351193229315987735569, 16, 9904729352226525226092201501, 162279085706955191641418412328477, 20,
  162279088120084464387807150081565, 20771722970504285787196721102849565, 9907147203865754484441613853, 162279085707065872105860669638173,
  1267805357086726828084867368477, 16, 77380698064304918069643277, 29714792295346202306221836301, 20, 9904729352237836734340139021,
  3803493413805178638146834925581, 28, 604684286586896183725089, 77399588683157901257609229, 604684286586896217279521, 604684286587171103575073,
  29714792442926910295339567641, 232146814807391800658102285, 20, 16, 1267805357084995228939801792025, 2658780540222754044604201688564436505,
  162279085707064140506715604061721, 20771722970509117102544887939796505, 16, 9904729352231028970708010001, 486808086274239713871231742641169,
  162318934296208924676919163618321, 486847621170855661281817571361809, 28, 604536712687083065445409, 162318702220231062488632258987549,
  604684286639672775412769, 9907147352317926325189218333, 16, 9904729352231029519339882509, 486847619371707241824573911599117, 28,
  77380699223946636730305557, 3803497026489901435287177792533, 9907180150342910804492291093, 29714820519452319647820418069, 28,
  77380699223981822167747605, 3803497026489901470472615234581, 9907180150342945989929733141, 29714820519452354833257860117, 20, 28,
  9904729353091216354547336729, 162279085721122002859651196257817, 1267805357197119062150972966425, 24, 20771722972322396594871158358410777,
  162279088120084176157430998369817, 29714792296206337325870089753, 162279085721269576812240872670745, 28, 77380698071060313265931281,
  29712402666660204066006631441, 9907161259724093002447062033, 24, 0, 604536712563937763134469, 29712402667797362971917683717,
  9907161260861216727182085125, 486808005309193154555620895359517, 9904729353104779658364191761, 232146814814147195854390289,
  1268116641244692963873548928017, 28, 77380698071025132064868365, 9907147204734966536257800205, 77399587536956610645723149, 24,
  1268114842207233158519210510349, 9904729353104744477163128845, 16, 604536712634581427162145, 77399588683158306116602913, 604684286587171103575073,
  1813646999689947697384481, 9907147352317926325189218333, 24, 28, 9904729353095720098097792017, 486808009507451033033406538581009,
  162319241363367971483856928769041, 486847390870487889386087179617297, 28, 1267805357195675693382059101213, 2658780540454863116497215767881911325,
  20771722972317820358972109475744797, 162279085721268133443471958805533, 16, 604536712634306507312149, 486847159384804689138739451332121,
  29714792442926910295339567641, 1813646999689947697384469, 28, 9904729353091216911802435597, 162319239564329363296192143951885, 16,
  77399844924553990626085909, 1268119059243892582975013259789, 9907180150342910804492291093, 9907180150342945989929733141, 16,
  232147035308221247214586901, 3803497026489896914921013512717, 29714820519452319647820418069, 29714820519452354833257860117], Run.run_any (by decide +kernel)⟩

theorem b2_linf_0_3 : Refs .linf 2 6 1 b2Env
    [⟨[12612142, 12612142], [(3, ⟨[(1, false), (0, true)], true, 1⟩), (1, ⟨[(0, false), (1, false)], false, 0⟩)]⟩] :=
  ⟨[
  20, 8, 0, 77380698055262529074104345, 232127925332417933081708569, 9904729351084880039992494105, 24, 29712374442563023552779520025,
  9904729499523523758124304409, 232146814798349411662563353, 1267805356939164151813698095129, 9904729351949571168447629337, 16,
  77380698064269728328845337, 24, 29712407389019896350714759193, 9904729499523523758124304409, 29714792295346167116481038361,
  162279085706955202917736919468057, 9904729352237801544599341081, 24, 29714806351193194130483316761, 9904729499523523758124304409,
  232146815960278115524413465, 1267805357086738104403374508057, 28, 77380698071025127769901081, 1267805357196265647341024970777,
  9904729353102492673054476313, 24, 162279085721268723397430924675097, 9904729499523523758124304409, 232146814814112010358360089,
  1267805376086884500324212934681, 8, 0, 77380698055297714519935001, 232127925332453118527539225, 29712374442560806938411665433, 24,
  29712374590137011327902024221, 9904729351087167025252010009, 16, 604536712634581427162117, 1813499425737358020971525, 232127926494435008101485573,
  1813646999689947697384453, 3803183928648078326259731531801, 162279085702342352701486417579021, 24, 0, 604536712563937763134469,
  29712407390163845841571286021, 486808082680445321661512998584857, 29714806352337143625601256453, 16, 1267805357084995228939801986589,
  20771722970490264530101556778239517, 2658780540224548580761180301164938781, 162279085707101033994863023359517, 16, 9904729352231029512914340877,
  3803493413804313895196395047949, 486847156967062865682794870475789, 0, 1813646999689672777534469, 232146815960313305265209869,
  29714792442920103073946864653, 1813646999689947697384453, 16, 9904729352226525779110921233, 486808086274239709368040145552401,
  162318934296208920173727566529553, 486847621170855656778625974273041, 28, 77380698071025132089902097, 29712402666660168884830602257,
  9907161259724057821271032849, 24, 0, 604536712563937763134469, 29712402667797362971917683717, 9907161260861216727182085125,
  486808005309193154555620895359517, 9904729353104744477188162577, 232146814814112014678361105, 1268116641244692928692372898833, 8, 0,
  604536703556738541945873, 1813499416659515135755281, 604684277509328218358801, 24, 232127925332523621539644433, 28, 604684286569303997680673,
  604684286569578883976225, 604684286569304031235105, 77399588680870911703126045, 1813646990612104812168209, 28, 604536712687083065445409,
  1813499425790134545550369, 604684286639672775412769, 9907147352317926325189218333, 604684277562104776492049, 16, 604536703627107286123537, 24,
  232128182726717940273513489, 9904729352231151833616221201, 232146814807391930631062545, 28, 604536712687083065445409,
  162318702220231062488632258987549, 604684286639672775412769, 9907147352317926325189218333, 604684277579696962536465, 24,
  232146924618696829177955345, 77380698064375416786781201, 28, 1813646999689672777534497, 232146815960313305265213453, 1813646999689672811088929,
  1813646999689947697384481, 28, 604536712687083065445409, 162318702220231062488632258987549, 604684286639672775412769, 9907147352317926325189218333,
  28, 604536703679883844256785, 77399587536991926064514065, 604684277632473520669713, 24, 9907147204744009050931332113, 77399588680870911703126045,
  16, 604536712634581427162145, 77399588683158306116602913, 604684286587171103575073, 1813646999689947697384481, 9907147352317926325189218333, 24, 8,
  0, 9904729351078107458551680029, 16, 162279085688102047241072013478405, 1813499425666989243239445, 29712374590127951761235053597,
  232127926485374623134648861, 486807542866917420503474368678941, 3803183928648071518492844887069, 2658780540147196070197822922888187405, 16,
  9904729352231029516118657049, 3803188145794551237181515630617, 486847387257950740506897601923097, 3803495212952733352991890999321, 28,
  9904729353091216911827469329, 486808009507451028530220268258321, 162319241363367966980670658446353, 486847390870487884882900909294609, 16,
  9904729499523629446548425749, 8, 0, 9904729351073603721485356061, 29712374442549495434458696733, 162279085688176406174382088784925,
  1267805356939152875495190957085, 162279085702343505622991024426013, 162279085706955191641418412330013, 28, 9904729353091216354547338269,
  20771722972303618097634498186578973, 162279085721232971554469605280797, 1267805357197407292527124679709, 162279088120195144852249407458333,
  1267805375939024569158198495773, 16, 604536712634306507312149, 8, 1813499425737357987417109, 29714792295064727329511180313,
  29714792442920154895898511885, 486847159384804689138739451332121, 29714792442926910295339567641, 1813646999689947697384469, 8, 0,
  77380698055262533427659793, 232127925332417937435264017, 9907180149174226701189645329, 29714820518283635544517772305, 9907180149180982100630701073,
  16, 77380698064269732682400785, 3803497026341462791569046242321, 28, 77380699223946636730305557, 3803497026489901435287177792533,
  9907180150342910804492291093, 29714820519452319647820418069, 28, 77380699223981822167747605, 3803497026489901470472615234581,
  9907180150342945989929733141, 29714820519452354833257860117, 28, 77380698071025132123456529, 1268119059096323150751501124625, 16,
  77399844924553990626085909, 1268119059243892582975013259789, 9907180150342910804492291093, 9907180150342945989929733141, 16,
  232147035308221247214586901, 3803497026489896914921013512717, 29714820519452319647820418069, 29714820519452354833257860117], Run.run_any (by decide +kernel)⟩

theorem b2_linf_0_4 : Refs .linf 2 6 1 b2Env
    [⟨[12612142, 12612142], [(3, ⟨[(1, true), (0, true)], false, 1⟩), (1, ⟨[(0, false), (1, false)], false, 0⟩)]⟩] :=
  ⟨[
  24, 8, 0, 77380698055297714519935005, 232127925332453118527539229, 20, 9904729351084915225438324765, 29712374590134759528088338969, 28,
  604684286516527439547425, 604684286516802325842977, 604684286516527473101857, 77399588674150697707900957, 3803183928647792347683393505309,
  29712374442563058738225350685, 162279085702379246189633836682765, 16, 77380698064304918094677009, 29712407389019931540480590865, 20,
  9904729352237836734365172753, 0, 604536712563937763134469, 29712407390163845841571286021, 486808082680445321661512998584857,
  29714806352337143625601256453, 77399587530236396675531793, 3803495212952740160210137515025, 29714806351193229320249148433, 20, 28,
  1267805357195675693382059361817, 20771722972303616366035353121261081, 162279085721231239955324539962905, 2658780540457266764143508269876839961, 0,
  604536712563937763134469, 29712402667797362971917683717, 9907161260861216727182085125, 486808005309193154555620895359517, 28,
  9904729353091216904303152653, 1268114842206075716640998428173, 0, 604536712563937796688929, 77399588674150831975566369, 604684286516527473101857,
  9907147350300349007545764897, 162318699802525844290458945326605, 28, 9904729353095720644623991825, 486808009507451033033953064780817,
  162319241363367971484403454968849, 486847390870487889386633705817105, 8, 0, 77380698055262529074104349, 232127925332417933081708573, 20,
  9904729499525775557937989661, 29712374442560771752965834781, 77399587521194007654959133, 1267805356938878173237360068637,
  9904729351087131839806179357, 9904729351951822968261314589, 16, 77380698064269728328845341, 1267805357085587434698581346333, 20,
  9904729499525775557937989661, 162279085707064732712474383616029, 77399587530201206909700125, 1267805375939299271416062741533,
  9904729352240053344413026333, 28, 77380698071025127769901085, 20, 9904729499525775557937989661, 29712402666660168880510601245,
  9907147204734966531962832925, 162279085721122016387769517082653, 20, 9904729499525775557937989661, 9907161259724057816951031837,
  77380699215045121579944993, 1267805357197132590269293791261, 9904729353104744472868161565, 8, 0, 604536703557013428241425,
  1813499416659790022050833, 20, 16, 604536712634581427162129, 1813499425737358020971537, 77380699217279604093881361, 1813646999689947697384465,
  232127925332506304239895569, 604684277509603104654353, 16, 604536712634306507312149, 1813499425737357987417109, 29714792442926910295339567641,
  1813646999689947697384469, 1813646990612379698463761, 1813646990665156256597009, 16, 604536703627382172419089, 232146814807392205517358097, 20,
  77380699217279604093881361, 29714792295352958110522147857, 28, 604684286586896183725089, 77399588683157901257609229, 604684286586896217279521,
  604684286587171103575073, 29714792442926910295339567641, 20, 1813646999689947697384465, 0, 1813646999689672777534469, 232146815960313305265209869,
  29714792442920103073946864653, 1813646999689947697384453, 28, 1813646999689672777534497, 232146815960313305265213453, 1813646999689672811088929,
  1813646999689947697384481, 1813646999689947697384469, 28, 604536703680158730552337, 20, 9904729353095825644771607569, 232128145833282844298839057,
  77399587536992200950809617, 16, 604536712634306507312149, 486847159384804689138739451332121, 29714792442926910295339567641,
  1813646999689947697384469, 20, 77380698071113498928088081, 77399697341594476614779921, 16, 604536712634306540866593, 77399588683158031230307361,
  604684286586896217279521, 1813646999689672811088929, 16, 604536712634306507312149, 486847159384804689138739451332121,
  29714792442926910295339567641, 1813646999689947697384469, 1813646990735525000774673, 20, 28, 9904729500665168944257306137, 8, 0,
  9904729351073603721485356569, 29712374442549495434458697241, 1267805356938864645119039245849, 162279085688213011432153356176921,
  162279085702380110880762291818009, 16, 9904729352226525226092203545, 20771722970490265973470325691911705, 1267805357086438597708715658777,
  162279085707102477363631937031705, 162279085721122002859651196259865, 1267805376086584993629587377689, 162279088139121216041499255639577, 8, 0,
  9904729351078107458551680537, 28, 162279085688102911932200468615173, 1813499425790134545550341, 232127926501190407508986885,
  29712374592154677146642549765, 3803183928647783288116693175833, 486807542866954025761245636070937, 2658780540147795810741147367830391821, 16,
  9904729352231029519364916241, 486808086274239713871780399547409, 162318934296208924677467820524561, 486847621170855661282366228268049, 28,
  9904729353091216907507468317, 3803187541332501617258317088797, 1268116641244679401122692204573, 162318930079320694872623731050525, 28,
  604536712687083065445409, 8, 1813499425790134545550369, 9907147203591052230905694237, 162318702220231062488632258987549,
  9907147352308919125934477325, 604684286639672775412769, 9907147352317926325189218333, 8, 0, 77380698055297718865101841,
  232127925332453122872706065, 9907180149174261886627087377, 29714820518283670729955214353, 29714820518290426129396270097, 16,
  77380698064304918119842833, 3803497026341462826754483684369, 28, 77380699223946636730305557, 3803497026489901435287177792533,
  9907180150342910804492291093, 29714820519452319647820418069, 28, 77380699223981822167747605, 3803497026489901470472615234581,
  9907180150342945989929733141, 29714820519452354833257860117, 28, 77380698071060317560898577, 1268119059096323185936938566673, 16,
  77399844924553990626085909, 1268119059243892582975013259789, 9907180150342910804492291093, 9907180150342945989929733141, 16,
  232147035308221247214586901, 3803497026489896914921013512717, 29714820519452319647820418069, 29714820519452354833257860117], Run.run_any (by decide +kernel)⟩

theorem b2_linf_0_0 : Refs .linf 2 6 1 b2Env
    [⟨[12612142, 12612142], [(1, ⟨[(0, false), (1, false)], false, 0⟩)]⟩] :=
  Refs.node (k := 3) (st := [⟨[12612142, 12612142], [(3, ⟨[(1, false), (0, true)], true, 0⟩), (1, ⟨[(0, false), (1, false)], false, 0⟩)]⟩,
      ⟨[12612142, 12612142], [(3, ⟨[(1, true), (0, true)], false, 0⟩), (1, ⟨[(0, false), (1, false)], false, 0⟩)]⟩,
      ⟨[12612142, 12612142], [(3, ⟨[(1, false), (0, true)], true, 1⟩), (1, ⟨[(0, false), (1, false)], false, 0⟩)]⟩,
      ⟨[12612142, 12612142], [(3, ⟨[(1, true), (0, true)], false, 1⟩), (1, ⟨[(0, false), (1, false)], false, 0⟩)]⟩])
    (by decide +kernel) (b2_linf_0_1.cons (b2_linf_0_2.cons (b2_linf_0_3.cons b2_linf_0_4)))

theorem b2_linf_0_6 : Refs .linf 2 6 1 b2Env
    [⟨[12612142, 12612142], [(2, ⟨[(0, false), (1, false)], false, 0⟩), (1, ⟨[(0, false), (1, true)], true, 0⟩)]⟩] :=
  ⟨[
  0, 29712374442551799739156922889, 1813499416659789988496389, 20, 486807542866915979351593609923593, 29712374442560806938411663897,
  604684277509328218358789, 24, 486807542866917420503474368482333, 7975854782331574981493424137521466889, 29714792294200036201056043545,
  9907180149174226701189645317, 24, 29712374442563058738225349149, 486807542866952872839741029027337, 1813646990612379698463749, 20,
  7975854782332174722036748582463671305, 486807542866954025761245635874329, 9907147202726361102450557469, 29714820518283670729955214341], Run.run_any (by decide +kernel)⟩

theorem b2_linf_0_7 : Refs .linf 2 6 1 b2Env
    [⟨[12612142, 12612142], [(2, ⟨[(0, false), (1, true)], true, 0⟩), (1, ⟨[(0, false), (1, true)], true, 0⟩)]⟩] :=
  ⟨[
  0, 12, 9904743408075821359371912197, 29712383777185230202700039173, 20, 1267807156233716410314932618245, 3803185123479720742260932871173,
  77399587527949407121048581, 24, 486807695805404268537514549052421, 162279315997915714048426516677637, 16, 9904743409230994663792446485,
  29712383778340438692558015509, 29714792442926910295339567641, 1813646999689947697384469, 9907180149180982096302179333, 24,
  3803185123479722994060746556421, 1267807156233718662114746303493, 232146814805104811128652805, 20, 162279315997916000027002854704133,
  486807695805404554516090887078917, 28, 9904743409237750063233502241, 29712383778347194091999071265, 604684286639672775412769,
  9907147352317926325189218333, 29714820518290390939630306309, 12, 9904743408075856544809354245, 29712383777185265388137481221, 20,
  1267807156233716445500370060293, 3803185123479720777446370313221, 77399587527984592558490629, 24, 486807695805404268572699986494469,
  162279315997915714083611954119685, 16, 9904743409230994663792446485, 29712383778340438692558015509, 29714792442926910295339567641,
  1813646999689947697384469, 9907180149181017281739621381, 24, 3803185123479723029246183998469, 1267807156233718697300183745541,
  232146814805139996566094853, 20, 162279315997916000062188292146181, 486807695805404554551276324520965, 28, 9904743409237750063233502241,
  29712383778347194091999071265, 604684286639672775412769, 9907147352317926325189218333, 29714820518290426125067748357, 20, 12,
  1267807156233705133999604761113, 3803185123479709465945605014041, 162279315997915700520311375135257, 24, 486807695805404543239775559221785,
  162279316016805454682166107965469, 29714792295053415824467558937, 20771752447733248003456365402128921, 12, 1267807156233709637735597343257,
  3803185123479713969681597596185, 486807695805404259513135400092185, 24, 486807695824183044980171723899417, 162279315997915993254423519429145,
  29714792295057919560460141081, 62311385063091782982563369538683417, 12, 77380807875592354403451909, 232127998259259610991952901,
  604684277562104776492037, 24, 29712383777185335891132941317, 9904743408075927047804814341, 1813646990664881370301445, 28,
  9904743409237750063233502241, 29712383778347194091999071265, 604684286639672775412769, 9907147352317926325189218333, 24, 12,
  162279315997914833630156459936797, 486807695805403388119244492311581, 7975857288075743536295116578725366813, 62311385063091782111169478630902813,
  12, 162279315997914257151949409422365, 486807695805402811641037441797149, 2658784313309851058969420049246391325,
  20771752447733246560088003436416029, 16, 9904743409230994663792446485, 29712383778340438692558015509, 29714792442926910295339567641,
  1813646999689947697384469, 12, 9904743408075821363700433925, 29712383777185230207028560901, 9907180149180982100630701061,
  29714820518290390943958828037, 24, 12, 1267807156233709637735597343261, 3803185123479713969681597596189, 20, 162279315997915705024047367717405,
  486807695824183333210547875611165, 9907147203582027847486800413, 62311385063091746377305598271291933, 486807695805404547743511551803933, 12,
  1267807156233705133999604761117, 3803185123479709465945605014045, 20, 162279316016805166451789956253721, 486807695805404255009399407510045,
  9907147203577524111494218269, 20771752447733211398198594134737437, 162279315997915988750687526847005, 12, 77380807875592629289747461,
  232127998259259885878248453, 20, 9904743408075909730505065477, 29712383777185318573833192453, 604684277562379662787589, 16,
  9904743409230994663792446485, 29712383778340438692558015509, 29714792442926910295339567641, 1813646999689947697384469, 1813646990665156256596997,
  20, 12, 162279315997914257151949409422873, 486807695805402811641037441797657, 20771752447733209666599856017313305,
  2658784313309855744442414771472502297, 12, 162279315997914833630156459937305, 486807695805403388119244492312089,
  62311385063091745217681331211800089, 7975857288075748221768111300951477785, 28, 9904743409237750063233502241, 29712383778347194091999071265,
  604684286639672775412769, 9907147352317926325189218333, 12, 9904743408075856549137875973, 29712383777185265392466002949,
  9907180149181017286068143109, 29714820518290426129396270085], Run.run_any (by decide +kernel)⟩

theorem b2_linf_0_8 : Refs .linf 2 6 1 b2Env
    [⟨[12612142, 12612142], [(2, ⟨[(0, false), (1, false)], false, 1⟩), (1, ⟨[(0, false), (1, true)], true, 0⟩)]⟩] :=
  ⟨[
  24, 0, 16, 486808082661702276761119487033865, 3803188145794551236636054782473, 20, 62311434580698038717847588491624969,
  486808082680444168740008391737865, 9907147203870258229007221257, 486847387257950740506352141074953, 3803495212952733352446430151177, 16,
  3803188145794549037196245992453, 29712407389019931536219177989, 20, 486808082661703427483184285090821, 29712407390163845841571286021,
  77399587530236392414118917, 3803188145940972268266585459225, 29714806351193229315987735557, 20, 16, 62311434580697891425423294340336649,
  486808082661702558289415012158473, 7975863626329348955884491326927997961, 486847387257949869113143059352585, 486808082680445321661512998584857, 16,
  29712407389019914078242472965, 232128182726717940273513477, 604684277579696962536453, 232146924618696829177955333, 16,
  486808082661702276761664947880473, 3803495213099161191290945670165, 486847387276692632485786506627609, 3803495213099161191295207083029, 16,
  3803188145794549037200507405317, 29712407389019931540480590853, 20, 486808082661703427483188546503685, 29714806352337143625601256453,
  77399587530236396675531781, 3803495213099154384076960827929, 29714806351193229320249148421, 0, 16, 162279320214951788004381038740485,
  486808083856388070138232040326149, 20, 12, 162279320215099073726594563443729, 486808083856535360364186884377617,
  2658784382404183408687674706606032921, 486847311685993125659506733222929, 62311434733617674421062055686571013, 9907147203865754487704519685,
  62316455895788268378793313715618821, 486847311685845835433007493678085, 16, 162279320214951792508122358088709, 486808083856388074641973359674373,
  20, 12, 162279320215099073726594563443729, 486808083856535360364186884377617, 2658784382404183408687674706606032921,
  486847311685993125659506733222929, 62311434733617674425565797005919237, 9907147203870258229023867909, 62316455895788268383297055034967045,
  486847311685845839936748813026309, 20, 12, 162279320215099073726594563443729, 486808083856535360364186884377617,
  2658784382404183408687674706606032921, 486847311685993125659506733222929, 16, 20771752987513829441039661835354649,
  62311434733617673554172590038319641, 7975863645903062326472422016757662233, 62316455895788267511903848067367449, 16, 9904743665463365967097627653,
  29712407461937748421556306949, 604684277579696962536453, 29714801738638051479098754053, 16, 20771752987513829441109344458506777,
  62311434733617673554242272661471769, 7976506354660898353062092727098933785, 62316455895788267511973530690519577, 16,
  162279320214951792508666753582085, 486808083856388074642517755167749, 20, 12, 162279320215099073726594563443729, 486808083856535360364186884377617,
  2658784382404183408687674706606032921, 486847311685993125659506733222929, 62311434733617674425566341401412613, 9907147203870258773419361285,
  62316455895788268383297599430460421, 486847311685845839937293208519685, 16, 0, 486847156966915291730205193864205, 3803493413804025716642228077069,
  20, 62316436091765157341466264814879757, 486847156966915291730205193866253, 29714792295343950636381111301, 486847159384766930959463577093133,
  29714792295343950911267406853, 0, 3803493413804313895196394849293, 29714792295346202306221834765, 20, 486847156966952178585138540971021,
  3803493432693779826675009260557, 232146814807391930631062533, 29714792442920154895898511885, 232146814807392205517358085, 20, 0,
  62316436091784009920542810048627725, 486847156967062577504240703504909, 7976503819748353269829479686224610317, 3803493413805176386751880496133, 0,
  486847156967062865682794870277133, 3803493432694644569625416040973, 486847159384914504912053253245965, 29714792442926910700198562821, 0,
  9907147203870258771263554573, 77399587530236396650496525, 604684277579696962536453, 604684277579971848832005, 29714792442926910295339567641, 0,
  29714792295346150484236895245, 232146814807391800658100749, 20, 3803493413804307261982322852877, 29714792442920103073946864653, 28,
  162318702206246705602240574915093, 232146815960313305265213453, 1813646999689672811088929, 1813646999689947697384481, 1813646999689947697384469,
  1813646990682748442641413, 20, 0, 16, 2658784382864174923791070090567353349, 7975863685670063217582908628594066437,
  2659432112784181544338402376314520581, 7976511415590069838130240914341233669, 16, 2658784382864174924367548983705338885,
  7975863685670063218159387521732051973, 2659432112784181544914881269452506117, 7976511415590069838706719807479219205, 16,
  2658784382864174923791140317585998853, 7975863685670063217582978855612711941, 2659432112784181544338472603333166085,
  7976511415590069838130311141359879173, 16, 2658784382864174924367619210723984389, 7975863685670063218159457748750697477,
  2659432112784181544914951496471151621, 7976511415590069838706790034497864709, 0, 16, 7975863685517143436030638228148191753,
  62311435043102683375517663058067977, 20776823589914742358645652943143433, 62316495509869524644072649134309897, 16,
  62311435043102683093989361157407749, 486808086274239713871231742641157, 162318934296208924676919163618309, 486847621170855661281817571361797, 16,
  62311435043102683089486169560318981, 486808086274239709368040145552389, 162318934296208920173727566529541, 486847621170855656778625974273029, 16,
  62311435043102683093989909814313989, 486808086274239713871780399547397, 162318934296208924677467820524549, 486847621170855661282366228268037, 28,
  2659429617175642597073765326244677149, 162318702220231062488632258987549, 604684286639672775412769, 9907147352317926325189218333, 16, 0,
  7976511395786046728536283042409415693, 62316495279578490066689711268823565, 486847619371706953610827931845637, 486847619371706953646013369287685,
  0, 62316495279578526953545460684489741, 486847619371707241824573911597581, 3803497026341462791569046242309, 3803497026341462826754483684357, 28, 0,
  162319239564218680703087875785741, 1268119059095458442992874029581, 2659438421331448001181846950644091413, 9907180149183269085881828357,
  3803497026489901435287177792533, 9907180150342910804492291093, 29714820519452319647820418069, 28, 0, 486847619371707235192175908160525,
  3803497026341462774938874282509, 7976511396097340477931065273072553989, 29714820518292677929209955333, 3803497026489901470472615234581,
  9907180150342945989929733141, 29714820519452354833257860117], Run.run_any (by decide +kernel)⟩

theorem b2_linf_0_9 : Refs .linf 2 6 1 b2Env
    [⟨[12612142, 12612142], [(2, ⟨[(0, false), (1, true)], true, 1⟩), (1, ⟨[(0, false), (1, true)], true, 0⟩)]⟩] :=
  ⟨[
  20, 0, 28, 162279319610489742888194898134021, 486808006485136479493093305877509, 162318854507105690298780726854661, 24,
  62311424830097471106714674894210053, 12, 162279319610636163919279967702033, 486808006485282905027918629440529, 162318854507252111330414453328913,
  2658784372500663131298120653758400541, 29714792296206337329124606981, 20776813376909530089842664779285509, 28, 162279319610489747391935152129029,
  486808006485136483996833559872517, 162318854507105694802520980849669, 24, 62311424830097471111218415148205061, 12,
  162279319610636163919279967702033, 486808006485282905027918629440529, 162318854507252111330414453328913, 2658784372500663131298120653758400541,
  29714792296210841069378601989, 20776813376909530094346405033280517, 28, 162279319610489742888743555040261, 486808006485136479493641962783749,
  162318854507105690299329383760901, 24, 62311424830097471106715223551116293, 12, 162279319610636163919279967702033,
  486808006485282905027918629440529, 162318854507252111330414453328913, 2658784372500663131298120653758400541, 29714792296206337877781513221,
  20776813376909530089843213436191749, 24, 28, 20771752910142687666167699472515613, 62311424830097469951594695663682077,
  20776813376909528934722685548757533, 7975862378252476302235957138970247709, 12, 162279319610636163919279967702033,
  486808006485282905027918629440529, 162318854507252111330414453328913, 2658784372500663131298120653758400541, 28, 9904743628569930871122953221,
  29712402739571318603355522053, 9907156647162212817569842181, 1813646990735525000774661, 28, 20771752910142687089759175045153309,
  62311424830097469375186171236319773, 20776813376909528358314161121395229, 2659432112244419851499931319832543773, 0, 28,
  486808005290560501889293489406473, 3803187541332506120448848822793, 1268116641244683904313223938569, 24, 486808005309191713403740136800777,
  62311424677191928427742144579633673, 29714792296210841069361955337, 162318930079320699375814262784521, 28, 3803187541332503921010105385989,
  29712402666660204066006631429, 9907161259724093002447062021, 24, 29712402667797362971917683717, 486808005290561940841735504528389,
  232146814814147195854390277, 1268116641392266916463225342981, 28, 3803187541332503885828929356805, 29712402666660168884830602245,
  9907161259724057821271032837, 24, 9907161260861216727182085125, 486808005290561940806554328499205, 232146814814112014678361093,
  1268116641392266881282049313797, 24, 486808005309193154555620895359517, 28, 62311424677191744241829566644030985, 486808005290560783417452649319945,
  162318930079319539752092664139273, 7975862358680566838750994506193112585, 28, 29712402666660186882924610565, 232128145833282844298839045,
  77399697341594476614779909, 1813646990735525000774661, 28, 486808005290560497386102957670941, 3803187541480075569847993762333,
  1268116641392253353712368878109, 162318930098210160804102312165917, 28, 0, 162318699802341376849721849611277, 1268114842205792006638451950093,
  9907147204732750051862905861, 24, 162318699802341376849721849613837, 20776793574699696236764396750570509, 9907147204732750326749201413,
  162318702220193016078980233036813, 0, 1268114842206075716640998229005, 9907147204734966536257798669, 77399587536991926064514053, 24,
  1268114860838444672965857906701, 162318699802377691730047773639693, 77399587536992200950809605, 9907147352308919125934477325, 0,
  9907147204730446162652365837, 77399587536956610645721613, 604684277632473520669701, 24, 9907147350300349007545764897,
  1268114842205497108819503154189, 16, 162318702205990468797841703176709, 77399588683158031230307361, 604684286586896217279521,
  1813646999689672811088929, 604684286639672775412769, 24, 0, 162318699802525844290458945127437, 1268114860837287231087679376909,
  9907147350286786119300812301, 162318702187320918139629812059661, 0, 20776793574723271754298419052610573, 162318699802525560580456398848525,
  1268114842207230942034815616005, 2659429577564578784550197638734480397, 0, 29714792296206337875625706509, 232146814814112014653325837,
  1813646990735250114479109, 1813646990735525000774661, 9907147352317926325189218333, 24, 0, 28, 7975862427770077689183727403208409609,
  62311425216953732228276036938367497, 20776862894511100349933686882435593, 62316466031422449841419158991012361, 28,
  62311425216953731946747870337565701, 486808009507451033033406538580997, 162319241363367971483856928769029, 486847390870487889386087179617285, 28,
  62311425216953731942244684067243013, 486808009507451028530220268258309, 162319241363367966980670658446341, 486847390870487884882900909294597, 28,
  62311425216953731946748416863765509, 486808009507451033033953064780805, 162319241363367971484403454968837, 486847390870487889386633705817093, 0,
  28, 2658784373038025972643828599747511301, 7975862427922983414317013772275811333, 2659438440824177472061487033104729093,
  7976506355123303107542150369456948229, 28, 2658784373038025973220307357585638405, 7975862427922983414893492530113938437,
  2659438440824177472637965790942856197, 7976506355123303108118629127295075333, 28, 2658784373038025972643899513918981125,
  7975862427922983414317084686447281157, 2659438440824177472061557947276198917, 7976506355123303107542221283628418053, 28,
  2658784373038025973220377172312589317, 7975862427922983414893562344840889349, 2659438440824177472638035605669807109,
  7976506355123303108118698942022026245, 16, 7976503859360021508369366540877956633, 486847159384804689138739451332121, 29714792442926910295339567641,
  1813646999689947697384469, 28, 0, 2659438421021967639940008456692499469, 20776862664234122187031316067910157, 162319239564329079586182156780549,
  162319239564329079621367594222597, 0, 20776862664234158501912594425644045, 162319239564329363296192143950349, 1268119059096323150751501124613,
  1268119059096323185936938566661, 16, 0, 162319239564328784689323082581005, 1268119059096318630385336582669, 9907180149189989299885442053,
  7976511396097359219823044161976992289, 1268119059243892582975013259789, 9907180150342910804492291093, 9907180150342945989929733141, 16, 0,
  486847619371817339178411114955789, 3803497026342322962331336835597, 29714820518299398143213569029, 7976511396097373645753388009896870433,
  3803497026489896914921013512717, 29714820519452319647820418069, 29714820519452354833257860117], Run.run_any (by decide +kernel)⟩

theorem b2_linf_0_5 : Refs .linf 2 6 1 b2Env
    [⟨[12612142, 12612142], [(1, ⟨[(0, false), (1, true)], true, 0⟩)]⟩] :=
  Refs.node (k := 2) (st := [⟨[12612142, 12612142], [(2, ⟨[(0, false), (1, false)], false, 0⟩), (1, ⟨[(0, false), (1, true)], true, 0⟩)]⟩,
      ⟨[12612142, 12612142], [(2, ⟨[(0, false), (1, true)], true, 0⟩), (1, ⟨[(0, false), (1, true)], true, 0⟩)]⟩,
      ⟨[12612142, 12612142], [(2, ⟨[(0, false), (1, false)], false, 1⟩), (1, ⟨[(0, false), (1, true)], true, 0⟩)]⟩,
      ⟨[12612142, 12612142], [(2, ⟨[(0, false), (1, true)], true, 1⟩), (1, ⟨[(0, false), (1, true)], true, 0⟩)]⟩])
    (by decide +kernel) (b2_linf_0_6.cons (b2_linf_0_7.cons (b2_linf_0_8.cons b2_linf_0_9)))

theorem b2_linf_0_11 : Refs .linf 2 6 1 b2Env
    [⟨[12612142, 12612142], [(5, ⟨[(0, false), (1, false)], false, 0⟩), (1, ⟨[(0, false), (1, false)], false, 1⟩)]⟩] :=
  ⟨[
  28, 8, 0, 9904757575168514568891663393, 232127925332417933131908129, 9907156537341812348660220961, 24, 29712374442563023552829719585, 12,
  9904757576328191472939568145, 1813499425719765801372689, 9907156538501489256969538577, 162279548130562820690970872776733,
  232146814798349411712762913, 1268116036779765508740453762081, 12, 9904757575175269968332719137, 1267808969622439076859278787617,
  9907156537348567748101276705, 24, 162279548111673359280404982400033, 162279548130562820690970872776733, 232146814805104811153818657,
  1267808969771161430586332416029, 16, 9904757575177521768146404385, 24, 29712407389019896350764958753, 12, 9904757576328191472939568145,
  2658788116571122586379521411495757341, 9907156538501489256969538577, 162279548130562820690970872776733, 29714792295346167116531237921,
  162318852707956419677975096591393, 9907156537350819547914961953, 24, 29714806351193194130533516321, 12, 9904757576328191472939568145,
  2658788116571122586379521411495757341, 9907156538501489256969538577, 162279548130562820690970872776733, 12, 232146815960278115574352913,
  232146815960313305265211405, 232146815960278119835765777, 1813646999689947697384465, 1268116036780918430245060609057, 9904757575184277167587460129,
  8, 0, 77380918556004294955369505, 1813499416659789988496417, 77399660447983183859811361, 24, 232127925332523896392385569, 12,
  9904757576328191472939568145, 1813499425719765801372689, 9907156538501489256969538577, 162279548130562820690970872776733,
  1813646990612379664909345, 9907156537341918311920698401, 12, 1267808969622434555946588049421, 162279548111672201837987684814861,
  1268116036780616671756963418125, 24, 20771782158294189987891837747204109, 162279548130562820690970872776733, 29714792295053415827688787981,
  162318852707920665583220338855949, 24, 16, 9904757575177556953600623649, 29712407389019931536219178017, 9907156537350854733369181217,
  29714806351193229315987735585, 12, 9904757576328191472939568145, 2658788116571122586379521411495757341, 9907156538501489256969538577,
  162279548130562820690970872776733, 16, 9904757575177556957837004813, 29714792295346202306221838349, 9907156537350854737605562381,
  232146814807391800658104333, 16, 162279548111708516719129677792797, 2659432082767157980004013801541731869, 162318852707955827542857724986909,
  20776813146618567561204892007138845, 162318852708067086614850869268493, 8, 0, 9904757575168514573153076257, 232127925332417937393320993,
  9907156537341812352921633825, 24, 29712374442563023557091132449, 12, 9904757576328191472939568145, 1813499425719765801372689,
  9907156538501489256969538577, 162279548130562820690970872776733, 232146814798349415974175777, 1268116036779765508744715174945, 12,
  9904757575175269972594132001, 1267808969622439076863540200481, 9907156537348567752362689569, 24, 162279548111673359280409243812897,
  162279548130562820690970872776733, 232146814805104815415231521, 1268116036929343546396707784733, 16, 9904757575177521772407817249, 24,
  29712407389019896355026371617, 12, 9904757576328191472939568145, 2658788116571122586379521411495757341, 9907156538501489256969538577,
  162279548130562820690970872776733, 29714792295346167120792650785, 162318852707956419677979358004257, 9907156537350819552176374817, 24,
  29714806351193194134794929185, 12, 9904757576328191472939568145, 2658788116571122586379521411495757341, 9907156538501489256969538577,
  162279548130562820690970872776733, 12, 232146815960278115574352913, 232146815960313305265211405, 232146815960278119835765777,
  1813646999689947697384465, 1268116036780918430249322021921, 9907156537357574951617430561, 24, 8, 0, 9904757575168549754287296541,
  232127925332453118527541277, 9907156537341847534055854109, 29712374442563058738225352733, 12, 162279548111671623161163270327821,
  20771782158294041835262423656304141, 162318852707918933984891317521933, 2658788116261656318450155231642127885, 16, 9904757575177556957862036513,
  29712407389019931540480590881, 9907156537350854737630594081, 29714806351193229320249148449, 2659432082768990110625414634208235021, 12,
  9904757576328191472939568145, 8, 1813499425719765801372689, 162279548130561667769466265929741, 2658788116571122586379521411495757341,
  162279548111820928712081968074781, 9907156538501489256969538577, 162279548130562820690970872776733, 8, 0, 77380918556004294988923937,
  1813499416659790022050849, 77399660447983183893365793, 1813646990612379698463777, 12, 77380918556057071547057185, 9904757575175305562882573345,
  77399660448035960451499041, 1813646990665156256597025, 16, 77380918556074663733101601, 232146814807392205517358113, 77399660448053552637543457,
  1813646990682748442641441, 1813646990735525000774689, 12, 1268116036929357073963192159249, 8, 0, 1267808969621569865363593760797,
  29712374442549495986345087005, 1268116036779751981173969129501, 162318852707809985119323542392861, 162279548111672201838533145661469, 16,
  1267808969622722786868200607773, 20776813146618421718781357824544797, 1268116036780904902678575976477, 162318852707957559071913218805789,
  162318852708068239536355476115485, 1268116036929357073967453572113, 162318852726957705467834057230365], Run.run_any (by decide +kernel)⟩

theorem b2_linf_0_12 : Refs .linf 2 6 1 b2Env
    [⟨[12612142, 12612142], [(5, ⟨[(0, false), (1, true)], true, 0⟩), (1, ⟨[(0, false), (1, false)], false, 1⟩)]⟩] :=
  ⟨[
  8, 0, 28, 486807542866769558320508540814361, 29712374442551852924835726369, 3803183928646637174378972975129, 24, 486807545284621197549766923322393,
  62311365486946503465025093224563737, 29712374442551852924869280801, 486807542866769558320508540816921, 28, 29712374442553999171525280793,
  1813499416659789988496417, 232127925332453118527541273, 24, 1813499425666989243239429, 3803183928646911893955236267033, 1813499416659790022050849,
  29712374592154677146642549765, 28, 3803183928647783288116693435417, 232127925332506304206341153, 29712374442560806938411667481, 24,
  29712374590134759528088338969, 486807542866916260878936760058905, 232127925332506304239895585, 3803183947795798674770246369817, 24,
  29712374590137011327902024221, 28, 62311365486969968594881013231387673, 3803183928648069372246155592737, 486807542866952879647507915870233,
  7975854782332155980144769693617947673, 28, 29714792294193228429874693145, 1813646990612379664909345, 232146814798384597108396057,
  1813646990612379698463777, 28, 486807542866954025761245636330521, 29712374592145564394296774169, 3803183947795503636627241111065,
  486807545317862230370591535336985, 28, 12, 162279549910857226553551268873249, 486807699417977144455781519721505, 162318931273894082906231909909537,
  24, 0, 162279549911003935815012490152965, 486807699418123858220975537523717, 162318931274040792168239657389061,
  7975857347266541441524368574301733405, 20771782388589726730452888258085921, 29714792295053415827713819681, 20776823203058444343596010310730785, 12,
  162279549910857231057284065395745, 486807699417977148959514316244001, 162318931273894087409964706432033, 24, 0, 162279549911003935815012490152965,
  486807699418123858220975537523717, 162318931274040792168239657389061, 7975857347266541441524368574301733405, 20771782388589726734956621054608417,
  29714792295057919560510342177, 20776823203058444348099743107253281, 12, 162279549910857226554097795073057, 486807699417977144456328045921313,
  162318931273894082906778436109345, 24, 0, 162279549911003935815012490152965, 486807699418123858220975537523717, 162318931274040792168239657389061,
  7975857347266541441524368574301733405, 20771782388589726730453434784285729, 29714792295053416374240019489, 20776823203058444343596556836930593, 24,
  0, 162279549911003935815012490152965, 486807699418123858220975537523717, 162318931274040792168239657389061, 7975857347266541441524368574301733405,
  12, 20771782388589724998854562415775773, 62311385525501074490340034524352541, 20776823203058442611997684468420637,
  2658788145739485021497969697034997789, 12, 9904757684988844669057106977, 29712383997679269345706902561, 9907161332635137171051775009,
  1813646990665156256597025, 12, 20771782388589724998924517769351197, 62311385525501074490409989877927965, 20776823203058442612067639821996061,
  2659433369991480875980359275127115805, 24, 0, 7975863626636397372174628248432477209, 29712407390163845841571286021,
  486808082680445321661512998584857, 29714806352337143625601256453, 16, 28, 2658788146279265603802442459116471329,
  2658788146279265604378920939962762273, 2658788146279265603802512419796812833, 2658788146279265604378990625781974049, 28,
  7975863646365466970272085308577154081, 7975863646365466970848563789423445025, 7975863646365466970272155269257495585,
  7975863646365466970848633475242656801, 28, 2659433419662006767423291741914006561, 2659433419662006767999770222760297505,
  2659433419662006767423361702594348065, 2659433419662006767999839908579509281, 28, 7976506384601750182344804132330669089,
  7976506384601750182921282613176960033, 7976506384601750182344874093011010593, 7976506384601750182921352298996171809, 16, 28,
  7976503819745954307656181906514512909, 486847156966916156473155633942541, 62316436091765268028563921144646669, 3803493413804032472446528390177, 28,
  486847156966952178585138599431181, 29714792295346202306221838349, 3803493413804313895196395310093, 232146814807392205517358113, 28,
  62316436091784046807397743454194701, 3803493413805178638146834927629, 486847156967062865682794870737933, 29714792295352958110522147873, 28,
  3803493413804307261982381313037, 232146814807391800658104333, 29714792295346150484237356045, 1813646990682748442641441, 28, 16,
  2659433419509086985294612409010491401, 62311435043102682799109138630709257, 20776823589914741782237128515784713,
  62316495509869524067664124706951177, 16, 20776823589914742077117351042483233, 486808086274239713871231742641185, 162318934296208924676919163618337,
  486847621170855661281817571361825, 16, 20776823589914742072614159445394465, 486808086274239709368040145552417, 162318934296208920173727566529569,
  486847621170855656778625974273057, 16, 20776823589914742077117899699389473, 486808086274239713871780399547425, 162318934296208924677467820524577,
  486847621170855661282366228268065, 28, 162318930079319253720742972493833, 29712402666660204066006631457, 9907161259724057821271032865, 24,
  486808005290561943041174247968797, 2659433350419590301961328120931290633, 1813646990735525000774689, 162318930079320694872623731052573], Run.run_any (by decide +kernel)⟩

theorem b2_linf_0_13 : Refs .linf 2 6 1 b2Env
    [⟨[12612142, 12612142], [(5, ⟨[(0, false), (1, false)], false, 1⟩), (1, ⟨[(0, false), (1, false)], false, 1⟩)]⟩] :=
  ⟨[
  28, 8, 0, 9907147202715102103382134793, 232127925332417937376677897, 77399587521194011949928457, 24, 29712374442563023557074489353,
  1268114841948976489687463104521, 232146814798349415957532681, 9907147352306667326120792073, 12, 9907147203579793231837270025,
  1268114842058504032625113567241, 77399587527949411390984201, 24, 162318699783636380627554156023817, 1268114860949122885608301531145,
  232146814805104815398588425, 9907147352306667326120792073, 16, 9907147203868023607988981769, 24, 29712407389019896355009728521,
  162318699788212326079338731671561, 29714792295346167120776007689, 9907147352306667326120792073, 77399587530201211204669449, 24,
  29714806351193194134778286089, 1268114842096550442277139517449, 232146815960278119819382793, 9907147352306667326120792073,
  9907147204732714736444117001, 8, 0, 77399587521212010035414049, 1813499416659789988496417, 604684277509603071099937, 24,
  232127925332523896392385569, 9907147202726379100536046625, 1813646990612379664909345, 1813499425790134545550369, 12,
  1268114842058213533675170563593, 162318699783488516176014536607241, 9907147203577524658045978121, 24, 20776793572305456720326931971048969,
  162318699783636090128604213020169, 29714792295053416371019318793, 162318702220229621336751500428809, 24, 16, 9907147203868058789198431265,
  29712407389019931536219178017, 77399587530236392414118945, 29714806351193229315987735585, 16, 162318699788173698793291477356041,
  2659429577330070750483885779706908169, 1268114842094816644377304305161, 20776793572909882446268653853937161, 16, 9907147203868058793434812429,
  29714792295346202306221838349, 77399588683157901257609229, 232146814807391800658104333, 162318702220231062488632258987549,
  9907147204734966536257802253, 24, 0, 77399588674133239789521953, 8, 1813499416659515135755297, 12, 77399587527967134623728673,
  9907147203582062754883699745, 604684277562104776492065, 1268114842059659223652766843937, 232128182735654770784078881, 604684277632473520669729,
  604684286516527473101857, 8, 232127926485445126146493473, 12, 77399587527967134623728673, 9907147203582062754883699745, 604684277562104776492065,
  1268114842059659223652766843937, 232146924627633659688520737, 604684277632473520669729, 12, 77399588680888639230577697, 8,
  1813499425719490948631585, 9907147203582062754883699745, 16, 77399587530218934437413921, 1268114842095408797494833841185, 604684277579696962536481,
  9907147203879300330290152481, 604684277632473520669729, 604684286569304031235105, 9907147351165022543814855713, 16, 77399588683140439044262945, 8,
  1813499425737083134676001, 12, 77399587527967134623728673, 9907147203582062754883699745, 604684277562104776492065,
  162318702206101149262283960486417, 232146815960313435237911585, 604684277632473520669729, 604684286586896217279521, 1813646999689672811088929,
  604684286639672775412769, 24, 8, 0, 9907147202715137284532998173, 232127925332453118527541277, 77399588674150697707900957,
  29712374442563058738225352733, 12, 162318699783451332310421832402441, 20776793572286530070529860685989385, 1268114842057923156229885462025,
  2659429577255098460201847292294530569, 16, 9907147203868058793459844129, 29712407389019931540480590881, 77399587530236396675531809,
  29714806351193229320249148449, 162318699802525844290458945588749, 12, 1268114860947679465153784974857, 8, 0, 1268114841947533069232913255945,
  29712374442549495984214773257, 9907147202712833529590844937, 162318699769468990679995277381129, 162318699783488516176014536609289, 16,
  1268114842095107021822589668873, 20776793572891177738155357653962249, 9907147203865755034197691913, 162318699788358456611473858235913,
  162318699802525556060082793877001, 9907147351151477247755947529, 162318702201487729357862595989001, 16, 77399588683140713930558497, 8,
  1813499425737358020971553, 12, 77399587527967409510024225, 9907147203582063029769995297, 604684277562379662787617, 1813646990665156256597025,
  232146814807392205517358113, 1813646990735525000774689, 604684286587171103575073, 1813646999689947697384481, 9907147352317926325189218333], Run.run_any (by decide +kernel)⟩

theorem b2_linf_0_14 : Refs .linf 2 6 1 b2Env
    [⟨[12612142, 12612142], [(5, ⟨[(0, false), (1, true)], true, 1⟩), (1, ⟨[(0, false), (1, false)], false, 1⟩)]⟩] :=
  ⟨[
  24, 8, 0, 28, 7975854782329152591955152746680814621, 3803183928646637245156837819425, 62311365486946504624649630833445917,
  486807542866769567380075240886301, 28, 3803183928646911893955235941405, 1813499416659789988496417, 29712374442553999171525282845,
  232127925332453118527541277, 28, 62311365486965429824444719224196125, 29712374442560877716276511777, 486807542866917420503474368941085,
  3803183928647792347683393507357, 28, 486807542866953154367084178836509, 232127925332523896392385569, 3803183928648071518492845149213,
  29712374442563058738225352733, 12, 28, 2658788185583861814219778044005975073, 2658788185583861814796255837699441697,
  2658788185583861814219848545885750305, 2658788185583861814796326339579216929, 28, 7975857347803918301819094745856607265,
  7975857347803918302395572539550073889, 7975857347803918301819165247736382497, 7975857347803918302395643041429849121, 28,
  2659438450650326386315240788797162529, 2659438450650326386891718582490629153, 2659438450650326386315311290676937761,
  2659438450650326386891789084370404385, 28, 7976507612870382873914557490647794721, 7976507612870382874491035284341261345,
  7976507612870382873914627992527569953, 7976507612870382874491105786221036577, 16, 28, 7976507592834246154528542582240707609,
  486847387257949594392606980178977, 62316465569017548082254238923755545, 486847387257949594392611241591841, 28, 486808082661702558359234000978969,
  29712407389019931536219178017, 3803188145794551237181515632665, 29712407389019931540480590881, 28, 62316465569017694784882893046416409,
  3803495212952740160205876102177, 486847387257950740506897601925145, 3803495212952740160210137515041, 28, 486847387257949869182962048173081,
  29714806351193229315987735585, 3803495212952733352991891001369, 29714806351193229320249148449, 28, 2659438450497420808179498753447825417,
  486808009507451033033406538581025, 162319241363367966980670658446369, 486847390870487889386633705817121, 8, 0, 28,
  162279552328708001091681196704801, 9904757832562744482141832225, 162279552328708001092231984317473, 162279552328708005595963715486753, 28,
  29712374442549495440942826529, 1813499416659789988496417, 29712374442549495991730439201, 29712374442553999723461608481, 28,
  162319240758903039560172213109793, 9907180222101015873040942113, 162319240758903039560723000722465, 162319240758903044064454731891745, 28,
  486847313499233411933449870115873, 29714801849318445827464627233, 486847313499233411934000657728545, 486847313499233416437732388897825, 12, 28,
  162279552328708865782809651840033, 20771782698074734820199635435524109, 162279552328708865783360439452705, 162279552328708870287092170621985, 28,
  20771782698074735398876452409574433, 2658788185353566131056185908425527309, 20771782698074735398877003197187105,
  20771782698074735403380734928356385, 28, 162319240758903904251300668245025, 20776862817139699744166485535363085, 162319240758903904251851455857697,
  162319240758903908755583187026977, 28, 486847313499234276624578325251105, 62316456127901987407946025632141325, 486847313499234276625129112863777,
  486847313499234281128860844033057, 16, 28, 162279552328709154013185803551777, 20771782698074772290235945258717197,
  162279552328709154013736591164449, 162279552328709158517468322333729, 28, 62316456127902024880110990025294881,
  7976506384371459185230754885641834509, 62316456127902024880111540812907553, 62316456127902024884615272544076833, 28,
  162319240758904192481676819956769, 20776862817139737214202795358556173, 162319240758904192482227607569441, 162319240758904196985959338738721, 28,
  486847313499234564854954476962849, 62316456127902024877982335455334413, 486847313499234564855505264575521, 486847313499234569359236995744801, 28,
  162279552328710018704314258687009, 2659438440593900530789944700600193037, 162319240758905057173356062704673, 486847313499235434050365450880033, 16,
  486847159384767795650592032228377, 8, 1813499425737357987417109, 7976503859360621248912690985820161049, 29714792442920154895898511885,
  486847159384804689138739451332121, 29714792442926910295339567641, 1813646999689947697384469, 28, 16, 162319239583218540997294573357577, 8, 0,
  162319239564070820648784058519561, 29712374442549495991713796105, 1268119059094301017752274604041, 3803497026340305349698274856969, 12,
  162319239564181501113226315829257, 20776862664215269326357608754450441, 1268119059095165708880729739273, 3803497026341170040826729992201,
  486847619371707237320837919019017, 162319239564329075065815992242185, 1268119059243894851541363854357, 1268119059243894886726801296405, 8, 0,
  9907180149174244699216544801, 1813499416659789988496417, 77399844915423920955327521, 232147035299091177543828513, 12,
  20776862664215232142492968426145289, 2659438421019554473773773920569656841, 162319239564181210736733406627337, 486847619371669765225821439002121,
  16, 162319239564218399105109727514637, 486847619390707388220494750026253, 3803497026489901435287177792533, 3803497026489901470472615234581,
  162319239564329363296192143953933, 16, 1268119059243892582975013259785, 8, 77399844924554265512381461, 12, 1268119059095167977447080592417,
  162319239564181791612168818394145, 9907180149180982100630701089, 7976511396097359330503508604234303521, 1268119059243897086711005841933,
  1268119059243892582975013259789, 9907180150342910804492291093, 9907180150342945989929733141, 16, 3803497026489896914921013512713, 8,
  232147035308221522100882453, 12, 1268119059095168012632518034465, 162319239564181791647354255836193, 9907180149181017286068143137,
  7976511396097373645753388009896871969, 3803497026489901418657006094861, 3803497026489896914921013512717, 29714820519452319647820418069,
  29714820519452354833257860117], Run.run_any (by decide +kernel)⟩

theorem b2_linf_0_10 : Refs .linf 2 6 1 b2Env
    [⟨[12612142, 12612142], [(1, ⟨[(0, false), (1, false)], false, 1⟩)]⟩] :=
  Refs.node (k := 5) (st := [⟨[12612142, 12612142], [(5, ⟨[(0, false), (1, false)], false, 0⟩), (1, ⟨[(0, false), (1, false)], false, 1⟩)]⟩,
      ⟨[12612142, 12612142], [(5, ⟨[(0, false), (1, true)], true, 0⟩), (1, ⟨[(0, false), (1, false)], false, 1⟩)]⟩,
      ⟨[12612142, 12612142], [(5, ⟨[(0, false), (1, false)], false, 1⟩), (1, ⟨[(0, false), (1, false)], false, 1⟩)]⟩,
      ⟨[12612142, 12612142], [(5, ⟨[(0, false), (1, true)], true, 1⟩), (1, ⟨[(0, false), (1, false)], false, 1⟩)]⟩])
    (by decide +kernel) (b2_linf_0_11.cons (b2_linf_0_12.cons (b2_linf_0_13.cons b2_linf_0_14)))

theorem b2_linf_0_16 : Refs .linf 2 6 1 b2Env
    [⟨[12612142, 12612142], [(6, ⟨[(0, false), (1, false)], false, 0⟩), (1, ⟨[(0, false), (1, true)], true, 1⟩)]⟩] :=
  ⟨[
  8, 0, 16, 486807542866769846550884692329501, 29712374442551870517021770773, 20, 62311365486946540358513240618435613,
  486807545284621485780143075034141, 29712374442551870242169029653, 486807542866769846550884692331549, 3803183928646639426178786658845, 16,
  29712374442553999171525084189, 1813499416659789988496405, 20, 3803183928646911893955211035677, 1813499425666989243239429,
  1813499416659515135755285, 29712374590127951761235053597, 232127925332453118527539741, 20, 16, 62311365486965246516628519737689117,
  3803183928647781159462189925397, 7975854782331551554128450526424466461, 486807542866915988411160310450717, 29712374590134759528088338969, 16,
  9907147202717336716901155869, 604684277509603071099925, 604684277509328218358805, 77399587521229193100790301, 16,
  486807542866917420503474368742429, 29712374590134830305952926741, 486807545284769059732732751711261, 3803183947537258279161974622749, 16,
  3803183928648071518492844950557, 232127925332523896392385557, 20, 486807542866953154367084153930781, 29712374590137011327902024221,
  232127925332523621539644437, 3803183947537537449971459361821, 29712374442563058738225351197, 16, 12, 162279627282109681889819523810325,
  486807700022440054263097180816405, 20, 20771792292110040725264712373109781, 0, 162279627282256391151280745090053,
  486807700022586768028290133265413, 7975857357170061718913922627149365785, 486847388452781806497331937283077, 9907147203577524115814220821,
  62316465721937293313011102569726997, 486847388452635092731588197221397, 12, 162279627282109686393551254979605, 486807700022440058766828911985685,
  20, 20771792292110040729768444104279061, 0, 162279627282256391151280745090053, 486807700022586768028290133265413,
  7975857357170061718913922627149365785, 486847388452781806497331937283077, 9907147203582027847545390101, 62316465721937293317514834300896277,
  486847388452635097235319928390677, 20, 12, 20771792292110039281896899047721497, 62311385602872326945676439144499737,
  2658789413390085212833883183758051865, 62316465721937291869643289244338713, 0, 162279627282256391151280745090053,
  486807700022586768028290133265413, 7975857357170061718913922627149365785, 486847388452781806497331937283077, 12, 9904762407355327263816025109,
  29712384034572757218239710229, 604684277562104776492053, 29714806424111028609138820117, 12, 20771792292110039858445061451811353,
  62311385602872327522224601548589593, 7976507612407973544641969291329145369, 62316465721937292446191451648428569, 12,
  162279627282109686394102042592277, 486807700022440058767379699598357, 20, 20771792292110040729768994891891733, 0,
  162279627282256391151280745090053, 486807700022586768028290133265413, 7975857357170061718913922627149365785, 486847388452781806497331937283077,
  9907147203582028398333002773, 62316465721937293317515385088508949, 486847388452635097235870716003349, 16, 486847387257949587585392995076617,
  29712407389019931536219178005, 20, 7976507592834264896420521471144954889, 486808082661703429682624093882905, 604684277579696962536469,
  486847387257950740506897601923609, 29714806351193229320249148437, 20, 16, 28, 2658789413852494690256972268326355989,
  7975862378792238105178484658743018517, 2659432152088777902329691092079870997, 7976507652174979268799333941540553749, 28,
  2658789413852494690833450474311517205, 7975862378792238105754962864728179733, 2659432152088777902906169298065032213,
  7976507652174979269375812147525714965, 28, 2658789413852494690257041954145567765, 7975862378792238105178554344562230293,
  2659432152088777902329760777899082773, 7976507652174979268799403627359765525, 28, 2658789413852494690833520434991858709,
  7975862378792238105755032825408521237, 2659432152088777902906239258745373717, 7976507652174979269375882108206056469, 0,
  7975862358985797180838714761709421597, 29712402667797362971917683717, 9907161260861216727182085125, 486808005309193154555620895359517, 28, 16,
  2659429577561580081833575414057012749, 162318699802342534291600061893133, 1268114842205801049153125483541, 20776793574699844389324807922322957, 16,
  162318699802377691730047806869005, 9907147204734966536257800717, 77399587536991926064514069, 1268114842206075716640998493709, 16,
  1268114842205497108819536383501, 77399587536956610645723661, 604684277632473520669717, 9907147204730446162652630541, 16,
  20776793574723308069178745009868301, 1268114842207233158519210510861, 9907147204744009050931332117, 162318699802525844290458945392141, 16, 28,
  7976507652022073543666116981300529673, 62311425216953732228345992291944969, 20776862894511100350003642236013065,
  62316466031422449841489114344589833, 28, 62316466031422449559890992390210581, 486808009507451033033406538581013, 162319241363367971483856928769045,
  486847390870487889386087179617301, 28, 62316466031422449555387806119887893, 486808009507451028530220268258325, 162319241363367966980670658446357,
  486847390870487884882900909294613, 28, 62316466031422449559891538916410389, 486808009507451033033953064780821, 162319241363367971484403454968853,
  486847390870487889386633705817109], Run.run_any (by decide +kernel)⟩

theorem b2_linf_0_17 : Refs .linf 2 6 1 b2Env
    [⟨[12612142, 12612142], [(6, ⟨[(0, false), (1, true)], true, 0⟩), (1, ⟨[(0, false), (1, true)], true, 1⟩)]⟩] :=
  ⟨[
  16, 8, 0, 9904762297534997438545265685, 232127925332417933140296725, 20, 12, 9904762298694674342593170449, 1813499425719765801372689,
  162279625501814987796862976002073, 29714801629977416155388709905, 29712374442560771753024422933, 77399587521194007713547285,
  3803494608488677396201236071445, 29714801628817704061641950229, 12, 9904762297541752837986321429, 1267809574085348884173874529301, 20,
  162279625501814987796862976002073, 162279625482925526386296020272149, 77399587527949407154603029, 3803494608637116039919367621653,
  29714801628824459461083005973, 9904762297544004637800006677, 28, 9904762297550760037241062421, 20, 12, 9904762298694674342593170449,
  2658789384221722777715434898218812953, 162279625501814987796862976002073, 29714801629977416155388709905, 29712402666660168880569189397,
  9907147204734966532021421077, 486847309886808107715972762174485, 20, 12, 9904762298694674342593170449, 2658789384221722777715434898218812953,
  162279625501814987796862976002073, 29714801629977416155388709905, 9907161259724057817009619989, 12, 77380955458552143334607905,
  77399588680906231416622113, 604684286569304031235105, 232146887734198288827550753, 3803494608490695008834298053653, 29714801628833466660337746965,
  8, 0, 77380955449492442374472725, 1813499416659789988496405, 20, 12, 9904762298694674342593170449, 1813499425719765801372689,
  162279625501814987796862976002073, 29714801629977416155388709905, 232127925332506304206341141, 604684277509603071099925,
  29714801628817792432707994645, 232146887725138587867415573, 12, 1267809574085344363262249142797, 162279625482924657174255939750413, 20,
  162279625501814987796862976002073, 20771792061814467377445890594834957, 9907147203577524115789187597, 486847309886661387178200474454541,
  3803494608489530811018624764429, 486847309886697420479500891851277, 20, 12, 9904762298694674342593170449, 2658789384221722777715434898218812953,
  162279625501814987796862976002073, 29714801629977416155388709905, 28, 9904762297550795222678504469, 29712402666660204066006631445,
  9907161259724093002447062037, 29714801628833501845775189013, 28, 9904762297550760041477442061, 9907147204734966536257800717,
  77399587536956610645723661, 29714801628833466664574126605, 28, 162279625483072228998183605569049, 7976506325185464037395045761505625625,
  62316455665511547601289165349914137, 486847309886808094310999685137945, 20, 12, 9904762298694674342593170449, 8, 1813499425719765801372689,
  162279625501814123105734520866829, 162279625482962415353531813988889, 2658789384221722777715434898218812953, 162279625501814987796862976002073,
  29714801629977416155388709905, 8, 0, 9904762297535032623932508697, 232127925332453118527539737, 29712374442560806938411665945,
  29714801628817739247029193241, 12, 162279625482924078497567890279437, 20771792061814356118304760288054285, 2658789383912251824313073996138875917,
  486847309886659943810383969848333, 7976506325183664705084607984421899277, 28, 9904762297550760041502475285, 29712402666660168884830602261,
  9907161259724057821271032853, 29714801628833466664599159829, 8, 0, 77380955449492167521731605, 1813499416659515135755285, 604684277509328218358805,
  232146887725138313014674453, 12, 77380955449544944079864853, 9904762297541788157641491477, 604684277562104776492053, 232146887725191089572807701,
  604684277579696962536469, 28, 77380955449615312824042517, 77399587536991926064514069, 604684277632473520669717, 232146887725261458316985365, 12,
  1267809574232922820133379246617, 8, 0, 1267809574084484176415247436313, 29712374442553999723411409433, 486847309886550711218039670573593,
  3803494608488670624171623057945, 162279625482924661678537393179161, 486847309886698285170629346986521, 28, 1267809574086501789048309418521,
  62316455665511437792148795011762713, 486847309886808965635071604296217, 3803494608490688236804685040153, 486847309905550857613960509000217,
  3803494608637109267889754868249, 8, 0, 9904762297535032628244120597, 232127925332453122839151637, 20, 12, 9904762298694674342593170449,
  1813499425719765801372689, 162279625501814987796862976002073, 29714801629977416155388709905, 29712374442560806942723277845,
  77399587521229197412402197, 3803494608488677431390934926357, 29714801628817739251340805141, 12, 9904762297541788027685176341,
  1267809574085348919363573384213, 20, 162279625501814987796862976002073, 162279625482925526421485719127061, 77399587527984596853457941,
  3803494608637116075109066476565, 29714801628824494650781860885, 29714801628826746450595546133, 28, 9904762297550795226939917333, 20, 12,
  9904762298694674342593170449, 2658789384221722777715434898218812953, 162279625501814987796862976002073, 29714801629977416155388709905,
  29712402666660204070268044309, 9907147204735001721720275989, 486847309886808107751162461029397, 20, 12, 9904762298694674342593170449,
  2658789384221722777715434898218812953, 162279625501814987796862976002073, 29714801629977416155388709905, 9907161259724093006708474901, 12,
  77380955458552143334607905, 77399588680906231416622113, 604684286569304031235105, 232146887734198288827550753, 3803494608490695044023996908565,
  29714801628833501850036601877], Run.run_any (by decide +kernel)⟩

theorem b2_linf_0_18 : Refs .linf 2 6 1 b2Env
    [⟨[12612142, 12612142], [(6, ⟨[(0, false), (1, false)], false, 1⟩), (1, ⟨[(0, false), (1, true)], true, 1⟩)]⟩] :=
  ⟨[
  16, 8, 0, 29714792294191029001801304585, 232127925332453122822507017, 20, 3803493413657602433757344827913, 29712374442560806942706633225,
  77399587521229197395757577, 29714792442917903096084826633, 232146814798384601403361801, 12, 29714792295055720130256439817,
  3803493413767418207071147002377, 20, 3803493432693491596298857745417, 486847156962340496999947396319753, 77399587527984596836813321,
  29714792442917903096084826633, 232146814805140000844417545, 29714792295343950506408151561, 28, 29714792296208641634863286793, 20,
  486847156981120147158112175000073, 29712402666660204070251399689, 9907147204735001721703631369, 29714792442917903096084826633, 20,
  3803493413915856850789278550537, 9907161259724093006691830281, 232146815960295843051867169, 29714792442917903096084826633,
  232146814814147200099158537, 8, 0, 232146814798367414043018261, 1813499416659789988496405, 20, 29714792294200019013695702037,
  232127925332506304206341141, 604684277509603071099925, 1813499425737357987417109, 1813646990612379664909333, 12, 3803493413767132176672824296969,
  486847156962229530505106816304649, 20, 486847156962340210969549073614345, 62316436091179583615993266728928777, 9907147203582028395112105481,
  486847159384803536217234844485129, 29714792295057920108085446153, 29714792295346202306221836813, 20, 28, 486847156981082384545600090868745,
  7976503819978672491038509875201248265, 62316436093597398643331539772050441, 3803493413914987726424613522441, 28, 29714792296208641630618518549,
  29712402666660204066006631445, 9907161259724093002447062037, 232146814814147195854390293, 28, 29714792296208606449417456141,
  9907147204734966536257800717, 77399587536956610645723661, 77399588683158306116602913, 486847159384804689138739451332121, 20, 12,
  3803493432694642317825602357257, 8, 0, 3803493413656451712230566988809, 29712374442553999721280900105, 486847156948173111520940137974793,
  29714792294193228979630312457, 486847156962229530505106816306185, 486847156967062577452418718829577, 28, 3803493413914706129262500711433,
  62316436093583378836238358400011273, 486847156981229676901027654470665, 29714792296210841612692294665, 486847159384914216681677101730825,
  29714792442926893108012518417, 8, 0, 29714792294191028997506337305, 232127925332453118527539737, 29712374442560806938411665945,
  232127926494435008101485573, 12, 486847156962192918614121510209033, 62316436091165379904653672487192073, 7976503819670986702847138141303080457,
  3803493413767413773834937304585, 486847156967062865682794870541325, 28, 29714792296208606449442489365, 29712402666660168884830602261,
  9907161259724057821271032853, 232146814814112014678361109, 28, 77399588683157901257609225, 8, 604684286587171070020641, 12,
  232146814805122538631332885, 29714792295057954467857040405, 604684277562104776492053, 1813646990664881370301461, 604684277579696962536469,
  77399587536991926064514069, 604684286586896217279521, 604684286587171103575073, 29714792442926910295339567641, 20, 12, 232146815960313305265211401,
  8, 1813646999689947663830033, 29714792295057954742743335957, 1813646990682748442641429, 28, 232146814814130012772369429,
  3803493413915001149672751367189, 29714792296217631646791238677, 1813646990735525000774677, 29714792442920103073947061257,
  1813646999689947697384465, 0, 232146815960313305265209865, 8, 1813499416659790022050837, 12, 232146814805122813517628437,
  29714792295057954742743335957, 3803493413768285132812089033749, 1813646990665156256597013, 1813646990682748442641429, 232146815960313301020183557,
  8, 232146815960313300970242585, 12, 232146814805122813517628437, 29714792295057954742743335957, 3803493413768285132812089033749,
  1813646990665156256597013, 1813646990682748442641429, 232146815960278119844154373, 1813646999689947697384453, 28, 232146815960313305265213449, 8,
  1813646999689947663830049, 12, 232146814805122813517628437, 29714792295057954742743335957, 162318702206247570293369030051861,
  1813646990665156256597013, 1813646990682748442641429, 232146815960278119819382797, 1813646999689672811088929, 1813646999689947697384481,
  1813646999689947697384469], Run.run_any (by decide +kernel)⟩

theorem b2_linf_0_19 : Refs .linf 2 6 1 b2Env
    [⟨[12612142, 12612142], [(6, ⟨[(0, false), (1, true)], true, 1⟩), (1, ⟨[(0, false), (1, true)], true, 1⟩)]⟩] :=
  ⟨[
  20, 8, 0, 16, 162279629095497546620634855900181, 9904762518035739204367942677, 162279629095497546621179251393557,
  162279629095497551124920570741781, 16, 29712374442549495442008179733, 1813499416659789988496405, 29712374442549495986403673109,
  29712374442553999727723021333, 16, 162318856924955311915410309252117, 9907156794736042261910389781, 162318856924955311915954704745493,
  162318856924955316419696024093717, 16, 486847620566391594049261310837781, 29714820591210424716369069077, 486847620566391594049805706331157,
  486847620566391598553547025679381, 12, 16, 162279629095498411311763311035413, 20771792524223796647905703812532749,
  162279629095498411312307706528789, 162279629095498415816049025877013, 16, 20771792524223797226582385486726165,
  2658789443100646045002545342300949005, 20771792524223797226582929882219541, 20771792524223797231086671201567765, 16,
  162318856924956176606538764387349, 20776813686394390605636961841580557, 162318856924956176607083159880725, 162318856924956181110824479228949, 16,
  486847620566392458740389765973013, 62316495432498234718769890044545549, 486847620566392458740934161466389, 486847620566392463244675480814613, 16,
  162279629095498699542139462747157, 7976511415359778841016192621143525901, 162318856924956464837459311592469, 486847620566392751475051632526357, 28,
  16, 162279629095499564233267917882389, 20771792524223944221927976112097805, 162279629095499564233812313375765, 162279629095499568737553632723989,
  16, 20776813686394538758266233192186901, 2659432151858500961058147531223075341, 20776813686394538758266777587680277,
  20776813686394538762770518907028501, 16, 162318856924957329528043371234325, 20776813686394538179659234141145613, 162318856924957329528587766727701,
  162318856924957334032329086075925, 16, 486847620566393611661894372819989, 62316495432498382292792162344110605, 486847620566393611662438768313365,
  486847620566393616166180087661589, 8, 0, 16, 7975854782329157277428147468881759769, 3803183928646639479364465460245,
  486807542866769853358651578911257, 62311365486946541229907402100641305, 16, 3803183928646911893955210776089, 1813499416659789988496405,
  232127925332453118527539737, 29712374442553999171525086745, 16, 486807542866916260878936734567961, 232127925332506304206341141,
  29712374442560806938411665945, 3803183928647783288116693241369, 16, 62311365486970115297439441425141273, 29712374442563111923904152597,
  3803183928648078326259731532313, 486807542866954025761245636136473, 12, 16, 2658789443330941728166137477881398293,
  2658789443330941728742615136275006485, 2658789443330941728166207292608349205, 2658789443330941728742686050446476309, 16,
  7975857357630067363646800814233617429, 7975857357630067364223278472627225621, 7975857357630067363646870628960568341,
  7975857357630067364223349386798695445, 16, 2659433370531261421391274075062535189, 2659433370531261421967751733456143381,
  2659433370531261421391343889789486101, 2659433370531261421967822647627613205, 16, 7976511425416218863064459247590835221,
  7976511425416218863640936905984443413, 7976511425416218863064529062317786133, 7976511425416218863641007820155913237, 16,
  7976511425263299118405746673991158281, 486808086274239713871231742641173, 162318934296208920173727566529557, 486847621170855661282366228268053, 28,
  16, 2659433350419566874596354509800539165, 162318930079319267283493829215253, 162318930079319267248312653186069,
  20776823050152866207784019607816733, 16, 486808005290560207009064587428893, 29712402666660204066006631445, 29712402666660168884830602261,
  3803187541332501617258317089309, 16, 162318930079318963343704602248221, 9907161259724093002447062037, 9907161259724057821271032853,
  1268116641244679401122692205085, 16, 20776823050153048943695837574530077, 1268116641244692963873548928021, 1268116641244692928692372898837,
  162318930079320694872623731051037, 28, 162318702220194169000484839883805, 8, 1813499425790134545550369, 2659429617176242337617089771186881565,
  162318702220231062488632258987549, 9907147352308919125934477325, 604684286639672775412769, 9907147352317926325189218333, 16, 28,
  486847619390707099990118598314505, 8, 0, 486847619371559379641608083474953, 29712374442553999727706376713, 1268119059094305521488267184649,
  3803497026340309853434267437577, 12, 486847619371670060106050340784649, 62316495279573804305464612891003401, 1268119059095170212616722319881,
  3803497026341174544562722572809, 486847619371706953594197759887881, 162319239564329367799928136534537, 1268119059243897086711005841929,
  3803497026489901418657006094857, 8, 0, 29714820518283653542544671765, 1813499416659789988496405, 77399844915423920955327509,
  232147035299091177543828501, 12, 62316495279573767693574443620435465, 7976511395785446951099470450048435721, 162319239564181787214940456945161,
  486847619371670341704028489319945, 486847619371707241824573911599629, 28, 486847619371817629554904024615437, 162319239583218829227670725069325,
  1268119059243892582975013259789, 3803497026489896914921013512717, 28, 3803497026489899183487364107285, 8, 232127926501102040737909781, 12,
  3803497026341172309393080845333, 486847619371670346101256850768917, 2659438421331462168281295559579732501, 29714820518290390943958828053,
  3803497026489901435287177792533, 1268119059243897103341177539605, 9907180150342910804492291093, 29714820519452319647820418069, 28,
  3803497026489899218672801549333, 8, 232127926501137226175351829, 12, 3803497026341172344578518287381, 486847619371670346136442288210965,
  7976511396097354645030513882008195089, 29714820518290426129396270101, 3803497026489901470472615234581, 1268119059243897138526614981653,
  9907180150342945989929733141, 29714820519452354833257860117], Run.run_any (by decide +kernel)⟩

theorem b2_linf_0_15 : Refs .linf 2 6 1 b2Env
    [⟨[12612142, 12612142], [(1, ⟨[(0, false), (1, true)], true, 1⟩)]⟩] :=
  Refs.node (k := 6) (st := [⟨[12612142, 12612142], [(6, ⟨[(0, false), (1, false)], false, 0⟩), (1, ⟨[(0, false), (1, true)], true, 1⟩)]⟩,
      ⟨[12612142, 12612142], [(6, ⟨[(0, false), (1, true)], true, 0⟩), (1, ⟨[(0, false), (1, true)], true, 1⟩)]⟩,
      ⟨[12612142, 12612142], [(6, ⟨[(0, false), (1, false)], false, 1⟩), (1, ⟨[(0, false), (1, true)], true, 1⟩)]⟩,
      ⟨[12612142, 12612142], [(6, ⟨[(0, false), (1, true)], true, 1⟩), (1, ⟨[(0, false), (1, true)], true, 1⟩)]⟩])
    (by decide +kernel) (b2_linf_0_16.cons (b2_linf_0_17.cons (b2_linf_0_18.cons b2_linf_0_19)))

theorem b2_linf_run0 : Refs .linf 2 6 1 b2Env
    (b2Pairs0.map fun ps => ⟨ps, []⟩) :=
  Refs.node (k := 1) (st := [⟨[12612142, 12612142], [(1, ⟨[(0, false), (1, false)], false, 0⟩)]⟩,
      ⟨[12612142, 12612142], [(1, ⟨[(0, false), (1, true)], true, 0⟩)]⟩,
      ⟨[12612142, 12612142], [(1, ⟨[(0, false), (1, false)], false, 1⟩)]⟩,
      ⟨[12612142, 12612142], [(1, ⟨[(0, false), (1, true)], true, 1⟩)]⟩])
    (by decide +kernel) (b2_linf_0_0.cons (b2_linf_0_5.cons (b2_linf_0_10.cons b2_linf_0_15)))

theorem b2_l1 : b2Tab.Refuted .l1 2 9 1 4 :=
  Tab.refuted_two (T := b2Tab) rfl b2_paths0 b2_paths1 b2_pairs (part2r b2_l1_run0)

theorem b2_linf : b2Tab.Refuted .linf 2 6 1 4 :=
  Tab.refuted_two (T := b2Tab) rfl b2_paths0 b2_paths1 b2_pairs (part2r b2_linf_run0)

end MinCert
end Peano
