import Verif.Lemmas.MinRun
import Verif.MinCerts.Side6a

set_option autoImplicit false

/-
Side, grid 6, steps to adjacent cells: no curve has less dilation.  This file is generated.
-/
namespace Peano
namespace MinCert

def side6a_l1_0 : List ℕ := [
  20, 288232027567030297, 120, 865236519516897377, 36893699666228936729, 20, 288232027567030297, 104, 132, 110741267713374224493,
  110741267713374224493, 36893699666195382297, 20, 288232027567030297, 96, 124, 110736763838868815973, 110736763838868815973, 36893699666178605081,
  20, 288232027567030297, 96, 288232028642017305, 36893699666178605081, 20, 288232027567030297, 88, 865095773438607409, 36893699666161827865, 20,
  288232027567030297, 88, 865095773438607409, 36893699666161827865, 20, 288232027567030297, 88, 865095773438607409, 36893699666161827865, 20,
  288232027567030297, 88, 865095773438607409, 36893699666161827865, 2251822370652209, 2251822370652209, 2251822370652209, 2251822370652209,
  2251822370652209, 2251822370652209, 2251822370652209, 2251822370652209, 20, 288232027567030297, 88, 865095773438607409, 36893699666161827865, 20,
  288232027567030297, 88, 865095773438607409, 36893699666161827865, 2251838476779629, 20, 288232027567030297, 104, 132, 110741267713374224493,
  110741267713374224493, 36893699666195382297, 20, 288232027567030297, 96, 124, 110736763838868815973, 110736763838868815973, 36893699666178605081,
  20, 288232027567030297, 96, 288232028642017305, 36893699666178605081, 20, 288232027567030297, 96, 288232028642017305, 36893699666178605081, 20,
  288232027567030297, 120, 288232028642410521, 36893699666228936729, 2251838476779629, 20, 288232027567030297, 104, 132, 110741267713374224493,
  110741267713374224493, 36893699666195382297, 20, 288232027567030297, 104, 132, 110741267713374224493, 110741267713374224493, 36893699666195382297,
  20, 288232027567030297, 120, 288232028642410521, 36893699666228936729, 20, 288232027567030297, 104, 288232028642148377, 36893699666195382297, 20,
  288232027567030297, 112, 288232028642279449, 36893699666212159513, 2251838476779629, 20, 288232027567030297, 120, 288232028642410521,
  36893699666228936729, 2251838476779629, 20, 288232165005983769, 112, 288232166081232921, 36893717258398203929, 20, 288232165005983769, 96,
  288232166080970777, 36893717258364649497, 20, 288232165005983769, 88, 865095773438607425, 36893717258347872281, 20, 288232165005983769, 88,
  865095773438607425, 36893717258347872281, 20, 288232165005983769, 112, 288232166081232921, 36893717258398203929, 20, 288232165005983769, 104,
  288232166081101849, 36893717258381426713, 20, 288232165005983769, 112, 288232166081232921, 36893717258398203929, 20, 288232165005983769, 112,
  288232166081232921, 36893717258398203929, 2251814854459413, 2251814854459413, 2251814854459413, 2251814854459413, 2251814854459413,
  2251814854459413, 2251814854459413, 2251814854459413, 2251814854459413, 2251814854459413, 2251814854459413, 2251814854459413, 2251814854459413,
  2251814854459413, 2251833108070489, 2251834181812317, 2251832034328661, 4, 8, 36893541612245746817, 36893545323097490553, 0, 36893527730911445625,
  36893527730911445525, 2251829886845005]

theorem side6a_l1_run0 : run .l1 2 9 1 side6aEnv [] side6a_l1_0 (side6aPaths0.map fun P => ⟨[P], []⟩) = true := Run.run_one (by decide +kernel)

def side6a_l1_1 : List ℕ := [
  4, 8, 36893541612245746817, 36893545323097490553, 0, 36893527730911445625, 36893527730911445525, 24, 0, 4722382562127698199045,
  36893613905135272589, 20, 576566312935882757, 36893615416963763229, 0, 4, 36893524020059701889, 36893527730911445625, 4, 8, 36893541612245746817,
  36893545323097490553, 36893527730911445525, 2251827739361349, 64, 864990213879889961, 20, 576566323681689641, 73800786179145072681, 64,
  864990213879889961, 20, 576566323681689641, 73800786179145072681, 64, 864990213879889961, 20, 576566323681689641, 73800786179145072681, 64,
  864990213879889961, 20, 576566323681689641, 73800786179145072681, 64, 864990213879889961, 20, 576566323681689641, 73800786179145072681, 64,
  864990213879889961, 20, 576566323681689641, 73800786179145072681, 64, 864990213879889961, 20, 576566323681689641, 73800786179145072681, 0, 24,
  4722382562127698199045, 36893611980989923961, 24, 36893613905135272589, 20, 576566312935882757, 36893615416963763229, 4, 8, 36893541612245746817,
  36893545323097490553, 0, 36893527730911445625, 36893527730911445525, 2251838476779629, 2251834181812317, 2251832034328661, 4, 8,
  36893541612245746817, 36893545323097490553, 0, 36893527730911445625, 36893527730911445525, 20, 16, 73800487920501915669, 73800487920501915669, 44,
  36893702965577124893, 36893699941920148509, 20, 0, 73800487920501915653, 24, 36893615279524807313, 576566312935882757, 16, 36893597687338764893,
  36893597687338764825, 20, 16, 73800487920501915669, 73800487920501915669, 16, 36893597687338764901, 36893597687338764825, 20, 288232577322844185,
  112, 288232578398093337, 36893770034956337177, 20, 288232577322844185, 120, 288232578398224409, 36893770034973114393, 2251838476779629, 4, 8,
  36893541612245746817, 36893545323097490553, 0, 36893527730911445625, 36893527730911445525, 20, 288232027567030297, 120, 288232028642410521,
  36893699666228936729, 2251838476779629, 2251834181812317, 2251834181812317, 120, 865236519516897377, 20, 576566338714075233, 73801032484782080097,
  2251833108070489, 4, 8, 36893541612245746817, 36893545323097490549, 0, 36893527730911445621, 36893527730911445525, 2251829886845005, 24, 0,
  4722382562127698199045, 36893613905135272589, 20, 576566312935882757, 36893615416963763229, 0, 20, 73800487920501915653, 24,
  4722382562127698199045, 36893615416963763229, 4, 8, 36893541887123653753, 12, 16, 36893577071495743609, 20, 73800487920501915669, 24,
  36893613905135272537, 36893615416963763229, 36893562640405628445, 36893527456033538589, 4, 8, 36893541612245746817, 36893545323097490549, 0,
  36893527730911445621, 36893527730911445525, 2251827739361349, 0, 24, 4722382526943326110213, 36893611980989923953, 4, 8, 36893543261513188465, 12,
  16, 36893578445885278321, 20, 73800487920501915669, 36893598374533532189, 36893562365527721541, 36893527181155631685, 4, 8, 36893541612245746817,
  36893545323097490549, 0, 36893527730911445621, 36893527730911445525, 0, 20, 73800487920501915653, 24, 4722382526943326110213, 36893615142085856325,
  4, 8, 36893543261513188465, 12, 16, 36893578445885278321, 20, 73800487920501915669, 24, 36893613630257365645, 36893615142085856325,
  36893562365527721541, 36893527181155631685, 0, 24, 4722382526943326110213, 20, 576566312935882757, 36893615416963763229, 24, 36893613630257365645,
  20, 576566312935882757, 36893615416963763229, 24, 0, 4722382526943326110213, 36893613630257365585, 20, 576566312935882757, 36893615416963763229, 4,
  8, 36893541612245746817, 36893545323097490549, 0, 36893527730911445621, 36893527730911445525, 2251825591877693, 56, 864955027351928837, 20,
  576566321525817349, 73800750992617111557, 56, 864955027351928837, 20, 576566321525817349, 73800750992617111557, 56, 864955027351928837, 20,
  576566321525817349, 73800750992617111557, 56, 864955027351928837, 20, 576566321525817349, 73800750992617111557, 56, 864955027351928837, 20,
  576566321525817349, 73800750992617111557, 56, 864955027351928837, 20, 576566321525817349, 73800750992617111557, 56, 864955027351928837, 20,
  576566321525817349, 73800750992617111557, 56, 864955027351928837, 20, 576566321525817349, 73800750992617111557, 56, 864955027351928837, 20,
  576566321525817349, 73800750992617111557, 56, 864955027351928837, 20, 576566321525817349, 73800750992617111557, 56, 864955027351928837, 20,
  576566321525817349, 73800750992617111557, 56, 864955027351928837, 20, 576566321525817349, 73800750992617111557, 56, 864955027351928837, 20,
  576566321525817349, 73800750992617111557, 20, 16, 73800487920501915669, 73800487920501915669, 16, 36893597687338764901, 36893597687338764825,
  2251838476779629, 0, 20, 73800487920501915653, 24, 4722382526943326110213, 36893615142085856325, 4, 8, 36893543261513188465, 12, 16,
  36893578445885278321, 20, 73800487920501915669, 24, 36893613630257365645, 36893615142085856325, 36893562365527721541, 36893527181155631685, 0, 24,
  4722382526943326110213, 20, 576566312935882757, 36893615416963763229, 24, 36893613630257365645, 20, 576566312935882757, 36893615416963763229]

theorem side6a_l1_run1 : run .l1 2 9 1 side6aEnv [] side6a_l1_1 (side6aPaths1.map fun P => ⟨[P], []⟩) = true := Run.run_one (by decide +kernel)

def side6a_l1_2 : List ℕ := [
  0, 24, 4722382526943326110213, 36893611980989923961, 24, 36893613630257365593, 4, 8, 36893541887123653753, 12, 16, 36893577071495743609, 20,
  73800487920501915669, 36893615416963763229, 36893562640405628445, 36893527456033538589, 4, 8, 36893541612245746817, 36893545323097490549, 0,
  36893527730911445621, 36893527730911445525, 2251838476779629, 2251838476779629, 20, 288232027567030297, 80, 288232028641755161,
  36893699666145050649, 2251829886845005, 0, 24, 4722382562127698199045, 20, 576566312935882757, 36893615416963763229, 24, 36893613905135272589, 20,
  576566312935882757, 36893615416963763229, 24, 0, 4722382562127698199045, 36893613905135272537, 20, 576566312935882757, 36893615416963763229, 4, 8,
  36893541612245746817, 36893545323097490549, 0, 36893527730911445621, 36893527730911445525, 120, 865236519516897377, 20, 576566338714075233,
  73801032484782080097, 2251828813103177, 112, 865201332997324889, 20, 576566336566591577, 73800997298262507609, 120, 865236519516897377, 20,
  576566338714075233, 73801032484782080097, 2251830960586833, 120, 865236519516897361, 20, 576566338714075217, 73801032484782080081,
  2251833108070489, 2251834181812317, 120, 865236519516897377, 20, 576566338714075233, 73801032484782080097, 2251833108070489, 0, 4,
  36893524844693422717, 36893527730911445613, 4, 8, 36893542436879467645, 36893545323097490541, 36893527730911445525, 0, 24, 4722382526943326110213,
  36893611980989923953, 24, 36893613630257365645, 4, 8, 36893543261513188465, 12, 16, 36893578445885278321, 20, 73800487920501915669,
  36893615142085856325, 36893562365527721541, 36893527181155631685, 0, 4, 36893524294937608825, 36893527456033538665, 4, 8, 36893541887123653753,
  36893545048219583593, 36893527456033538589, 0, 4, 36893524294937608825, 36893527456033538665, 4, 8, 36893541887123653753, 36893545048219583593,
  36893527456033538589, 0, 4, 36893524844693422717, 36893527730911445613, 4, 8, 36893542436879467645, 36893545323097490541, 36893527730911445525,
  2251825591877693, 2251825591877693, 2251825591877693, 2251825591877693, 56, 864955027351928837, 20, 576566321525817349, 73800750992617111557, 56,
  864955027351928837, 20, 576566321525817349, 73800750992617111557, 56, 864955027351928837, 20, 576566321525817349, 73800750992617111557, 56,
  864955027351928837, 20, 576566321525817349, 73800750992617111557, 56, 864955027351928837, 20, 576566321525817349, 73800750992617111557, 56,
  864955027351928837, 20, 576566321525817349, 73800750992617111557, 56, 864955027351928837, 20, 576566321525817349, 73800750992617111557, 56,
  864955027351928837, 20, 576566321525817349, 73800750992617111557, 56, 864955027351928837, 20, 576566321525817349, 73800750992617111557, 56,
  864955027351928837, 20, 576566321525817349, 73800750992617111557, 56, 864955027351928837, 20, 576566321525817349, 73800750992617111557, 56,
  864955027351928837, 20, 576566321525817349, 73800750992617111557, 56, 864955027351928837, 20, 576566321525817349, 73800750992617111557, 56,
  864955027351928837, 20, 576566321525817349, 73800750992617111557, 56, 864955027351928837, 20, 576566321525817349, 73800750992617111557, 56,
  864955027351928837, 20, 576566321525817349, 73800750992617111557, 56, 864955027351928837, 20, 576566321525817349, 73800750992617111557, 56,
  864955027351928837, 20, 576566321525817349, 73800750992617111557, 56, 864955027351928837, 20, 576566321525817349, 73800750992617111557,
  2251813772328965, 2251813772328965, 2251813772328965, 2251813772328965, 2251813772328965, 2251813772328965, 2251813772328965, 2251813772328965,
  2251813772328965, 2251813772328965, 2251813772328965, 2251813772328965, 2251813772328965]

theorem side6a_l1_run2 : run .l1 2 9 1 side6aEnv [] side6a_l1_2 (side6aPaths2.map fun P => ⟨[P], []⟩) = true := Run.run_one (by decide +kernel)

def side6a_l1_3 : List ℕ := [
  2251813772328965, 2251813772328965, 2251813772328965, 2251813772328965, 2251813772328965, 2251813772328965, 2251813772328965, 2251813772328965,
  2251813772328965, 2251813772328965, 2251813772328965, 2251813772328965, 2251813772328965, 2251813772328965, 2251813772328965, 2251813772328965,
  2251813772328965, 2251813772328965, 2251813772328965, 2251813772328965, 2251813772328965, 2251813772328965, 2251813772328965, 2251824518135865,
  2251824518135865, 28, 0, 4722384620413465395717, 36893633146588758585, 0, 4722384550044721218053, 36893629573175968313, 0, 28,
  4722384620413465395717, 4722384550044721218053, 28, 36893632595759202821, 36893629573175968313, 96, 865130959958179897, 20, 576566332271624249,
  73800926925223362617, 96, 865130959958179897, 20, 576566332271624249, 73800926925223362617, 0, 28, 4722384620413465395717, 4722384550044721218053,
  28, 36893632870637109765, 36893629573175968313, 0, 28, 4722384620413465395717, 4722384550044721218053, 28, 36893633146588758585,
  36893629573175968313, 0, 28, 4722384620413465395717, 4722384550044721218053, 28, 36893632870637109765, 36893629573175968313, 20,
  288232577322844185, 120, 288232578398224409, 36893770034973114393, 20, 288232577322844185, 112, 865201332997324889, 73800997298262507609, 20,
  288232577322844185, 120, 288232578398224409, 36893770034973114393, 72, 865025400399462449, 20, 576566325829173297, 73800821365664645169, 72,
  865025400399462449, 20, 576566325829173297, 73800821365664645169, 120, 865236519516897361, 20, 576566338714075217, 73801032484782080081,
  2251834181812317, 2251832034328661, 0, 4, 36893524432376562301, 36893527730911445625, 28, 36893631771125481989, 36893629573175968349, 0, 28,
  4722384620413465395717, 4722384550044721218053, 28, 36893632870637109765, 36893629573175968321, 28, 0, 4722384620413465395717,
  36893633146588758593, 0, 4722384550044721218053, 36893629573175968321, 0, 24, 4722382526943326110213, 36893611980989923953, 28,
  36893631083930714629, 36893629573175968341, 0, 24, 4722382526943326110213, 36893611980989923961, 28, 36893631083930714629, 36893629573175968341, 0,
  24, 4722382526943326110213, 36893611980989923961, 28, 36893631083930714629, 36893629573175968341, 0, 4, 36893524432376562301, 36893527730911445621,
  28, 36893631083930714629, 36893629573175968341, 28, 0, 4722384620413465395717, 36893633146588758601, 0, 4722384550044721218053,
  36893629573175968329, 120, 865236519516897361, 20, 576566338714075217, 73801032484782080081, 0, 4, 36893524432376562301, 36893527730911445621, 28,
  36893631771125481989, 36893629573175968313, 2251829886845005, 0, 24, 4722382562127698199045, 36893611980989923961, 28, 36893631358808621573,
  36893629573175968341, 0, 24, 4722382562127698199045, 36893611980989923961, 28, 36893631358808621573, 36893629573175968341, 0, 4,
  36893524432376562301, 36893527730911445621, 28, 36893631358808621573, 36893629573175968341, 2251809477361669, 2251809477361669, 2251809477361669,
  2251809477361669, 2251809477361669, 2251809477361669]

theorem side6a_l1_run3 : run .l1 2 9 1 side6aEnv [] side6a_l1_3 (side6aPaths3.map fun P => ⟨[P], []⟩) = true := Run.run_one (by decide +kernel)

def side6a_l1_4 : List ℕ := [
  2251809477361669, 2251809477361669, 2251809477361669, 2251809477361669, 2251809477361669, 2251809477361669, 2251809477361669, 2251809477361669,
  2251809477361669, 2251809477361669, 2251809477361669, 2251809477361669, 2251809477361669, 2251809477361669, 2251809477361669, 2251809477361669,
  2251809477361669, 2251809477361669, 2251809477361669, 2251809477361669, 2251809477361669, 2251809477361669, 2251809477361669, 2251809477361669,
  2251809477361669, 2251809477361669, 2251809477361669, 2251809477361669, 2251809477361669, 2251809477361669, 2251809477361669, 2251809477361669,
  2251809477361669, 2251809477361669, 2251809477361669, 2251809477361669, 2251809477361669, 2251809477361669, 2251809477361669, 2251809477361669,
  2251809477361669, 2251809477361669, 2251809477361669, 2251809477361669, 2251809477361669, 2251809477361669, 2251809477361669, 2251809477361669,
  2251809477361669, 2251809477361669, 2251809477361669, 2251809477361669, 2251809477361669, 2251809477361669, 2251809477361669, 2251809477361669,
  2251809477361669, 2251809477361669, 2251809477361669, 2251809477361669, 2251809477361669, 2251809477361669, 2251809477361669, 2251809477361669,
  2251809477361669, 2251809477361669, 2251809477361669, 2251809477361669, 2251809477361669, 2251809477361669, 2251809477361669, 2251809477361669,
  2251809477361669, 2251809477361669, 2251809477361669, 2251809477361669, 2251809477361669, 2251809477361669, 2251809477361669, 2251809477361669,
  2251809477361669, 2251809477361669, 2251809477361669, 2251809477361669, 2251809477361669, 2251809477361669, 2251809477361669, 2251809477361669,
  2251809477361669, 2251809477361669, 2251809477361669, 2251809477361669]

theorem side6a_l1_run4 : run .l1 2 9 1 side6aEnv [] side6a_l1_4 (side6aPaths4.map fun P => ⟨[P], []⟩) = true := Run.run_one (by decide +kernel)

def side6a_l1_5 : List ℕ := [
  2251809477361669, 2251809477361669, 2251809477361669, 2251809477361669, 2251809477361669, 2251809477361669, 2251809477361669, 2251809477361669,
  2251809477361669, 2251809477361669, 2251809477361669, 2251809477361669, 2251809477361669, 2251809477361669, 2251809477361669, 2251809477361669,
  2251809477361669, 2251809477361669, 2251809477361669, 2251809477361669, 2251809477361669, 2251809477361669, 2251809477361669, 2251809477361669,
  2251809477361669, 2251809477361669, 2251809477361669, 2251809477361669, 2251809477361669, 2251809477361669, 2251809477361669, 2251809477361669,
  2251809477361669, 2251809477361669, 2251809477361669, 2251809477361669, 2251809477361669, 2251809477361669, 2251809477361669, 2251809477361669,
  2251809477361669, 2251809477361669, 2251809477361669, 2251809477361669, 2251809477361669, 2251809477361669, 8, 12, 36893558929553884777,
  36893562502966675049, 12, 36893558929553884697, 36893562502966674969, 8, 12, 36893559479309698669, 36893562777844581997, 12, 36893558929553884697,
  36893562777844581905, 28, 24, 73804991795007324189, 73804991795007324189, 32, 36, 36893666406815502961, 40, 36893685510830036037,
  36893682487173059597, 36893650326457946181, 28, 24, 73804991795007324189, 73804991795007324189, 32, 36, 36893665444742828665, 40,
  36893685373391082525, 36893682487173059597, 36893650601335853097, 28, 24, 73804991795007324189, 73804991795007324189, 32, 36, 36893665444742828665,
  40, 36893685373391082525, 36893682487173059597, 36893650601335853097, 4, 8, 36893541612245746817, 36893545323097490549, 0, 36893527730911445621,
  36893527730911445525, 8, 12, 36893559479309698669, 36893562777844581997, 12, 36893558929553884697, 36893562777844581905, 28, 288232302445068321,
  120, 865236519516897361, 36893734850601156641, 28, 288232302445068321, 80, 288232303519662113, 36893734850517270561, 2251829886845005, 28, 24,
  73804991795007324189, 73804991795007324189, 52, 36893735401170145317, 36893737050437587005, 28, 24, 73804991795007324189, 73804991795007324189, 52,
  36893735401170145317, 36893737050437587005, 4, 8, 36893541612245746817, 36893545323097490549, 0, 36893527730911445621, 36893527730911445525, 56,
  864955027351928837, 28, 576601505897906181, 73805254592244482053, 56, 864955027351928837, 28, 576601505897906181, 73805254592244482053, 8, 12,
  36893558792114931317, 36893562777844582001, 12, 36893558929553884697, 36893562777844581905, 120, 865236519516897377, 28, 576601523086164065,
  73805536084409450593, 2251833108070489, 4, 8, 36893542436879467645, 36893545323097490549, 0, 36893527730911445621, 36893527730911445525,
  2251829886845005, 0, 40, 4722391586919138984453, 36893682624612008569, 40, 36893684273879450257, 28, 576601501602938885, 4, 8,
  36893542299440514169, 12, 36893558929553884697, 16, 36893576521739929625, 32, 36, 36893665444742828665, 36893685785707942953, 36893650601335853097,
  36893527456033538601, 0, 40, 4722391586919138984453, 36893682624612008569, 40, 36893684273879450257, 28, 576601501602938885, 4, 8,
  36893542299440514169, 12, 36893558929553884697, 16, 36893576521739929625, 32, 36, 36893665444742828665, 36893685785707942953, 36893650601335853097,
  36893527456033538601, 4, 8, 36893542436879467645, 36893545323097490549, 0, 36893527730911445621, 36893527730911445525, 2251813772328965,
  2251813772328965, 2251813772328965, 2251813772328965, 2251813772328965, 2251813772328965, 2251813772328965, 2251813772328965, 2251813772328965]

theorem side6a_l1_run5 : run .l1 2 9 1 side6aEnv [] side6a_l1_5 (side6aPaths5.map fun P => ⟨[P], []⟩) = true := Run.run_one (by decide +kernel)

def side6a_l1_6 : List ℕ := [
  2251813772328965, 2251813772328965, 2251813772328965, 2251813772328965, 2251813772328965, 2251813772328965, 2251813772328965, 2251813772328965,
  2251813772328965, 2251813772328965, 2251825591877693, 60, 288233401957220417, 104, 132, 110741267713374224493, 110741267713374224493,
  36893875588056481857, 32, 56, 264021303366205, 36893756979085840957, 56, 264021303366245, 36893756979085840997, 32, 56, 264021303366205,
  36893756979085840957, 56, 264021303366245, 36893756979085840997, 32, 56, 264021303366205, 36893756979085840957, 56, 264021303366237,
  36893756979085840989, 32, 56, 264021303366205, 36893756979085840957, 56, 264021303366237, 36893756979085840989, 32, 56, 264021303366205,
  36893756979085840957, 56, 264021303366237, 36893756979085840989, 60, 288233951713034305, 88, 288233952787234881, 36893945956767105089, 32, 56,
  264021303366205, 36893756979085840957, 56, 264021303366229, 36893756979085840981, 32, 56, 264021303366205, 36893756979085840957, 56,
  264021303366229, 36893756979085840981, 32, 56, 264021303366205, 36893756979085840957, 56, 264021303366229, 36893756979085840981, 56, 32,
  264021303366205, 264021303366229, 32, 36893756979085840957, 36893756979085840981, 60, 288233401957220417, 80, 288233403031289921,
  36893875588006150209, 60, 288233401957220417, 80, 288233403031289921, 36893875588006150209, 60, 288233539396173889, 80, 288233540470243393,
  36893893180192194625, 2251825591877693, 28, 52, 36893737600193400841, 36893736775559680009, 52, 36893737600193400921, 36893736775559680085, 68,
  288234226591072329, 88, 288234227665141833, 36893981141139325001, 2251826665619521, 2251832034328661, 76, 288234089152249937, 96,
  288234090226319441, 36893963548970188881, 2251829886845005, 68, 44, 73827511167534366769, 9449921431644344948821, 44, 36893808243815487549,
  36893808243815487573, 2251824518135865, 2251836329295973, 76, 288234501469110353, 104, 132, 110741267713374224493, 110741267713374224493,
  36894016325545099345, 2251832034328661, 2251822370652209, 2251822370652209, 2251838476779613, 2251836329295973, 2251838476779613, 2251836329295973,
  68, 288233676835258441, 112, 865201321186164773, 110746083315538722853, 68, 576777430987964453, 96, 865130952441987109, 110737076116283981861, 68,
  576777430987964453, 88, 865095768069898277, 110732572516656611365, 68, 288233676835258441, 88, 865095768069898277, 110732572516656611365,
  2251834181812317, 12, 36, 36893664482670151753, 36893667781205035077, 36, 36893666681693407337, 36893667781205035101, 84, 3163244855385, 112,
  110745769684141867093, 73837026087765278805, 2251834181812317, 2251820223168553, 2251820223168553, 2251820223168553, 2251820223168553,
  2251836329295973, 84, 3163244855385, 112, 110745769684141867093, 73837026087765278805, 2251838476779613, 2251836329295973, 84, 3163244855385, 120,
  110750273283769237589, 73837061272137367637, 84, 3163244855385, 104, 110741266084514496597, 73836990903393189973, 2251838476779613,
  2251836329295973, 2251838476779613, 2251836329295973, 2251833108070489, 2251834181812317, 2251832034328661, 4, 8, 36893541612245746817,
  36893545323097490553, 0, 36893527730911445625, 36893527730911445525, 2251829886845005, 4, 8, 36893541612245746817, 36893545323097490553, 0,
  36893527730911445625, 36893527730911445525, 44, 28, 73813999544018141217, 24, 73813999544018141213, 36893633009149808205, 84, 36893877787925944393,
  36893876688414316617]

theorem side6a_l1_run6 : run .l1 2 9 1 side6aEnv [] side6a_l1_6 (side6aPaths6.map fun P => ⟨[P], []⟩) = true := Run.run_one (by decide +kernel)

def side6a_l1_7 : List ℕ := [
  44, 288233401956958257, 72, 288233403031158833, 36893875587989110833, 2251827739361349, 4, 8, 36893541612245746817, 36893545323097490553, 0,
  36893527730911445625, 36893527730911445525, 40, 64, 14171999666408213452293, 36893788727484093965, 64, 110718747378774507565, 36893788727484094017,
  4, 8, 36893541612245746817, 36893545323097490553, 0, 36893527730911445625, 36893527730911445525, 44, 288232852201144369, 64, 288232853275213873,
  36893805219228155953, 44, 288232852201144369, 64, 288232853275213873, 36893805219228155953, 44, 288232989640097841, 64, 288232990714167345,
  36893822811414200369, 2251821296910381, 72, 116, 110723252765108404301, 110723252765108404301, 48, 36893824186734090761, 36893824186734090825, 52,
  288233676834996281, 72, 288233677909065785, 36893910772361330745, 2251826665619521, 2251827739361349, 2251832034328661, 2251825591877693, 76,
  576812617507536941, 104, 865166138961559597, 110741614902430924845, 84, 3163244855385, 112, 110745769684141867093, 73837026087765278805,
  2251834181812317, 2251822370652209, 2251838476779613, 2251836329295973, 4, 8, 36893541612245746817, 36893545323097490553, 0, 36893527730911445625,
  36893527730911445525, 2251824518135865, 2251836329295973, 2251834181812317, 2251827739361349, 120, 865236519516897377, 36, 576636707458252897,
  73810039684036821089, 2251833108070489, 36, 288232577323106345, 80, 288232578397569065, 36893770034889490473, 2251829886845005, 0, 24,
  4722382562127698199045, 4722382403798023799301, 24, 36893613905135272589, 36893612530745737873, 0, 24, 4722382562127698199045,
  4722382403798023799301, 24, 36893613905135272537, 36893612530745737873, 72, 24, 865025387506171909, 0, 4, 36893524020059701889,
  36893527730911445621, 36893612530745737873, 0, 4, 36893524020059701889, 36893527730911445621, 24, 36893613905135272537, 36893612530745737873,
  2251827739361349, 0, 24, 4722382526943326110213, 4722382403798023799301, 24, 36893613630257365645, 36893612530745737873, 0, 4,
  36893524020059701889, 36893527730911445621, 24, 36893613630257365601, 36893612530745737873, 0, 24, 4722382526943326110213, 4722382403798023799301,
  24, 36893613630257365645, 36893612530745737873, 0, 24, 4722382526943326110213, 4722382403798023799301, 24, 36893613630257365645,
  36893612530745737873, 36, 288233127078920233, 64, 288233128153120809, 36893840403600113705, 36, 288233127078920233, 64, 288233128153120809,
  36893840403600113705, 2251825591877693, 56, 864955027351928837, 36, 576636690269995013, 73809758191871852549, 56, 864955027351928837, 36,
  576636690269995013, 73809758191871852549, 56, 864955027351928837, 36, 576636690269995013, 73809758191871852549, 56, 864955027351928837, 36,
  576636690269995013, 73809758191871852549, 56, 864955027351928837, 36, 576636690269995013, 73809758191871852549, 56, 864955027351928837, 36,
  576636690269995013, 73809758191871852549, 36, 288232577323106345, 56, 864955027351928837, 36893770034839158825, 36, 288232577323106345, 56,
  864955027351928837, 36893770034839158825, 36, 288232577323106345, 56, 864955027351928837, 36893770034839158825, 36, 288232714762059817, 56,
  864955027351928837, 36893787627025203241, 36, 288232714762059817, 56, 864955027351928837, 36893787627025203241, 2251819149426725, 2251819149426725,
  2251824518135865, 2251836329295973, 0, 24, 4722382526943326110213, 4722382438982395888133, 24, 36893613630257365645, 36893612805623644817, 0, 24,
  4722382526943326110213, 4722382438982395888133, 24, 36893613630257365645, 36893612805623644817, 44, 288233401956958257, 64, 288233403031027761,
  36893875587972333617, 44, 288233401956958257, 64, 288233403031027761, 36893875587972333617, 2251826665619521, 2251826665619521, 2251825591877693,
  2251809477361669, 2251809477361669, 2251809477361669, 2251809477361669, 2251830960586833, 120, 865236519516897361, 28, 576601523086164049,
  73805536084409450577, 2251833108070489, 2251834181812317, 2251827739361349, 2251827739361349]

theorem side6a_l1_run7 : run .l1 2 9 1 side6aEnv [] side6a_l1_7 (side6aPaths7.map fun P => ⟨[P], []⟩) = true := Run.run_one (by decide +kernel)

def side6a_l1_8 : List ℕ := [
  64, 108, 110718748890602995781, 110718748890602995781, 60, 56, 36893771959931772529, 36893770585542237733, 36893791063946305605, 4, 8,
  36893541887123653753, 36893545048219583617, 0, 36893527730911445625, 36893527730911445525, 4, 8, 36893541887123653741, 36893544635902723201, 0,
  36893527730911445613, 36893527730911445525, 64, 68, 72, 36893826523196302405, 76, 80, 36893861707568392261, 110718747928530321477,
  36893842328675952249, 110718747516213461061, 60, 56, 36893771959931772537, 36893770585542237733, 36893791338824212549, 4, 8, 36893541887123653741,
  36893544635902723201, 0, 36893527730911445613, 36893527730911445525, 4, 8, 36893541887123653753, 36893545048219583617, 0, 36893527730911445625,
  36893527730911445525, 2251825591877693, 2251825591877693, 56, 864955027351928837, 28, 576601505897906181, 73805254592244482053, 56,
  864955027351928837, 28, 576601505897906181, 73805254592244482053, 56, 864955027351928837, 28, 576601505897906181, 73805254592244482053, 56,
  864955027351928837, 28, 576601505897906181, 73805254592244482053, 56, 864955027351928837, 28, 576601505897906181, 73805254592244482053, 56,
  864955027351928837, 28, 576601505897906181, 73805254592244482053, 56, 864955027351928837, 28, 576601505897906181, 73805254592244482053, 28,
  288232852200882209, 56, 864955027351928837, 73805254592244482053, 28, 288232852200882209, 56, 864955027351928837, 73805254592244482053, 52,
  288233676834996281, 120, 865236519516897377, 73819046883291562081]

theorem side6a_l1_run8 : run .l1 2 9 1 side6aEnv [] side6a_l1_8 (side6aPaths8.map fun P => ⟨[P], []⟩) = true := Run.run_one (by decide +kernel)

def side6a_l1_9 : List ℕ := [
  24, 48, 36893721794713751093, 228836931276341, 48, 36893721794713751149, 228836931276397, 24, 48, 36893721794713751093, 228836931276341, 48,
  36893721794713751141, 228836931276389, 24, 48, 36893721794713751093, 228836931276341, 48, 36893721794713751141, 228836931276389, 24, 48,
  36893721794713751093, 228836931276341, 48, 36893721794713751133, 228836931276381, 24, 48, 36893721794713751093, 228836931276341, 48,
  36893721794713751133, 228836931276381, 24, 48, 36893721794713751093, 228836931276341, 48, 36893721794713751133, 228836931276381, 24, 48,
  36893721794713751093, 228836931276341, 48, 36893721794713751133, 228836931276381, 24, 48, 36893721794713751093, 228836931276341, 48,
  36893721794713751125, 228836931276373, 24, 48, 36893721794713751093, 228836931276341, 48, 36893721794713751125, 228836931276373, 24, 48,
  36893721794713751093, 228836931276341, 48, 36893721794713751125, 228836931276373, 24, 48, 36893721794713751093, 228836931276341, 48,
  36893721794713751125, 228836931276373, 24, 48, 36893721794713751093, 228836931276341, 48, 36893721794713751125, 228836931276373, 24, 48,
  36893721794713751093, 228836931276341, 48, 36893721794713751125, 228836931276373, 24, 48, 36893721794713751093, 228836931276341, 48,
  36893721794713751125, 228836931276373, 52, 288233676834996281, 80, 288233677909196857, 36893910772378107961, 2251825591877693, 60,
  288233401957220417, 104, 132, 110741267713374224493, 110741267713374224493, 36893875588056481857, 60, 84, 73823008117662679105,
  36893878612559667253, 84, 36893877238170132557, 36893878612559667277, 60, 84, 73823008117662679105, 36893878612559667253, 84, 36893877238170132557,
  36893878612559667277, 88, 116, 110732259964363407453, 110732259964363407453, 112, 36894000383472446985, 36894001482984074761, 60, 80,
  73823007980223725633, 4722414175561023758401, 88, 108, 4722429797559728877149, 110732259689485500509, 80, 1209522745093487787507777,
  1814241891705201246601281, 60, 80, 73823007980223725633, 4722414175561023758401, 100, 36893948706425938009, 36893947606914310233, 60,
  288233951713034305, 88, 288233952787234881, 36893945956767105089, 80, 865060586919034937, 60, 576742249837101113, 73823374550321070137, 80,
  865060586919034937, 60, 576742249837101113, 73823374550321070137, 80, 865060586919034937, 60, 576742249837101113, 73823374550321070137, 80,
  865060586919034937, 60, 576742249837101113, 73823374550321070137, 60, 288233401957220417, 80, 865060586919034937, 73823374550321070137, 60,
  288233401957220417, 80, 865060586919034937, 73823374550321070137, 60, 288233539396173889, 80, 865060586919034937, 36893893180192194625,
  2251825591877693, 88, 865095773438607425, 68, 576777436356673601, 73827913336468013121, 68, 288234226591072329, 88, 865095773438607425,
  73827913336468013121, 2251836329295973, 2251832034328661, 76, 288234089152249937, 96, 865130959958179913, 36893963548970188881, 2251829886845005,
  60, 36, 73823007293028958249, 1209516151735534888162345, 36, 36893773059443397685, 36893773059443397717]

theorem side6a_l1_run9 : run .l1 2 9 1 side6aEnv [] side6a_l1_9 (side6aPaths9.map fun P => ⟨[P], []⟩) = true := Run.run_one (by decide +kernel)

def side6a_l1_10 : List ℕ := [
  96, 100, 4722425329144490373733, 110736763014235095141, 68, 88, 73827511854729134153, 36893896204745712709, 88, 1209597108565719318134857,
  1814316255177432777228361, 2251822370652209, 2251838476779613, 2251838476779613, 2251836329295973, 20, 44, 36893702965577124929,
  36893701591187590153, 44, 36893702965577124969, 36893701591187590237, 76, 288234501469110353, 104, 132, 110741267713374224493,
  110741267713374224493, 36894016325545099345, 76, 288234501469110353, 104, 132, 110741267713374224493, 110741267713374224493, 36894016325545099345,
  2251832034328661, 2251820223168553, 2251820223168553, 84, 3163244855385, 120, 110750273283769237589, 73837061272137367637, 84, 3163244855385, 104,
  865166146477752401, 73836990908761899089, 2251838476779613, 2251836329295973, 84, 3163244855385, 120, 110750273283769237589, 73837061272137367637,
  2251838476779613, 2251838476779613, 2251836329295973, 60, 576742244468391965, 112, 865201319038681117, 110746048129019150365, 60,
  576742244468391965, 96, 865130950294503453, 110737040929764409373, 60, 576742244468391965, 88, 865095765922414621, 110732537330137038877, 60,
  576742244468391965, 88, 865095765922414621, 110732537330137038877, 68, 288233676835258441, 112, 288233677909721161, 36893910772445478985, 28, 52,
  36893737875071307829, 36893736775559680065, 52, 36893737875071307861, 36893736775559680097, 88, 865095773438607425, 68, 576777436356673601,
  73827913336468013121, 68, 288233676835258441, 88, 865095773438607425, 73827913336468013121, 2251834181812317]

theorem side6a_l1_run10 : run .l1 2 9 1 side6aEnv [] side6a_l1_10 (side6aPaths10.map fun P => ⟨[P], []⟩) = true := Run.run_one (by decide +kernel)

def side6a_l1_11 : List ℕ := [
  68, 28, 73827511167534366753, 9449921431644344946793, 28, 36893808518693392449, 36893808518693392489, 76, 80, 4722413894086080604241,
  4722414386667289847889, 104, 108, 4722429850336320566893, 110741266888740503661, 96, 100, 604470770893269879501905, 36893949256181756493,
  1814390618649664307855441, 48, 72, 36893823362100369993, 334390047545929, 72, 36893827347830020725, 334390047545973, 84, 3163244855385, 112,
  110745769684141867093, 73837026087765278805, 84, 3163244855385, 112, 110745769684141867093, 73837026087765278805, 2251834181812317,
  2251818075684897, 2251818075684897, 2251818075684897, 2251818075684897, 76, 288233951713296465, 120, 288233952787759185, 36893945956834476113, 8,
  32, 36893649089507362377, 36893650189018990141, 4, 36893544635902723149, 36893543536391095329, 96, 865130959958179913, 76, 576812622876246089,
  73832452122614956105, 76, 288233951713296465, 96, 865130959958179913, 73832452122614956105, 2251836329295973, 8, 32, 36893649089507362377,
  36893650463896897093, 4, 36893544910780630089, 36893543536391095329, 84, 3163244855385, 112, 110745769684141867093, 73837026087765278805, 84,
  3163244855385, 120, 110750273283769237589, 73837061272137367637, 2251838476779613, 2251838476779613, 2251836329295973, 8, 32, 36893649089507362377,
  36893650738774804033, 4, 36893545185658537033, 36893545185658536977, 8, 32, 36893649089507362377, 36893650189018990149, 4, 36893544635902723149,
  36893543536391095329, 84, 3163244855385, 120, 110750273283769237589, 73837061272137367637, 84, 3163244855385, 104, 865166146477752401,
  73836990908761899089, 2251838476779613, 2251836329295973, 84, 3163244855385, 120, 110750273283769237589, 73837061272137367637, 2251838476779613,
  2251838476779613, 2251836329295973, 2251833108070489, 2251834181812317, 2251832034328661, 4, 8, 36893541612245746817, 36893545048219583617, 0,
  36893527730911445625, 36893527730911445525, 2251829886845005, 4, 8, 36893541612245746817, 36893545048219583617, 0, 36893527730911445625,
  36893527730911445525, 4, 72, 116, 110723252765108404301, 110723252765108404301, 68, 64, 36893807419181769337, 36893806044792234573,
  36893826523196302413, 72, 116, 110723252765108404301, 110723252765108404301, 68, 64, 36893807419181769337, 36893806044792234573,
  36893826523196302413, 4, 8, 36893541612245746817, 36893545048219583617, 0, 36893527730911445625, 36893527730911445525, 2251827739361349]

theorem side6a_l1_run11 : run .l1 2 9 1 side6aEnv [] side6a_l1_11 (side6aPaths11.map fun P => ⟨[P], []⟩) = true := Run.run_one (by decide +kernel)

def side6a_l1_12 : List ℕ := [
  4, 8, 36893541612245746817, 36893545048219583617, 0, 36893527730911445625, 36893527730911445525, 28, 32, 36893648814629457953,
  36893650601335853125, 64, 110718747378774507553, 60, 56, 36893771959931772537, 52, 48, 36893736775559682681, 36893735676048054849,
  36893756154452122693, 36893791338824212549, 4, 8, 36893541612245746817, 36893545048219583617, 0, 36893527730911445625, 36893527730911445525, 28,
  32, 36893648814629457953, 36893650326457946181, 52, 48, 36893736775559682673, 36893735676048054849, 56, 60, 36893771959931772529, 64, 108,
  110718748890602995781, 110718748890602995781, 36893791063946305605, 36893755879574215749, 4, 8, 36893541612245746817, 36893545048219583617, 0,
  36893527730911445625, 36893527730911445525, 36, 16, 73809495669512732693, 20, 73809495669512732697, 36893597824777718341, 76, 36893842328675947585,
  36893841229164319805, 36, 288233127078920233, 64, 288233128153120809, 36893840403600113705, 2251833108070489, 2251834181812317, 2251832034328661,
  0, 4, 36893524020059701889, 36893527730911445625, 24, 36893614180013179489, 36893612805623644817, 2251829886845005, 0, 4, 36893524020059701889,
  36893527730911445625, 24, 36893613905135272553, 36893612805623644817, 0, 24, 4722382562127698199045, 4722382438982395888133, 24,
  36893613905135272589, 36893612805623644817, 44, 288233401956958257, 72, 288233403031158833, 36893875587989110833, 2251827739361349, 64,
  864990213879889961, 44, 576671876797956137, 73814296978027184169, 64, 864990213879889961, 44, 576671876797956137, 73814296978027184169, 64,
  864990213879889961, 44, 576671876797956137, 73814296978027184169, 44, 288232852201144369, 64, 864990213879889961, 36893805219228155953, 44,
  288232852201144369, 64, 864990213879889961, 36893805219228155953, 44, 288232989640097841, 64, 864990213879889961, 36893822811414200369,
  2251821296910381, 72, 865025400399462449, 52, 576707063317528625, 73818835764174127153, 52, 288233676834996281, 72, 865025400399462449,
  73818835764174127153, 2251836329295973, 2251827739361349, 2251809477361669, 2251809477361669, 68, 576777430987964453, 104, 865166136814075941,
  110741579715911352357, 36, 60, 36893773334321304637, 36893772234809676873, 60, 36893773334321304669, 36893772234809676905, 28, 52,
  36893738424827121741, 36893737050437586953, 52, 36893738424827121777, 36893737050437587045, 84, 3163244855385, 112, 110745769684141867093,
  73837026087765278805, 84, 3163244855385, 112, 110745769684141867093, 73837026087765278805, 2251834181812317, 2251820223168553, 84, 3163244855385,
  112, 110745769684141867093, 73837026087765278805, 84, 3163244855385, 120, 110750273283769237589, 73837061272137367637, 2251838476779613,
  2251838476779613, 2251836329295973, 0, 4, 36893524020059701889, 36893527730911445625, 24, 36893614180013179537, 36893612805623644817, 0, 4,
  36893524020059701889, 36893527730911445625, 24, 36893614180013179537, 36893613080501551761]

theorem side6a_l1_run12 : run .l1 2 9 1 side6aEnv [] side6a_l1_12 (side6aPaths12.map fun P => ⟨[P], []⟩) = true := Run.run_one (by decide +kernel)

def side6a_l1_13 : List ℕ := [
  2251822370652209, 2251838476779613, 2251838476779613, 2251836329295973, 2251834181812317, 2251834181812317, 2251809477361669, 2251809477361669,
  120, 865236519516897377, 44, 16, 73813999544018141205, 73813999544018141205, 73814543283664191585, 16, 40, 36893686610341661229, 193652559186477,
  40, 36893686610341661293, 193652559186541, 16, 40, 36893686610341661229, 193652559186477, 40, 36893686610341661285, 193652559186533, 16, 40,
  36893686610341661229, 193652559186477, 40, 36893686610341661285, 193652559186533, 16, 40, 36893686610341661229, 193652559186477, 40,
  36893686610341661277, 193652559186525, 16, 40, 36893686610341661229, 193652559186477, 40, 36893686610341661277, 193652559186525, 16, 40,
  36893686610341661229, 193652559186477, 40, 36893686610341661277, 193652559186525, 16, 40, 36893686610341661229, 193652559186477, 40,
  36893686610341661277, 193652559186525, 16, 40, 36893686610341661229, 193652559186477, 40, 36893682212295150165, 193652559186517, 16, 40,
  36893686610341661229, 193652559186477, 40, 36893682212295150165, 193652559186517, 16, 40, 36893686610341661229, 193652559186477, 40,
  36893682212295150165, 193652559186517, 16, 40, 36893686610341661229, 193652559186477, 40, 36893682212295150165, 193652559186517, 16, 40,
  36893686610341661229, 193652559186477, 40, 36893682212295150165, 193652559186517, 16, 40, 36893686610341661229, 193652559186477, 40,
  36893682212295150165, 193652559186517, 16, 40, 36893686610341661229, 193652559186477, 40, 36893682212295150165, 193652559186517, 16, 40,
  36893686610341661229, 193652559186477, 40, 36893682212295150165, 193652559186517, 16, 40, 36893686610341661229, 193652559186477, 40,
  36893686610341661277, 193652559186525, 16, 40, 36893686610341661229, 193652559186477, 40, 36893686610341661277, 193652559186525, 2251821296910381,
  44, 288232852201144369, 104, 132, 110741267713374224493, 110741267713374224493, 36893805219312042033, 16, 40, 36893686610341661229,
  193652559186477, 40, 36893686610341661285, 193652559186533, 16, 40, 36893686610341661229, 193652559186477, 40, 36893686610341661285,
  193652559186533, 16, 40, 36893686610341661229, 193652559186477, 40, 36893686610341661277, 193652559186525, 16, 40, 36893686610341661229,
  193652559186477, 40, 36893686610341661277, 193652559186525, 44, 288233401956958257, 120, 288233403031945265, 36893875588089774129, 16, 40,
  36893686610341661229, 193652559186477, 40, 36893686610341661293, 193652559186541, 16, 40, 36893686610341661229, 193652559186477, 40,
  36893686610341661285, 193652559186533, 16, 40, 36893686610341661229, 193652559186477, 40, 36893686610341661285, 193652559186533, 120,
  865236519516897377, 44, 16, 73813999544018141205, 73813999544018141205, 73814543283664191585, 16, 40, 36893686610341661229, 193652559186477, 40,
  36893686610341661293, 193652559186541, 16, 40, 36893686610341661229, 193652559186477, 40, 36893686610341661285, 193652559186533, 16, 40,
  36893686610341661229, 193652559186477, 40, 36893686610341661285, 193652559186533, 64, 864990213879889957, 44, 576671876797956133,
  73814296978027184165, 64, 864990213879889957, 44, 576671876797956133, 73814296978027184165, 64, 864990213879889957, 44, 576671876797956133,
  73814296978027184165, 64, 864990213879889957, 44, 576671876797956133, 73814296978027184165, 44, 288232852201144369, 64, 864990213879889957,
  73814296978027184165, 44, 288232852201144369, 64, 864990213879889957, 73814296978027184165, 44, 288232989640097841, 64, 864990213879889957,
  36893822811414200369, 2251821296910381]

theorem side6a_l1_run13 : run .l1 2 9 1 side6aEnv [] side6a_l1_13 (side6aPaths13.map fun P => ⟨[P], []⟩) = true := Run.run_one (by decide +kernel)

def side6a_l1_14 : List ℕ := [
  88, 68, 14173729155042873713717, 110732259002290733129, 52, 72, 73818504105718317113, 4722409671961379609657, 72, 1209448958082008577081401,
  1814241315209264570957881]

theorem side6a_l1_run14 : run .l1 2 9 1 side6aEnv [] side6a_l1_14 (side6aPaths14.map fun P => ⟨[P], []⟩) = true := Run.run_one (by decide +kernel)

def side6a_l1_15 : List ℕ := [
  52, 72, 73818504105718317113, 4722409671961379609657, 88, 68, 14173729155042873713717, 110732259002290733129, 72, 1209448958082008577081401,
  1814241315209264570957881]

theorem side6a_l1_run15 : run .l1 2 9 1 side6aEnv [] side6a_l1_15 (side6aPaths15.map fun P => ⟨[P], []⟩) = true := Run.run_one (by decide +kernel)

def side6a_l1_16 : List ℕ := [
  2251823444394037, 52, 288233127079182393, 104, 132, 110741267713374224493, 110741267713374224493, 36893840403684261945, 52, 76,
  73818504243157270585, 36893843428187577393, 76, 36893841778920135765, 36893843428187577429, 52, 76, 73818504243157270585, 36893843428187577393, 76,
  36893841778920135765, 36893843428187577429, 52, 288233676834996281, 120, 865236519516897377, 73819046883291562081, 104, 132, 110741267713374224493,
  110741267713374224493, 128, 36894070477338719781, 36894072401484068401, 96, 124, 110736763838868815973, 110736763838868815973, 120,
  36894035292966629925, 36894036942234071589, 96, 76, 14174305651254427134005, 110736762876796141649, 52, 76, 73818504930352037969,
  9448768631085060860005, 76, 1209449534648176483041361, 1209449534648314013548625, 72, 32, 14172576162619766870565, 110723251253279916069, 32,
  36893824186734088753, 36893824186734088781, 72, 32, 14172576162619766870565, 110723251253279916069, 32, 36893824186734088753, 36893824186734088781,
  72, 32, 14172576162619766870565, 110723251253279916069, 32, 36893824186734088753, 36893824186734088781, 72, 32, 14172576162619766870565,
  110723251253279916069, 32, 36893824186734088753, 36893824186734088781, 52, 288233127079182393, 72, 288233128153251897, 36893840403617153081, 52,
  288233127079182393, 72, 288233128153251897, 36893840403617153081, 52, 288233264518135865, 72, 288233265592205369, 36893857995803197497,
  2251823444394037, 2251825591877693, 60, 288233401957220417, 104, 132, 110741267713374224493, 110741267713374224493, 36893875588056481857, 60, 84,
  73823008117662679105, 36893878612559667253, 84, 36893877238170132557, 36893878612559667277, 60, 84, 73823008117662679105, 36893878612559667253, 84,
  36893877238170132557, 36893878612559667277, 88, 116, 110732259964363407453, 110732259964363407453, 112, 36894000383472447013, 36894001482984074789,
  60, 80, 73823007980223725633, 4722414175561023758401, 88, 108, 4722429797559728877149, 110732259689485500509, 80, 1209522745093487787507777,
  1814241891705201246601281, 60, 80, 73823007980223725633, 4722414175561023758401, 100, 36893948706425938009, 36893947606914310233, 60,
  288233951713034305, 88, 288233952787234881, 36893945956767105089, 80, 108, 110727756089857998933, 110727756089857998933, 56, 36893859645984087589,
  36893859645984087633, 80, 56, 14173152658831320292869, 110727755127785324605, 56, 36893859645984087589, 36893859645984087633, 80, 56,
  14173152658831320292869, 110727755127785324605, 56, 36893859645984087589, 36893859645984087633, 80, 56, 14173152658831320292869,
  110727755127785324605, 56, 36893859645984087589, 36893859645984087633, 60, 288233401957220417, 80, 288233403031289921, 36893875588006150209, 60,
  288233401957220417, 80, 288233403031289921, 36893875588006150209, 60, 288233539396173889, 80, 288233540470243393, 36893893180192194625,
  2251825591877693, 64, 88, 14173729155042873713157, 36893895105234084389, 88, 110732259002290733125, 36893895105234084437, 68, 288234226591072329,
  88, 288234227665141833, 36893981141139325001, 2251826665619521, 2251832034328661, 76, 288234089152249937, 96, 288234090226319441,
  36893963548970188881, 2251829886845005, 52, 288233676834996281, 120, 865236519516897377, 73819046883291562081, 104, 132, 110741267713374224493,
  110741267713374224493, 128, 36894070477338719789, 36894072401484068401, 96, 124, 110736763838868815973, 110736763838868815973, 120,
  36894035292966629933, 36894036942234071601, 96, 116, 4722434265975000937061, 110736763563990909029, 52, 116, 73818505617546805349,
  9448768722209117962341, 116, 1209449534736137413263461, 1814315102378935941922917, 88, 116, 110732259964363407453, 110732259964363407453, 112,
  36894000108594540077, 36894001482984074797, 52, 88, 108, 4722429762375356788317, 110732259689485500509, 108, 73818505342668898397,
  9448768686749867966557, 88, 108, 4722429762375356788317, 110732259689485500509, 108, 1209448958240200737620061, 1814241315367456731496541, 88, 52,
  16, 73818503418523549717, 73818503419597881365, 16, 14173728993963539434041, 110732257765340151829, 52, 16, 73818503418523549717,
  9448768437571014363741, 16, 1814241315121166126874645, 1814241315121303640735765, 52, 104, 4722427686359889091641, 73818505205229944889, 88, 108,
  4722429762375356788317, 110732259689485500509, 108, 1209448958240200737620061, 1814241315367456731496541, 80, 108, 110727756089857998933,
  110727756089857998933, 40, 36893859371106178609, 36893859371106178645, 80, 40, 14173152658831320290861, 110727755127785324589, 40,
  36893859371106178609, 36893859371106178645, 40, 80, 14173152658831320290861, 36893859371106178609, 80, 110727755127785324589, 36893859371106178645,
  40, 80, 14173152658831320290861, 36893859371106178609, 80, 110727755127785324589, 36893859371106178645, 80, 40, 14173152658831320290861,
  110727755127785324589, 40, 36893859371106178609, 36893859371106178645, 80, 40, 14173152658831320290861, 110727755127785324589, 40,
  36893859371106178609, 36893859371106178645, 80, 40, 14173152658831320290861, 110727755127785324589, 40, 36893859371106178609, 36893859371106178645,
  52, 288233676834996281, 80, 288233677909196857, 36893910772378107961, 2251825591877693, 60, 288233401957220417, 104, 132, 110741267713374224493,
  110741267713374224493, 36893875588056481857, 48, 72, 36893825836001532453, 36893824461611997733, 72, 36893825836001532513, 36893824461611997789]

theorem side6a_l1_run16 : run .l1 2 9 1 side6aEnv [] side6a_l1_16 (side6aPaths16.map fun P => ⟨[P], []⟩) = true := Run.run_one (by decide +kernel)

def side6a_l1_17 : List ℕ := [
  48, 72, 36893825836001532453, 36893824461611997733, 72, 36893825836001532513, 36893824461611997789, 48, 72, 36893825561123625509,
  36893824461611997733, 72, 36893825561123625561, 36893824461611997785, 48, 72, 36893825561123625509, 36893824461611997733, 72, 36893825561123625561,
  36893824461611997785, 48, 72, 36893825561123625509, 36893824461611997733, 72, 36893825561123625561, 36893824461611997785, 60, 288233951713034305,
  88, 288233952787234881, 36893945956767105089, 80, 865060586919034933, 60, 576742249837101109, 73823374550321070133, 80, 865060586919034933, 60,
  576742249837101109, 73823374550321070133, 80, 865060586919034933, 60, 576742249837101109, 73823374550321070133, 80, 865060586919034933, 60,
  576742249837101109, 73823374550321070133, 60, 288233401957220417, 80, 865060586919034933, 73823374550321070133, 60, 288233401957220417, 80,
  865060586919034933, 73823374550321070133, 60, 288233539396173889, 80, 865060586919034933, 73823374550321070133, 2251825591877693, 88,
  865095773438607421, 68, 576777436356673597, 73827913336468013117, 68, 288234226591072329, 88, 865095773438607421, 73827913336468013117,
  2251836329295973, 2251832034328661, 76, 288234089152249937, 96, 865130959958179909, 73832452122614956101, 2251829886845005, 60, 44, 40, 36, 32,
  9449344829879675261541, 12, 73823006330956283921, 36893648539751549029, 4722391692747258991681, 4722393944547072677441, 73823007293028958257, 96,
  100, 14174305667611811709029, 110736763014235095141, 44, 1814315678593535171362865, 1814315678593397657501745, 56, 80, 36893861020373622337,
  36893859920861994541, 80, 36893861020373622369, 36893859920861994581, 84, 3163244855385, 120, 110750273283769237589, 73837061272137367637,
  2251838476779613, 2251838476779613, 2251836329295973, 12, 36, 36893667781205035073, 36893666406815500349, 36, 36893667781205035113,
  36893666406815500381, 76, 288234501469110353, 104, 132, 110741267713374224493, 110741267713374224493, 36894016325545099345, 76, 288234501469110353,
  104, 132, 110741267713374224493, 110741267713374224493, 36894016325545099345, 2251832034328661, 2251818075684897, 2251818075684897,
  2251818075684897, 2251818075684897, 2251818075684897, 2251818075684897, 2251818075684897, 2251818075684897, 32, 56, 264021303366217,
  36893752993356190281, 56, 264021303366261, 36893753130795143797, 4, 8, 36893542024562607181, 12, 36893562365527721477, 16, 36893576246862022769,
  36893580370030626889, 0, 36893527593472492105, 36893525944205050401, 32, 56, 264021303366217, 36893752993356190281, 28, 36893650738774806573,
  36893650738774806601, 4, 8, 36893542024562607181, 12, 36893562365527721477, 16, 36893576246862022769, 36893579545396906061, 0,
  36893526768838771277, 36893525944205050401, 84, 3163244855385, 120, 110750273283769237589, 73837061272137367637, 84, 3163244855385, 104,
  110741266084514496597, 73836990903393189973, 2251838476779613, 2251836329295973, 32, 56, 36893756291891073601, 36893754642623631945, 28,
  36893650738774806573, 36893650738774806601, 32, 56, 36893755742135259717, 36893754642623631945, 56, 36893755742135259749, 36893754642623631977, 84,
  3163244855385, 120, 110750273283769237589, 73837061272137367637, 84, 3163244855385, 104, 865166146477752397, 73836990908761899085,
  2251838476779613, 2251836329295973, 84, 3163244855385, 112, 110745769684141867093, 73837026087765278805, 2251838476779613, 2251838476779613,
  2251836329295973, 2251836329295973, 32, 72, 36893823362100367949, 334390047543885, 28, 36893650738774806573, 36893650738774806601,
  2251838476779613, 84, 3163244855385, 120, 110750273283769237589, 73837061272137367637, 2251838476779613, 2251836329295973, 2251836329295973,
  2251838476779629, 2251836329295973]

theorem side6a_l1_run17 : run .l1 2 9 1 side6aEnv [] side6a_l1_17 (side6aPaths17.map fun P => ⟨[P], []⟩) = true := Run.run_one (by decide +kernel)

def side6a_l1_18 : List ℕ := [
  2251838476779613, 2251836329295973, 52, 576707057948819477, 112, 865201316891197461, 110746012942499577877, 52, 576707057948819477, 96,
  865130948147019797, 110737005743244836885, 52, 576707057948819477, 88, 865095763774930965, 110732502143617466389, 52, 576707057948819477, 88,
  865095763774930965, 110732502143617466389, 52, 576707057948819477, 112, 865201316891197461, 110746012942499577877, 52, 576707057948819477, 112,
  865201316891197461, 110746012942499577877, 52, 576707057948819477, 112, 865201316891197461, 110746012942499577877, 52, 576707057948819477, 72,
  865025400399462445, 73818835764174127149, 52, 576707057948819477, 72, 865025400399462445, 73818835764174127149, 60, 288233401957220417, 112,
  288233403031814209, 36893875588073259073, 20, 44, 36893701316309683257, 36893703240455031853, 44, 36893701316309683277, 36893703240455031881, 20,
  44, 36893701316309683257, 36893702140943404089, 44, 36893701316309683277, 36893702140943404109, 60, 288233401957220417, 80, 288233403031289921,
  36893875588006150209, 68, 288233676835258441, 112, 288233677909721161, 36893910772445478985, 20, 44, 36893701591187590209, 36893702690699217981,
  44, 36893701591187590241, 36893702690699218005, 20, 44, 36893701591187590209, 36893702415821311037, 44, 36893701591187590233, 36893702415821311061,
  68, 288233676835258441, 88, 288233677909327945, 36893910772395147337, 2251834181812317, 60, 20, 73823007293028958233, 9449344935432791526485, 20,
  36893773609199209529, 36893773609199209585, 60, 20, 73823007293028958233, 9449344935432791526485, 20, 36893773059443395641, 36893773059443395681,
  60, 20, 73823007293028958233, 9449344935432791526485, 20, 36893772784565488697, 36893772784565488729, 60, 20, 73823007293028958233,
  9449344935432791526485, 20, 36893772784565488697, 36893772784565488729, 68, 288233676835258441, 112, 288233677909721161, 36893910772445478985, 20,
  44, 36893702690699217981, 36893701591187590209, 44, 36893702690699218005, 36893701591187590241, 88, 865095773438607421, 68, 576777436356673597,
  73827913336468013117, 68, 288233676835258441, 88, 865095773438607421, 73827913336468013117, 2251834181812317, 68, 0, 4, 1209589906940341746926153,
  36893527043716678213, 4, 604463488819071306236525, 9449921150169368232469, 104, 108, 4722429832744134522477, 110741266888740503661, 64,
  36893808518693397061, 1814390042067829132370453, 64, 88, 36893896479623619145, 36893895380111991349, 88, 36893896479623619177,
  36893895380111991389, 112, 136, 110745771450440679541, 110745771450440679541, 136, 36894106486344530501, 36894107860734065229, 84, 3163244855385,
  112, 110745769684141867093, 73837026087765278805, 84, 3163244855385, 112, 110745769684141867093, 73837026087765278805, 2251834181812317,
  2251815928201241, 2251815928201241, 2251815928201241]

theorem side6a_l1_run18 : run .l1 2 9 1 side6aEnv [] side6a_l1_18 (side6aPaths18.map fun P => ⟨[P], []⟩) = true := Run.run_one (by decide +kernel)

def side6a_l1_19 : List ℕ := [
  2251815928201241, 2251815928201241, 2251815928201241, 2251815928201241, 2251815928201241, 2251815928201241, 68, 288233676835258441, 120,
  288233677909852233, 36893910772462256201, 24, 48, 228836931276357, 36893717534106193473, 4, 36893615554402714689, 0, 36893527593472492097,
  36893525669327143449, 24, 48, 228836931276357, 36893717534106193473, 4, 36893614454891086917, 0, 36893527868350399081, 36893525669327143449, 68,
  288233676835258441, 88, 288233677909327945, 36893910772395147337, 76, 288233951713296465, 120, 288233952787759185, 36893945956834476113, 24, 48,
  228836931276361, 36893717671545146949, 4, 36893615004646900813, 0, 36893527043716678221, 36893525944205050393, 4, 24, 48, 228836931276361,
  36893717671545146949, 36893614729768993869, 0, 36893526768838771277, 36893525944205050393, 76, 288233951713296465, 96, 288233952787365969,
  36893945956784144465, 2251836329295973, 24, 48, 36893721107518983741, 36893719183373635137, 4, 36893615554402714689, 0, 36893527593472492097,
  36893525669327143449, 24, 48, 36893720557763169853, 36893719183373635137, 4, 36893615004646900805, 0, 36893527043716678213, 36893525669327143449,
  24, 48, 36893720282885262909, 36893719183373635137, 48, 36893720282885262941, 36893719183373635169, 24, 48, 36893720282885262909,
  36893719183373635137, 4, 36893614729768993861, 0, 36893528005789352565, 36893525669327143449, 76, 288233951713296465, 120, 288233952787759185,
  36893945956834476113, 24, 48, 36893717671545146949, 228836931276361, 4, 36893615004646900813, 0, 36893527043716678221, 36893525944205050393, 96,
  865130959958179909, 76, 576812622876246085, 73832452122614956101, 76, 288233951713296465, 96, 865130959958179909, 73832452122614956101,
  2251836329295973, 76, 24, 73832015042039775261, 4, 36893615279524807753, 0, 36893527318594585161, 36893525944205050393, 72, 36893843977943393865,
  36893842603553859097, 84, 3163244855385, 112, 110745769684141867093, 73837026087765278805, 84, 3163244855385, 120, 110750273283769237589,
  73837061272137367637, 2251838476779613, 2251838476779613, 2251836329295973, 4, 24, 64, 36893787902850371141, 299205675454021, 36893615554402714689,
  0, 36893527593472492097, 36893525669327143449, 4, 24, 64, 36893787902850371141, 299205675454021, 36893615004646900805, 0, 36893527043716678213,
  36893525669327143449, 4, 24, 64, 36893787902850371141, 299205675454021, 36893615279524807749, 0, 36893527318594585157, 36893526768838771221,
  2251838476779629, 4, 24, 64, 36893787902850371141, 299205675454021, 36893615279524807749, 0, 36893527318594585157, 36893525669327143449, 4, 8,
  36893541749684700229, 12, 36893562365527721477, 16, 36893576934056790085, 36893578445885278329, 0, 36893527593472492097, 36893527181155631637, 4,
  24, 64, 36893787902850371141, 299205675454021, 36893615554402714689, 0, 36893527593472492097, 36893525669327143449, 2251838476779629, 4, 24, 28,
  36893629710614924877, 32, 36, 36893668056082944585, 36893665307303875189, 36893649089507364889, 36893615279524807753, 0, 36893527318594585161,
  36893525944205050393, 4, 8, 36893541749684700237, 12, 36893562365527721477, 16, 36893576934056790093, 36893578720763185273, 0,
  36893527593472492105, 36893527181155631637, 4, 24, 76, 73832015042039775261, 36893844252821294669, 36893615554402714697, 0, 36893527593472492105,
  36893525944205050393, 4, 8, 36893541749684700237, 12, 36893562365527721477, 16, 36893576934056790093, 36893578720763185253, 0,
  36893526768838771277, 36893527181155631637, 84, 3163244855385, 120, 110750273283769237589, 73837061272137367637, 84, 3163244855385, 104,
  110741266084514496597, 73836990903393189973, 2251838476779613, 2251836329295973, 4, 24, 76, 73832015042039775261, 36893844252821294669,
  36893615554402714697, 0, 36893527593472492105, 36893525944205050393, 104, 64, 14174882147465980551753, 110741266751301550149, 64,
  36893965748856169033, 60, 56, 36893772234809679385, 36893773334321307213, 36893788040289329229]

theorem side6a_l1_run19 : run .l1 2 9 1 side6aEnv [] side6a_l1_19 (side6aPaths19.map fun P => ⟨[P], []⟩) = true := Run.run_one (by decide +kernel)

def side6a_l1_20 : List ℕ := [
  84, 3163244855385, 120, 110750273283769237589, 73837061272137367637, 84, 3163244855385, 104, 865166146477752397, 73836990908761899085,
  2251838476779613, 2251836329295973, 4, 8, 36893541749684700237, 12, 36, 36893668330960848973, 36893666681693407301, 36893559341870745129, 0,
  36893527593472492105, 36893526768838771221, 2251838476779613, 84, 3163244855385, 120, 110750273283769237589, 73837061272137367637,
  2251838476779613, 2251836329295973, 2251836329295973, 2251838476779629, 2251836329295973, 2251838476779613, 2251836329295973, 120,
  865236519516897373, 28, 576601523086164061, 73805536084409450589, 96, 288234914860040293, 28, 288234913785184357, 36894068964505223269, 88,
  288234639982002269, 28, 288234638907277405, 36894033780133003357, 28, 4, 73804991795007324169, 73804991795007324169, 4, 36893632047077131289,
  36893632047077131333, 80, 288234365103964245, 28, 288234364029370453, 36893998595760783445, 28, 4, 73804991795007324169, 73804991795007324169, 4,
  36893631772199224345, 36893631772199224389, 4, 28, 73804991795007324169, 36893631772199224345, 28, 73804991795007324169, 36893631772199224389, 28,
  4, 73804991795007324169, 73804991795007324169, 4, 36893631772199224345, 36893631772199224389, 72, 865025400399462449, 28, 288234089151463501,
  36893963411388563533, 72, 865025400399462449, 28, 576601510201262129, 73805324965292015665, 72, 865025400399462449, 28, 576601510201262129,
  73805324965292015665, 72, 865025400399462449, 28, 576601510201262129, 73805324965292015665, 72, 865025400399462449, 28, 576601510201262129,
  73805324965292015665, 72, 865025400399462449, 28, 576601510201262129, 73805324965292015665, 72, 865025400399462449, 28, 576601510201262129,
  73805324965292015665, 72, 865025400399462449, 28, 576601510201262129, 73805324965292015665, 28, 4, 73804991795007324169, 73804991795007324169, 4,
  36893631772199224345, 36893631772199224397, 28, 4, 73804991795007324169, 73804991795007324169, 4, 36893631772199224345, 36893631772199224397,
  2251838476779629, 96, 288234914860040293, 28, 288234913785184357, 36894068964505223269, 88, 288234639982002269, 28, 288234638907277405,
  36894033780133003357, 28, 4, 73804991795007324169, 73804991795007324169, 4, 36893632047077131289, 36893632047077131333, 28, 288232439884021793,
  104, 288232440959008801, 36893752442753646625, 28, 288232439884021793, 112, 288232440959139873, 36893752442770423841, 28, 288232439884021793, 112,
  288232440959139873, 36893752442770423841, 2251817001943069, 2251817001943069, 2251817001943069, 28, 4, 73804991795007324169, 73804991795007324169,
  4, 36893632047077131289, 36893632047077131341, 28, 288232302445068321, 120, 288232303520317473, 36893734850601156641, 2251838476779629, 28,
  288232302445068321, 96, 288234914860040293, 36894068964505223269, 28, 288232302445068321, 96, 288234914860040293, 36894068964505223269, 112,
  865201332997324885, 28, 576601520938680405, 73805500897889878101, 4, 0, 36893524157498655349, 36893524294937608741, 0, 36893527593472492145,
  36893527593472492065, 120, 865236519516897373, 28, 576601523086164061, 73805536084409450589, 96, 288234914860040293, 28, 288234913785184357,
  36894068964505223269, 28, 4, 73804991795007324169, 73804991795007324169, 4, 36893631222443410461, 36893631222443410485, 64, 92,
  110718748340847181893, 110718748340847181893, 4, 28, 73804991795007324169, 36893631222443410461, 28, 73804991795007324169, 36893631222443410485,
  28, 4, 73804991795007324169, 73804991795007324169, 4, 36893631222443410461, 36893631222443410485, 28, 4, 73804991795007324169,
  73804991795007324169, 4, 0, 36893525119571329669, 36893524294937608741, 36893631222443410485, 0, 4, 36893524294937608813, 36893527181155631749, 4,
  36893524294937608741, 36893527181155631621, 28, 4, 73804991795007324169, 73804991795007324169, 4, 36893631222443410461, 36893631222443410485, 4, 0,
  36893524294937608813, 36893524294937608741, 0, 36893527181155631749, 36893527181155631621, 4, 0, 36893524157498655337, 36893524294937608741, 28, 8,
  73804991795007324173, 36893545460536443957, 36893631222443410485, 56, 864955027351928837, 28, 576601505897906181, 73805254592244482053]

theorem side6a_l1_run20 : run .l1 2 9 1 side6aEnv [] side6a_l1_20 (side6aPaths20.map fun P => ⟨[P], []⟩) = true := Run.run_one (by decide +kernel)

def side6a_l1_21 : List ℕ := [
  56, 864955027351928837, 28, 576601505897906181, 73805254592244482053, 56, 864955027351928837, 28, 576601505897906181, 73805254592244482053, 56,
  864955027351928837, 28, 576601505897906181, 73805254592244482053, 56, 864955027351928837, 28, 576601505897906181, 73805254592244482053, 56,
  864955027351928837, 28, 576601505897906181, 73805254592244482053, 56, 864955027351928837, 28, 576601505897906181, 73805254592244482053, 56,
  864955027351928837, 28, 576601505897906181, 73805254592244482053, 56, 864955027351928837, 28, 576601505897906181, 73805254592244482053, 28,
  288232852200882209, 56, 864955027351928837, 73805254592244482053, 28, 288232852200882209, 56, 864955027351928837, 73805254592244482053, 80,
  865060586919034937, 28, 576601512348745785, 73805360151811588153, 80, 865060586919034937, 28, 576601512348745785, 73805360151811588153, 4, 0,
  36893524294937608813, 36893524294937608741, 0, 36893527593472492141, 36893527181155631621, 96, 288234914860040293, 28, 288234913785184357,
  36894068964505223269, 88, 288234639982002269, 28, 288234638907277405, 36894033780133003357, 4, 0, 36893524707254469253, 36893524294937608741, 8,
  28, 73804991795007324173, 36893632047077131305, 36893545460536443945, 120, 865236519516897373, 28, 576601523086164061, 73805536084409450589, 96,
  288234914860040293, 28, 288234913785184357, 36894068964505223269, 88, 288234639982002269, 28, 288234638907277405, 36894033780133003357, 88,
  865095773438607425, 28, 576601514496229441, 73805395338331160641, 112, 865201332997324885, 28, 576601520938680405, 73805500897889878101, 4, 0,
  36893524157498655349, 36893524294937608741, 0, 36893527593472492145, 36893527593472492065, 120, 865236519516897373, 28, 576601523086164061,
  73805536084409450589, 96, 288234914860040293, 28, 288234913785184357, 36894068964505223269, 56, 864955027351928837, 28, 576601505897906181,
  73805254592244482053, 56, 864955027351928837, 28, 576601505897906181, 73805254592244482053, 56, 864955027351928837, 28, 576601505897906181,
  73805254592244482053, 56, 864955027351928837, 28, 576601505897906181, 73805254592244482053, 2251838476779629, 56, 864955027351928837, 28,
  576601505897906181, 73805254592244482053, 2251838476779629, 28, 288232852200882209, 56, 864955027351928837, 73805254592244482053, 2251813772328965,
  2251813772328965, 2251813772328965, 2251813772328965, 2251813772328965, 2251813772328965, 2251813772328965, 2251813772328965, 2251813772328965,
  2251813772328965, 2251813772328965, 2251813772328965, 2251813772328965, 2251813772328965, 2251813772328965, 2251813772328965, 2251813772328965,
  2251813772328965, 2251813772328965, 52, 288233127079182393, 120, 865236519516897373, 73819046883291562077, 52, 288233127079182393, 96,
  288234914860040293, 36894068964555554917, 88, 288234639982002269, 52, 288234638907670621, 36894033780183335005, 52, 32, 73818503418523549733,
  9448768439221238108765, 76, 36893841778920135749, 36893843153309670469, 80, 288234365103964245, 52, 288234364029763669, 36893998595811115093, 52,
  32, 73818503418523549733, 9448768439221238108753, 80, 100, 4722425258775712639573, 110727755814980091989, 72, 1209448381621256256880697,
  1814167528232969715974201, 52, 32, 73818503418523549733, 9448768439221238108753, 92, 36893913247175941201, 36893912147664313425, 52,
  288233676834996281, 80, 288233677909196857, 36893910772378107961, 72, 288234090225926221, 52, 288234089151856717, 36893963411438895181, 48, 72,
  14172576162619766872589, 36893824186734090773, 72, 110723251253279916085, 36893824186734090825, 72, 48, 14172576162619766872589,
  110723251253279916085, 48, 36893824186734090773, 36893824186734090825, 72, 48, 14172576162619766872589, 110723251253279916085, 48,
  36893824186734090773, 36893824186734090825, 52, 288233127079182393, 72, 288233128153251897, 36893840403617153081, 52, 288233127079182393, 72,
  288233128153251897, 36893840403617153081, 52, 288233264518135865, 72, 288233265592205369, 36893857995803197497, 2251823444394037, 56, 80,
  14173152658831320292877, 36893859645984087569, 80, 110727755127785324605, 36893859645984087633, 60, 288233951713034305, 80, 288233952787103809,
  36893945956750327873, 2251826665619521, 2251829886845005, 68, 288233814274211913, 88, 288234639982002269, 36893928364581191753, 2251827739361349,
  76, 576812617507536941, 104, 865166138961559597, 110741614902430924845]

theorem side6a_l1_run21 : run .l1 2 9 1 side6aEnv [] side6a_l1_21 (side6aPaths21.map fun P => ⟨[P], []⟩) = true := Run.run_one (by decide +kernel)

def side6a_l1_22 : List ℕ := [
  84, 3163244855385, 112, 110745769684141867093, 73837026087765278805, 2251834181812317, 2251822370652209, 2251838476779613, 2251836329295973, 60,
  36, 73823007293028958249, 1209516151735534888162345, 36, 36893772784565490745, 36893772784565490765, 2251824518135865, 2251836329295973, 68,
  288234226591072329, 96, 288234914860040293, 36894068964589109349, 2251829886845005, 112, 865201332997324885, 36, 576636705310769237,
  73810004497517248597, 12, 8, 36893562502966675065, 36893562502966674981, 16, 36893577346373650549, 36893580370030626929, 120, 865236519516897373,
  36, 576636707458252893, 73810039684036821085, 96, 288234914860040293, 36, 288234913785315429, 36894068964522000485, 72, 288234090225926221, 36,
  288234089151594573, 36893963411405340749, 72, 288234090225926221, 36, 288234089151594573, 36893963411405340749, 72, 96, 36893929190094546505,
  110723252077913636941, 96, 36893929190094546461, 36893930564484081169, 72, 96, 36893929190094546505, 110723252077913636941, 96,
  36893929190094546461, 36893930564484081169, 12, 8, 36893563052722488949, 36893562502966674981, 28, 24, 36893633421466668661, 36893632871710854693,
  32, 36, 73809495669512732709, 36893668056082944645, 36893651013652713589, 72, 68, 14172576162619766875261, 4, 0, 14172575863552604111485,
  36893524569815515725, 1814089748815605196137481, 76, 36, 32, 73809495669512732709, 9447615446798131270205, 604468744255827114731085,
  36893842603553859109, 72, 12, 8, 36893563052722488949, 36893562502966674981, 28, 24, 36893633421466668661, 36893632871710854693, 32, 36,
  73809495669512732709, 36893668056082944645, 36893651013652713589, 12, 8, 36893563052722488949, 36893562502966674981, 28, 24, 36893633421466668661,
  36893632871710854693, 32, 36, 73809495669512732709, 36893668056082944645, 36893651013652713589, 36, 32, 73809495669512732709,
  9447615446798131270205, 72, 76, 124, 4722412099820534638209, 128, 604472495859858935922693, 1814089780340802587738245, 110723251390718869581, 76,
  604468748759426742101581, 36893842603553859109, 64, 288233815347888197, 36, 288233814273687621, 36893928227033120837, 64, 288233815347888197, 36,
  288233814273687621, 36893928227033120837, 12, 16, 36893578445885278241, 36893580644908533829, 8, 36893560853699233413, 36893560853699233313, 64,
  28, 32, 36893648814629457953, 36893651013652713541, 110718747378774507553, 60, 56, 36893771959931772549, 52, 48, 36893736775559682693,
  36893735676048054849, 36893756566768983109, 36893791751141072965]

theorem side6a_l1_run22 : run .l1 2 9 1 side6aEnv [] side6a_l1_22 (side6aPaths22.map fun P => ⟨[P], []⟩) = true := Run.run_one (by decide +kernel)

def side6a_l1_23 : List ℕ := [
  64, 12, 14171999666408213448741, 110718747378774507537, 104, 36893964374466634273, 36893965473978262045, 64, 12, 14171999666408213448741,
  110718747378774507537, 104, 36893964374466634273, 36893965473978262045, 64, 12, 14171999666408213448741, 110718747378774507537, 36, 20,
  73809495669512732697, 9447615446798131268677, 44, 1209299654711840070500401, 40, 1209299654608349527282693, 36893701591187592737, 52, 48,
  36893736775559682693, 36893735676048054849, 56, 60, 36893771959931772549, 64, 28, 32, 36893648814629457953, 36893651013652713541,
  110718747378774507553, 36893791751141072965, 36893756566768983109, 36, 20, 73809495669512732697, 9447615446798131268677, 76, 36893842328675947585,
  36893841229164319805, 36, 288233127078920233, 64, 288233128153120809, 36893840403600113705, 36, 288233127078920233, 64, 288233128153120809,
  36893840403600113705, 120, 865236519516897373, 44, 576671891830341725, 73814543283664191581, 96, 288234914860040293, 44, 288234913785446501,
  36894068964538777701, 88, 288234639982002269, 44, 288234638907539549, 36894033780166557789, 88, 108, 4722429727190984699485, 110732259689485500509,
  128, 36894070202460810793, 36894071851728252457, 80, 288234365103964245, 44, 288234364029632597, 36893998595794337877, 80, 100,
  4722425223591340550741, 110727755814980091989, 100, 44, 24, 73813999544018141213, 9448191943009684688465, 1209374594767969206992981,
  36893948431548033581, 80, 120, 4722436464998222932565, 110727756502174859349, 120, 36894035018088720937, 36894036392478255657, 44, 24,
  73813999544018141213, 9448191943009684688465, 80, 100, 4722425223591340550741, 110727755814980091989, 100, 1209374594767969206992981,
  36893948431548033581, 72, 288234090225926221, 44, 288234089151725645, 36893963411422117965, 104, 128, 36894070202460812873, 36894071301972440649,
  128, 36894070202460812837, 36894071301972440593, 96, 120, 36894035018088723017, 36894036117600350793, 120, 36894035018088722981,
  36894036117600350737, 44, 24, 73813999544018141213, 9448191943009684688457, 72, 52, 14172576162619766873129, 110723251253279916089, 24,
  1814093164672639757910045, 1814093164672777255125021]

theorem side6a_l1_run23 : run .l1 2 9 1 side6aEnv [] side6a_l1_23 (side6aPaths23.map fun P => ⟨[P], []⟩) = true := Run.run_one (by decide +kernel)

def side6a_l1_24 : List ℕ := [
  72, 52, 14172576162619766873129, 110723251253279916089, 112, 36893999833716631081, 36894000933228258857, 44, 24, 73813999544018141213,
  9448191943009684688457, 72, 52, 14172576162619766873129, 110723251253279916089, 76, 604468748759428889585229, 1814093164813377246265421, 44, 24,
  73813999544018141213, 9448191943009684688457, 84, 36893877787925944393, 36893876688414316617, 44, 288233401956958257, 72, 288233403031158833,
  36893875587989110833, 52, 288233127079182393, 120, 865236519516897373, 73819046883291562077, 52, 288233127079182393, 96, 288234914860040293,
  36894068964555554917, 88, 288234639982002269, 52, 288234638907670621, 36894033780183335005, 52, 76, 73818504243157270585, 36893843153309670449, 76,
  36893841778920135749, 36893843153309670469, 80, 288234365103964245, 52, 288234364029763669, 36893998595811115093, 80, 100, 4722425258775712639573,
  110727755814980091989, 52, 72, 73818504105718317113, 4722409636777007520825, 72, 1209448381621256256880697, 1814167528232969715974201, 52, 72,
  73818504105718317113, 4722409636777007520825, 92, 36893913247175941201, 36893912147664313425, 52, 288233676834996281, 80, 288233677909196857,
  36893910772378107961, 72, 865025400399462449, 52, 288234089151856717, 36893963411438895181, 72, 865025400399462449, 52, 576707063317528625,
  73818835764174127153, 72, 865025400399462449, 52, 576707063317528625, 73818835764174127153, 72, 865025400399462449, 52, 576707063317528625,
  73818835764174127153, 52, 288233127079182393, 72, 865025400399462449, 36893840403617153081, 52, 288233127079182393, 72, 865025400399462449,
  36893840403617153081, 52, 288233264518135865, 72, 865025400399462449, 36893857995803197497, 2251823444394037, 80, 865060586919034937, 60,
  576742249837101113, 73823374550321070137, 60, 288233951713034305, 80, 865060586919034937, 73823374550321070137, 2251836329295973, 2251829886845005,
  68, 288233814274211913, 88, 288234639982002269, 36893928364581191753, 2251827739361349, 68, 576777430987964453, 104, 865166136814075941,
  110741579715911352357, 36, 60, 36893773334321304637, 36893772234809676873, 60, 36893773334321304669, 36893772234809676905, 76, 48,
  73832015042039775285, 73832015042039775285, 36, 36893843977943389257, 36893843977943389297, 84, 3163244855385, 112, 110745769684141867093,
  73837026087765278805, 84, 3163244855385, 112, 110745769684141867093, 73837026087765278805, 2251834181812317, 2251820223168553, 84, 3163244855385,
  112, 110745769684141867093, 73837026087765278805, 84, 3163244855385, 120, 110750273283769237589, 73837061272137367637, 2251838476779613,
  2251838476779613, 2251836329295973, 52, 28, 73818503418523549729, 1209442360220456033718305, 28, 36893737600193400881, 36893737600193400909, 88,
  128, 36894070752216624729, 110732260376680267869, 128, 36894070752216624697, 36894071851728252473]

theorem side6a_l1_run24 : run .l1 2 9 1 side6aEnv [] side6a_l1_24 (side6aPaths24.map fun P => ⟨[P], []⟩) = true := Run.run_one (by decide +kernel)

def side6a_l1_25 : List ℕ := [
  2251822370652209, 2251838476779613, 2251838476779613, 2251836329295973, 96, 288234914860040293, 60, 288234913785708645, 36894068964572332133, 68,
  288234226591072329, 96, 288234914860040293, 36894068964589109349, 68, 288234226591072329, 96, 288234914860040293, 36894068964589109349,
  2251829886845005, 120, 865236519516897377, 36, 8, 73809495669512732685, 73809495669512732685, 73810039684036821089, 8, 32, 36893651425969571365,
  158468187096613, 32, 36893651425969571437, 158468187096685, 8, 32, 36893651425969571365, 158468187096613, 32, 36893651425969571429,
  158468187096677, 8, 32, 36893651425969571365, 158468187096613, 32, 36893651425969571429, 158468187096677, 8, 32, 36893651425969571365,
  158468187096613, 32, 36893646753045153373, 158468187096669, 8, 32, 36893651425969571365, 158468187096613, 32, 36893646753045153373,
  158468187096669, 8, 32, 36893651425969571365, 158468187096613, 32, 36893646753045153373, 158468187096669, 8, 32, 36893651425969571365,
  158468187096613, 32, 36893646753045153373, 158468187096669, 80, 865060586919034937, 36, 8, 73809495669512732685, 73809495669512732685,
  73809863751438958649, 80, 865060586919034937, 36, 8, 73809495669512732685, 73809495669512732685, 73809863751438958649, 80, 865060586919034937, 36,
  8, 73809495669512732685, 73809495669512732685, 73809863751438958649, 80, 865060586919034937, 36, 8, 73809495669512732685, 73809495669512732685,
  73809863751438958649, 80, 865060586919034937, 36, 8, 73809495669512732685, 73809495669512732685, 73809863751438958649, 80, 865060586919034937, 36,
  8, 73809495669512732685, 73809495669512732685, 73809863751438958649, 80, 865060586919034937, 36, 8, 73809495669512732685, 73809495669512732685,
  73809863751438958649, 80, 865060586919034937, 36, 8, 73809495669512732685, 73809495669512732685, 73809863751438958649, 8, 32, 36893651425969571365,
  158468187096613, 32, 36893646753045153373, 158468187096669, 8, 32, 36893651425969571365, 158468187096613, 32, 36893646753045153373,
  158468187096669, 2251838476779629, 8, 32, 36893651425969571365, 158468187096613, 32, 36893651425969571437, 158468187096685, 8, 32,
  36893651425969571365, 158468187096613, 32, 36893651425969571429, 158468187096677, 8, 32, 36893651425969571365, 158468187096613, 32,
  36893651425969571429, 158468187096677, 8, 32, 36893651425969571365, 158468187096613, 32, 36893651425969571429, 158468187096677, 2251819149426725,
  2251819149426725, 36, 288232577323106345, 104, 132, 110741267713374224493, 110741267713374224493, 36893770034939822121, 36, 288232577323106345,
  104, 132, 110741267713374224493, 110741267713374224493, 36893770034939822121, 120, 865236519516897377, 36, 8, 73809495669512732685,
  73809495669512732685, 73810039684036821089, 104, 865166146477752401, 36, 8, 73809495669512732685, 73809495669512732685, 73809969310997676113, 8,
  32, 36893651425969571365, 158468187096613, 32, 36893651425969571401, 158468187096649, 8, 32, 36893651425969571365, 158468187096613, 32,
  36893651425969571401, 158468187096649, 8, 32, 36893651425969571365, 158468187096613, 32, 36893651425969571401, 158468187096649, 4, 8,
  36893542024562607217, 36893544773341676681, 0, 36893528005789352561, 36893527181155631621, 64, 864990213879889945, 36, 8, 73809495669512732685,
  73809495669512732685, 73809793378399813657, 64, 864990213879889945, 36, 8, 73809495669512732685, 73809495669512732685, 73809793378399813657, 64,
  864990213879889945, 36, 8, 73809495669512732685, 73809495669512732685, 73809793378399813657, 64, 864990213879889945, 36, 8, 73809495669512732685,
  73809495669512732685, 73809793378399813657, 64, 864990213879889945, 36, 8, 73809495669512732685, 73809495669512732685, 73809793378399813657]

theorem side6a_l1_run25 : run .l1 2 9 1 side6aEnv [] side6a_l1_25 (side6aPaths25.map fun P => ⟨[P], []⟩) = true := Run.run_one (by decide +kernel)

def side6a_l1_26 : List ℕ := [
  36, 288233127078920233, 64, 864990213879889945, 36893840403600113705, 88, 865095773438607425, 36, 8, 73809495669512732685, 73809495669512732685,
  73809898937958531137, 88, 865095773438607425, 36, 8, 73809495669512732685, 73809495669512732685, 73809898937958531137, 8, 32, 36893651425969571365,
  158468187096613, 4, 36893545185658537069, 36893544773341676549, 8, 32, 36893651425969571365, 158468187096613, 32, 36893651425969571437,
  158468187096685, 8, 32, 36893651425969571365, 158468187096613, 32, 36893651425969571429, 158468187096677, 8, 32, 36893651425969571365,
  158468187096613, 32, 36893651425969571429, 158468187096677, 120, 865236519516897377, 36, 8, 73809495669512732685, 73809495669512732685,
  73810039684036821089, 8, 32, 36893651425969571365, 158468187096613, 32, 36893651425969571437, 158468187096685, 96, 865130959958179913, 36, 8,
  73809495669512732685, 73809495669512732685, 73809934124478103625, 96, 865130959958179913, 36, 8, 73809495669512732685, 73809495669512732685,
  73809934124478103625, 120, 865236519516897377, 36, 8, 73809495669512732685, 73809495669512732685, 73810039684036821089, 104, 865166146477752401,
  36, 8, 73809495669512732685, 73809495669512732685, 73809969310997676113, 64, 864990213879889945, 36, 8, 73809495669512732685, 73809495669512732685,
  73809793378399813657, 64, 864990213879889945, 36, 8, 73809495669512732685, 73809495669512732685, 73809793378399813657, 64, 864990213879889945, 36,
  8, 73809495669512732685, 73809495669512732685, 73809793378399813657, 2251838476779629, 2251815928201241, 2251815928201241, 2251815928201241,
  2251815928201241, 2251815928201241, 2251815928201241, 2251815928201241, 2251815928201241, 2251815928201241, 2251815928201241, 2251815928201241,
  2251815928201241, 2251815928201241, 2251815928201241, 2251825591877693, 60, 288233401957220417, 104, 132, 110741267713374224493,
  110741267713374224493, 36893875588056481857, 60, 40, 73823007293028958253, 9449344935432791529061, 84, 36893877238170132557, 36893878612559667277,
  60, 40, 73823007293028958253, 9449344935432791529061, 84, 36893877238170132557, 36893878612559667277, 88, 116, 110732259964363407453,
  110732259964363407453, 112, 36894000383472447005, 36894001482984074781, 60, 40, 73823007293028958253, 9449344935432791529053, 88, 108,
  4722429797559728877149, 110732259689485500509, 40, 1814241891617102819164205, 1814241891617240316379181, 60, 40, 73823007293028958253,
  9449344935432791529053, 100, 36893948706425938009, 36893947606914310233, 60, 288233951713034305, 88, 288233952787234881, 36893945956767105089, 80,
  108, 110727756089857998933, 110727756089857998933, 56, 36893859645984087581, 36893859645984087633, 80, 56, 14173152658831320292889,
  110727755127785324605, 56, 36893859645984087581, 36893859645984087633, 80, 56, 14173152658831320292889, 110727755127785324605, 56,
  36893859645984087581, 36893859645984087633, 56, 80, 14173152658831320292889, 36893859645984087581, 80, 110727755127785324605, 36893859645984087633,
  60, 288233401957220417, 80, 288233403031289921, 36893875588006150209, 60, 288233401957220417, 80, 288233403031289921, 36893875588006150209, 60,
  288233539396173889, 80, 288233540470243393, 36893893180192194625, 2251825591877693, 68, 48, 73827511167534366773, 9449921431644344949341, 48,
  36893807968937581125, 64, 88, 14173729155042873713177, 36893895105234084377, 88, 110732259002290733125, 36893895105234084437, 68,
  288234226591072329, 88, 288234227665141833, 36893981141139325001, 2251826665619521, 2251832034328661, 76, 288234089152249937, 96,
  288234090226319441, 36893963548970188881, 2251829886845005, 68, 44, 73827511167534366769, 9449921431644344948821, 44, 36893808243815487549,
  36893808243815487573, 2251824518135865, 2251836329295973, 76, 288234501469110353, 104, 132, 110741267713374224493, 110741267713374224493,
  36894016325545099345, 2251832034328661, 120, 865236519516897377, 44, 576671891830341729, 73814543283664191585, 104, 132, 110741267713374224493,
  110741267713374224493, 80, 36893964649344543269, 36893964649344543337]

theorem side6a_l1_run26 : run .l1 2 9 1 side6aEnv [] side6a_l1_26 (side6aPaths26.map fun P => ⟨[P], []⟩) = true := Run.run_one (by decide +kernel)

def side6a_l1_27 : List ℕ := [
  80, 100, 4722425223591340550741, 110727755814980091989, 104, 36893964649344543269, 36893966023734077989, 80, 100, 4722425223591340550741,
  110727755814980091989, 104, 36893964649344543269, 36893966023734077989, 80, 96, 100, 14173152746792250520109, 104, 108, 128, 36894070202460813397,
  110727756777052766321, 4722429727190967924309, 14173152764384436565037, 110727755677541138517, 44, 40, 73813999544018141229,
  9448191941634322077269, 84, 1209374594697600462815317, 1814166951824856456691797, 4, 8, 12, 36893558792114931317, 36893563190161442421,
  36893544910780630153, 0, 36893528005789352565, 36893527318594585097, 72, 20, 14172576162619766869037, 110723251253279916057, 96,
  36893929464972453413, 36893930564484081177, 72, 20, 14172576162619766869037, 110723251253279916057, 96, 36893929464972453413, 36893930564484081177,
  44, 40, 73813999544018141229, 9448191943009684690509, 72, 20, 14172576162619766869037, 110723251253279916057, 52, 1209374018184071601127481,
  1209374018184209098342457, 72, 20, 14172576162619766869037, 110723251253279916057, 44, 40, 73813999544018141229, 9448191943009684690509, 52,
  1209374018184071601127481, 1209374018184209098342457, 44, 40, 73813999544018141229, 9448191943009684690509, 84, 36893877787925944393,
  36893876688414316617]

theorem side6a_l1_run27 : run .l1 2 9 1 side6aEnv [] side6a_l1_27 (side6aPaths27.map fun P => ⟨[P], []⟩) = true := Run.run_one (by decide +kernel)

def side6a_l1_28 : List ℕ := [
  44, 288233401956958257, 72, 288233403031158833, 36893875587989110833, 52, 288233676834996281, 120, 865236519516897377, 73819046883291562081, 104,
  132, 110741267713374224493, 110741267713374224493, 128, 36894070477338719789, 36894072401484068401, 96, 124, 110736763838868815973,
  110736763838868815973, 120, 36894035292966629933, 36894036942234071601, 96, 116, 4722434265975000937061, 110736763563990909029, 52, 32,
  73818503418523549733, 9448768439221238108773, 32, 1814315102097460965212197, 1814315102097598495719461, 88, 116, 110732259964363407453,
  110732259964363407453, 112, 36894000108594540077, 36894001482984074797, 52, 32, 73818503418523549733, 9448768439221238108765, 88, 108,
  4722429762375356788317, 110732259689485500509, 32, 1814241315121166126874661, 1814241315121303640735781, 52, 32, 73818503418523549733,
  9448768439221238108765, 88, 32, 14173728993963539436089, 110732257765340151845, 32, 1814241315121166126874661, 1814241315121303640735781, 88, 108,
  4722429762375356788317, 110732259689485500509, 52, 32, 73818503418523549733, 9448768439221238108765, 32, 1814241315121166126874661,
  1814241315121303640735781, 80, 108, 110727756089857998933, 110727756089857998933, 104, 36893964924222450221, 36893966023734077997, 80, 60,
  14173152658831320293425, 110727755127785324609, 52, 32, 73818503418523549733, 9448768439221238108753, 100, 1209448381744264061976661,
  1814167528355977521070165, 52, 32, 73818503418523549733, 9448768439221238108753, 80, 60, 14173152658831320293425, 110727755127785324609, 32,
  1814167528144871288537125, 1814167528145008785752101, 52, 32, 73818503418523549733, 9448768439221238108753, 80, 60, 14173152658831320293425,
  110727755127785324609, 32, 1814167528144871288537125, 1814167528145008785752101, 52, 32, 73818503418523549733, 9448768439221238108753, 80, 60,
  14173152658831320293425, 110727755127785324609, 32, 1814167528144871288537125, 1814167528145008785752101, 80, 60, 14173152658831320293425,
  110727755127785324609, 52, 32, 73818503418523549733, 9448768439221238108753, 32, 1814167528144871288537125, 1814167528145008785752101, 52, 32,
  73818503418523549733, 9448768439221238108753, 92, 36893913247175941201, 36893912147664313425, 52, 288233676834996281, 80, 288233677909196857,
  36893910772378107961, 2251825591877693, 60, 288233401957220417, 104, 132, 110741267713374224493, 110741267713374224493, 36893875588056481857, 60,
  84, 73823008117662679105, 36893878612559667253, 84, 36893877238170132557, 36893878612559667277, 60, 84, 73823008117662679105, 36893878612559667253,
  84, 36893877238170132557, 36893878612559667277, 88, 116, 110732259964363407453, 110732259964363407453, 112, 36894000383472447021,
  36894001482984074797, 60, 80, 73823007980223725633, 4722414175561023758401, 88, 108, 4722429797559728877149, 110732259689485500509, 80,
  1209522745093487787507777, 1814241891705201246601281, 60, 80, 73823007980223725633, 4722414175561023758401, 100, 36893948706425938009,
  36893947606914310233, 60, 288233951713034305, 88, 288233952787234881, 36893945956767105089, 80, 865060586919034937, 60, 576742249837101113,
  73823374550321070137, 80, 865060586919034937, 60, 576742249837101113, 73823374550321070137, 80, 865060586919034937, 60, 576742249837101113,
  73823374550321070137, 80, 865060586919034937, 60, 576742249837101113, 73823374550321070137, 60, 288233401957220417, 80, 865060586919034937,
  73823374550321070137, 60, 288233401957220417, 80, 865060586919034937, 73823374550321070137, 60, 288233539396173889, 80, 865060586919034937,
  36893893180192194625, 2251825591877693, 88, 865095773438607425, 68, 576777436356673601, 73827913336468013121, 68, 288234226591072329, 88,
  865095773438607425, 73827913336468013121, 2251836329295973, 2251832034328661, 76, 288234089152249937, 96, 865130959958179913, 36893963548970188881,
  2251829886845005, 60, 36, 73823007293028958249, 1209516151735534888162345, 36, 36893773059443397685, 36893773059443397717, 68, 72,
  4722409302525506233417, 4722409865475459654729, 96, 100, 4722425329144490373733, 110736763014235095141, 88, 1209597108565719318134857,
  1814316255177432777228361, 2251822370652209, 2251838476779613]

theorem side6a_l1_run28 : run .l1 2 9 1 side6aEnv [] side6a_l1_28 (side6aPaths28.map fun P => ⟨[P], []⟩) = true := Run.run_one (by decide +kernel)

def side6a_l1_29 : List ℕ := [
  2251838476779613, 2251836329295973, 20, 44, 36893702965577124929, 36893701591187590169, 44, 36893702965577124969, 36893701591187590237, 76,
  288234501469110353, 104, 132, 110741267713374224493, 110741267713374224493, 36894016325545099345, 76, 288234501469110353, 104, 132,
  110741267713374224493, 110741267713374224493, 36894016325545099345, 2251832034328661, 120, 865236519516897377, 44, 576671891830341729,
  73814543283664191585, 104, 132, 110741267713374224493, 110741267713374224493, 128, 36894070202460812837, 36894072401484068393, 96, 124,
  110736763838868815973, 110736763838868815973, 120, 36894035018088722981, 36894036942234071589, 96, 116, 4722434230790628848229,
  110736763563990909029, 44, 24, 9448191943009684688485, 73813999544018141213, 24, 1814314525601661820076061, 1814314525601524272922653, 88, 116,
  110732259964363407453, 110732259964363407453, 112, 36893999833716633125, 36894001482984074789, 44, 24, 9448191943009684688473,
  73813999544018141213, 88, 108, 4722429727190984699485, 110732259689485500509, 108, 1209375171263905882636381, 1814240738906704411295837, 44, 24,
  9448191943009684688473, 73813999544018141213, 88, 24, 110732257490462244893, 14173728958779167346225, 24, 1814240738625366965092381,
  1814240738625229434585117, 44, 24, 9448191943009684688473, 73813999544018141213, 88, 108, 4722429727190984699485, 110732259689485500509, 108,
  1209375171263905882636381, 1814240738906704411295837, 80, 108, 110727756089857998933, 110727756089857998933, 56, 36893859096228273701,
  36893859096228273745, 80, 28, 14173152658831320289325, 110727755127785324577, 56, 36893859096228273701, 36893859096228273745, 80, 28,
  14173152658831320289325, 110727755127785324577, 56, 36893859096228273701, 36893859096228273745, 80, 28, 14173152658831320289325,
  110727755127785324577, 56, 36893859096228273701, 36893859096228273745, 80, 28, 14173152658831320289325, 110727755127785324577, 56,
  36893859096228273701, 36893859096228273745, 80, 28, 14173152658831320289325, 110727755127785324577, 56, 36893859096228273701, 36893859096228273745,
  80, 28, 14173152658831320289325, 110727755127785324577, 56, 36893859096228273701, 36893859096228273745, 4, 8, 12, 36893558792114931317,
  36893563190161442421, 36893544910780630153, 0, 36893528005789352565, 36893527318594585097, 44, 24, 9448191943009684688473, 73813999544018141213,
  88, 64, 14173729047980077940785, 110732258177657012273, 64, 1209375171070529366655025, 1814240738713327895314481, 44, 24, 9448191943009684688473,
  73813999544018141213, 88, 64, 14173729047980077940785, 110732258177657012273, 64, 1209375171070529366655025, 1814240738713327895314481,
  2251821296910381, 44, 288232852201144369, 104, 132, 110741267713374224493, 110741267713374224493, 36893805219312042033, 44, 24,
  9448191943009684688485, 73813999544018141213, 68, 36893806319670138957, 36893808243815487565, 44, 24, 9448191943009684688485, 73813999544018141213,
  68, 36893806319670138957, 36893808243815487565, 28, 52, 36893737600193400869, 36893735950925959205, 52, 36893737600193400921, 36893735950925959257,
  28, 52, 36893737600193400869, 36893735950925959205, 52, 36893737600193400921, 36893735950925959257, 44, 288233401956958257, 120,
  288233403031945265, 36893875588089774129, 28, 52, 36893738149949214761, 36893735950925959205, 52, 36893738149949214825, 36893735950925959273, 28,
  52, 36893737875071307813, 36893735950925959205, 52, 36893737875071307873, 36893735950925959265, 28, 52, 36893737875071307813, 36893735950925959205,
  52, 36893737875071307873, 36893735950925959265, 120, 865236519516897377, 44, 576671891830341729, 73814543283664191585, 28, 52,
  36893736500681773097, 36893735950925959205, 52, 36893736500681773161, 36893735950925959273, 28, 52, 36893737875071307813, 36893735950925959205, 52,
  36893737875071307873, 36893735950925959265, 28, 52, 36893737875071307813, 36893735950925959205, 52, 36893737875071307873, 36893735950925959265,
  2251818075684897, 2251818075684897, 2251818075684897, 2251818075684897, 2251818075684897, 2251818075684897, 2251818075684897, 2251818075684897]

theorem side6a_l1_run29 : run .l1 2 9 1 side6aEnv [] side6a_l1_29 (side6aPaths29.map fun P => ⟨[P], []⟩) = true := Run.run_one (by decide +kernel)

def side6a_l1_30 : List ℕ := [
  52, 72, 73818504105718317113, 4722409671961379609657, 88, 68, 14173729155042873713717, 110732259002290733129, 72, 1209448958082008577081401,
  1814241315209264570957881, 52, 72, 73818504105718317113, 4722409671961379609657, 88, 68, 14173729155042873713717, 110732259002290733129, 72,
  1209448958082008577081401, 1814241315209264570957881, 2251823444394037, 52, 288233127079182393, 104, 132, 110741267713374224493,
  110741267713374224493, 36893840403684261945, 52, 76, 73818504243157270585, 36893843428187577393, 76, 36893841778920135765, 36893843428187577429,
  52, 76, 73818504243157270585, 36893843428187577393, 76, 36893841778920135765, 36893843428187577429, 52, 288233676834996281, 120,
  865236519516897377, 73819046883291562081, 104, 132, 110741267713374224493, 110741267713374224493, 128, 36894070477338719781, 36894072401484068401,
  96, 124, 110736763838868815973, 110736763838868815973, 120, 36894035292966629925, 36894036942234071589, 96, 76, 14174305651254427134005,
  110736762876796141649, 52, 76, 73818504930352037969, 9448768631085060860005, 76, 1209449534648176483041361, 1209449534648314013548625, 72,
  865025400399462433, 52, 576707063317528609, 73818835764174127137, 72, 865025400399462433, 52, 576707063317528609, 73818835764174127137, 72,
  865025400399462433, 52, 576707063317528609, 73818835764174127137, 72, 865025400399462433, 52, 576707063317528609, 73818835764174127137, 52,
  288233127079182393, 72, 865025400399462433, 36893840403617153081, 52, 288233127079182393, 72, 865025400399462433, 36893840403617153081, 52,
  288233264518135865, 72, 865025400399462433, 36893857995803197497, 2251823444394037, 2251825591877693, 60, 288233401957220417, 104, 132,
  110741267713374224493, 110741267713374224493, 36893875588056481857, 60, 84, 73823008117662679105, 36893878612559667253, 84, 36893877238170132557,
  36893878612559667277, 60, 84, 73823008117662679105, 36893878612559667253, 84, 36893877238170132557, 36893878612559667277, 88, 116,
  110732259964363407453, 110732259964363407453, 112, 36894000383472447013, 36894001482984074789, 60, 80, 73823007980223725633,
  4722414175561023758401, 88, 108, 4722429797559728877149, 110732259689485500509, 80, 1209522745093487787507777, 1814241891705201246601281, 60, 80,
  73823007980223725633, 4722414175561023758401, 100, 36893948706425938009, 36893947606914310233, 60, 288233951713034305, 88, 288233952787234881,
  36893945956767105089, 80, 108, 110727756089857998933, 110727756089857998933, 56, 36893859645984087589, 36893859645984087633, 80, 28,
  14173152658831320289341, 110727755127785324577, 56, 36893859645984087589, 36893859645984087633, 80, 28, 14173152658831320289341,
  110727755127785324577, 56, 36893859645984087589, 36893859645984087633, 80, 28, 14173152658831320289341, 110727755127785324577, 56,
  36893859645984087589, 36893859645984087633, 60, 288233401957220417, 80, 288233403031289921, 36893875588006150209, 60, 288233401957220417, 80,
  288233403031289921, 36893875588006150209, 60, 288233539396173889, 80, 288233540470243393, 36893893180192194625, 2251825591877693, 28, 52,
  36893737600193400869, 36893736775559680037, 52, 36893737600193400921, 36893736775559680085, 68, 288234226591072329, 88, 288234227665141833,
  36893981141139325001, 2251826665619521, 2251832034328661, 76, 288234089152249937, 96, 288234090226319441, 36893963548970188881, 2251829886845005,
  52, 288233676834996281, 120, 865236519516897377, 73819046883291562081, 104, 132, 110741267713374224493, 110741267713374224493, 128,
  36894070477338719789, 36894072401484068401, 96, 124, 110736763838868815973, 110736763838868815973, 120, 36894035292966629933, 36894036942234071601,
  96, 116, 4722434265975000937061, 110736763563990909029, 32, 52, 9448768439221238108773, 1814315102097598495719461, 52, 73818503418523549733,
  1814315102097460965212197, 88, 116, 110732259964363407453, 110732259964363407453, 112, 36894000108594540077, 36894001482984074797, 88, 36,
  14173729155042873709621, 110732259002290733097, 32, 52, 9448768439221238108765, 1814241315121303640735781, 52, 73818503418523549733,
  1814241315121166126874661, 88, 36, 14173729155042873709621, 110732259002290733097, 32, 52, 9448768439221238108765, 1814241315121303640735781, 52,
  73818503418523549733, 1814241315121166126874661, 52, 32, 9448768439221238108765, 73818503418523549733, 88, 36, 14173729155042873709621,
  110732259002290733097, 32, 1814241315121303640735781, 1814241315121166126874661, 80, 865060586919034921, 52, 576707065465012265,
  73818870950693699625]

theorem side6a_l1_run30 : run .l1 2 9 1 side6aEnv [] side6a_l1_30 (side6aPaths30.map fun P => ⟨[P], []⟩) = true := Run.run_one (by decide +kernel)

def side6a_l1_31 : List ℕ := [
  80, 865060586919034921, 52, 576707065465012265, 73818870950693699625, 80, 865060586919034921, 52, 576707065465012265, 73818870950693699625, 80,
  865060586919034921, 52, 576707065465012265, 73818870950693699625, 80, 865060586919034921, 52, 576707065465012265, 73818870950693699625, 80,
  865060586919034921, 52, 576707065465012265, 73818870950693699625, 80, 865060586919034921, 52, 576707065465012265, 73818870950693699625, 52,
  288233676834996281, 80, 865060586919034921, 36893910772378107961, 2251825591877693, 60, 288233401957220417, 104, 132, 110741267713374224493,
  110741267713374224493, 36893875588056481857, 0, 24, 4722382685273000509957, 4722382509351140065797, 24, 36893614729768993425, 36893613355379458569,
  0, 24, 4722382685273000509957, 4722382509351140065797, 4, 36893524294937608713, 36893528005789352477, 88, 865095773438607409, 60,
  576742251984584753, 73823409736840642609, 88, 865095773438607409, 60, 576742251984584753, 73823409736840642609, 88, 865095773438607409, 60,
  576742251984584753, 73823409736840642609, 60, 288233951713034305, 88, 865095773438607409, 73823409736840642609, 2251822370652209, 2251822370652209,
  2251822370652209, 2251822370652209, 2251822370652209, 2251822370652209, 2251822370652209, 2251822370652209, 2251824518135865, 2251824518135865,
  2251833108070489, 2251828813103177, 2251809477361669, 2251809477361669, 0, 24, 4722382685273000509957, 4722382509351140065797, 4,
  36893524294937608713, 36893528005789352477, 96, 865130959958179897, 68, 576777438504157241, 73827948522987585593, 84, 3163244855385, 120,
  110750273283769237589, 73837061272137367637, 2251838476779613, 2251838476779613, 2251833108070489, 0, 24, 4722382720457372598789,
  4722382544535512154629, 4, 36893524432376562181, 36893528005789352477, 76, 288234501469110353, 104, 865166146477752385, 73832487309134528577,
  2251809477361669, 2251809477361669, 24, 64, 36893787902850371141, 299205675454021, 20, 36893615554402716689, 36893615554402716737, 24, 64,
  36893787902850371141, 299205675454021, 68, 73827511167534366749, 36893808518693391905, 24, 64, 36893787902850371141, 299205675454021, 20,
  36893615279524809765, 36893615279524809797, 2251838476779629, 24, 64, 36893787902850371141, 299205675454021, 20, 36893615279524809765,
  36893615279524809797, 24, 64, 36893787902850371141, 299205675454021, 20, 36893615554402716689, 36893615554402716737, 24, 64, 36893787902850371141,
  299205675454021, 20, 36893615554402716689, 36893615554402716737, 2251824518135865, 24, 28, 36893629710614924877, 32, 36, 36893666681693409905,
  36893664894987014733, 36893649089507364889, 20, 36893615279524809765, 36893615279524809801, 24, 76, 73832015042039775261, 36893844252821294669, 20,
  36893615554402716689, 36893615554402716745, 24, 76, 73832015042039775261, 36893844252821294669, 20, 36893615554402716689, 36893615554402716745, 96,
  865130959958179897, 76, 576812622876246073, 73832452122614956089, 84, 3163244855385, 120, 110750273283769237589, 73837061272137367637, 84,
  3163244855385, 104, 110741266084514496597, 73836990903393189973, 2251838476779613, 2251836329295973, 24, 48, 36893721107518983745,
  36893719458251542089, 20, 36893615554402716689, 36893615554402716745, 104, 865166146477752385, 76, 576812625023729729, 73832487309134528577, 84,
  3163244855385, 120, 110750273283769237589, 73837061272137367637, 2251828813103177, 2251830960586833, 2251833108070489, 84, 3163244855385, 112,
  110745769684141867093, 73837026087765278805, 2251830960586833, 2251838476779613, 2251833108070489, 2251836329295973, 4, 0, 36893524157498655309,
  36893524707254469145, 8, 36893542299440514073, 36893544361024816137]

theorem side6a_l1_run31 : run .l1 2 9 1 side6aEnv [] side6a_l1_31 (side6aPaths31.map fun P => ⟨[P], []⟩) = true := Run.run_one (by decide +kernel)

def side6a_l1_32 : List ℕ := [
  2251838476779613, 84, 3163244855385, 120, 110750273283769237589, 73837061272137367637, 2251838476779613, 2251833108070489, 2251836329295973,
  2251838476779629, 2251836329295973, 2251838476779613, 2251833108070489, 44, 576671871429246989, 112, 865201314743713805, 110745977755980005389, 44,
  576671871429246989, 96, 865130945999536141, 110736970556725264397, 44, 576671871429246989, 88, 865095773438607425, 110732466957097893901, 44,
  576671871429246989, 88, 865095773438607425, 110732466957097893901, 44, 576671871429246989, 112, 865201314743713805, 110745977755980005389, 44,
  576671871429246989, 104, 865166130371624973, 110741474156352634893, 44, 576671871429246989, 112, 865201314743713805, 110745977755980005389, 44,
  576671871429246989, 112, 865201314743713805, 110745977755980005389, 44, 576671871429246989, 112, 865201332997324889, 110745977755980005389, 44,
  576671871429246989, 80, 865060577255358477, 110727963357470523405, 44, 576671871429246989, 72, 865025400399462433, 110723459757843152909, 44,
  576671871429246989, 72, 865025400399462433, 110723459757843152909, 44, 576671871429246989, 112, 865201314743713805, 110745977755980005389, 44,
  576671871429246989, 112, 865201314743713805, 110745977755980005389, 44, 576671871429246989, 112, 865201332997324889, 110745977755980005389, 44,
  576671871429246989, 72, 865025400399462433, 110723459757843152909, 2251818075684897, 2251818075684897, 2251818075684897, 2251818075684897, 68,
  288233676835258441, 112, 288233677909721161, 36893910772445478985, 12, 36, 36893666406815500353, 36893667506327128125, 36, 36893666406815500385,
  36893667506327128149, 12, 36, 36893666406815500353, 36893667231449221181, 36, 36893666406815500377, 36893667231449221205, 68, 288233676835258441,
  88, 288233677909327945, 36893910772395147337, 2251834181812317, 12, 36, 36893666681693407305, 36893667781205035077, 8, 36893562228088768077,
  36893561128577140237, 84, 3163244855385, 112, 110745769684141867093, 73837026087765278805, 2251834181812317, 52, 12, 73818503418523549713,
  9448768439221238106189, 12, 36893738424827119665, 36893738424827119729, 52, 12, 73818503418523549713, 9448768439221238106189, 12,
  36893737600193398833, 36893737600193398873, 52, 12, 73818503418523549713, 9448768439221238106189, 12, 36893737325315491893, 36893737325315491921,
  52, 12, 73818503418523549713, 9448768439221238106189, 12, 36893737325315491893, 36893737325315491921, 112, 136, 110745771450440679541,
  110745771450440679541, 136, 36894105936588716597, 36894107860734065209, 60, 40, 73823007293028958253, 9449344935432791529061, 40,
  36893773059443398205, 96, 116, 4722434283567186981477, 110736763563990909029, 1814315678593535171362861, 88, 68, 14173729155042873713725,
  110732259002290733129, 60, 40, 73823007293028958253, 9449344935432791529053, 40, 1814241891617102819164205, 1814241891617240316379181]

theorem side6a_l1_run32 : run .l1 2 9 1 side6aEnv [] side6a_l1_32 (side6aPaths32.map fun P => ⟨[P], []⟩) = true := Run.run_one (by decide +kernel)

def side6a_l1_33 : List ℕ := [
  60, 40, 73823007293028958253, 9449344935432791529053, 88, 68, 14173729155042873713725, 110732259002290733129, 40, 1814241891617102819164205,
  1814241891617240316379181, 68, 288233676835258441, 112, 288233677909721161, 36893910772445478985, 96, 100, 4722425329144490373733,
  110736763014235095141, 68, 88, 73827511854729134153, 36893896204745712709, 64, 1814316255089334349791301, 1814316255091534294163981, 88,
  865095773438607425, 68, 576777436356673601, 73827913336468013121, 68, 288233676835258441, 88, 865095773438607425, 73827913336468013121,
  2251834181812317, 68, 44, 73827511167534366769, 9449921431644344948829, 44, 36893808518693394493, 36893808518693394525, 76, 80,
  36893857996716648525, 4722414386667289847889, 72, 36893843703065486925, 36893842603553859085, 28, 52, 36893738424827121741, 36893737050437586977,
  52, 36893738424827121777, 36893737050437587045, 84, 3163244855385, 112, 110745769684141867093, 73837026087765278805, 84, 3163244855385, 112,
  110745769684141867093, 73837026087765278805, 2251834181812317, 52, 12, 73818503418523549713, 9448768439221238106197, 12, 36893738424827119665,
  36893738424827119729, 52, 12, 73818503418523549713, 9448768439221238106197, 12, 36893737875071305777, 36893737875071305825, 52, 12,
  73818503418523549713, 9448768439221238106197, 12, 36893737600193398833, 36893737600193398873, 52, 12, 73818503418523549713, 9448768439221238106197,
  12, 36893737600193398833, 36893737600193398873, 52, 288233127079182393, 112, 288233128153907257, 36893840403701039161, 12, 52,
  73818503418523549713, 36893738424827119665, 8, 36893562502966675049, 36893562090649814541, 52, 12, 73818503418523549713, 9448768439221238106181,
  12, 36893738424827119665, 36893738424827119685, 2251820223168553, 2251820223168553, 60, 288233401957220417, 112, 288233403031814209,
  36893875588073259073, 112, 136, 110745771450440679541, 110745771450440679541, 136, 36894105936588716589, 36894107860734065209, 80,
  865060586919034921, 60, 576742249837101097, 73823374550321070121, 60, 288233401957220417, 80, 865060586919034921, 36893875588006150209, 68,
  288233676835258441, 112, 288233677909721161, 36893910772445478985, 68, 88, 73827511854729134153, 36893896204745712709, 96, 100,
  4722425329144490373733, 110736763014235095141, 88, 1209597108565719318134857, 1814316255177432777228361, 64, 88, 14173729155042873713193,
  36893895105234084397, 88, 110732259002290733125, 36893895105234084437, 68, 288233676835258441, 88, 288233677909327945, 36893910772395147337,
  2251834181812317, 112, 136, 110745771450440679541, 110745771450440679541, 136, 36894105936588716597, 36894107860734065209, 96, 116,
  4722434283567186981477, 110736763563990909029, 40, 60, 9449344935432791529061, 1814315678593535171362861, 60, 73823007293028958253,
  36893773059443398205, 88, 865095773438607409, 60, 576742251984584753, 73823409736840642609, 88, 865095773438607409, 60, 576742251984584753,
  73823409736840642609, 68, 288233676835258441, 112, 288233677909721161, 36893910772445478985, 96, 865130959958179897, 68, 576777438504157241,
  73827948522987585593, 2251824518135865, 2251824518135865, 2251830960586833, 68, 52, 32, 36893736775559680621, 48, 64, 73827511167534366789, 16, 12,
  1209589913730925560072265, 604464360441521063069733, 9449921429857638556173, 73827511167534366773, 73827511167534366777, 48, 64,
  36893808518693397061, 104, 108, 4722429832744134522477, 110741266888740503661, 1814390042067829132370445, 36893808518693395013, 104,
  865166146477752385, 76, 576812625023729729, 73832487309134528577, 4, 0, 36893523745181794893, 36893524707254469133, 8, 36893542299440514061,
  36893543536391095309, 84, 3163244855385, 112, 865201332997324873, 73837026087765278805, 84, 3163244855385, 112, 865201332997324873,
  73837026087765278805, 2251830960586833, 24, 0, 4722382720457372598789, 36893615004646900237, 0, 4722382544535512154629, 36893613630257365513, 104,
  865166146477752385, 76, 576812625023729729, 73832487309134528577]

theorem side6a_l1_run33 : run .l1 2 9 1 side6aEnv [] side6a_l1_33 (side6aPaths33.map fun P => ⟨[P], []⟩) = true := Run.run_one (by decide +kernel)

def side6a_l1_34 : List ℕ := [
  0, 24, 4722382720457372598789, 4722382544535512154629, 24, 36893615004646900237, 36893613630257365513, 0, 24, 4722382755641744687621,
  4722382562127698199045, 4, 36893524432376562181, 36893525944205050381, 84, 3163244855385, 112, 865201332997324873, 73837026087765278805, 0, 24,
  4722382755641744687621, 4722382562127698199045, 4, 36893524432376562181, 36893525944205050381, 2251809477361669, 2251809477361669,
  2251809477361669, 2251813780717585, 2251813780717585, 2251813780717585, 2251813780717585, 2251813780717585, 2251813780717585, 2251813780717585,
  2251813780717585, 2251813780717585, 2251813780717585, 2251813780717585, 2251813780717585, 2251813780717585, 2251813780717585, 2251813780717585,
  2251813780717585, 2251813780717585, 2251813780717585, 2251813780717585, 2251813780717585, 76, 288233951713296465, 120, 288233952787759185,
  36893945956834476113, 4, 0, 36893523745181794893, 36893524157498655245, 8, 36893541749684700173, 36893543536391095309, 4, 0, 36893523745181794893,
  36893524157498655245, 8, 36893541749684700173, 36893543536391095309, 76, 288233951713296465, 96, 288233952787365969, 36893945956784144465,
  2251836329295973, 84, 3163244855385, 112, 110745769684141867093, 73837026087765278805, 2251838476779613, 2251836329295973, 4, 0,
  36893523882620748349, 36893524157498655245, 8, 36893541749684700173, 36893544910780630025, 4, 0, 36893523882620748349, 36893524157498655245, 8,
  36893541749684700173, 36893544910780630025, 4, 0, 36893523882620748349, 36893524157498655245, 8, 36893541749684700173, 36893542986635281425, 4, 0,
  36893523882620748349, 36893524157498655245, 8, 36893541749684700173, 36893544910780630025, 4, 0, 36893523882620748357, 36893524157498655245, 8,
  36893541749684700173, 36893544910780630025, 4, 0, 36893523882620748357, 36893524157498655245, 8, 36893541749684700173, 36893545048219583501, 4, 0,
  36893523882620748357, 36893524157498655245, 8, 36893541749684700173, 36893543261513188369, 4, 0, 36893523882620748357, 36893524157498655245, 8,
  36893541749684700173, 36893544910780630025, 76, 288233951713296465, 120, 288233952787759185, 36893945956834476113, 4, 0, 36893523745181794893,
  36893524157498655245, 8, 36893541749684700173, 36893543536391095309, 96, 865130959958179913, 76, 576812622876246089, 73832452122614956105, 76,
  288233951713296465, 96, 865130959958179913, 73832452122614956105, 2251836329295973, 4, 0, 36893523745181794893, 36893524157498655245, 8,
  36893541749684700173, 36893543536391095309, 84, 3163244855385, 112, 110745769684141867093, 73837026087765278805, 84, 3163244855385, 120,
  110750273283769237589, 73837061272137367637, 2251838476779613, 2251838476779613, 2251836329295973, 4, 0, 36893523882620748349,
  36893524157498655245, 8, 36893541749684700173, 36893544910780630025, 4, 0, 36893523882620748349, 36893524157498655245, 8, 36893541749684700173,
  36893545048219583501]

theorem side6a_l1_run34 : run .l1 2 9 1 side6aEnv [] side6a_l1_34 (side6aPaths34.map fun P => ⟨[P], []⟩) = true := Run.run_one (by decide +kernel)

def side6a_l1_35 : List ℕ := [
  4, 0, 36893523882620748349, 36893524157498655245, 8, 36893541749684700173, 36893542986635281425, 4, 0, 36893523882620748349, 36893524157498655245,
  8, 36893541749684700173, 36893544910780630025, 2251838476779629, 4, 0, 36893523882620748349, 36893524157498655245, 8, 36893541749684700173,
  36893544773341676549, 4, 0, 36893523882620748349, 36893524157498655245, 8, 36893541749684700173, 36893544910780630025, 2251822370652209,
  2251822370652209, 68, 288233676835258441, 120, 288233677909852233, 36893910772462256201, 4, 0, 36893523882620748357, 36893524157498655245, 8,
  36893541749684700173, 36893544910780630025, 88, 865095773438607409, 68, 576777436356673585, 73827913336468013105, 68, 288233676835258441, 88,
  865095773438607409, 36893910772395147337, 76, 288233951713296465, 120, 288233952787759185, 36893945956834476113, 4, 0, 36893523745181794893,
  36893524157498655245, 8, 36893541749684700173, 36893543536391095309, 4, 0, 36893523745181794893, 36893524157498655245, 8, 36893541749684700173,
  36893543536391095309, 76, 288233951713296465, 96, 288233952787365969, 36893945956784144465, 2251836329295973, 4, 0, 36893523882620748357,
  36893524157498655245, 8, 36893541749684700173, 36893544910780630025, 4, 0, 36893523882620748357, 36893524157498655245, 8, 36893541749684700173,
  36893545048219583501, 96, 865130959958179897, 68, 576777438504157241, 73827948522987585593, 96, 865130959958179897, 68, 576777438504157241,
  73827948522987585593, 76, 288233951713296465, 120, 288233952787759185, 36893945956834476113, 104, 865166146477752385, 76, 576812625023729729,
  73832487309134528577, 2251826665619521, 2251826665619521, 2251833108070489, 4, 0, 36893523745181794893, 36893524157498655245, 8,
  36893541749684700173, 36893543536391095309, 84, 3163244855385, 112, 865201332997324873, 73837026087765278805, 84, 3163244855385, 120,
  110750273283769237589, 73837061272137367637, 2251838476779613, 2251838476779613, 2251833108070489, 4, 0, 36893523745181794893,
  36893524157498655245, 8, 36893541749684700173, 36893543536391095309, 84, 3163244855385, 112, 865201332997324873, 73837026087765278805, 4, 0,
  36893523745181794893, 36893524157498655245, 8, 36893541749684700173, 36893543536391095309, 84, 3163244855385, 120, 110750273283769237589,
  73837061272137367637, 2251838476779613, 84, 3163244855385, 120, 110750273283769237589, 73837061272137367637, 2251838476779613, 2251833108070489,
  2251838476779613, 4, 0, 36893523882620748349, 36893524294937608713, 8, 36893541887123653641, 36893544910780630025, 104, 865166146477752401, 60,
  576742256279552081, 73823480109879787601, 0, 24, 4722382755641744687621, 4722382509351140065797, 4, 36893524294937608713, 36893526768838771209,
  2251838476779629, 112, 865201332997324889, 60, 576742258427035737, 73823515296399360089, 4, 0, 36893523882620748349, 36893524294937608713, 8,
  36893541887123653641, 36893544773341676549, 120, 865236519516897377, 60, 576742260574519393, 73823550482918932577, 2251822370652209, 84,
  3163244855385, 120, 110750273283769237589, 73837061272137367637, 84, 3163244855385, 104, 110741266084514496597, 73836990903393189973,
  2251838476779613, 2251836329295973, 4, 0, 36893523745181794893, 36893524294937608713, 8, 36893541887123653641, 36893544910780630025, 0, 24,
  4722382720457372598789, 4722382562127698199045, 4, 36893524294937608713, 36893527318594585097, 84, 3163244855385, 120, 110750273283769237589,
  73837061272137367637, 84, 3163244855385, 104, 865166146477752401, 73836990908761899089, 2251838476779613, 2251836329295973, 4, 0,
  36893523882620748357, 36893524294937608713, 8, 36893541887123653641, 36893544910780630025, 0, 24, 4722382720457372598789, 4722382544535512154629,
  4, 36893524294937608713, 36893527318594585097, 0, 24, 4722382755641744687621, 4722382544535512154629, 4, 36893524294937608713,
  36893526768838771209, 2251838476779629, 0, 24, 4722382755641744687621, 4722382544535512154629, 4, 36893524294937608713, 36893526906277724685, 4, 0,
  36893523882620748357, 36893524294937608713, 8, 36893541887123653641, 36893544773341676549, 4, 0, 36893523882620748357, 36893524294937608713, 8,
  36893541887123653641, 36893544910780630025, 2251824518135865, 0, 24, 4722382755641744687621, 4722382562127698199045, 4, 36893524294937608713,
  36893525944205050381, 4, 0, 36893523745181794893, 36893524294937608713, 8, 36893541887123653641, 36893544773341676549]

theorem side6a_l1_run35 : run .l1 2 9 1 side6aEnv [] side6a_l1_35 (side6aPaths35.map fun P => ⟨[P], []⟩) = true := Run.run_one (by decide +kernel)

def side6a_l1_36 : List ℕ := [
  4, 0, 36893523745181794893, 36893524294937608713, 8, 36893541887123653641, 36893544910780630025, 96, 865130959958179897, 76, 576812622876246073,
  73832452122614956089, 84, 3163244855385, 120, 110750273283769237589, 73837061272137367637, 84, 3163244855385, 104, 110741266084514496597,
  73836990903393189973, 2251838476779613, 2251836329295973, 4, 0, 36893523745181794893, 36893524294937608713, 8, 36893541887123653641,
  36893544910780630025, 104, 865166146477752385, 76, 576812625023729729, 73832487309134528577, 84, 3163244855385, 120, 110750273283769237589,
  73837061272137367637, 2251828813103177, 2251830960586833, 2251833108070489, 84, 3163244855385, 120, 110750273283769237589, 73837061272137367637,
  2251838476779613, 84, 3163244855385, 120, 110750273283769237589, 73837061272137367637, 0, 28, 4722384620413465395717, 4722384743558767706629, 4,
  36893524432376562181, 36893526768838771209, 2251838476779613, 84, 3163244855385, 120, 110750273283769237589, 73837061272137367637,
  2251838476779613, 0, 28, 4722384620413465395717, 4722384778743139795461, 4, 36893524432376562181, 36893526768838771209, 2251838476779613, 84,
  3163244855385, 120, 110750273283769237589, 73837061272137367637, 2251838476779613, 2251809477361669, 2251809477361669, 2251809477361669,
  2251809477361669, 2251809477361669, 2251809477361669, 2251809477361669, 2251809477361669, 2251809477361669, 2251809477361669, 2251809477361669,
  2251809477361669, 2251809477361669, 2251809477361669]

theorem side6a_l1_run36 : run .l1 2 9 1 side6aEnv [] side6a_l1_36 (side6aPaths36.map fun P => ⟨[P], []⟩) = true := Run.run_one (by decide +kernel)

theorem side6a_l1 : side6aTab.Refuted .l1 2 9 1 36 :=
  Tab.refuted_one (T := side6aTab) rfl side6a_paths (parts (part side6a_l1_run0) (parts (part side6a_l1_run1) (parts (part side6a_l1_run2) (parts (part side6a_l1_run3) (parts (part side6a_l1_run4) (parts (part side6a_l1_run5) (parts (part side6a_l1_run6) (parts (part side6a_l1_run7) (parts (part side6a_l1_run8) (parts (part side6a_l1_run9) (parts (part side6a_l1_run10) (parts (part side6a_l1_run11) (parts (part side6a_l1_run12) (parts (part side6a_l1_run13) (parts (part side6a_l1_run14) (parts (part side6a_l1_run15) (parts (part side6a_l1_run16) (parts (part side6a_l1_run17) (parts (part side6a_l1_run18) (parts (part side6a_l1_run19) (parts (part side6a_l1_run20) (parts (part side6a_l1_run21) (parts (part side6a_l1_run22) (parts (part side6a_l1_run23) (parts (part side6a_l1_run24) (parts (part side6a_l1_run25) (parts (part side6a_l1_run26) (parts (part side6a_l1_run27) (parts (part side6a_l1_run28) (parts (part side6a_l1_run29) (parts (part side6a_l1_run30) (parts (part side6a_l1_run31) (parts (part side6a_l1_run32) (parts (part side6a_l1_run33) (parts (part side6a_l1_run34) (parts (part side6a_l1_run35) (part side6a_l1_run36)))))))))))))))))))))))))))))))))))))

end MinCert
end Peano
