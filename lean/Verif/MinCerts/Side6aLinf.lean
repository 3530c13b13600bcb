import Verif.Lemmas.MinRun
import Verif.MinCerts.Side6a

set_option autoImplicit false

/-
Side, grid 6, steps to adjacent cells: no curve has less dilation.  This file is generated.
-/
namespace Peano
namespace MinCert

def side6a_linf_0 : List ℕ := [
  20, 576566311862140933, 120, 4401269768317, 110750375796040269829, 20, 576566311862140933, 104, 865166123920785413, 110741368596785528837, 20,
  576566311862140933, 96, 865130939548696581, 110736864997158158341, 20, 576566311862140933, 96, 865130939548696581, 110736864997158158341, 20,
  576566311862140933, 88, 865095755176607749, 110732361397530787845, 20, 576566311862140933, 88, 865095755176607749, 110732361397530787845, 20,
  576566311862140933, 88, 865095755176607749, 110732361397530787845, 20, 576566311862140933, 88, 865095755176607749, 110732361397530787845, 20,
  576566311862140933, 80, 865060570804518917, 110727857797903417349, 20, 576566311862140933, 80, 865060570804518917, 110727857797903417349, 20,
  576566311862140933, 80, 865060570804518917, 110727857797903417349, 20, 576566311862140933, 80, 865060570804518917, 110727857797903417349, 20,
  576566311862140933, 80, 865060570804518917, 110727857797903417349, 20, 576566311862140933, 80, 865060570804518917, 110727857797903417349, 20,
  576566311862140933, 80, 865060570804518917, 110727857797903417349, 20, 576566311862140933, 80, 865060570804518917, 110727857797903417349, 20,
  576566311862140933, 88, 865095755176607749, 110732361397530787845, 20, 576566311862140933, 88, 865095755176607749, 110732361397530787845, 20,
  576566311862140933, 120, 4401269768317, 110750375796040269829, 20, 576566311862140933, 104, 865166123920785413, 110741368596785528837, 20,
  576566311862140933, 96, 865130939548696581, 110736864997158158341, 20, 576566311862140933, 96, 865130939548696581, 110736864997158158341, 20,
  576566311862140933, 96, 865130939548696581, 110736864997158158341, 20, 576566311862140933, 120, 4401269768317, 110750375796040269829, 20,
  576566311862140933, 120, 4401269768317, 110750375796040269829, 20, 576566311862140933, 104, 865166123920785413, 110741368596785528837, 20,
  576566311862140933, 104, 865166123920785413, 110741368596785528837, 20, 576566311862140933, 120, 4401269768317, 110750375796040269829, 20,
  576566311862140933, 104, 865166123920785413, 110741368596785528837, 20, 576566311862140933, 112, 865201308292874245, 110745872196412899333, 20,
  576566311862140933, 120, 4401269768317, 110750375796040269829, 20, 576566311862140933, 120, 4401269768317, 110750375796040269829, 20,
  576566311862140933, 120, 4401269768317, 110750375796040269829, 20, 576566311862140933, 112, 288235189738209397, 110745872196412899333, 20,
  576566311862140933, 96, 865130939548696581, 110736864997158158341, 20, 576566311862140933, 88, 865095755176607749, 110732361397530787845, 20,
  576566311862140933, 88, 865095755176607749, 110732361397530787845, 20, 576566311862140933, 112, 288235189738209397, 110745872196412899333, 20,
  576566311862140933, 104, 865166123920785413, 110741368596785528837, 20, 576566311862140933, 112, 288235189738209397, 110745872196412899333, 20,
  576566311862140933, 112, 288235189738209397, 110745872196412899333, 20, 576566311862140933, 120, 4401269768317, 110750375796040269829, 20,
  576566311862140933, 104, 865166123920785413, 110741368596785528837, 20, 576566311862140933, 96, 865130939548696581, 110736864997158158341, 20,
  576566311862140933, 96, 865130939548696581, 110736864997158158341, 20, 576566311862140933, 120, 4401269768317, 110750375796040269829, 20,
  576566311862140933, 112, 865201308292874245, 110745872196412899333, 20, 576566311862140933, 120, 4401269768317, 110750375796040269829, 20,
  576566311862140933, 120, 4401269768317, 110750375796040269829, 20, 576566311862140933, 120, 4401269768317, 110750375796040269829, 20,
  576566311862140933, 104, 865166123920785413, 110741368596785528837, 20, 576566311862140933, 112, 865201308292874245, 110745872196412899333, 20,
  576566311862140933, 120, 4401269768317, 110750375796040269829, 20, 576566311862140933, 120, 4401269768317, 110750375796040269829, 20,
  576566311862140933, 120, 4401269768317, 110750375796040269829, 20, 576566311862140933, 120, 4401269768317, 110750375796040269829, 20,
  576566311862140933, 88, 865095755176607749, 110732361397530787845, 20, 576566311862140933, 80, 865060570804518917, 110727857797903417349, 20,
  576566311862140933, 80, 865060570804518917, 110727857797903417349, 20, 576566311862140933, 72, 865025386432430085, 110723354198276046853]

theorem side6a_linf_run0 : run .linf 2 90 17 side6aEnv [] side6a_linf_0 (side6aPaths0.map fun P => ⟨[P], []⟩) = true := Run.run_one (by decide +kernel)

def side6a_linf_1 : List ℕ := [
  20, 576566311862140933, 72, 865025386432430085, 110723354198276046853, 20, 576566311862140933, 72, 865025386432430085, 110723354198276046853, 20,
  576566311862140933, 72, 865025386432430085, 110723354198276046853, 20, 576566311862140933, 64, 864990202060341253, 110718850598648676357, 20,
  576566311862140933, 64, 864990202060341253, 110718850598648676357, 20, 576566311862140933, 64, 864990202060341253, 110718850598648676357, 20,
  576566311862140933, 64, 864990202060341253, 110718850598648676357, 20, 576566311862140933, 64, 864990202060341253, 110718850598648676357, 20,
  576566311862140933, 64, 864990202060341253, 110718850598648676357, 20, 576566311862140933, 64, 864990202060341253, 110718850598648676357, 20,
  576566311862140933, 64, 864990202060341253, 110718850598648676357, 20, 576566311862140933, 72, 865025386432430085, 110723354198276046853, 20,
  576566311862140933, 72, 865025386432430085, 110723354198276046853, 20, 576566311862140933, 120, 4401269768317, 110750375796040269829, 20,
  576566311862140933, 88, 865095755176607749, 110732361397530787845, 20, 576566311862140933, 80, 865060570804518917, 110727857797903417349, 20,
  576566311862140933, 80, 865060570804518917, 110727857797903417349, 20, 576566311862140933, 104, 865166123920785413, 110741368596785528837, 20,
  576566311862140933, 112, 288235189738209397, 110745872196412899333, 20, 576566311862140933, 112, 288235189738209397, 110745872196412899333, 20,
  576566311862140933, 112, 865201308292874245, 110745872196412899333, 20, 576566311862140933, 120, 4401269768317, 110750375796040269829, 20,
  576566311862140933, 120, 4401269768317, 110750375796040269829, 20, 576566311862140933, 80, 865060570804518917, 110727857797903417349, 20,
  576566311862140933, 120, 4401269768317, 110750375796040269829, 20, 576566311862140933, 120, 4401269768317, 110750375796040269829, 20,
  576566311862140933, 88, 865095755176607749, 110732361397530787845, 20, 576566311862140933, 88, 865095755176607749, 110732361397530787845, 20,
  576566311862140933, 120, 4401269768317, 110750375796040269829, 20, 576566311862140933, 120, 4401269768317, 110750375796040269829, 20,
  576566311862140933, 80, 865060570804518917, 110727857797903417349, 20, 576566311862140933, 72, 865025386432430085, 110723354198276046853, 20,
  576566311862140933, 72, 865025386432430085, 110723354198276046853, 20, 576566311862140933, 72, 865025386432430085, 110723354198276046853, 20,
  576566311862140933, 72, 865025386432430085, 110723354198276046853, 20, 576566311862140933, 64, 864990202060341253, 110718850598648676357, 20,
  576566311862140933, 64, 864990202060341253, 110718850598648676357, 20, 576566311862140933, 64, 864990202060341253, 110718850598648676357, 20,
  576566311862140933, 64, 864990202060341253, 110718850598648676357, 20, 576566311862140933, 64, 864990202060341253, 110718850598648676357, 20,
  576566311862140933, 64, 864990202060341253, 110718850598648676357, 20, 576566311862140933, 64, 864990202060341253, 110718850598648676357, 20,
  576566311862140933, 56, 864955017688252421, 110714346999021305861, 20, 576566311862140933, 56, 864955017688252421, 110714346999021305861, 20,
  576566311862140933, 56, 864955017688252421, 110714346999021305861, 20, 576566311862140933, 56, 864955017688252421, 110714346999021305861, 20,
  576566311862140933, 56, 864955017688252421, 110714346999021305861, 20, 576566311862140933, 56, 864955017688252421, 110714346999021305861, 20,
  576566311862140933, 56, 864955017688252421, 110714346999021305861, 20, 576566311862140933, 56, 864955017688252421, 110714346999021305861, 20,
  576566311862140933, 56, 864955017688252421, 110714346999021305861, 20, 576566311862140933, 56, 864955017688252421, 110714346999021305861, 20,
  576566311862140933, 56, 864955017688252421, 110714346999021305861, 20, 576566311862140933, 56, 864955017688252421, 110714346999021305861, 20,
  576566311862140933, 56, 864955017688252421, 110714346999021305861, 20, 576566311862140933, 56, 864955017688252421, 110714346999021305861, 20,
  576566311862140933, 112, 865201308292874245, 110745872196412899333, 20, 576566311862140933, 120, 4401269768317, 110750375796040269829, 20,
  576566311862140933, 64, 864990202060341253, 110718850598648676357, 20, 576566311862140933, 64, 864990202060341253, 110718850598648676357]

theorem side6a_linf_run1 : run .linf 2 90 17 side6aEnv [] side6a_linf_1 (side6aPaths1.map fun P => ⟨[P], []⟩) = true := Run.run_one (by decide +kernel)

def side6a_linf_2 : List ℕ := [
  20, 576566311862140933, 64, 864990202060341253, 110718850598648676357, 20, 576566311862140933, 64, 864990202060341253, 110718850598648676357, 20,
  576566311862140933, 120, 4401269768317, 110750375796040269829, 20, 576566311862140933, 120, 4401269768317, 110750375796040269829, 20,
  576566311862140933, 80, 865060570804518917, 110727857797903417349, 20, 576566311862140933, 72, 865025386432430085, 110723354198276046853, 20,
  576566311862140933, 72, 865025386432430085, 110723354198276046853, 20, 576566311862140933, 72, 865025386432430085, 110723354198276046853, 20,
  576566311862140933, 72, 865025386432430085, 110723354198276046853, 20, 576566311862140933, 120, 4401269768317, 110750375796040269829, 20,
  576566311862140933, 104, 865166123920785413, 110741368596785528837, 20, 576566311862140933, 112, 288235189738209397, 110745872196412899333, 20,
  576566311862140933, 120, 4401269768317, 110750375796040269829, 20, 576566311862140933, 112, 288235189738209397, 110745872196412899333, 20,
  576566311862140933, 120, 4401269768317, 110750375796040269829, 20, 576566311862140933, 120, 4401269768317, 110750375796040269829, 20,
  576566311862140933, 88, 865095755176607749, 110732361397530787845, 20, 576566311862140933, 120, 4401269768317, 110750375796040269829, 20,
  576566311862140933, 120, 4401269768317, 110750375796040269829, 20, 576566311862140933, 72, 865025386432430085, 110723354198276046853, 20,
  576566311862140933, 64, 864990202060341253, 110718850598648676357, 20, 576566311862140933, 64, 864990202060341253, 110718850598648676357, 20,
  576566311862140933, 64, 864990202060341253, 110718850598648676357, 20, 576566311862140933, 64, 864990202060341253, 110718850598648676357, 20,
  576566311862140933, 56, 864955017688252421, 110714346999021305861, 20, 576566311862140933, 56, 864955017688252421, 110714346999021305861, 20,
  576566311862140933, 56, 864955017688252421, 110714346999021305861, 20, 576566311862140933, 56, 864955017688252421, 110714346999021305861, 20,
  576566311862140933, 56, 864955017688252421, 110714346999021305861, 20, 576566311862140933, 56, 864955017688252421, 110714346999021305861, 20,
  576566311862140933, 56, 864955017688252421, 110714346999021305861, 20, 576566311862140933, 56, 864955017688252421, 110714346999021305861, 20,
  576566311862140933, 56, 864955017688252421, 110714346999021305861, 20, 576566311862140933, 56, 864955017688252421, 110714346999021305861, 20,
  576566311862140933, 56, 864955017688252421, 110714346999021305861, 20, 576566311862140933, 56, 864955017688252421, 110714346999021305861, 20,
  576566311862140933, 56, 864955017688252421, 110714346999021305861, 20, 576566311862140933, 56, 864955017688252421, 110714346999021305861, 20,
  576566311862140933, 56, 864955017688252421, 110714346999021305861, 20, 576566311862140933, 56, 864955017688252421, 110714346999021305861, 20,
  576566311862140933, 56, 864955017688252421, 110714346999021305861, 20, 576566311862140933, 56, 864955017688252421, 110714346999021305861, 20,
  576566311862140933, 56, 864955017688252421, 110714346999021305861, 20, 576566311862140933, 56, 864955017688252421, 110714346999021305861, 20,
  576566311862140933, 56, 864955017688252421, 110714346999021305861, 20, 576566311862140933, 56, 864955017688252421, 110714346999021305861, 20,
  576566311862140933, 56, 864955017688252421, 110714346999021305861, 20, 576566311862140933, 48, 864919833316163589, 110709843399393935365, 20,
  576566311862140933, 48, 864919833316163589, 110709843399393935365, 20, 576566311862140933, 48, 864919833316163589, 110709843399393935365, 20,
  576566311862140933, 48, 864919833316163589, 110709843399393935365, 20, 576566311862140933, 48, 864919833316163589, 110709843399393935365, 20,
  576566311862140933, 48, 864919833316163589, 110709843399393935365, 20, 576566311862140933, 48, 864919833316163589, 110709843399393935365, 20,
  576566311862140933, 48, 864919833316163589, 110709843399393935365, 20, 576566311862140933, 48, 864919833316163589, 110709843399393935365, 20,
  576566311862140933, 48, 864919833316163589, 110709843399393935365, 20, 576566311862140933, 48, 864919833316163589, 110709843399393935365, 20,
  576566311862140933, 48, 864919833316163589, 110709843399393935365, 20, 576566311862140933, 48, 864919833316163589, 110709843399393935365]

theorem side6a_linf_run2 : run .linf 2 90 17 side6aEnv [] side6a_linf_2 (side6aPaths2.map fun P => ⟨[P], []⟩) = true := Run.run_one (by decide +kernel)

def side6a_linf_3 : List ℕ := [
  20, 576566311862140933, 48, 864919833316163589, 110709843399393935365, 20, 576566311862140933, 48, 864919833316163589, 110709843399393935365, 20,
  576566311862140933, 48, 864919833316163589, 110709843399393935365, 20, 576566311862140933, 48, 864919833316163589, 110709843399393935365, 20,
  576566311862140933, 48, 864919833316163589, 110709843399393935365, 20, 576566311862140933, 48, 864919833316163589, 110709843399393935365, 20,
  576566311862140933, 48, 864919833316163589, 110709843399393935365, 20, 576566311862140933, 48, 864919833316163589, 110709843399393935365, 20,
  576566311862140933, 48, 864919833316163589, 110709843399393935365, 20, 576566311862140933, 48, 864919833316163589, 110709843399393935365, 20,
  576566311862140933, 48, 864919833316163589, 110709843399393935365, 20, 576566311862140933, 48, 864919833316163589, 110709843399393935365, 20,
  576566311862140933, 48, 864919833316163589, 110709843399393935365, 20, 576566311862140933, 48, 864919833316163589, 110709843399393935365, 20,
  576566311862140933, 48, 864919833316163589, 110709843399393935365, 20, 576566311862140933, 48, 864919833316163589, 110709843399393935365, 20,
  576566311862140933, 48, 864919833316163589, 110709843399393935365, 20, 576566311862140933, 48, 864919833316163589, 110709843399393935365, 20,
  576566311862140933, 48, 864919833316163589, 110709843399393935365, 20, 576566311862140933, 48, 864919833316163589, 110709843399393935365, 20,
  576566311862140933, 48, 864919833316163589, 110709843399393935365, 20, 576566311862140933, 48, 864919833316163589, 110709843399393935365, 20,
  576566311862140933, 48, 864919833316163589, 110709843399393935365, 20, 576566311862140933, 88, 865095755176607749, 110732361397530787845, 20,
  576566311862140933, 88, 865095755176607749, 110732361397530787845, 20, 576566311862140933, 120, 4401269768317, 110750375796040269829, 20,
  576566311862140933, 104, 865166123920785413, 110741368596785528837, 20, 576566311862140933, 96, 865130939548696581, 110736864997158158341, 20,
  576566311862140933, 96, 865130939548696581, 110736864997158158341, 20, 576566311862140933, 112, 865201308292874245, 110745872196412899333, 20,
  576566311862140933, 120, 4401269768317, 110750375796040269829, 20, 576566311862140933, 112, 288235189738209397, 110745872196412899333, 20,
  576566311862140933, 120, 4401269768317, 110750375796040269829, 20, 576566311862140933, 112, 865201308292874245, 110745872196412899333, 20,
  576566311862140933, 120, 4401269768317, 110750375796040269829, 20, 576566311862140933, 72, 865025386432430085, 110723354198276046853, 20,
  576566311862140933, 72, 865025386432430085, 110723354198276046853, 20, 576566311862140933, 120, 4401269768317, 110750375796040269829, 20,
  576566311862140933, 88, 865095755176607749, 110732361397530787845, 20, 576566311862140933, 80, 865060570804518917, 110727857797903417349, 20,
  576566311862140933, 80, 865060570804518917, 110727857797903417349, 20, 576566311862140933, 112, 865201308292874245, 110745872196412899333, 20,
  576566311862140933, 120, 4401269768317, 110750375796040269829, 20, 576566311862140933, 64, 864990202060341253, 110718850598648676357, 20,
  576566311862140933, 64, 864990202060341253, 110718850598648676357, 20, 576566311862140933, 64, 864990202060341253, 110718850598648676357, 20,
  576566311862140933, 64, 864990202060341253, 110718850598648676357, 20, 576566311862140933, 120, 4401269768317, 110750375796040269829, 20,
  576566311862140933, 120, 4401269768317, 110750375796040269829, 20, 576566311862140933, 80, 865060570804518917, 110727857797903417349, 20,
  576566311862140933, 72, 865025386432430085, 110723354198276046853, 20, 576566311862140933, 72, 865025386432430085, 110723354198276046853, 20,
  576566311862140933, 72, 865025386432430085, 110723354198276046853, 20, 576566311862140933, 72, 865025386432430085, 110723354198276046853, 20,
  576566311862140933, 120, 4401269768317, 110750375796040269829, 20, 576566311862140933, 104, 865166123920785413, 110741368596785528837, 20,
  576566311862140933, 96, 865130939548696581, 110736864997158158341, 20, 576566311862140933, 96, 865130939548696581, 110736864997158158341, 20,
  576566311862140933, 120, 4401269768317, 110750375796040269829, 20, 576566311862140933, 112, 288235189738209397, 110745872196412899333]

theorem side6a_linf_run3 : run .linf 2 90 17 side6aEnv [] side6a_linf_3 (side6aPaths3.map fun P => ⟨[P], []⟩) = true := Run.run_one (by decide +kernel)

def side6a_linf_4 : List ℕ := [
  20, 576566311862140933, 120, 4401269768317, 110750375796040269829, 20, 576566311862140933, 120, 4401269768317, 110750375796040269829, 20,
  576566311862140933, 120, 4401269768317, 110750375796040269829, 20, 576566311862140933, 88, 865095755176607749, 110732361397530787845, 20,
  576566311862140933, 80, 865060570804518917, 110727857797903417349, 20, 576566311862140933, 80, 865060570804518917, 110727857797903417349, 20,
  576566311862140933, 120, 4401269768317, 110750375796040269829, 20, 576566311862140933, 120, 4401269768317, 110750375796040269829, 20,
  576566311862140933, 120, 4401269768317, 110750375796040269829, 20, 576566311862140933, 80, 865060570804518917, 110727857797903417349, 20,
  576566311862140933, 72, 865025386432430085, 110723354198276046853, 20, 576566311862140933, 72, 865025386432430085, 110723354198276046853, 20,
  576566311862140933, 72, 865025386432430085, 110723354198276046853, 20, 576566311862140933, 72, 865025386432430085, 110723354198276046853, 20,
  576566311862140933, 120, 4401269768317, 110750375796040269829, 20, 576566311862140933, 104, 865166123920785413, 110741368596785528837, 20,
  576566311862140933, 112, 288235189738209397, 110745872196412899333, 20, 576566311862140933, 120, 4401269768317, 110750375796040269829, 20,
  576566311862140933, 112, 288235189738209397, 110745872196412899333, 20, 576566311862140933, 120, 4401269768317, 110750375796040269829, 20,
  576566311862140933, 120, 4401269768317, 110750375796040269829, 20, 576566311862140933, 88, 865095755176607749, 110732361397530787845, 20,
  576566311862140933, 120, 4401269768317, 110750375796040269829, 20, 576566311862140933, 120, 4401269768317, 110750375796040269829, 20,
  576566311862140933, 64, 864990202060341253, 110718850598648676357, 20, 576566311862140933, 56, 864955017688252421, 110714346999021305861, 20,
  576566311862140933, 56, 864955017688252421, 110714346999021305861, 20, 576566311862140933, 56, 864955017688252421, 110714346999021305861, 20,
  576566311862140933, 56, 864955017688252421, 110714346999021305861, 20, 576566311862140933, 48, 864919833316163589, 110709843399393935365, 20,
  576566311862140933, 48, 864919833316163589, 110709843399393935365, 20, 576566311862140933, 48, 864919833316163589, 110709843399393935365, 20,
  576566311862140933, 48, 864919833316163589, 110709843399393935365, 20, 576566311862140933, 48, 864919833316163589, 110709843399393935365, 20,
  576566311862140933, 48, 864919833316163589, 110709843399393935365, 20, 576566311862140933, 48, 864919833316163589, 110709843399393935365, 20,
  576566311862140933, 48, 864919833316163589, 110709843399393935365, 20, 576566311862140933, 48, 864919833316163589, 110709843399393935365, 20,
  576566311862140933, 48, 864919833316163589, 110709843399393935365, 20, 576566311862140933, 48, 864919833316163589, 110709843399393935365, 20,
  576566311862140933, 48, 864919833316163589, 110709843399393935365, 20, 576566311862140933, 48, 864919833316163589, 110709843399393935365, 20,
  576566311862140933, 48, 864919833316163589, 110709843399393935365, 20, 576566311862140933, 48, 864919833316163589, 110709843399393935365, 20,
  576566311862140933, 48, 864919833316163589, 110709843399393935365, 20, 576566311862140933, 48, 864919833316163589, 110709843399393935365, 20,
  576566311862140933, 48, 864919833316163589, 110709843399393935365, 20, 576566311862140933, 48, 864919833316163589, 110709843399393935365, 20,
  576566311862140933, 48, 864919833316163589, 110709843399393935365, 20, 576566311862140933, 48, 864919833316163589, 110709843399393935365, 20,
  576566311862140933, 48, 864919833316163589, 110709843399393935365, 20, 576566311862140933, 48, 864919833316163589, 110709843399393935365,
  2251811633233941, 2251811633233941, 2251811633233941, 2251811633233941, 2251811633233941, 2251811633233941, 2251811633233941, 2251811633233941,
  2251811633233941, 2251811633233941, 2251811633233941, 2251811633233941, 2251811633233941, 2251811633233941, 2251811633233941, 2251811633233941,
  2251811633233941, 2251811633233941, 2251811633233941, 2251811633233941, 2251811633233941, 2251811633233941, 2251811633233941, 2251811633233941,
  2251811633233941, 2251811633233941, 2251811633233941, 2251811633233941, 2251811633233941, 2251811633233941, 2251811633233941, 2251811633233941,
  2251811633233941, 2251811633233941, 2251811633233941, 2251811633233941, 2251811633233941, 2251811633233941, 2251811633233941, 2251811633233941]

theorem side6a_linf_run4 : run .linf 2 90 17 side6aEnv [] side6a_linf_4 (side6aPaths4.map fun P => ⟨[P], []⟩) = true := Run.run_one (by decide +kernel)

def side6a_linf_5 : List ℕ := [
  2251811633233941, 2251811633233941, 2251811633233941, 2251811633233941, 2251811633233941, 2251811633233941, 2251811633233941, 2251811633233941,
  2251811633233941, 2251811633233941, 2251811633233941, 2251811633233941, 2251811633233941, 2251811633233941, 2251811633233941, 2251811633233941,
  2251811633233941, 2251811633233941, 2251811633233941, 2251811633233941, 2251811633233941, 2251811633233941, 2251811633233941, 2251811633233941,
  2251811633233941, 2251811633233941, 2251811633233941, 2251811633233941, 2251811633233941, 2251811633233941, 2251811633233941, 2251811633233941,
  2251811633233941, 2251811633233941, 2251811633233941, 2251811633233941, 2251811633233941, 2251811633233941, 2251811633233941, 2251811633233941,
  2251811633233941, 2251811633233941, 2251811633233941, 2251811633233941, 2251811633233941, 2251811633233941, 28, 36, 288232577322975273,
  288232577322975273, 24, 36893632871710854665, 36893632734271901289, 120, 4401269768317, 28, 158604619419773, 110750410982568230941, 100, 84,
  36893947469475359809, 36893947606914313245, 80, 36893946369963731597, 36893946368889989637, 64, 0, 4, 8, 12, 36893559341870745197, 16,
  4722377847834289375301, 20, 604464641547061866856969, 24, 36893615416963763213, 14171999490486353005593, 36893545048219583609,
  36893527456033538681, 12, 36893559341870744133, 110718745592068112389, 68, 28, 24, 73804991795007324189, 9447038950586577849993,
  604468176819873676010017, 36893805632475374089, 0, 4, 140, 604463488625557259765869, 136, 36894125727798019701, 132, 36894107998173021197, 12,
  36893559341870744189, 64, 16, 4722377847834289375301, 20, 604464641547061866856969, 24, 28, 73804991795007324189, 14171999506153462566433,
  14171999490486353005593, 68, 28, 24, 73804991795007324189, 1209220985675219470388881, 1814018224880393395437637, 36893805632475374089,
  36893527593472492149, 28, 9447038950586577846853, 64, 12, 36893559341870744133, 110718745592068112389, 68, 1814018224880393395437637,
  36893805632475374089, 124, 136, 36894106211466625049, 36894108135611973657, 140, 36894123803652669465, 36894125452920111161, 120, 4401269768317,
  28, 158604619419773, 110750410982568230941, 120, 4401269768317, 28, 158604619419773, 110750410982568230941, 80, 96, 110727755677541138517,
  110727755677541138517, 92, 36893914621565479449, 36893913247175944729, 100, 72, 865025407915655253, 84, 36893947606914313289, 36893876001219552789,
  80, 36893946368889989637, 36893946369963731569, 72, 84, 110723251665596776525, 110723251665596776525, 84, 9903624912811845670461974037,
  36893876001219552789, 72, 88, 110723251803035729997, 110723251803035729997, 84, 36893879437193389593, 36893877787925947929, 72, 88,
  110723251803035729997, 110723251803035729997, 84, 36893879437193389593, 36893877787925947929, 28, 24, 73804991795007324189, 9447038950586577849993,
  56, 110714243504269099041, 60, 604467600359119225101857, 36893770448103284233, 28, 24, 73804991795007324189, 9447038950586577849957, 56,
  110714243504269099041, 60, 604467577841121088249377, 36893770448103284233, 120, 4401269768317, 28, 158604619419773, 110750410982568230941, 120,
  4401269768317, 28, 158604619419773, 110750410982568230941, 120, 4401269768317, 28, 158604619419773, 110750410982568230941, 80, 96,
  110727755677541138517, 110727755677541138517, 92, 36893914621565479449, 36893913247175944729, 100, 72, 865025407915655253, 84,
  36893948019231173677, 36893876001219552789, 80, 36893946368889989637, 36893946369963731569, 72, 84, 110723251665596776525, 110723251665596776525,
  84, 9903624912811845670461974037, 36893876001219552789, 72, 88, 110723251803035729997, 110723251803035729997, 84, 36893879437193389593,
  36893877787925947929, 72, 88, 110723251803035729997, 110723251803035729997, 84, 36893879437193389593, 36893877787925947929, 2251813780717597,
  2251813780717597, 2251813780717597, 2251813780717597, 2251813780717597, 2251813780717597, 2251813780717597, 2251813780717597, 2251813780717597]

theorem side6a_linf_run5 : run .linf 2 90 17 side6aEnv [] side6a_linf_5 (side6aPaths5.map fun P => ⟨[P], []⟩) = true := Run.run_one (by decide +kernel)

def side6a_linf_6 : List ℕ := [
  2251813780717597, 2251813780717597, 2251813780717597, 2251813780717597, 2251813780717597, 2251813780717597, 2251813780717597, 2251813780717597,
  2251813780717597, 2251813780717597, 120, 4401269768317, 60, 299342174888061, 110750551728646520893, 28, 32, 36893646890484109325,
  36893650189018992653, 32, 36893646890484109421, 36893650189018992749, 28, 48, 36893720281811521541, 36893718907421986821, 48, 36893720282885263501,
  36893718908495728781, 28, 48, 36893720281811521541, 36893718907421986821, 48, 36893720282885263505, 36893718908495728785, 48, 28,
  36893720006933614597, 36893720008007356553, 28, 36893718907421986821, 36893718908495728777, 28, 48, 36893720006933614597, 36893718907421986821, 48,
  36893720008007356561, 36893718908495728785, 48, 28, 36893720006933614597, 36893720008007356557, 28, 36893718907421986821, 36893718908495728781, 28,
  32, 36893646890484109325, 36893650601335853069, 32, 36893646890484109433, 36893650601335853177, 2251822370652221, 2251822370652221,
  2251822370652221, 2251822370652221, 2251822370652221, 2251822370652221, 2251822370652221, 2251822370652221, 2251824518135877, 2251824518135877,
  2251833108070501, 2251828813103189, 2251826665619533, 2251826665619533, 96, 28, 32, 36893646890484109325, 14174305369779450417165, 32,
  4722386802257053093989, 110736760677772886049, 68, 64, 36893805220158513677, 4722407068317878592101, 64, 1209597108480782907744781,
  1814316255089471847006277, 120, 4401269768317, 92, 440079730356349, 110750692474724810845, 2251833108070501, 28, 32, 36893646890484109325,
  36893650189018992653, 32, 36893646890484109421, 36893650189018992749, 2251828813103189, 120, 4401269768317, 84, 404895341489277,
  110750657288205238357, 2251828813103189, 2251830960586845, 2251833108070501, 120, 4401269768317, 92, 440079730356349, 110750692474724810845,
  2251833108070501, 112, 288235189738209397, 68, 288235188663746677, 36894104148961460341, 96, 64, 68, 36893805220158513677, 14174305528109124821517,
  68, 4722407068455376265829, 110736761914723467333, 64, 68, 36893805220158513677, 1209597108480782907744781, 68, 4722407068317878592101,
  1814316255089471847006277, 2251824518135877, 2251824518135877, 2251830960586845, 44, 48, 36893717259228289037, 36893720557763172365, 48,
  36893717259228289133, 36893720557763172461, 112, 288235189738209397, 84, 288235188664008821, 36894104148995014773, 2251830960586845, 120,
  4401269768317, 76, 369710952622205, 110750622101685665869, 76, 72, 36893840404530603533, 36893840404530603629, 72, 36893843703065486861,
  36893843703065486957, 2251826665619533, 2251826665619533, 2251833108070501, 52, 56, 36893752443600378893, 36893756017013169161, 56,
  36893752443600378989, 36893756017013169253, 120, 4401269768317, 92, 440079730356349, 110750692474724810845, 2251833108070501, 120, 4401269768317,
  84, 404895341489277, 110750657288205238357, 2251828813103189, 2251830960586845, 2251833108070501, 120, 4401269768317, 92, 440079730356349,
  110750692474724810845, 2251833108070501, 120, 4401269768317, 44, 228973397153917, 110750481355607375917, 88, 104, 110732259552046547037,
  110732259552046547037, 104, 36893966023734078989, 36893964374466637325, 80, 92, 110727755540102185045, 110727755540102185045, 92,
  9903634431915003856351996449, 36893911597908503077, 80, 96, 110727755677541138517, 110727755677541138517, 96, 36893930701923035661,
  36893929190094547469, 44, 40, 73813999544018141229, 132, 4722393557518946145929, 4722393557518946145929, 132, 40, 604466445467411047716909,
  604466445467411047728145, 40, 604466445291489187272741, 604466445185936071017477, 100, 120, 104, 36894035430405584457, 36894036117600351757,
  36894034743210816657, 104, 120, 36894035430405584457, 36894034742137074693, 36893963549832918029, 72, 84, 110723251665596776525,
  110723251665596776525, 84, 9903624912818601069903029793, 36893876413536413221]

theorem side6a_linf_run6 : run .linf 2 90 17 side6aEnv [] side6a_linf_6 (side6aPaths6.map fun P => ⟨[P], []⟩) = true := Run.run_one (by decide +kernel)

def side6a_linf_7 : List ℕ := [
  72, 88, 110723251803035729997, 110723251803035729997, 88, 36893894830356178465, 36893894005722457613, 2251818075684909, 2251818075684909,
  2251818075684909, 2251818075684909, 2251818075684909, 2251818075684909, 2251818075684909, 2251818075684909, 2251820223168565, 2251820223168565,
  2251833108070501, 2251824518135877, 2251822370652221, 2251822370652221, 24, 28, 36893632596832947821, 36893629298298064493, 28,
  36893632596832947725, 36893629298298064397, 112, 288235189738209397, 84, 288235188664008821, 36894104148995014773, 2251830960586845, 24, 28,
  36893632871710854757, 36893629298298064493, 28, 36893632871710854665, 36893629298298064397, 120, 4401269768317, 92, 440079730356349,
  110750692474724810845, 2251833108070501, 120, 104, 36894035705283491409, 36894036392478258693, 100, 36894035018088723601, 36894035017014981637,
  120, 4401269768317, 92, 440079730356349, 110750692474724810845, 2251833108070501, 4, 8, 36893542024562607233, 36893545048219583609, 0,
  36893527456033538681, 36893527730911445537, 2251824518135877, 120, 4401269768317, 36, 193789008286845, 110750446169087803429, 120, 4401269768317,
  36, 193789008286845, 110750446169087803429, 80, 96, 110727755677541138517, 110727755677541138517, 96, 36893930701923035661, 36893928915216640521,
  100, 72, 865025407915655253, 84, 36893947881792220233, 36893876138658506269, 80, 36893946506328943109, 36893946507402685057, 72, 84,
  110723251665596776525, 110723251665596776525, 84, 9903624912814097470275659289, 36893876138658506269, 72, 88, 110723251803035729997,
  110723251803035729997, 88, 36893894555478271513, 36893893730844550665, 72, 88, 110723251803035729997, 110723251803035729997, 84,
  36893879574632343069, 36893877787925947933, 36, 32, 73809495669512732709, 36893665032425968265, 32, 36893668743277711901, 132,
  604465868795552511640601, 604465868725183767462917, 36, 32, 73809495669512732709, 36893665032425968265, 0, 108, 120, 36894034468332910621, 64,
  14171999912698818082845, 68, 36893808656132350493, 1814018801341145715638341, 4, 140, 9903529797927108856414209169, 604463488643149445810313,
  604463549441744415307805, 64, 12, 36893559479309697605, 110718745592068112389, 68, 36893808656132350493, 1814018801341145715638341, 124, 136,
  36894106211466625053, 36894108273050927133, 140, 36894123803652669469, 36894125865236971565, 64, 76, 0, 60, 56, 36893770585542237809, 80, 84, 108,
  4, 140, 9903529797927108856414209169, 136, 604473288475938606237809, 8, 36, 32, 73809495669512732709, 1209294777190298324832909, 32,
  604465871047352325313565, 604465871047352325326365, 604463837672120567085069, 604463549441744415307789, 4, 140, 9903529797927108856414209169, 136,
  604473288475938606237809, 104, 604470982632929392001545, 100, 604470694402553240224265, 8, 36, 32, 73809495669512732709, 1209294777190298324832909,
  32, 604465871047352325313565, 604465871047352325326365, 604463837672120567085085, 604463549441744415307805, 36893879024876530205,
  604468965020296329560585, 604467812098791722451465, 12, 36893559479309697605, 110718745592068112389, 110718747791091368005, 76,
  9903615393717694683826692633, 36893840954286416413, 36, 32, 73809495669512732709, 136, 1209294777190298324832909, 1209294777190298324832909, 64,
  48, 36893719183373636677, 56, 14171999630263917281321, 0, 4, 140, 9903529797927108856414209169, 32, 136, 604465871223274185757761,
  604465871047352325313565, 604465873703772418033785, 36893527456033538681, 12, 36893559479309697605, 110718745592068112389, 76,
  9903615393717694683826692633, 36893840954286416413, 64, 80, 110718747928530321477, 110718747928530321477, 80, 36893859371106181657,
  36893858546472460809, 64, 80, 110718747928530321477, 110718747928530321477, 76, 36893844390260253213, 36893842328675951133, 2251815928201253,
  2251815928201253, 2251815928201253, 2251815928201253, 2251815928201253, 2251815928201253, 2251815928201253, 2251815928201253, 2251815928201253,
  2251815928201253, 2251815928201253, 2251815928201253, 2251815928201253, 2251815928201253, 2251830960586845, 2251833108070501, 2251818075684909,
  2251818075684909, 2251818075684909, 2251818075684909, 2251833108070501, 2251833108070501, 2251822370652221, 2251820223168565, 2251820223168565,
  2251820223168565, 2251820223168565, 112, 288235189738209397, 28, 288235188663091317, 36894104148877574261, 120, 4401269768317, 28, 158604619419773,
  110750410982568230941, 120, 4401269768317, 28, 158604619419773, 110750410982568230941, 88, 104, 110732259552046547037, 110732259552046547037, 104,
  36893966023734078993, 36893964099588730377, 28, 24, 9447038950586577849957, 9447038950586577849925, 64, 136, 140, 14171999998734671824417,
  14172000003133649471005, 36, 40, 36893682624612013065, 4722391833622194689057, 32, 72, 84, 110718748065969274957, 36893876138658506309, 68,
  604468404322005282857989, 4722409390623867020429, 1814015941537927645893157, 68, 604468176819873676010017, 1814018224880393395437637, 36, 40,
  36893682624612013065, 36893686335463756829, 40, 36893682624612013193, 132, 604466157025928663417877, 604466156990744291329029]

theorem side6a_linf_run7 : run .linf 2 90 17 side6aEnv [] side6a_linf_7 (side6aPaths7.map fun P => ⟨[P], []⟩) = true := Run.run_one (by decide +kernel)

def side6a_linf_8 : List ℕ := [
  36, 40, 36893682624612013065, 36893686335463756829, 40, 36893682624612013193, 132, 604466157025928663417877, 604466156990744291329029, 100, 120,
  104, 36894035155527677505, 36894035705283491353, 36894034468332909713, 120, 104, 36894035155527677505, 36893964099588731913, 36894034467259167749,
  124, 136, 36894106211466625053, 36894108273050927133, 140, 36894123803652669469, 36894125865236971565, 28, 24, 36893629848053878385,
  9447038950586577849925, 64, 32, 0, 604465506255782508233225, 140, 136, 116, 120, 124, 128, 36894069652705001585, 14171999947883190172701,
  36894055221614886521, 36894037491989888021, 604473353918870691464733, 36894125452920112661, 4, 9903529806353361213969221753,
  9903531097625446373637834873, 36, 36893668056082944533, 1814015941537927645893157, 76, 9903615393717694683826692629, 36893840954286416413, 64, 80,
  110718747928530321477, 110718747928530321477, 76, 36893844390260253213, 36893842328675951133, 64, 80, 110718747928530321477, 110718747928530321477,
  76, 36893844390260253213, 36893842328675951133, 28, 24, 9447038950586577849993, 9447038950586577849913, 56, 110714243504269099041, 60,
  36893773884077121053, 36893770585542237705, 36, 40, 36893682624612013065, 36893686060585849877, 40, 36893682624612013181, 36893686198024803461, 36,
  40, 36893682624612013065, 36893686060585849877, 40, 36893682624612013181, 36893686198024803461, 20, 24, 36893613355379461149, 36893615691841670153,
  44, 40, 36893699941920151161, 36893700216798058045, 56, 110714243504269099057, 36893756429330028605, 28, 24, 9447038950586577849957,
  9447038950586577849913, 56, 110714243504269099041, 60, 604467600359119225101857, 36893771685053865501, 36, 40, 36893682624612013065,
  36893686335463756829, 40, 36893682624612013193, 44, 36893700216798058045, 56, 110714243504269099057, 60, 36893773884077121053,
  36893771685053865501, 20, 24, 36893613355379461149, 36893615142085856285, 28, 24, 9447038950586577849961, 9447038950586577849913, 56,
  110714243504269099041, 60, 36893773471760260637, 36893771685053865501, 44, 40, 36893699941920151161, 36893700216798058045, 56,
  110714243504269099057, 36893756429330028605, 56, 28, 24, 36893629848053878385, 9447038950586577849913, 110714243504269099041, 60,
  36893773609199214101, 36893771685053865501, 20, 16, 36893598099655625317, 36893598099655625225, 24, 28, 0, 4, 8, 36893541612245746809,
  36893544361024816257, 36893527456033538681, 9447038950586577846845, 36893632321955040897, 36893615691841670245, 20, 40, 36, 36893682624612013065,
  44, 36893699941920151161, 56, 72, 110714244054024912957, 110714244054024912957, 36893756429330028605, 44, 36893700216798058045, 56, 72,
  110714244054024912957, 110714244054024912957, 36893756429330028605, 40, 36, 36893682624612013065, 44, 36893699941920151161, 56, 72,
  110714244054024912957, 110714244054024912957, 36893756429330028605, 44, 36893700216798058045, 56, 72, 110714244054024912957, 110714244054024912957,
  36893756429330028605, 120, 4401269768317, 52, 264157786020989, 110750516542126948405]

theorem side6a_linf_run8 : run .linf 2 90 17 side6aEnv [] side6a_linf_8 (side6aPaths8.map fun P => ⟨[P], []⟩) = true := Run.run_one (by decide +kernel)

def side6a_linf_9 : List ℕ := [
  104, 120, 110741267301057364077, 110741267301057364077, 120, 36894037079673026085, 36894035292966630953, 96, 108, 110736763289113002085,
  110736763289113002085, 108, 9903653470116816628504670761, 52, 73818505342668898405, 1209449534700953041174629, 96, 112, 110736763426551955557,
  110736763426551955557, 112, 36894000658350354985, 36894000108594541097, 132, 20, 24, 8, 604464934351406390183429, 604464934421775134361125, 52,
  9448768318824714865673, 88, 14173728875079725485065, 1814241314998020824563737, 24, 88, 4722382281065222900873, 52, 4722382280927708449929,
  1209448957870902344548377, 604465004227569358619685, 20, 24, 8, 604464934351406390183429, 604464934421775134361125, 52, 9448768318824714865673, 88,
  14173728875079725485065, 1814241314998020824563737, 24, 52, 4722382280927708449929, 88, 4722382281065222900873, 1209448957870902344548377,
  604465004157200614441989, 132, 88, 8, 4, 14173728800450373747849, 20, 24, 604464934351406390183429, 52, 110732256802193145881,
  14173728870818237123641, 24, 52, 73818502457525207065, 14173728872333095403545, 110732256803267477529, 20, 24, 604464934421775134361125, 52,
  110732256802193145881, 14173728870818237123641, 24, 52, 73818502457525207065, 14173728872333095403545, 110732256803267477529, 128, 20, 8, 24,
  604464934351406390183429, 52, 9448768317313961033753, 1814241314998020824563737, 24, 604464934421775134361125, 52, 9448768317313961033753,
  1814241314998020824563737, 52, 24, 9448768314425712053341, 1209442344616187012320349, 24, 1209448957870902344548377, 1814241314998158338424857,
  604472786430133270561333, 88, 8, 4, 14173728800450373747849, 0, 604463563075688599733285, 1814237284751480864113157, 0, 52, 20, 24,
  604464934421775134361125, 110732256802193145881, 24, 73818502457525207065, 110732256803267477529, 20, 24, 604464934421775134361125,
  14173728870818237123641, 24, 14173728872333095403545, 110732256803267477529, 4, 1814237284170938724647429, 1814237284751480864113157, 52, 20, 24,
  8, 604464934351406390183429, 604464934421775134361125, 9448768317313961033753, 24, 9448768314425712053341, 1209442344616187012320349, 20, 24, 8,
  604464934351406390183429, 604464934421775134361125, 1814241314998020824563737, 24, 1209448957870902344548377, 1814241314998158338424857, 88, 100,
  110732259414607593565, 110732259414607593565, 100, 9903643951020413842055704105, 52, 73818505067790991453, 1209448958205016365531229, 88, 104,
  110732259552046547037, 110732259552046547037, 104, 36893965473978265129, 36893964924222451241, 88, 108, 36893982377895800325, 36893983614846381573,
  108, 36893982378969542289, 36893983615920123537, 132, 52, 0, 4, 1209442332970159850914441, 604463563005319855555589, 128,
  154808627918073120264618589, 604472786430133270561333, 4, 8, 128, 604463781482678341222953, 604472786430133270561333, 0,
  9903529799974012341801065477, 80, 128, 1814163569832780047073797, 604472786430133270561333, 128, 76, 604469039382466739323909, 72,
  604468751152090587546629, 84, 140, 9903625540593367527601678885, 136, 604473362838109015983109, 604473074660509422322769,
  1209448381673895317798997, 604472786430133270561333, 0, 604463563005319855555589, 162259452190090596353738112113705, 0, 52, 4,
  154808618620391689556149341, 604463563075688599733285, 4, 162259432242814572712357006285865, 604463563075688599733285, 76, 80,
  1814163539978840329693321, 604469039452835483501605, 72, 604468751222459331724325, 9903616021785195117304423989, 8, 136, 80, 84,
  1814163542828774468889229, 1814163542265824515467917, 84, 604469329987788007081513, 52, 73818504518035177557, 1209448381673895317798997, 20, 24,
  604464934351406390183429, 604465006461776986244649, 24, 604464934404182948333097, 52, 1209442344827293244853389, 80, 84,
  29723255485731460608943277625, 1814163542265824515467917, 84, 604469329917419262903849, 1209448381673895317798997, 136, 80, 84,
  1814163542828774468889229, 1814163542265824515467917, 84, 604469330022972379170357, 52, 73818504518035177557, 1209448381673895317798997, 20, 24,
  604464934421775134361125, 604465006461776986244661, 24, 604464934474551692510761, 52, 1209442344827293244853389, 80, 84,
  29723255485731460608943277625, 1814163542265824515467917, 84, 604469329917419262903861, 1209448381673895317798997, 132, 128, 4, 8,
  604463781482678341222953, 136, 140, 0, 52, 1209442332970159850914441, 9903529799974012341801065477, 80, 1814163569832780047073797, 84,
  9903625540593367527601678885, 52, 73818504518035177557, 1209448381673895317798997, 604473362838109015983109, 604473074660509422322769, 0,
  604463563005319855555589, 52, 154808618694701083407745629, 162259452190090596353738112113705, 604472786430133270561333, 76, 80, 0, 4,
  1814163497194643869663881, 604463563075688599733285, 1814163539978840329693321, 604469039452835483501605, 72, 604468751222459331724325, 0, 4, 52,
  154808618620391689556149341, 162259432242814572712357006285865, 604463563075688599733285, 9903616021785195117304423989, 116, 96,
  36894017563341632137, 36894017562267890181, 96, 36894018800292213385, 36894018799218471429, 132, 128, 4, 8, 604463781482678341222953, 136, 140, 0,
  52, 1209442332970159850914441, 9903529799974012341801065477, 80, 1814163569832780047073797, 84, 52, 9448768582707505539593,
  1209448381678294319245833, 9903624249321282367933065765, 604473362838109015983109, 604473074660509422322769, 0, 604463563005319855555589, 52,
  154808618694701083407745637, 162259452190090596353738112113705, 604472786430133270561333, 52, 56, 48, 4722398043526404250249, 4, 8,
  9448768244195363128457, 0, 154808618620391689556149349, 76, 80, 1814163539978840329693321, 604469039452835483501605, 72, 604468751222459331724325,
  9903616021785195117304423989, 0, 604463563075688599733285, 76, 80, 1814163539978840329693321, 604469039452835483501605, 72,
  604468751222459331724325, 9903616021785195117304423989, 1209442362824099568295049, 0, 4, 162259432242814572712357006285865,
  604463563075688599733285, 76, 80, 1814163539978840329693321, 604469039452835483501605, 72, 604468751222459331724325, 9903616021785195117304423989,
  124, 104, 36894052747713721997, 36894052746639980037, 104, 36894053984664303245, 36894053983590561285, 60, 80, 96, 110727755677541138517,
  110727755677541138517, 96, 36893931938873616905, 36893929739850361385, 64, 36893787490533515381, 36893791201385259121, 120, 4401269768317, 60,
  299342174888061, 110750551728646520893, 40, 24, 36893685373391080965, 36893685373391081069, 20, 36893683585610943493, 36893683586684685457, 40, 20,
  36893685097439431685, 36893685098513173645, 20, 36893683585610943493, 36893683586684685453, 40, 20, 36893685097439431685, 36893685098513173649, 20,
  36893683585610943493, 36893683586684685457, 40, 20, 36893684822561524741, 36893684823635266697, 20, 36893683585610943493, 36893683586684685449, 40,
  20, 36893684822561524741, 36893684823635266705, 20, 36893683585610943493, 36893683586684685457, 40, 20, 36893684822561524741, 36893684823635266701,
  20, 36893683585610943493, 36893683586684685453, 40, 20, 36893684822561524741, 36893684823635266705, 20, 36893683585610943493, 36893683586684685457,
  2251822370652221, 2251822370652221, 2251822370652221, 2251822370652221, 2251822370652221, 2251822370652221, 2251822370652221, 2251822370652221,
  2251824518135877, 2251824518135877, 2251833108070501, 2251828813103189, 2251826665619533, 2251826665619533, 132, 128, 96, 136, 124, 120, 116,
  110736763701429862521, 100, 1814311125770971247555173, 140, 0, 4, 8, 14174305261202677171337, 12, 9903539241540947543064643113, 16,
  604464427784409241094205, 20, 604464715944416648709125, 24, 1814311082441417020148837, 110736760402894979097, 604463563022912041600005,
  1814311125190429108089489, 604473362855701202027525, 604472209934196594918405, 1814311141375240268955781, 14174305828413238166537, 60, 124, 136,
  120, 56, 4722402547126048398985, 64, 140, 20, 24, 8, 604464934368998576227845, 604464934439367320405545, 9449344778341142495257, 24,
  9449344775178032254053, 92, 604464981903085268250673, 604464981727163407806509, 604473362855701202027525, 1209516154303994050650249,
  604472209934196594918405, 9449345272158227547145, 1209516190174461395222661, 52, 124, 120, 92, 40, 4066768193141289021, 36,
  604466157096297407595525, 20, 24, 8, 604464934368998576227845, 604464934439367320405545, 1814315678435067983101977, 24, 1209523321307949503086617,
  604464981903085268250673, 40, 4066768193141289021, 36, 604466157096297407595525, 116, 604471899256191050461229, 20, 24, 8,
  604464934368998576227845, 604464934439367320405545, 1814315678435067983101977, 24, 1209523321307949503086617, 604464981727163407806509,
  604472209934196594918405, 19816830103853005783024287877, 1814315678593535171362873, 604472786465317642650173, 96, 136, 100,
  1814311125770971247555173, 104, 110736763151674048613, 60, 4722427316923998942345, 52, 40, 4722398272362354054757, 48, 140, 0, 4, 8,
  14174305261202677171337, 1814311073821245858382985, 604463563093280785777705, 1814311125190429108089489, 604473362926069946205225,
  604467021857794607105065, 110736761639845560377, 1814311146037169570727013, 92, 604470192391932276655145, 88, 9903634543473670225964183597, 136,
  84, 140, 60, 100, 1209516174573354409275913, 56, 4722402547126048398985, 64, 104, 20, 24, 8, 604464934368998576227845, 604464934439367320405545,
  9449344778341142495257, 24, 9449344775178032254053, 604464981727163407806509, 4722427316923998942345, 1209516154303994050650249, 52, 40,
  4066768193141289021, 48, 36, 604466157166666151773225, 44, 56, 19816830098953106990219402889, 100, 1814315678773718502355465, 20, 24, 8,
  604464934368998576227845, 604464934439367320405545, 1814315678435067983101977, 24, 1209523321307949503086617, 604464981727163407806509,
  604466733627418455327785, 604467021857794607105065, 1814315678593535171362873, 604473362926069946205225, 604469593413181836242989,
  604473074854023468823085]

theorem side6a_linf_run9 : run .linf 2 90 17 side6aEnv [] side6a_linf_9 (side6aPaths9.map fun P => ⟨[P], []⟩) = true := Run.run_one (by decide +kernel)

def side6a_linf_10 : List ℕ := [
  132, 128, 96, 136, 124, 120, 116, 110736763701429862521, 100, 1814311125770971247555173, 104, 110736763151674048613, 68, 4722427316924015719561,
  60, 140, 0, 4, 8, 604463781482678341222957, 12, 9903539241536443943437272617, 16, 604464427749224869005365, 20, 604464715944416648709125, 24,
  1814311082441417020148837, 110736760402894979097, 604463563022912041600005, 1814311125190429108089489, 604473362855701202027525,
  110736761914723467329, 604472209934196594918405, 1814311141375240268955781, 14174305828413238166537, 68, 136, 72, 76, 64, 4722407050725692547721,
  80, 140, 8, 4, 604463781482678341222957, 0, 604463563022912041600005, 20, 16, 12, 604464427749224869016117, 604464427749224869005365,
  604464715944416648709125, 24, 604464934404182948327989, 92, 604464981903085268250673, 604464981691979035717677, 100, 604470480393491898238565, 104,
  20, 16, 12, 604464427749224869016117, 604464427749224869005365, 604464715944416648709125, 24, 604464934597696994816557, 92,
  604464981903085268250673, 604464981691979035717677, 4722427316924015719561, 604473362855701202027525, 604469039400058925368325,
  604468751169682773591045, 1209589945783888533005449, 9449921732910530970633, 60, 124, 120, 56, 64, 19818039025349164772070793865, 4, 8,
  604463781482678341222957, 20, 16, 12, 604464427749224869016117, 604464427749224869005365, 604464715944416648709125, 24, 604464934597696994816557,
  92, 604464981903085268250673, 604464981691979035717677, 0, 604463563022912041600005, 72, 29725757523669682866125546501, 136, 140, 16, 12,
  604464427749224869016117, 604464427749224869005365, 20, 604464715944416648709125, 24, 8, 604464934404182948327989, 604464934597696994816557, 92,
  604464981903085268250673, 604464981691979035717677, 604473362855701202027525, 604473074660509422322693, 604467598248178166481925,
  604472209934196594918405, 19818039029672620414346477701, 1814316255089471847006273, 604472786430133270561333, 96, 136, 100,
  1814311125770971247555173, 104, 110736763151674048613, 68, 4722427316924015719561, 60, 140, 0, 4, 8, 14174305261202677171337,
  1814311073821245858382985, 604463563058096413688873, 1814311125190429108089489, 604473362890885574116393, 110736761914723467329,
  1814311146037169570727013, 92, 604470192356747904566313, 88, 9903634543469166626336813101, 136, 68, 100, 1209589961549649247482377, 72, 76, 104,
  64, 4722407050725692547721, 80, 84, 140, 4, 8, 9449921165699969975433, 604463831022274242298933, 0, 604463563058096413688873, 12, 16,
  604464427942738915504685, 20, 604464715979601020797993, 24, 8, 604464934404182948327989, 604464934597696994816557, 604464981691979035717677, 8,
  604464139518848717243433, 16, 604464427889962357360693, 20, 604464715979601020797993, 24, 604464934597696994816557, 604464981691979035717677,
  604473362890885574116393, 604469593377997464154157, 604469039435243297457193, 4722427316924015719561, 604468751204867145679913,
  1209589945783888533005449, 60, 56, 64, 19818039025349182371714310793, 84, 140, 8, 12, 16, 604464427942738915504685, 20, 604464715979601020797993,
  24, 604464934404182948327989, 604464981691979035717677, 604464139518848717243433, 4, 604463831022274242298933, 0, 604463563058096413688873, 72,
  29725757523669682866125546501, 20, 16, 12, 604464427942738915504685, 604464427889962357360693, 604464715979601020797993, 24,
  604464934597696994816557, 604464981691979035717677, 604473362890885574116393, 604469593377997464154157, 604467598283362538570793,
  1814316255089471847006273, 604473074854023468823085, 120, 4401269768317, 84, 404895341489277, 110750657288205238357, 120, 4401269768317, 92,
  440079730356349, 110750692474724810845, 120, 4401269768317, 92, 440079730356349, 110750692474724810845, 2251833108070501, 44, 60,
  36893771959931770941, 36893770997859096645, 60, 36893771822492817457, 36893773334321305649, 104, 120, 110741267301057364077, 110741267301057364077,
  120, 36894036117600351793, 36894035567844537905, 104, 120, 110741267301057364077, 110741267301057364077, 120, 36894036117600351793,
  36894035292966630961, 2251828813103189, 120, 4401269768317, 76, 369710952622205, 110750622101685665869, 104, 108, 110741266888740503661,
  4722429568861343856237, 76, 140, 128, 36894124078530577001, 73832017241063030917, 0, 4, 77541258227467448337123445, 604463567843171017771109, 4,
  604463489030177538769509, 604463567843171017753189, 72, 1814390618561565880418381, 1209671471953289299371557, 120, 4401269768317, 84,
  404895341489277, 110750657288205238357, 2251828813103189, 2251830960586845, 2251833108070501, 120, 4401269768317, 84, 404895341489277,
  110750657288205238357, 120, 4401269768317, 92, 440079730356349, 110750692474724810845, 120, 4401269768317, 92, 440079730356349,
  110750692474724810845, 2251833108070501, 112, 288235189738209397, 60, 288235188663615605, 36894104148944683125, 96, 0, 8, 136, 68, 72,
  604468393151104583599621, 1814311109850042877355021, 72, 1814311109463014784377957, 110736762052162420809, 4, 604463781517862713312829,
  1814311071745367905141389, 136, 68, 72, 604468393379803002177065, 1814311109850042877355021, 72, 1814311109463014784377957, 110736762052162420809,
  68, 72, 604468393379803002177065, 1814311109850042877355021, 72, 1814311109463014784377957, 110736762052162420809, 136, 8, 4,
  1814311071147233579631109, 92, 68, 72, 604468393151104583599621, 1814311109850042877355021, 72, 1814311109463014784377957, 110736762052162420809,
  1814311122938629294403589, 92, 68, 72, 604468393379803002177065, 1814311109850042877355021, 72, 1814311109463014784377957, 110736762052162420809,
  1814311122938629294403589, 8, 4, 1814311071147233579631109, 92, 68, 72, 604468393151104583599621, 1814311109850042877355021, 72,
  1814311109463014784377957, 110736762052162420809, 1814311122938629294403589, 92, 68, 72, 604468393379803002177065, 1814311109850042877355021, 72,
  1814311109463014784377957, 110736762052162420809, 1814311122938629294403589, 60, 136, 8, 68, 72, 604468393151104583599621, 9449344989447375028297,
  72, 9449344986284264793189, 92, 604468440667599089578033, 604468440491677229133873, 68, 72, 604468393379803002177065, 9449344989447375028297, 72,
  9449344986284264793189, 92, 604468440667599089578033, 604468440491677229133873, 8, 92, 9903639671661767317786931205, 4, 604463781517862713312829,
  68, 72, 604468393151104583599621, 9449344989447375028297, 72, 9449344986284264793189, 604468440491677229133873, 92, 9903639671661767317786931205,
  68, 72, 604468393379803002177065, 9449344989447375028297, 72, 9449344986284264793189, 604468440491677229133873, 92, 136,
  19816830101569680771947442317, 9903639671661767317786931205, 68, 72, 8, 604468393151104583599621, 604468393379803002177065,
  1814315678646174215635017, 72, 1209523321519055735619657, 604468440491677229133873, 8, 136, 60, 4, 604463781517862713312817, 0,
  1209516120544589031408269, 154818063646126588997796453, 88, 120, 92, 110732259139729686621, 1814237333745718997823101, 92, 110732259139729686621,
  1814237333745718997823101, 68, 72, 604468393151104583599621, 120, 604468456254275924919857, 604468456254275924919857, 120, 72,
  604468393151104583614013, 604468456324644669111869, 72, 604468393203881141747249, 604468456254275924934205, 88, 120, 92, 110732259139729686621,
  1814237333745718997823101, 92, 110732259139729686621, 1814237333745718997823101, 84, 9903630226372607024499469321, 4, 604463781517862713312829, 68,
  72, 604468393151104583599621, 120, 604468456254275924919857, 604468456254275924919857, 120, 72, 604468393151104583614013, 604468456324644669111869,
  72, 604468393203881141747249, 604468456254275924934205, 136, 60, 120, 68, 72, 604468393379803002177065, 604468456430197785364017, 72,
  604468393379803002191409, 604468456324644669111869, 68, 72, 604468393379803002177065, 604468456201499366786621, 72, 604468393203881141747249,
  604468456254275924934205, 88, 120, 92, 110732259139729686621, 1814237333745718997823101, 92, 110732259139729686621, 1814237333745718997823101, 68,
  72, 604468393379803002177065, 120, 604468456430197785364017, 604468456201499366786621, 120, 72, 604468393379803002191409, 604468456324644669111869,
  72, 604468393203881141747249, 604468456254275924934205, 88, 120, 92, 110732259139729686621, 1814237333745718997823101, 92, 110732259139729686621,
  1814237333745718997823101, 84, 9903630226372607024499469321, 68, 72, 604468393379803002177065, 120, 604468456430197785364017,
  604468456201499366786621, 120, 72, 604468393379803002191409, 604468456324644669111869, 72, 604468393203881141747249, 604468456254275924934205, 0,
  104, 108, 36893984440553846381, 8, 604470987277266507740801, 604470987488372740273761, 8, 108, 8131266856844199485, 604470987224489949595141, 108,
  8131266856844199485, 604470987488372740261413, 8, 104, 108, 36893984440553846381, 604470987277266507740801, 108, 8131266856844199485,
  604470987224489949595141, 104, 108, 36893984440553846381, 604470987488372740273761, 108, 8131266856844199485, 604470987488372740261413, 112,
  288235189738209397, 68, 288235188663746677, 36894104148961460341, 96, 104, 110736763151674048613, 48, 52, 110736761364967653429, 8,
  1814311098204015715949157, 1814311098204015715949157, 36, 68, 73827510480339599401, 60, 8, 52, 1814311098591043808926221, 604466951999223824713221,
  52, 1814311098591043808926221, 604466952227922243290665, 110736761914723467329, 4722396055746912457829, 68, 136, 72, 132, 8, 4,
  604463781482678341223985, 0, 1209589909209733746656261, 1209589909209733746656261, 140, 48, 52, 92, 604466999515718330691633,
  604466999304612098158641, 604466952227922243301937, 36, 73827510480339599401, 9449921341483468723301, 604473365142685387785781,
  1209589981830277738022029, 1209589945801480719049869, 72, 76, 92, 9903639671661767317786931205, 80, 48, 52, 604466999304612098158641, 8,
  604466952016816010768949, 604466952227922243301937, 36, 73827510480339599401, 9449921341483468723301, 9903620781045166134379358261,
  9903616058678683264725755477, 19817921672049773427391874633, 60, 48, 36, 52, 92, 604466999515718330691633, 604466999304612098158641, 8,
  604466952016816010768949, 604466952227922243301937, 1814316255001510916784169, 36, 1209597108389659960475689, 1209597108389797457690665,
  1814316255089471847006273, 2251824518135877, 2251824518135877, 2251830960586845]

theorem side6a_linf_run10 : run .linf 2 90 17 side6aEnv [] side6a_linf_10 (side6aPaths10.map fun P => ⟨[P], []⟩) = true := Run.run_one (by decide +kernel)

def side6a_linf_11 : List ℕ := [
  136, 104, 108, 1814384917268457915954797, 28, 1814384916793468892755565, 1814384916793468892755565, 68, 72, 132, 36, 40, 8,
  604466087325687555425797, 604466087554385974003237, 9449921309735993218057, 40, 4722391288126996747373, 36893685373391082605,
  1209589981830277738022029, 1209589945801480719049869, 64, 19818048470086634111005368973, 28, 19818048470086634111005368865,
  19818048470086651712779592225, 0, 4, 104, 108, 1814384917268457915954797, 28, 1814384916793468892755565, 1814384916793468892755565, 100,
  604470771315590626428521, 96, 162261304321558518539369196434437, 28, 9903644062574576612038685745, 9903644062565551820597899781,
  604463565556186831996521, 140, 604473288827782327126125, 104, 108, 1814384917268457915954797, 28, 1814384916793468892755565,
  1814384916793468892755565, 604473365388975992419893, 104, 108, 4722429867928506611309, 28, 1814384916793468892755565, 1814384916793468892755565,
  76, 36, 40, 4, 8, 136, 604463781517862713312821, 604463781517862713312829, 604466087554385974003237, 604466085161848671962185,
  9450497770488296641545, 40, 4722391288127013524589, 36893685373391082605, 72, 1814390618561565880418381, 28, 19819257396482709494630983201,
  19819257396482727094274500129, 112, 288235189738209397, 76, 52, 288232852201668665, 288232852201668665, 36894104148978237557, 112,
  288235189738209397, 84, 288235188664008821, 36894104148995014773, 112, 288235189738209397, 84, 288235188664008821, 36894104148995014773,
  2251830960586845, 120, 4401269768317, 68, 334526563755133, 110750586915166093381, 32, 68, 20, 73827509930583785497, 9449921273314670546029, 20,
  9903563484883864239903745029, 9903563484890619639344800825, 20, 68, 4722387224332020485193, 9903563484890619639344800825, 36893650189018991721, 32,
  8, 96, 100, 110736763014235095141, 128, 4722425065261699707525, 4722425065261699707525, 100, 604470460391294477338181, 604470410851698576262661,
  96, 100, 110736763014235095141, 14174305665822956204677, 100, 604470460391294477338181, 604470410992436064618025, 96, 100, 110736763014235095141,
  128, 4722425065261699707525, 4722425065261699707525, 8, 100, 604470460391294477338181, 604470410851698576262661, 100, 604470460391294477338181,
  604470410992436064618025, 76, 80, 8, 604468969699817817376261, 604468969840555305731625, 36893861570129438729, 80, 36893857859277695093,
  36893861570129438821, 120, 4401269768317, 76, 369710952622205, 110750622101685665869, 104, 108, 4722429867928506611309, 4722429674414460122733, 76,
  88, 32, 1209663741327577991620689, 1209663741327577991620689, 73832015454356635729, 72, 1814390618561565880418381, 1209671471953289299371553,
  2251826665619533, 2251826665619533, 2251833108070501, 44, 48, 8, 604466663891992975246853, 604466663997546091513385, 36893720832641079305, 48,
  36893717121789335669, 36893720832641079397, 64, 68, 36893808793571304037, 36893805082719560309, 48, 84, 96, 100, 36893948431548035701,
  36893946644841640565, 73836519328862044249, 80, 36893879162315483733, 36893879162315483681, 44, 36893720832641079305, 36893720832641079397, 120,
  4401269768317, 84, 404895341489277, 110750657288205238357, 120, 4401269768317, 92, 440079730356349, 110750692474724810845, 120, 4401269768317, 92,
  440079730356349, 110750692474724810845, 2251833108070501, 120, 4401269768317, 76, 369710952622205, 110750622101685665869, 104, 108,
  110741266888740503661, 4722429568861343856237, 4, 0, 140, 128, 36894124078530577001, 76, 73832017241063030917, 72, 1814390618561565880418381,
  36893843977943393825, 77541258227467448337123445, 604463489030177538769509, 140, 128, 36894124078530577001, 76, 73832017241063030917, 72,
  1814390618561565880418381, 36893843977943393825, 0, 604463567843171017771109, 604463567843171017753189, 120, 4401269768317, 84, 404895341489277,
  110750657288205238357, 2251828813103189, 2251830960586845, 2251833108070501, 120, 4401269768317, 84, 404895341489277, 110750657288205238357, 120,
  4401269768317, 92, 440079730356349, 110750692474724810845, 120, 4401269768317, 92, 440079730356349, 110750692474724810845, 2251833108070501, 120,
  4401269768317, 36, 193789008286845, 110750446169087803429, 88, 104, 110732259552046547037, 110732259552046547037, 104, 36893966161173032469,
  36893964374466637333, 80, 92, 110727755540102185045, 110727755540102185045, 92, 9903634431915003856351996441, 36893911597908503077, 80, 96,
  110727755677541138517, 110727755677541138517, 96, 36893929739850361369, 36893929190094547477, 36, 32, 9447615446798131270253, 16,
  1209294777190298324832789, 1209294777190298324832789, 108, 120, 36894034743210817573, 9903667079481480184647521305, 120,
  9903667079481480184647521305, 72, 110723252902547357809, 9903667414116946896785450501, 120, 104, 36894035430405584457, 36894035430405584417, 100,
  36894034743210816657, 36894034742137074693, 72, 84, 110723251665596776525, 110723251665596776525, 84, 9903624912818601069903029785,
  36893876413536413221, 72, 88, 110723251803035729997, 110723251803035729997, 88, 36893894555478271513, 36893894005722457621, 44, 48,
  36893717671545149465, 36893721382396893209, 48, 36893717671545149573, 36893721382396893317]

theorem side6a_linf_run11 : run .linf 2 90 17 side6aEnv [] side6a_linf_11 (side6aPaths11.map fun P => ⟨[P], []⟩) = true := Run.run_one (by decide +kernel)

def side6a_linf_12 : List ℕ := [
  120, 104, 36894035292966630977, 36894035430405584417, 100, 36894034742137074693, 36894034743210816641, 52, 56, 60, 64, 116,
  1814015957300526341692537, 1814015957300526341692537, 36893791338824212601, 36893773746638167673, 36893756154452122745, 64, 110718747378774507577,
  112, 604467875131594319471109, 604467875131594319471109, 124, 140, 36894123803652669449, 36894125727798018069, 140, 36894123803652669477,
  36894125865236971565, 36, 32, 9447615446798131270253, 9447615446798131270213, 64, 52, 108, 1814015957300526341692529, 1814015957300526341692529,
  110718747378774507577, 68, 604468161057274996990505, 1814018801341145715638341, 120, 104, 36894035292966630977, 36894036392478258693, 100,
  36894034743210816657, 36894034742137074693, 64, 52, 116, 1814015957300526341692537, 1814015957300526341692537, 110718747378774507577, 76,
  9903615393722198283454063129, 36893841229164323365, 36, 28, 73809495669512732705, 32, 36893664894987014777, 36893650876213760101, 32,
  36893667506327130753, 28, 24, 20, 36893615691841670245, 36893615691841670153, 36893633009149808249, 36893650876213760101, 120, 4401269768317, 44,
  228973397153917, 110750481355607375917, 88, 104, 110732259552046547037, 110732259552046547037, 104, 36893966161173032469, 36893964099588730377, 80,
  92, 110727755540102185045, 110727755540102185045, 92, 9903634431910500256724625945, 36893911323030596125, 80, 96, 110727755677541138517,
  110727755677541138517, 96, 36893929739850361369, 36893928915216640521, 24, 28, 132, 604465292528314254574613, 604465292317208022041605,
  36893629848053878409, 28, 36893633558905622045, 36893629848053878281, 120, 104, 36894035430405584457, 36894035155527677481, 100,
  36894034468332909713, 36894034467259167749, 72, 84, 110723251665596776525, 110723251665596776525, 84, 9903624912814097470275659289,
  36893876138658506269, 72, 88, 110723251803035729997, 110723251803035729997, 84, 36893879574632343069, 36893877787925947933, 2251818075684909,
  2251818075684909, 2251818075684909, 2251818075684909, 2251818075684909, 2251818075684909, 2251818075684909, 2251818075684909, 2251820223168565,
  2251820223168565, 2251833108070501, 2251824518135877, 2251822370652221, 2251822370652221, 104, 108, 136, 1814384917268457915954797,
  1814384917268457915954797, 4722429621637901989485, 16, 20, 36893597412460857965, 604464650747775168099909, 20, 604464700287371069164101, 8,
  604464646173806796539397, 604464646384913029072429, 104, 108, 4722429867928506611309, 4722429621637901989485, 16, 20, 36893597412460857965,
  604464650712590796011069, 20, 604464700252186697075261, 4, 8, 136, 604463781517862713312821, 604463781517862713312829, 604464646384913029072429,
  604464644009967913075785, 112, 288235189738209397, 76, 52, 288232852201668665, 288232852201668665, 36894104148978237557, 112, 288235189738209397,
  84, 288235188664008821, 36894104148995014773, 112, 288235189738209397, 84, 288235188664008821, 36894104148995014773, 2251830960586845, 16, 20,
  36893597687338764901, 36893593976487021173, 20, 36893597687338764809, 8, 604464646279359912805893, 604464646455281773250073, 64, 68,
  36893808793571304037, 36893805082719560309, 20, 16, 36893597687338764901, 36893597687338764809, 60, 80, 84, 96, 100, 36893948431548035701,
  36893946232524780149, 73836519328862044249, 36893879162315483733, 84, 96, 100, 36893948431548035701, 36893946232524780149, 73836519328862044249,
  36893879162315483669, 36893790101873631349, 120, 4401269768317, 84, 404895341489277, 110750657288205238357, 120, 4401269768317, 92,
  440079730356349, 110750692474724810845, 120, 4401269768317, 92, 440079730356349, 110750692474724810845, 2251833108070501, 4, 8,
  36893541887123653757, 12, 16, 36893576796617836673, 36893580232591673465, 36893562915283535381, 0, 36893527456033538681, 36893527730911445525, 4,
  8, 36893542162001560697, 12, 16, 36893576796617836673, 36893580232591673465, 36893562915283535381, 0, 36893527456033538681, 36893527730911445525]

theorem side6a_linf_run12 : run .linf 2 90 17 side6aEnv [] side6a_linf_12 (side6aPaths12.map fun P => ⟨[P], []⟩) = true := Run.run_one (by decide +kernel)

def side6a_linf_13 : List ℕ := [
  120, 4401269768317, 84, 404895341489277, 110750657288205238357, 120, 4401269768317, 92, 440079730356349, 110750692474724810845, 120, 4401269768317,
  92, 440079730356349, 110750692474724810845, 2251833108070501, 0, 4, 36893524157498655353, 36893527456033538681, 4, 36893524157498655257,
  36893527730911445525, 0, 4, 36893524157498655353, 36893527456033538681, 4, 36893524157498655257, 36893527730911445525, 0, 4, 36893524157498655353,
  36893527456033538681, 4, 36893524157498655257, 36893527730911445525, 2251824518135877, 120, 4401269768317, 44, 228973397153917,
  110750481355607375917, 104, 120, 110741267301057364077, 110741267301057364077, 120, 36894036942234072605, 36894035018088723997, 32, 44,
  73813999544018141221, 9903577428886246307998210089, 44, 73813999544018141221, 96, 108, 110736763289113002085, 110736763289113002085,
  1814314525601661820076069, 96, 112, 110736763426551955557, 110736763426551955557, 112, 36894001620423029277, 36893999833716634141, 32, 44,
  73813999544018141221, 9903577428886246307998210089, 44, 73813999544018141221, 88, 110732257490462244901, 1814240738625366965092389, 32, 44,
  73813999544018141221, 9903577428886246307998210089, 44, 73813999544018141221, 88, 110732257490462244901, 1814240738625366965092389, 88, 100,
  110732259414607593565, 110732259414607593565, 100, 9903643951015910242428333609, 44, 32, 73813999544018141221, 73813999544018141221,
  1209375171228721510547549, 88, 104, 110732259552046547037, 110732259552046547037, 104, 36893965473978265129, 36893964649344544285, 108, 88,
  36893982103017893381, 36893982104091635345, 88, 36893983614846381573, 36893983615920123537, 32, 44, 73813999544018141221,
  9903577428886246307998210089, 44, 73813999544018141221, 80, 110727753890834743333, 1814166951649072110108709, 44, 32, 73813999544018141221,
  73813999544018141221, 32, 9903577428886246307998210089, 80, 110727753890834743333, 1814166951649072110108709, 32, 44, 73813999544018141221,
  9903577428886246307998210089, 44, 73813999544018141221, 80, 110727753890834743333, 1814166951649072110108709, 116, 96, 36894017425902678669,
  36894017287389983237, 96, 36894018800292213385, 36894018799218471429, 32, 44, 73813999544018141221, 9903577428886246307998210089, 44,
  73813999544018141221, 80, 110727753890834743333, 1814166951649072110108709, 124, 104, 36894052610274768525, 36894052471762073093, 104,
  36894053984664303245, 36894053983590561285, 44, 32, 73813999544018141221, 73813999544018141221, 32, 36893703240455033389, 36893703240455033461, 32,
  44, 73813999544018141221, 9903577428886246307998210089, 44, 73813999544018141221, 88, 110732257490462244901, 1814240738625366965092389, 44, 32,
  73813999544018141221, 73813999544018141221, 32, 9903577428886246307998210089, 88, 110732257490462244901, 1814240738625366965092389, 120,
  4401269768317, 44, 228973397153917, 110750481355607375917, 104, 120, 110741267301057364077, 110741267301057364077, 120, 36894036804795119133,
  36894035018088723997, 32, 44, 73813999544018141221, 9903577428886246307998210089, 44, 73813999544018141221, 96, 108, 110736763289113002085,
  110736763289113002085, 1814314525601661820076069, 96, 112, 110736763426551955557, 110736763426551955557, 112, 36894001620423029277,
  36893999833716634141, 44, 32, 73813999544018141221, 73813999544018141221, 32, 9903577428886246307998210089, 88, 110732257490462244901,
  1814240738625366965092389, 44, 32, 73813999544018141221, 73813999544018141221, 32, 9903577428886246307998210089, 88, 110732257490462244901,
  1814240738625366965092389, 120, 4401269768317, 44, 228973397153917, 110750481355607375917, 104, 120, 110741267301057364077, 110741267301057364077,
  120, 36894036804795119133, 36894035018088723997, 32, 44, 73813999544018141221, 9903577428886246307998210089, 44, 73813999544018141221, 96, 108,
  110736763289113002085, 110736763289113002085, 1814314525601661820076069, 96, 112, 110736763426551955557, 110736763426551955557, 112,
  36894001620423029277, 36893999833716634141, 120, 4401269768317, 44, 228973397153917, 110750481355607375917, 104, 120, 110741267301057364077,
  110741267301057364077, 120, 36894036942234072605, 36894035018088723997, 32, 44, 73813999544018141221, 9903577428886246307998210089, 44,
  73813999544018141221, 96, 108, 110736763289113002085, 110736763289113002085, 1814314525601661820076069, 96, 112, 110736763426551955557,
  110736763426551955557, 112, 36894001620423029277, 36893999833716634141, 2251818075684909, 2251818075684909, 2251818075684909, 2251818075684909,
  2251818075684909, 2251818075684909, 2251818075684909, 2251818075684909]

theorem side6a_linf_run13 : run .linf 2 90 17 side6aEnv [] side6a_linf_13 (side6aPaths13.map fun P => ⟨[P], []⟩) = true := Run.run_one (by decide +kernel)

def side6a_linf_14 : List ℕ := [
  88, 48, 52, 73818503418523549749, 14173728993963539438137, 52, 73818503419597881397, 110732257765340151861, 48, 52, 73818503418523549749,
  1814241315121166126874677, 52, 9448768437571014367837, 1814241315121303640735797]

theorem side6a_linf_run14 : run .linf 2 90 17 side6aEnv [] side6a_linf_14 (side6aPaths14.map fun P => ⟨[P], []⟩) = true := Run.run_one (by decide +kernel)

def side6a_linf_15 : List ℕ := [
  52, 48, 73818503418523549749, 88, 73818503419597881397, 9448768437571014367837, 88, 48, 14173728993963539438137, 110732257765340151861, 48,
  1814241315121166126874677, 1814241315121303640735797]

theorem side6a_linf_run15 : run .linf 2 90 17 side6aEnv [] side6a_linf_15 (side6aPaths15.map fun P => ⟨[P], []⟩) = true := Run.run_one (by decide +kernel)

def side6a_linf_16 : List ℕ := [
  120, 4401269768317, 52, 264157786020989, 110750516542126948405, 104, 120, 110741267301057364077, 110741267301057364077, 120, 36894036804795119133,
  36894035155527677469, 96, 108, 110736763289113002085, 110736763289113002085, 108, 9903653470114564828690985517, 52, 73818505342668898405,
  1209449534700953041174629, 96, 112, 110736763426551955557, 110736763426551955557, 112, 36894001620423029277, 36893999971155587613, 120,
  4401269768317, 52, 264157786020989, 110750516542126948405, 104, 120, 110741267301057364077, 110741267301057364077, 120, 36894036942234072605,
  36894035155527677469, 96, 108, 110736763289113002085, 110736763289113002085, 108, 9903653470114564828690985517, 52, 73818505342668898405,
  1209449534700953041174629, 96, 112, 110736763426551955557, 110736763426551955557, 112, 36894001620423029277, 36893999971155587613,
  2251820223168565, 2251820223168565, 2251820223168565, 2251820223168565, 2251820223168565, 2251820223168565, 2251820223168565, 2251820223168565,
  120, 4401269768317, 60, 299342174888061, 110750551728646520893, 104, 120, 110741267301057364077, 110741267301057364077, 120, 36894036942234072605,
  36894035292966630961, 96, 108, 110736763289113002085, 110736763289113002085, 108, 9903653470116816628504670769, 60, 73823008942296399973,
  1209523321677247896158309, 96, 112, 110736763426551955557, 110736763426551955557, 112, 36894001620423029277, 36894000108594541105, 132, 60, 4, 56,
  1209516151489244283543049, 1209516151489244283543177, 56, 88, 1814237315713728302292489, 19816712626047099140060415069, 1209516151489244283543177,
  56, 4, 604467598388915654820913, 604467598388915654820917, 88, 110732258040218058813, 1814241891617240316379197, 4, 60, 56,
  1209516151489244283543049, 1209516151489244283543177, 56, 604467598283362538554417, 88, 110732258040218058813, 1814241891617240316379197, 60, 56,
  88, 1814237315713728302292489, 19816712626047099140060415069, 1209516151489244283543177, 56, 604467598283362538554421, 88, 110732258040218058813,
  1814241891617240316379197, 132, 4, 0, 604463491000502375760945, 88, 60, 64, 1209516153723451911184521, 1209516154303994050650249, 64,
  1814237317947935929933829, 162260612768395946339796064935985, 60, 64, 1209516153723451911184521, 1209516154303994050650249, 64,
  29724539152540641743192727557, 162260612768395946339796064935985, 88, 0, 64, 68, 9903605358702429384713839157, 604468174726522656080901, 60,
  1209516154303994050650249, 9903601853532825003736768561, 64, 60, 1209516153723451911184521, 1814237317947935929933829, 60,
  1209516154303994050650249, 162260612768395946339796064935985, 60, 64, 0, 1209516153723451911184521, 1209516153723451911184521,
  1209516154303994050650249, 64, 68, 0, 9903605358702429384713839157, 29724539152540641743192727557, 604468174726522656080901, 0,
  9903601853532825003736768561, 162260612768395946339796064935985, 88, 0, 4, 604463491000502375760949, 84, 1814237331458734812048521,
  29724464438617709000762196489, 84, 1814237331458734812048521, 1814237331458734812048389, 60, 4, 0, 604463491000502375760949, 84,
  604469615948772159144989, 9903630189461104478568655897, 64, 0, 1209516153723451911184521, 84, 604469615948772159144989,
  9903630189461104478568655897, 1209516154303994050650249, 4, 0, 604463491000502375760949, 84, 604469615948772159144989,
  9903630189461104478568655897, 84, 604469615948772159144989, 0, 64, 68, 162260670197131638005700278428209, 604468174796891400258589,
  162260612768395946339796064935985, 9903630189461104478568655897, 88, 100, 110732259414607593565, 110732259414607593565, 100,
  9903643951020413842055704113, 60, 73823008667418493021, 1209522745181311220514909, 88, 104, 110732259552046547037, 110732259552046547037, 104,
  36893965748856172081, 36893964924222451249, 2251822370652221, 2251822370652221, 2251822370652221, 2251822370652221, 2251822370652221,
  2251822370652221, 2251822370652221, 2251822370652221, 2251824518135877, 2251824518135877, 2251833108070501, 2251828813103189, 2251826665619533,
  2251826665619533, 120, 4401269768317, 52, 264157786020989, 110750516542126948405, 104, 120, 110741267301057364077, 110741267301057364077, 120,
  36894036942234072605, 36894034605771863585, 40, 52, 73818503418523549741, 9903586947987152694074547233, 52, 73818503418523549741, 96, 108,
  110736763289113002085, 110736763289113002085, 1814315102097598495719469, 96, 112, 110736763426551955557, 110736763426551955557, 112,
  36894001620423029277, 36893999421399773729, 40, 52, 73818503418523549741, 9903586947987152694074547233, 52, 73818503418523549741, 88,
  110732257765340151853, 1814241315121303640735789, 40, 52, 73818503418523549741, 9903586947987152694074547233, 52, 73818503418523549741, 88,
  110732257765340151853, 1814241315121303640735789, 40, 52, 73818503418523549741, 9903586947987152694074547233, 52, 73818503418523549741, 88, 100,
  110732259414607593565, 110732259414607593565, 1814241315121303640735789, 88, 104, 110732259552046547037, 110732259552046547037, 104,
  36893965199100358177, 36893964237027683873, 108, 88, 36893982240456846853, 36893982241530588817, 88, 36893983614846381573, 36893983615920123537,
  40, 52, 73818503418523549741, 9903586947987152694074547233, 52, 73818503418523549741, 80, 110727754165712650285, 1814167528145008785752109, 40, 52,
  73818503418523549741, 9903586947987152694074547233, 52, 73818503418523549741, 80, 110727754165712650285, 1814167528145008785752109, 40, 52,
  73818503418523549741, 9903586947987152694074547233, 52, 73818503418523549741, 80, 110727754165712650285, 1814167528145008785752109, 116, 96,
  36894017563341632137, 36894017424828936709, 96, 36894018800292213385, 36894018799218471429, 40, 52, 73818503418523549741,
  9903586947987152694074547233, 52, 73818503418523549741, 80, 110727754165712650285, 1814167528145008785752109, 104, 124, 36894052610274768525,
  36894053984664303245, 124, 36894052609201026565, 36894053983590561285, 52, 12, 60, 80, 96, 110727755677541138517, 110727755677541138517, 96,
  36893931938873616925, 36893929052655594017, 64, 36893788315167236213, 36893791201385259121, 16, 36893577208934697077, 36893580095152719985, 12, 60,
  80, 96, 110727755677541138517, 110727755677541138517, 96, 36893931938873616925, 36893929052655594017, 64, 36893788315167236213,
  36893791201385259121, 16, 36893577208934697077, 36893580095152719985, 120, 4401269768317, 60, 299342174888061, 110750551728646520893, 16, 12,
  36893577346373650469, 36893577346373650541, 12, 36893579820274812965, 36893579820274813037, 12, 32, 36893649913067341829, 36893648263799900165, 32,
  36893649914141083789, 36893648264873642125]

theorem side6a_linf_run16 : run .linf 2 90 17 side6aEnv [] side6a_linf_16 (side6aPaths16.map fun P => ⟨[P], []⟩) = true := Run.run_one (by decide +kernel)

def side6a_linf_17 : List ℕ := [
  12, 32, 36893649913067341829, 36893648263799900165, 32, 36893649914141083793, 36893648264873642129, 32, 12, 36893649638189434885,
  36893649639263176841, 12, 36893648263799900165, 36893648264873642121, 12, 32, 36893649638189434885, 36893648263799900165, 32, 36893649639263176849,
  36893648264873642129, 12, 32, 36893649638189434885, 36893648263799900165, 32, 36893649639263176845, 36893648264873642125, 12, 16,
  36893577346373650469, 36893580232591673381, 16, 36893577346373650553, 36893580232591673465, 2251822370652221, 2251822370652221, 2251822370652221,
  2251822370652221, 2251822370652221, 2251822370652221, 2251822370652221, 2251822370652221, 2251824518135877, 2251824518135877, 2251833108070501,
  2251828813103189, 2251826665619533, 2251826665619533, 48, 60, 73823007293028958261, 9903596467088059080150884389, 60, 73823007293028958261, 96,
  110736761639845560373, 1814315678593535171362869, 56, 68, 73827511167534366781, 9903605986175454667345110053, 68, 73827511167534366781, 96,
  110736761914723467325, 1814316255089471847006269, 120, 4401269768317, 84, 404895341489277, 110750657288205238357, 120, 4401269768317, 92,
  440079730356349, 110750692474724810845, 120, 4401269768317, 92, 440079730356349, 110750692474724810845, 2251833108070501, 104, 120,
  110741267301057364077, 110741267301057364077, 120, 36894037079673026085, 36894035842722444841, 104, 120, 110741267301057364077,
  110741267301057364077, 120, 36894037079673026085, 36894035292966630953, 104, 120, 110741267301057364077, 110741267301057364077, 120,
  36894037079673026085, 36894035018088724009, 2251828813103189, 120, 4401269768317, 68, 334526563755133, 110750586915166093381, 40, 56,
  36893754230306772545, 36893752993356191301, 56, 36893754092867819073, 36893752993356191301, 40, 56, 36893754230306772545, 36893752993356191301, 56,
  36893754092867819073, 36893752993356191301, 120, 4401269768317, 68, 334526563755133, 110750586915166093381, 40, 56, 36893754230306772545,
  36893752993356191301, 56, 36893754092867819073, 36893752993356191301, 120, 4401269768317, 68, 334526563755133, 110750586915166093381, 120,
  4401269768317, 68, 334526563755133, 110750586915166093381, 2251824518135877, 40, 56, 36893754092867819077, 36893752993356191305, 56,
  36893754642623632941, 36893752993356191305, 120, 4401269768317, 76, 369710952622205, 110750622101685665869, 120, 4401269768317, 76,
  369710952622205, 110750622101685665869, 2251826665619533, 120, 4401269768317, 84, 404895341489277, 110750657288205238357, 2251828813103189,
  2251830960586845, 2251833108070501, 120, 4401269768317, 76, 369710952622205, 110750622101685665869, 76, 64, 140, 128, 36894124078530577001,
  73832017241063030917, 60, 56, 36893773471760260637, 80, 84, 4, 0, 604463488643149445810289, 136, 604473288862966699197029,
  604473288862966699214949, 0, 52, 88, 604469544119876539778145, 92, 104, 108, 110741266888740503661, 1814384916687915776489069,
  36893965748856172613, 36893914209248620061, 604467238276867325559905, 36893527181155631645, 36893876138658507377, 77372037660218304889112661,
  604467891298813294430309, 73832015042039775301, 64, 9903615505289871852303558713, 36893843977943392865, 120, 4401269768317, 84, 404895341489277,
  110750657288205238357, 2251828813103189, 2251830960586845, 2251833108070501, 44, 80, 112, 116, 110745770763245912181, 4722434054868801960565, 84,
  73836519878617858137, 1209745835425795690998277, 84, 112, 116, 110745770763245912181, 4722434054868801960565, 73836519878617858137,
  36893879299754437217, 48, 36893717808984103025, 36893719733129451637, 2251830960586845, 2251830960586845, 2251833108070501, 2251833108070501, 120,
  4401269768317, 76, 369710952622205, 110750622101685665869, 120, 4401269768317, 92, 440079730356349, 110750692474724810845, 120, 4401269768317, 84,
  404895341489277, 110750657288205238357, 120, 4401269768317, 92, 440079730356349, 110750692474724810845, 2251833108070501, 2251833108070501, 120,
  4401269768317, 84, 404895341489277, 110750657288205238357, 2251833108070501]

theorem side6a_linf_run17 : run .linf 2 90 17 side6aEnv [] side6a_linf_17 (side6aPaths17.map fun P => ⟨[P], []⟩) = true := Run.run_one (by decide +kernel)

def side6a_linf_18 : List ℕ := [
  120, 4401269768317, 92, 440079730356349, 110750692474724810845, 2251833108070501, 112, 288235189738209397, 52, 288235188663484533,
  36894104148927905909, 40, 52, 73818503418523549741, 9903586947987152694074547249, 52, 73818503418523549741, 96, 110736761364967653421,
  1814315102097598495719469, 40, 52, 73818503418523549741, 9903586947987152694074547249, 52, 73818503418523549741, 88, 110732257765340151853,
  1814241315121303640735789, 40, 52, 73818503418523549741, 9903586947987152694074547249, 52, 73818503418523549741, 36893738149949216365, 112,
  288235189738209397, 52, 288235188663484533, 36894104148927905909, 112, 288235189738209397, 52, 288235188663484533, 36894104148927905909, 112,
  288235189738209397, 52, 288235188663484533, 36894104148927905909, 2251820223168565, 2251820223168565, 112, 288235189738209397, 60,
  288235188663615605, 36894104148944683125, 112, 288235189738209397, 60, 288235188663615605, 36894104148944683125, 2251822370652221,
  2251822370652221, 112, 288235189738209397, 68, 288235188663746677, 36894104148961460341, 20, 96, 92, 104, 110736763151674048613, 136, 68, 4, 140,
  16, 1209589915947541001669261, 72, 76, 8, 12, 1209589914276283327449097, 1814311075738794137224805, 1209589909772683700077709,
  1209589948053280532735629, 1209589945801480719049869, 1209589984082077551707657, 140, 0, 88, 162261135062424676088496157896761, 84, 72, 76, 80, 8,
  604463788273262154353725, 24, 28, 64, 1814311107193622784647689, 60, 604467823498528279235645, 56, 1814311102760391901453925, 52,
  1209589936794281464306829, 48, 44, 40, 1814311093682823902533129, 1814311093682823902533265, 604466670577023672126525, 1814311098591043808926233,
  1814311084763585578012261, 1209589918779882954820749, 1209589950305080346421389, 1209589948053280532735629, 1209589945801480719049869,
  110736762601918234713, 1814311071762960091185669, 77372590742802540188075109, 4, 140, 16, 162259742351324631979189031019525, 64, 8, 12,
  162259684927348200284301881910277, 1814311075738794137224805, 162259530184843289611765648860165, 110736761914723467333,
  162262083436174315708617784960005, 140, 0, 88, 162261135062424676088496157896761, 84, 64, 8, 604463788273262154353725, 24, 28, 60, 72,
  604468399959280582790205, 76, 604468688189656734567485, 80, 604468976420032886344765, 162261000252918009144289560701497,
  162260613382377950298097556005381, 1814311084763585578012261, 162259839669853110956838668608517, 110736761914723467333, 110736762601918234713,
  1814311071762960091185669, 77372590742802540188075109, 0, 4, 77371326852603114929866341, 88, 9903633731816930982743977573, 84, 8,
  604463788273262154353725, 24, 28, 80, 76, 72, 68, 12, 1814311076248967532512777, 16, 1814311077990593950910565, 32, 36, 40, 44,
  1814311093682823902533129, 48, 604466670577023672126525, 52, 56, 60, 64, 1814311107193622784647689, 604467823498528279235645,
  1814311102760391901453925, 1814311101018765483056269, 1814311098591043808926233, 604466094116271368571965, 1814311089249593019339365,
  1814311087507966600941577, 604468399959280582790205, 604468688189656734567485, 604468976420032886344765, 9903625503704382979809880613,
  1814311084763585578012261, 1814311083004366973570189, 110736762601918234713, 1814311122938629294403725, 1814311123026590224625689, 136, 68, 4, 140,
  16, 1209589915947541001669261, 72, 76, 92, 1209589959312279601164429, 88, 84, 1209589954228137834327049, 80, 604469264650409038131769,
  1209589950305080346421389, 9903634543473670225962348573, 1209589948053280532735629, 1209589945801480719049869, 1209589984082077551707657, 92,
  1209589959312279601164429, 24, 72, 76, 80, 0, 84, 88, 9903628967368813194938223677, 9903634543473670225962348573, 604469264650409038131769,
  604463542827082462596153, 1209589950305080346421389, 1209589948053280532735629, 1209589945801480719049869, 1209589918779882954820749, 4, 140, 16,
  162259742351324631979189031019525, 64, 92, 19818039027389295403269632141, 88, 84, 162261057662616372695749088125957, 8, 12,
  162259684927348200284301881910277, 604464076503638306140729, 162259530184843289611765648860165, 9903634543473670225962348573,
  1814316255089471847006277, 162262083436174315708617784960005, 64, 92, 19818039027389295403269632141, 140, 29725757523460265483452817929, 0,
  9903691649405175660103666749, 604463542827082462596153, 1814316255089471847006277, 92, 9903639671666270917414301701, 0, 140,
  604473299875675163013689, 4, 9903529797672672932214869053, 16, 9903548687138604410829278269, 68, 72, 76, 80, 84, 88, 9903628967368813194938223677,
  9903634543473670225962348573, 604469264650409038131769, 9903620781049669734006728765, 9903616058683186864353125981, 19817921672049773427391874633,
  29725757519924922176323455513, 9903639671956753093377471037, 96, 92, 24, 604464941247543319596093, 136, 68, 4, 0, 1209589906940341746926221,
  1209589906940479244599833, 88, 162261135062424676088496157896761, 162261135062422367993686887247365, 4, 0, 162259432866314810634116011271173,
  232231817109361966480097817, 88, 162261135062424676088496157896761, 162261135062422367993686887247365, 1814311083004366973570073,
  1814311123026590224625689, 24, 604464941247543319596093, 136, 68, 4, 72, 76, 0, 1209589906940341746926221, 92, 1209589959312279601164429, 88, 12,
  16, 64, 1209589942969138765898249, 60, 604467823551304837368893, 56, 604467535268152127468089, 52, 1209589936794281464306829, 48, 44, 40,
  1209589929458339883783689, 36, 604466094169047926705213, 32, 604465805885895216804409, 80, 84, 1209589954228137834327049, 604469264650409038131769,
  1209589950305080346421389, 604466670629800230259773, 604467001591596283923513, 604464695748587069705273, 604464695748587069649469,
  9903634543471400833962618373, 1209589948053280532735629, 1209589945801480719049869, 100, 162261309756964870373430837981753,
  9903643324412079687877145149, 4, 0, 162259432866314810634116011271173, 19818039020685704957572153881, 100, 162261309756964870373430837981753,
  9903643324412079687877145149, 9903554669360061439612957245, 2251824518135877, 2251824518135877, 2251830960586845, 112, 288235189738209397, 60,
  288235188663615605, 36894104148944683125, 48, 60, 73823007293028958261, 9903596467088059080150884393, 60, 73823007293028958261, 96,
  110736761639845560373, 1814315678593535171362869, 48, 60, 73823007293028958261, 9903596467088059080150884393, 60, 73823007293028958261, 88,
  110732258040218058805, 1814241891617240316379189, 48, 60, 73823007293028958261, 9903596467088059080150884393, 60, 73823007293028958261,
  36893773334321306221, 112, 288235189738209397, 68, 288235188663746677, 36894104148961460341, 56, 68, 73827511167534366781,
  9903605986175454667345110057, 68, 73827511167534366781, 96, 110736761914723467325, 1814316255089471847006269, 2251824518135877, 2251824518135877,
  2251830960586845, 56, 68, 73827511167534366781, 9903605986188965466227221549, 68, 73827511167534366781, 36893808518693396073, 76, 88, 104, 108,
  4722429867928506611309, 4722429621637901989485, 92, 9450497995749835419245, 4722420614301149572717, 73832015454356635729, 64,
  9903615505276361053421447213, 36893843703065485929, 112, 288235189738209397, 76, 288235188663877749, 36894104148978237557, 112, 288235189738209397,
  84, 288235188664008821, 36894104148995014773, 112, 288235189738209397, 84, 288235188664008821, 36894104148995014773, 2251830960586845, 120,
  4401269768317, 60, 299342174888061, 110750551728646520893, 48, 60, 73823007293028958261, 9903596467088059080150884409, 60, 73823007293028958261,
  44, 36893717671545149465, 52, 36893735263731194477, 56, 36893752855917239321, 36893773334321307161, 48, 60, 73823007293028958261,
  9903596467088059080150884409, 60, 73823007293028958261, 52, 36893735263731194477, 56, 36893752855917239321, 36893773334321307161]

theorem side6a_linf_run18 : run .linf 2 90 17 side6aEnv [] side6a_linf_18 (side6aPaths18.map fun P => ⟨[P], []⟩) = true := Run.run_one (by decide +kernel)

def side6a_linf_19 : List ℕ := [
  60, 48, 73823007293028958261, 73823007293028958261, 48, 9903596467088059080150884409, 52, 36893735126292241013, 56, 36893752855917239321,
  36893773609199214101, 120, 4401269768317, 60, 299342174888061, 110750551728646520893, 120, 4401269768317, 60, 299342174888061,
  110750551728646520893, 120, 4401269768317, 60, 299342174888061, 110750551728646520893, 2251822370652221, 2251822370652221, 120, 4401269768317, 68,
  334526563755133, 110750586915166093381, 120, 4401269768317, 68, 334526563755133, 110750586915166093381, 2251824518135877, 2251824518135877, 120,
  4401269768317, 76, 369710952622205, 110750622101685665869, 88, 84, 80, 76, 24, 1209663741292393619531857, 1209663741292393619531857,
  36893858409033508889, 36893876001219553817, 36893893593405598745, 76, 73832015454356635729, 24, 604469584617088813895213, 28, 36893629710614924825,
  124, 604465288007122441145925, 604465288007122441145925, 2251826665619533, 2251826665619533, 2251833108070501, 120, 4401269768317, 68,
  334526563755133, 110750586915166093381, 56, 68, 73827511167534366781, 9903605986188965466227221553, 60, 36893770448103284333, 64,
  36893788040289329177, 68, 73827511167534366781, 36893808518693397017, 56, 68, 73827511167534366781, 9903605986188965466227221553, 68,
  73827511167534366781, 52, 36893752855917239321, 60, 36893770448103284333, 64, 36893788040289329177, 36893808518693397017, 68, 56,
  73827511167534366781, 73827511167534366781, 56, 9903605986188965466227221553, 36893808793571303009, 120, 4401269768317, 76, 369710952622205,
  110750622101685665869, 76, 88, 24, 1209663741292393619531857, 1209663741292393619531857, 73832015454356635729, 64, 9903615505276361053421447217,
  36893843703065485929, 2251826665619533, 2251826665619533, 2251833108070501, 76, 24, 140, 0, 136, 9903691647943757581021938201,
  9903691647943757581024231961, 4, 604463491106055492013621, 36893527318594585109, 4, 0, 604463488625557259765869, 604463491106055492013621, 64, 112,
  116, 4722434336343778671221, 36894016738707913325, 108, 604471350063327115757669, 104, 1209663752920828594894417, 36893984715431753237,
  73832015042039775301, 140, 12, 4722382755916781979729, 36893615279524808801, 12, 4722382755916781979729, 36893615279524808801, 64,
  9903615505289871852303558709, 36893843977943392865, 84, 96, 100, 36893948431548035701, 36893946369963733613, 73836519328862044249, 80,
  36893879162315483733, 36893879162315483669, 120, 4401269768317, 84, 404895341489277, 110750657288205238357, 120, 4401269768317, 92,
  440079730356349, 110750692474724810845, 120, 4401269768317, 92, 440079730356349, 110750692474724810845, 2251833108070501, 120, 4401269768317, 68,
  334526563755133, 110750586915166093381, 56, 68, 73827511167534366781, 9903605986188965466227221569, 68, 73827511167534366781, 52,
  36893752855917239321, 48, 36893735263731194477, 60, 36893770448103284333, 64, 36893788040289329177, 36893808793571303957, 56, 68,
  73827511167534366781, 9903605986188965466227221569, 68, 73827511167534366781, 60, 36893770448103284333, 64, 36893788040289329177,
  36893808931010257421, 120, 4401269768317, 68, 334526563755133, 110750586915166093381, 56, 68, 73827511167534366781, 9903605986188965466227221569,
  68, 73827511167534366781, 52, 36893752855917239321, 48, 36893735263731194477, 60, 36893770448103284333, 64, 36893788040289329177,
  36893808931010257421, 120, 4401269768317, 68, 334526563755133, 110750586915166093381, 120, 4401269768317, 68, 334526563755133,
  110750586915166093381, 2251824518135877, 76, 4, 72, 0, 140, 128, 36894124078530577001, 73832017241063030917, 604463488625557259765869,
  154836952819394460543681145, 9450497925381997209209, 72, 1209663734449033248253449, 9450497925381997209209, 72, 112, 116, 110745770763245912181,
  4722434054868801960565, 1209672048414316480701957, 36893843840504440425, 120, 4401269768317, 76, 369710952622205, 110750622101685665869, 120,
  4401269768317, 76, 369710952622205, 110750622101685665869, 2251826665619533, 120, 4401269768317, 84, 404895341489277, 110750657288205238357,
  2251828813103189, 2251830960586845, 2251833108070501, 120, 4401269768317, 76, 369710952622205, 110750622101685665869, 76, 64, 140, 128,
  36894124078530577001, 73832017241063030917, 60, 136, 36894122291824182809, 56, 36893773609199214101, 132, 36894104699638137881, 24, 28, 32, 36,
  36893668056082944613, 4, 0, 604463488625557259765869, 604463491106055492013625, 20, 0, 52, 8, 36893541749684700185, 16, 12, 48, 104, 108,
  110741266888740503661, 1814384916687915776489069, 84, 92, 36893965748856172613, 88, 604469541463456447070745, 36893914346687573525,
  9450498048526393551981, 36893735263731194393, 36893576934056790125, 36893594526242834969, 604467235620447232852505, 36893527318594585109,
  604464932363489367166501, 604465585455804080212069, 604465297225427928434789, 12, 4722382755916781979729, 36893615279524808801,
  604467891298813294430309, 73832015042039775301, 64, 9903615505289871852303558713, 60, 36893788040289329177, 68, 36893805632475374189, 72,
  36893823224661419033, 36893843977943393813]

theorem side6a_linf_run19 : run .linf 2 90 17 side6aEnv [] side6a_linf_19 (side6aPaths19.map fun P => ⟨[P], []⟩) = true := Run.run_one (by decide +kernel)

def side6a_linf_20 : List ℕ := [
  120, 4401269768317, 84, 404895341489277, 110750657288205238357, 2251828813103189, 2251830960586845, 2251833108070501, 120, 4401269768317, 76,
  369710952622205, 110750622101685665869, 120, 4401269768317, 92, 440079730356349, 110750692474724810845, 120, 4401269768317, 84, 404895341489277,
  110750657288205238357, 120, 4401269768317, 92, 440079730356349, 110750692474724810845, 2251833108070501, 2251833108070501, 120, 4401269768317, 84,
  404895341489277, 110750657288205238357, 2251833108070501, 120, 4401269768317, 92, 440079730356349, 110750692474724810845, 2251833108070501, 28,
  576601498390102021, 120, 4401269768317, 110750410982568230941, 28, 576601498390102021, 96, 112, 110736763426551955557, 110736763426551955557,
  110736900183686119429, 28, 576601498390102021, 88, 865095757332480005, 110732396584058748933, 28, 576601498390102021, 88, 104,
  110732259552046547037, 110732259552046547037, 110732396584058748933, 28, 576601498390102021, 80, 865060572960391173, 110727892984431378437, 28,
  576601498390102021, 80, 865060572960391173, 110727892984431378437, 28, 576601498390102021, 80, 865060572960391173, 110727892984431378437, 28,
  576601498390102021, 80, 96, 110727755677541138517, 110727755677541138517, 110727892984431378437, 28, 576601498390102021, 72, 865025388588302341,
  110723389384804007941, 28, 576601498390102021, 72, 865025388588302341, 110723389384804007941, 28, 576601498390102021, 72, 865025388588302341,
  110723389384804007941, 28, 576601498390102021, 72, 865025388588302341, 110723389384804007941, 28, 576601498390102021, 72, 865025388588302341,
  110723389384804007941, 28, 576601498390102021, 72, 865025388588302341, 110723389384804007941, 28, 576601498390102021, 72, 865025388588302341,
  110723389384804007941, 28, 576601498390102021, 72, 88, 110723251803035729997, 110723251803035729997, 110723389384804007941, 28, 576601498390102021,
  80, 865060572960391173, 110727892984431378437, 28, 576601498390102021, 80, 865060572960391173, 110727892984431378437, 28, 576601498390102021, 120,
  4401269768317, 110750410982568230941, 28, 576601498390102021, 96, 112, 110736763426551955557, 110736763426551955557, 110736900183686119429, 28,
  576601498390102021, 88, 865095757332480005, 110732396584058748933, 28, 576601498390102021, 88, 104, 110732259552046547037, 110732259552046547037,
  110732396584058748933, 28, 576601498390102021, 104, 865166126076657669, 110741403783313489925, 28, 576601498390102021, 112, 288235189738209397,
  110745907382940860421, 28, 576601498390102021, 112, 288235189738209397, 110745907382940860421, 28, 576601498390102021, 112, 865201310448746501,
  110745907382940860421, 28, 576601498390102021, 120, 4401269768317, 110750410982568230941, 28, 576601498390102021, 120, 4401269768317,
  110750410982568230941, 28, 576601498390102021, 88, 865095757332480005, 110732396584058748933, 28, 576601498390102021, 120, 4401269768317,
  110750410982568230941, 28, 576601498390102021, 120, 4401269768317, 110750410982568230941, 28, 576601498390102021, 96, 112, 110736763426551955557,
  110736763426551955557, 110736900183686119429, 28, 576601498390102021, 96, 112, 110736763426551955557, 110736763426551955557, 110736900183686119429,
  28, 576601498390102021, 112, 288235189738209397, 110745907382940860421, 28, 576601498390102021, 120, 4401269768317, 110750410982568230941, 28,
  576601498390102021, 120, 4401269768317, 110750410982568230941, 28, 576601498390102021, 96, 112, 110736763426551955557, 110736763426551955557,
  110736900183686119429, 28, 576601498390102021, 64, 88, 864990220322340937, 864990220322340937, 110718885785176637445, 28, 576601498390102021, 64,
  88, 864990220322340937, 864990220322340937, 110718885785176637445, 28, 576601498390102021, 64, 88, 864990220322340937, 864990220322340937,
  110718885785176637445, 28, 576601498390102021, 64, 88, 864990220322340937, 864990220322340937, 110718885785176637445, 28, 576601498390102021, 64,
  864990204216213509, 110718885785176637445, 28, 576601498390102021, 64, 864990204216213509, 110718885785176637445, 28, 576601498390102021, 64, 80,
  110718747928530321477, 110718747928530321477, 110718885785176637445, 28, 576601498390102021, 64, 80, 110718747928530321477, 110718747928530321477,
  110718885785176637445, 28, 576601498390102021, 56, 864955019844124677, 110714382185549266949]

theorem side6a_linf_run20 : run .linf 2 90 17 side6aEnv [] side6a_linf_20 (side6aPaths20.map fun P => ⟨[P], []⟩) = true := Run.run_one (by decide +kernel)

def side6a_linf_21 : List ℕ := [
  28, 576601498390102021, 56, 864955019844124677, 110714382185549266949, 28, 576601498390102021, 56, 864955019844124677, 110714382185549266949, 28,
  576601498390102021, 56, 864955019844124677, 110714382185549266949, 28, 576601498390102021, 56, 864955019844124677, 110714382185549266949, 28,
  576601498390102021, 56, 864955019844124677, 110714382185549266949, 28, 576601498390102021, 56, 864955019844124677, 110714382185549266949, 28,
  576601498390102021, 56, 864955019844124677, 110714382185549266949, 28, 576601498390102021, 56, 864955019844124677, 110714382185549266949, 28,
  576601498390102021, 56, 72, 110714244054024912957, 110714244054024912957, 110714382185549266949, 28, 576601498390102021, 56, 72,
  110714244054024912957, 110714244054024912957, 110714382185549266949, 28, 576601498390102021, 80, 865060572960391173, 110727892984431378437, 28,
  576601498390102021, 80, 865060572960391173, 110727892984431378437, 28, 576601498390102021, 120, 4401269768317, 110750410982568230941, 28,
  576601498390102021, 96, 112, 110736763426551955557, 110736763426551955557, 110736900183686119429, 28, 576601498390102021, 88, 865095757332480005,
  110732396584058748933, 28, 576601498390102021, 88, 104, 110732259552046547037, 110732259552046547037, 110732396584058748933, 28,
  576601498390102021, 120, 4401269768317, 110750410982568230941, 28, 576601498390102021, 96, 112, 110736763426551955557, 110736763426551955557,
  110736900183686119429, 28, 576601498390102021, 88, 865095757332480005, 110732396584058748933, 28, 576601498390102021, 88, 104,
  110732259552046547037, 110732259552046547037, 110732396584058748933, 28, 576601498390102021, 112, 288235189738209397, 110745907382940860421, 28,
  576601498390102021, 120, 4401269768317, 110750410982568230941, 28, 576601498390102021, 120, 4401269768317, 110750410982568230941, 28,
  576601498390102021, 96, 112, 110736763426551955557, 110736763426551955557, 110736900183686119429, 28, 576601498390102021, 56, 864955019844124677,
  110714382185549266949, 28, 576601498390102021, 56, 864955019844124677, 110714382185549266949, 28, 576601498390102021, 56, 864955019844124677,
  110714382185549266949, 28, 576601498390102021, 56, 864955019844124677, 110714382185549266949, 28, 576601498390102021, 56, 864955019844124677,
  110714382185549266949, 28, 576601498390102021, 56, 864955019844124677, 110714382185549266949, 28, 576601498390102021, 56, 72,
  110714244054024912957, 110714244054024912957, 110714382185549266949, 28, 576601498390102021, 56, 72, 110714244054024912957, 110714244054024912957,
  110714382185549266949, 2251813780717597, 2251813780717597, 2251813780717597, 2251813780717597, 2251813780717597, 2251813780717597,
  2251813780717597, 2251813780717597, 2251813780717597, 2251813780717597, 2251813780717597, 2251813780717597, 2251813780717597, 2251813780717597,
  2251813780717597, 2251813780717597, 2251813780717597, 2251813780717597, 2251813780717597, 120, 4401269768317, 52, 264157786020989,
  110750516542126948405, 96, 112, 110736763426551955557, 110736763426551955557, 112, 36894001482984075797, 36893999833716634133, 88, 100,
  110732259414607593565, 110732259414607593565, 100, 9903643951015910242428333609, 52, 73818505067790991453, 1209448958205016365531229, 88, 104,
  110732259552046547037, 110732259552046547037, 104, 36893966161173032469, 36893964649344544277, 132, 4, 20, 28, 32, 604465517585150320839721,
  604465580811466964470805, 32, 604465517567558134809645, 604465580776282592396309, 16, 28, 32, 604465517761072181283889, 604465580635545104026669,
  32, 604465517585150320854061, 604465580776282592396309, 604464716049969764959273, 28, 20, 32, 604465517585150320839721, 604465580811466964470805,
  32, 604465517761072181283889, 604465580635545104026669, 32, 20, 604465517567558134809645, 604465517585150320854061, 604465580776282592396309, 4,
  28, 20, 32, 604465517585150320839721, 604465580635545104026645, 32, 604465517761072181283889, 604465580617952917982253, 32, 20,
  604465517585150320854037, 604465517761072181298197, 604465580635407665087493, 28, 20, 32, 604465517585150320839721, 604465580635545104026645, 32,
  604465517761072181283889, 604465580617952917982253, 32, 20, 604465517585150320854037, 604465517761072181298197, 604465580635407665087493, 136, 140,
  4, 8, 124, 604463779195694155448361, 604463779195694155448365, 36893545460536444037, 132, 604473002708468500677649, 128, 124, 8, 80,
  14173152889179006321173, 0, 604472495912772932993605, 604463777330922434724485, 604463846749688565990445, 36894073226117791877,
  604472784319070945232941, 36894126002675926661, 132, 36894108410489881733, 128, 124, 80, 14173152889179006321173, 0, 604472495912772932993605, 76,
  36893862119885252741, 4, 8, 604463779195694155448361, 36893545460536444037, 8, 604463777330922434724485, 604463846749688565990445,
  36894073226117791877, 140, 604472784319070945232941, 604472784248702201055273, 80, 92, 110727755540102185045, 110727755540102185045, 92,
  9903634431919507455979366953, 52, 73818504792913084501, 1209448381709079689887829, 80, 96, 110727755677541138517, 110727755677541138517, 96,
  36893930289606175273, 36893929464972454421, 2251820223168565, 2251820223168565, 2251820223168565, 2251820223168565, 2251820223168565,
  2251820223168565, 2251820223168565, 2251820223168565, 2251822370652221, 2251822370652221, 2251833108070501, 2251826665619533, 2251824518135877,
  2251824518135877, 104, 108, 4722429867928506611309, 4, 1814384916687915776489069, 1814384916687915776489069, 76, 72, 20, 1209663734519401992431129,
  1209663734519401992431129, 4722411607101894829677, 72, 1209671471953289299371541, 36893843703065486957]

theorem side6a_linf_run21 : run .linf 2 90 17 side6aEnv [] side6a_linf_21 (side6aPaths21.map fun P => ⟨[P], []⟩) = true := Run.run_one (by decide +kernel)

def side6a_linf_22 : List ℕ := [
  112, 288235189738209397, 84, 288235188664008821, 36894104148995014773, 2251830960586845, 84, 96, 100, 36893948431548035701, 104,
  36893963824710825077, 36893967123245708389, 73836519328862044249, 80, 36893879162315483669, 36893879162315483749, 120, 4401269768317, 92,
  440079730356349, 110750692474724810845, 2251833108070501, 4, 8, 124, 604463779230878527537197, 604463779230878527537205, 36893545460536444037, 88,
  8, 1814237286440330724377609, 4722373819223735534601, 128, 124, 0, 604472495947957305082457, 8, 604463777330922434724485, 604463846784872938079285,
  36894073226117791877, 132, 136, 604473002761107619857413, 36894108410489881733, 604472784178333456870957, 120, 4401269768317, 92, 440079730356349,
  110750692474724810845, 2251833108070501, 96, 112, 110736763426551955557, 110736763426551955557, 112, 36894001482984075797, 36894000383472448049,
  2251826665619533, 112, 288235189738209397, 36, 288235188663222389, 36894104148894351477, 120, 4401269768317, 36, 193789008286845,
  110750446169087803429, 120, 4401269768317, 36, 193789008286845, 110750446169087803429, 96, 112, 110736763426551955557, 110736763426551955557, 112,
  36894001482984075801, 36893999558838727193, 36, 28, 73809495669512732705, 32, 136, 1209294777190298324832909, 1209294777190298324832909, 4,
  1209294777190298324832777, 1209294777190298324832777, 4, 40, 604466085003518997562405, 44, 136, 162260226492799126689179532727817, 0, 48,
  36893718083862009893, 132, 604473002532546640217125, 72, 8, 77371363732580457024472653, 1814089713068283153876109, 76,
  29722092967643767584747169321, 19813174988396495987223307817, 604463508944532141048869, 162260206545523103047798150075913, 72, 8,
  1814089712487741014410249, 136, 77371373244182870030943309, 1814089713068283153875977, 76, 136, 19813174988470805381074921001,
  29722092967643767584747169321, 29722092967569458190895556137, 36, 32, 9447615446798131270269, 4, 1209294777190298324832777,
  1209294777190298324832777, 120, 124, 36894052335396863525, 604472205395412595446821, 124, 604472156031738554826797, 132, 604472210039749711184921,
  604472209898874783876101, 36, 28, 73809495669512732705, 4, 32, 112, 1209294777190298324832885, 1209294777190298324832885,
  1209294777190298324832777, 32, 112, 1209294777190298324832885, 1209294777190298324832885, 1209294777190298324832777, 4, 40,
  604466085003518997562405, 44, 112, 9903578055778289646547179013, 9903578055782810838360593945, 162260206545523103047798150075913, 72, 8,
  1814089712487741014410249, 68, 12, 16, 36893577346373650469, 4722378340415515396137, 16, 14172575915092211665033, 132, 604464427819593613198361,
  604464427678718685889541, 1814089748516538033382409, 80, 76, 112, 19813174988457294582192809513, 29722092967630256785865057833,
  29722092967569458190895556137, 1209300231242961118232653, 4, 0, 36893524569815515781, 36, 1209294759175899815346697, 604463508944532141048869, 8,
  72, 1814089712487741014410249, 132, 136, 604473002690876314633233, 36894108410489881733, 128, 36894090818303836709, 140, 604472784283886573144117,
  604472784195925642922013, 72, 4722373819223701980169, 132, 136, 604473002690876314633233, 36894108410489881733, 128, 36894090818303836709, 140,
  604472784283886573144117, 604472784195925642922013, 4, 36, 0, 36893524569815515781, 1209294759175899815346697, 0, 36893524569815515781,
  604463508944532141048869, 124, 8, 120, 604472205395412595442725, 36894055633931746949, 604463846714504193901605, 128, 36894073226117791877,
  604472426247716197122109, 72, 84, 110723251665596776525, 110723251665596776525, 84, 9903624912818601069903029789, 36893876413536413221, 72, 88,
  110723251803035729997, 110723251803035729997, 88, 36893894692917224989, 36893894005722457625, 72, 88, 110723251803035729997, 110723251803035729997,
  88, 36893894692917224989, 36893894005722457625, 36, 32, 136, 1209294777190298324832909, 1209294777190298324832909, 9447615446798131270213, 64, 68,
  120, 1814015959798616760001149, 1814015959798616760001149, 120, 4722407174008425423485, 4722407174008425423485, 68, 604468167812674438046249,
  36893806044792234533, 12, 16, 36893577346373650469, 36893580644908533797, 16, 36893577346373650565, 36893580644908533893, 12, 16,
  36893577346373650469, 36893580644908533797, 16, 36893577346373650565, 36893580644908533893, 36, 32, 9447615446798131270269, 9447615446798131270213,
  4, 0, 36893524569815515781, 604463508944532141048869, 140, 128, 36894123803652669989, 132, 136, 604473002690876314633233, 36894108410489881733,
  604472784283886573144117, 136, 36894126002675926661, 132, 36894108410489881733, 128, 36894090818303836709, 604472784195925642922013]

theorem side6a_linf_run22 : run .linf 2 90 17 side6aEnv [] side6a_linf_22 (side6aPaths22.map fun P => ⟨[P], []⟩) = true := Run.run_one (by decide +kernel)

def side6a_linf_23 : List ℕ := [
  36, 32, 136, 1209294777190298324832909, 1209294777190298324832909, 9447615446798131270213, 64, 44, 14171999664483136968745, 52, 48, 124,
  604466679689776043147301, 128, 604472493625788747224101, 36894069927582908453, 14171999612671731236917, 110718747378774507577, 68, 136,
  19813165543161378887333585449, 29720884041247692201121554985, 1814018801341145715638341, 36, 32, 9447615446798131270269, 9447615446798131270213,
  64, 44, 14171999664483136968745, 120, 124, 36894052335396863525, 604472205395412595446821, 132, 124, 604472156066922926915621,
  604472210039749711184921, 124, 604472156066922926915621, 604472209898874783876101, 68, 604468167812674438046249, 1814018801341145715638341, 36, 32,
  112, 1209294777190298324832885, 1209294777190298324832885, 9447615446798131270213, 64, 44, 14171999664483136968745, 132, 4, 12, 16,
  36893577346373650469, 14171999457638443124773, 16, 4722377900610847508617, 604464427819593613198361, 12, 16, 36893577346373650469,
  14171999457638443124773, 16, 4722377900610847508617, 604464427819593613198361, 12, 16, 36893577346373650469, 14171999457638443124773, 16,
  4722377900610847508617, 604464427678718685889541, 68, 112, 19813165543147868088451473961, 29720884041234181402239443497, 1814018801341145715638341,
  64, 52, 56, 60, 128, 132, 136, 140, 36894123803652669989, 36894126002675926661, 36894108410489881733, 36894090818303836709, 4722404781471123382405,
  36893774158955028101, 36893756566768983173, 110718747378774507577, 68, 36893809343327117861, 36, 32, 9447615446798131270269,
  9447615446798131270213, 1814018801341145715638341, 64, 52, 120, 48, 162260368555860711321161069107777, 36, 32, 9447615446798131270265,
  9447615446798131270213, 14171999612671731236917, 48, 4722398166809170680445, 36, 32, 9447615446798131270265, 9447615446798131270213,
  14171999612671731236917, 110718747378774507577, 76, 9903615393722198283454063133, 36893841229164323365, 12, 8, 36893563052722488941,
  36893563052722488869, 16, 36893577346373650541, 36893579820274813037, 64, 80, 110718747928530321477, 110718747928530321477, 80,
  36893861020373623321, 36893858821350367769, 120, 4401269768317, 44, 228973397153917, 110750481355607375917, 96, 112, 110736763426551955557,
  110736763426551955557, 112, 36894001620423029277, 36893999833716634141, 88, 100, 110732259414607593565, 110732259414607593565, 100,
  9903643951015910242428333601, 44, 73814001468163489885, 1209375171228721510547549, 88, 104, 110732259552046547037, 110732259552046547037, 104,
  36893965199100358177, 36893964649344544285, 44, 4, 132, 140, 136, 80, 77372554128537565370926165, 16, 12, 73813998581945466897,
  1209368552942778483476617, 12, 1209368553329806576453681, 604464427802001427153949, 604473002567731012322349, 16, 12, 73813998581945466897,
  1209368552942778483476617, 12, 1209368553329806576453681, 604464427802001427153949, 140, 16, 12, 73813998581945466897, 1209368552942778483476617,
  12, 1209368553329806576453681, 604464427713903057978373, 16, 12, 73813998581945466897, 1209368552942778483476617, 12, 1209368553329806576453681,
  604464427713903057978373, 132, 80, 140, 136, 77372554128537565370926165, 604473002743652872766509, 84, 1814163542846366654933641,
  1814163542248232329423497, 140, 136, 16, 12, 73813998581945466897, 1209368552942778483476617, 12, 1209368553329806576453681,
  604464427802001427153949, 604473002743652872766509, 12, 16, 73813998581945466897, 1209368553329806576453681, 16, 1209368552942778483476617,
  604464427802001427153949, 140, 16, 12, 73813998581945466897, 1209368552942778483476617, 12, 1209368553329806576453681, 604464427713903057978373,
  12, 16, 73813998581945466897, 1209368553329806576453681, 16, 1209368552942778483476617, 604464427713903057978373, 80, 4, 132, 136, 12, 16,
  604464378244813340022797, 14173152374881544833073, 16, 14173152376121541853201, 604464427802001427153949, 604473002567731012322349, 12, 16,
  604464378244813340022797, 14173152374881544833073, 16, 14173152376121541853201, 604464427713903057978373, 132, 136, 12, 16,
  604464378244813340022797, 14173152374881544833073, 16, 14173152376121541853201, 604464427802001427153949, 604473002743652872766509, 12, 16,
  604464378244813340022797, 14173152374881544833073, 16, 14173152376121541853201, 604464427713903057978373, 12, 16, 604464378244813340022797,
  1814166951525789293936657, 132, 16, 1209374594398670813921297, 604464427802001427153949, 16, 1209374594398670813921297, 604464427713903057978373,
  4, 8, 124, 604463779195694155448353, 604463779195694155448365, 36893545460536444037, 80, 8, 1814163499464035869393929, 4722373819223718757385, 44,
  132, 136, 604473002708468500677649, 36894108410489881733, 128, 124, 0, 604472495912772932993605, 8, 604463777330922434724485,
  604463846749688565990445, 36894073226117791877, 140, 604472784319070945232941, 604472784213517828966433, 88, 132, 136, 604473002708468500677649,
  36894108410489881733, 128, 124, 0, 604472495912772932993605, 8, 604463777330922434724485, 604463846749688565990445, 36894073226117791877, 140,
  604472784319070945232941, 604472784213517828966433, 1209374594715192648859733, 80, 92, 110727755540102185045, 110727755540102185045, 92,
  9903634431919507455979366945, 44, 73814001193285582933, 1209374594732784834904149, 80, 96, 110727755677541138517, 110727755677541138517, 96,
  36893930014728268321, 36893929464972454429, 44, 12, 16, 73813998581945466897, 4722378322685831678001, 16, 9448191819864382376069,
  36893580644908533893, 72, 76, 36893844527699207813, 14172576179249880245893, 76, 604468748777028533102129, 1209374018201663787171917, 4, 8, 124,
  604463779195694155448353, 604463779195694155448365, 36893545460536444037, 72, 8, 1814089712487741014410249, 4722373819223701980169, 68,
  36893826935513162885, 64, 36893809343327117957, 60, 36893791751141073029, 136, 132, 604473002690876314633233, 140, 128, 124, 0,
  604472495912772932993605, 8, 604463777330922434724485, 604463846749688565990445, 36894073226117791877, 604472784319070945232941,
  36894126002675926661, 132, 36894108410489881733, 128, 124, 0, 604472495912772932993605, 8, 604463777330922434724485, 604463846749688565990445,
  36894073226117791877, 140, 604472784319070945232941, 604472784213517828966433, 120, 116, 44, 48, 36, 73813999544018141225, 40,
  1209368568705377179276925, 124, 128, 73814002430236164221, 4, 8, 1209368548263256995660925, 604463844497888752320033, 72, 8,
  1814089712487741014410249, 1209368548773567888622601, 8, 162259510242326814171777205478917, 12, 1209368551025230204634673, 68,
  604468456183907180756513, 64, 604468167953531028979233, 60, 604467879723154877201953, 136, 52, 56, 73813999956335001657,
  162260536015772921546899224468997, 162260361325880442077410896321029, 16, 0, 1209368552749264436988045, 140, 1209368623082824242578993,
  9903531096141510296419253793, 1209368553347398762498189, 1209368614075624987835953, 1209368571291428527806589, 124, 128, 604472448800898705987653,
  4, 8, 9903534558653019006942779437, 604463844497888752320033, 72, 68, 64, 8, 1814089712487741014410249, 12, 604464132728264904087593, 48,
  1814089735005739151267849, 52, 9903587574876944232809830917, 60, 56, 604467548708582265404961, 136, 1814089740089880918105229, 40,
  9903578277436473698655606829, 162260226497558963120948825036833, 1814089744012938406010889, 1814089746264738219696649, 1814089748516538033382409,
  48, 29722102410284811297140774921, 52, 9903587574876944232809830917, 76, 8, 162259510242326814171777205478917, 12, 604464132728264904087593, 68,
  604468456183907180756513, 64, 604468167953531028979233, 60, 604467879723154877201953, 136, 56, 0, 16, 20, 24, 604464954635196899409441, 28,
  162259897098589090853118480164357, 32, 604465573880145662973993, 36, 604465862110521814760993, 40, 162260129212345303940418914948685,
  29722102410070890314840675849, 604464709189017207651873, 162259684932107748485695374829061, 162259452818350382476890333193733,
  162260458644631146675073503665157, 40, 9903578277436473698655606829, 162260226497558963120948825036833, 1209374018201663787171917,
  604472203178797153851433, 604471914948421002083873, 44, 48, 36, 73813999544018141225, 40, 1209368568705377179276925, 4, 0,
  1209368546187379042419325, 32, 9903567583823806092116311601, 116, 9903666753519946354841959985, 8, 140, 1209368548263256995660945, 136,
  9903690365352360703112265265, 12, 28, 1209368561774055877775501, 16, 73813998581945466897, 20, 9903548694357874613501902385, 24,
  604465285825691371650609, 1209368557850998389869577, 1209368550515056809346701, 604463844673810612764209, 72, 68, 64, 116,
  1814089775538135797611529, 8, 1814089712487741014410249, 12, 1209368551025230204634673, 60, 56, 1209368577712576434019965, 112, 136, 0, 16, 140,
  20, 24, 1209368557446378110848125, 28, 1814089723746740082839049, 76, 1814089751348879986534029, 80, 604469032820581344755249, 84, 88, 92, 96, 100,
  1814089764859678868648589, 104, 604470762202838255418929, 108, 1814089771615078309705737, 1209368604734174198249085, 604470185742085951864369,
  1209368596061226478349873, 1814089757523737288125449, 1209368591223375316134525, 604464709364939068096049, 1814089786797134866040461,
  1814089717571882781247629, 1814089710816483340190217, 140, 1209368623082824242578993, 16, 0, 1209368552749264436988045,
  9903531096164028294556106289, 9903545263263476903519206961, 1209368609237773825620601, 1814089744012938406010889, 1814089746264738219696649,
  1814089748516538033382409, 116, 162261676637395563587288343717381, 8, 162259510242326814171777205478917, 12, 1209368551025230204634673, 68,
  604468456359829041200689, 64, 604468168129452889423409, 60, 604467879899076737646129, 112, 136, 0, 52, 56, 73813999956335001657,
  162260536015772921546899224468997, 162260361325880442077410896321029, 162259452818350382476890333193733, 140, 1209368623082824242578993, 16, 0,
  1209368552749264436988045, 9903531096164028294556106289, 9903545263263476903519206961, 1209368609237773825620601, 1209368571291428527806589, 4, 8,
  72, 68, 64, 0, 604463513483316140523053, 140, 9903534558675537005079959621, 136, 9903690365352360703112265265, 76, 29722046486120366083155379761,
  48, 9903581782311092304035846149, 52, 9903587574883717224436931085, 56, 60, 604467548708582265404973, 9903600672936700686698160161,
  9903592486928305600055230001, 9903605395591413932503474733, 29722046439728786321611818057, 19814383909316194221835682941, 604463844673810612764209,
  72, 68, 64, 116, 1814089775538135797611529, 8, 1814089712487741014410249, 12, 604464132728264904087597, 48, 1814089735005739151267849, 52,
  9903587574883717224436931085, 60, 56, 604467548708582265404973, 136, 1814089740089880918105229, 140, 604473356100301760960557,
  9903592486928305600055230001, 1814089744012938406010889, 1814089746264738219696649, 1814089748516538033382409, 116,
  162261676637395563587288343717381, 76, 48, 29722102410284811297140774921, 52, 9903587574883717224436931085, 8, 162259510242326814171777205478917,
  12, 604464132728264904087597, 68, 604468456359829041200689, 64, 604468168129452889423409, 60, 604467879899076737646129, 112, 136, 56, 0, 16, 20,
  24, 604464954635196899409453, 28, 162259897098589090853118480164357, 32, 604465573880145662973997, 36, 604465862286443675205169, 40,
  162260129212345303940418914948685, 29722102410070890314840675849, 604464709364939068096049, 162259684932107748485695374829061,
  162259452818350382476890333193733, 162260458644631146675073503665157, 140, 604473356100301760960557, 0, 19814383914290402410622887429,
  9903531096164028294556106289, 9903662431482937961781008397, 1209374018201663787171917, 4, 8, 124, 604463779195694155448353,
  604463779195694155448365, 36893545460536444037, 72, 8, 1814089712487741014410249, 124, 604463846749688565990445, 128, 36894073226117791877,
  604472426282900569210933, 68, 36893826935513162885, 64, 36893809343327117957, 60, 36893791751141073029, 124, 8, 0, 128, 604472495912772932993605,
  132, 136, 604473002690876314633233, 36894108410489881733, 140, 604472784319070945232941, 604472784213517828966433, 604463777330922434724485,
  604463846749688565990445, 128, 36894073226117791877, 604472426282900569210933]

theorem side6a_linf_run23 : run .linf 2 90 17 side6aEnv [] side6a_linf_23 (side6aPaths23.map fun P => ⟨[P], []⟩) = true := Run.run_one (by decide +kernel)

def side6a_linf_24 : List ℕ := [
  44, 4, 140, 132, 16, 12, 73813998581945466897, 1209368552942778483476617, 12, 1209368553329806576453681, 604464427802001427153949, 16, 12,
  73813998581945466897, 1209368552942778483476617, 12, 1209368553329806576453681, 604464427713903057978373, 132, 136, 1209368622572650847290889,
  604473002567731012322349, 16, 12, 73813998581945466897, 1209368552942778483476617, 12, 1209368553329806576453681, 604464427713903057978373, 132,
  140, 16, 12, 73813998581945466897, 1209368552942778483476617, 12, 1209368553329806576453681, 604464427802001427153949, 12, 16,
  73813998581945466897, 1209368553329806576453681, 16, 1209368552942778483476617, 604464427802001427153949, 140, 16, 12, 73813998581945466897,
  1209368552942778483476617, 12, 1209368553329806576453681, 604464427713903057978373, 12, 16, 73813998581945466897, 1209368553329806576453681, 16,
  1209368552942778483476617, 604464427713903057978373, 132, 4, 12, 16, 604464378244813340022797, 604464427854777985275949, 16,
  604464378315182084211757, 604464427802001427153949, 72, 12, 16, 604464378244813340022797, 604464427854777985275949, 16, 604464378315182084211757,
  604464427802001427153949, 12, 16, 604464378244813340022797, 604464427854777985275949, 16, 604464378315182084211757, 604464427802001427153949, 12,
  16, 604464378244813340022797, 604464427714040496920621, 16, 604464378385550828389409, 604464427713903057978373, 4, 8, 124,
  604463779195694155448353, 604463779195694155448365, 36893545460536444037, 72, 128, 124, 8, 1814089712487741014410249, 604463846749688565990445,
  36894073226117791877, 68, 14172576160283304666245, 8, 1814089712487741014410249, 124, 604463846749688565990445, 4722440810268159131781, 44, 68,
  36893826935513162885, 64, 36893809343327117957, 132, 136, 604473002778699805901829, 36894108410489881733, 128, 124, 0, 604472495912772932993605, 8,
  604463777330922434724485, 604463846749688565990445, 36894073226117791877, 140, 604472784354255317321773, 604472784213517828966433, 124, 8, 0, 68,
  36893826935513162885, 64, 36893809343327117957, 80, 128, 604472495912772932993605, 132, 136, 604473002778699805901829, 36894108410489881733, 140,
  604472784354255317321773, 604472784213517828966433, 1209374018219255973216333, 604463777330922434724485, 604463846749688565990445, 68,
  36893826935513162885, 64, 36893809343327117957, 80, 112, 128, 36894073226117791877, 132, 136, 604473002778699805901829, 36894108410489881733, 140,
  604472784354255317321773, 604472784213517828966433, 604472160394600693710893, 1209374018219255973216333, 72, 84, 110723251665596776525,
  110723251665596776525, 84, 9903624912823104669530400289, 44, 73814000918407675981, 1209374018236848159260749, 72, 88, 110723251803035729997,
  110723251803035729997, 88, 36893896479623620125, 36893894280600364573, 120, 4401269768317, 52, 264157786020989, 110750516542126948405, 96, 112,
  110736763426551955557, 110736763426551955557, 112, 36894001620423029277, 36893999558838727197, 88, 100, 110732259414607593565,
  110732259414607593565, 100, 9903643951011406642800963105, 36893946782280592933, 88, 104, 110732259552046547037, 110732259552046547037, 104,
  36893965199100358177, 36893964374466637341, 32, 132, 36, 604465868953882186040349, 604465812746847774131237, 36, 604465868830599444775941,
  604465812746847774131233, 36, 132, 604465868936152561029637, 604465868830599444763141, 36893665307303875109, 4, 8, 124, 604463779160509783359521,
  604463779160509783359525, 36893545460536444037, 8, 80, 1814163499464035869393929, 132, 136, 604473002708468500677649, 36894108410489881733, 128,
  36894090818303836709, 140, 604472784283886573144117, 604472784213517828966433, 124, 604463846714504193901605, 80, 4722373819223718757385, 128,
  36894073226117791877, 140, 132, 136, 604473002708468500677649, 36894108410489881733, 604472784283886573144117, 12, 36893563052722488869, 132, 136,
  36894126002675926661, 36894108410489881733, 604472784213517828966433, 80, 92, 110727755540102185045, 110727755540102185045, 92,
  9903634431915003856351996449, 36893911597908503077, 80, 96, 110727755677541138517, 110727755677541138517, 96, 36893930014728268321,
  36893929190094547485, 2251820223168565, 2251820223168565, 2251820223168565, 2251820223168565, 2251820223168565, 2251820223168565, 2251820223168565,
  2251820223168565, 2251822370652221, 2251822370652221, 2251833108070501, 2251826665619533, 2251824518135877, 2251824518135877, 4, 136, 68, 8,
  1209589909192141560611981, 1209589909772683700077709, 104, 108, 1814384917268457915954797, 1814384916687915776489069, 64,
  19818048470086634111005368973, 19818048470086634111005368841, 8, 68, 154827508376875712846644845, 104, 108, 1814384917268457915954797,
  1814384916687915776489069, 64, 19818048470086651712779592333, 19818048470086634111005368841, 604463853786562983773801, 8, 604463779477169132143721,
  136, 68, 154827508451185106698241133, 104, 108, 1814384917268457915954797, 1814384916687915776489069, 64, 19818048470086634111005368973,
  19818048470086651712779592201, 604463853786562983756905, 104, 4, 108, 4722429867928506611309, 1814384916687915776489069, 108,
  4722429867928506611309, 1814384916687915776489069, 76, 4, 16, 12, 36, 48, 52, 9450497819827974969965, 604466949800200569173565,
  36893719320812590153, 32, 604465853173691304184381, 36893667781205037677, 604464362482214644233789, 12, 604464412021810545297981,
  36893579820274813037, 0, 9450497612159697289221, 604463547330682089964605, 4, 72, 1814390618561565880418381, 19819257396482709494630983177, 72,
  1814390618561565880418381, 19819257396482727094274500105, 112, 288235189738209397, 76, 52, 288232852201668665, 288232852201668665,
  36894104148978237557, 112, 288235189738209397, 84, 288235188664008821, 36894104148995014773, 112, 288235189738209397, 84, 288235188664008821,
  36894104148995014773, 2251830960586845, 112, 116, 4722434353935964715637, 4722434054868801960565, 76, 68, 56, 36893807281742814829,
  73832014767161868349, 72, 4722409284933336966261, 108, 604468427350314253957201, 104, 1209663752920828594894417, 9450498069692898358825, 72,
  1814464405537860718755917, 1209672048414316480701957, 112, 116, 4722434389120336804469, 4722434054868801960565, 84, 73836519878617858137, 80,
  36893879162315483733, 1209745835425795690998277, 120, 4401269768317, 84, 404895341489277, 110750657288205238357, 120, 4401269768317, 92,
  440079730356349, 110750692474724810845, 120, 4401269768317, 92, 440079730356349, 110750692474724810845, 2251833108070501, 128, 124, 4, 8,
  604463779230878527537189, 36893545460536444037, 8, 0, 604472495947957305082457, 604463777330922434724485, 604463846784872938079285,
  36894073226117791877, 4, 8, 124, 604463779230878527537189, 604463779230878527537205, 36893545460536444037, 88, 8, 1814237286440330724377609,
  4722373819223735534601, 132, 136, 604473002761107619857413, 36894108410489881733, 604472784178333456870949, 128, 124, 0, 604472495912772932993565,
  4, 8, 604463779195694155448357, 36893545460536444037, 8, 604463777330922434724485, 604463846749688565990445, 36894073226117791877, 88, 124, 4, 8,
  14173728800312934794373, 36893545460536444037, 8, 1814237286440330724377609, 4722373819223735534601, 4722440810268192686213, 132, 136, 4, 8, 124,
  604463779195694155448357, 604463779195694155448365, 36893545460536444037, 604473002761107619857413, 36894108410489881733, 604472784143149084782117]

theorem side6a_linf_run24 : run .linf 2 90 17 side6aEnv [] side6a_linf_24 (side6aPaths24.map fun P => ⟨[P], []⟩) = true := Run.run_one (by decide +kernel)

def side6a_linf_25 : List ℕ := [
  120, 4401269768317, 84, 404895341489277, 110750657288205238357, 120, 4401269768317, 92, 440079730356349, 110750692474724810845, 120, 4401269768317,
  92, 440079730356349, 110750692474724810845, 2251833108070501, 32, 16, 36893648539751549457, 36893647852556782113, 12, 36893649638189434885,
  36893649639263176849, 32, 12, 36893648263799900165, 36893648264873642129, 12, 36893649638189434885, 36893649639263176849, 32, 12,
  36893647988921993221, 36893647989995735185, 12, 36893649500750481413, 36893649501824223377, 2251826665619533, 120, 4401269768317, 36,
  193789008286845, 110750446169087803429, 20, 36, 73809495669512732697, 36893667506327129117, 36, 73809495669512732697, 36893667506327129125, 20, 36,
  73809495669512732697, 36893667368888175645, 36, 73809495669512732697, 36893667231449222181, 20, 36, 73809495669512732697, 36893667368888175645, 36,
  73809495669512732697, 36893667231449222181, 20, 36, 73809495669512732697, 36893666406815501345, 36, 73809495669512732697, 36893667231449222181, 20,
  36, 73809495669512732697, 36893666406815501345, 36, 73809495669512732697, 36893667231449222181, 20, 36, 73809495669512732697, 36893666406815501345,
  36, 73809495669512732697, 36893667231449222181, 20, 36, 73809495669512732697, 36893666406815501345, 36, 73809495669512732697, 36893667231449222181,
  20, 36, 73809495669512732697, 36893666406815501345, 36, 73809495669512732697, 36893667231449222181, 20, 36, 73809495669512732697,
  36893666406815501345, 36, 73809495669512732697, 36893667231449222181, 20, 36, 73809495669512732697, 36893666406815501345, 36, 73809495669512732697,
  36893667231449222181, 20, 36, 73809495669512732697, 36893666406815501345, 36, 73809495669512732697, 36893667231449222181, 20, 36,
  73809495669512732697, 36893667506327129117, 36, 73809495669512732697, 36893667506327129125, 20, 36, 73809495669512732697, 36893667506327129117, 36,
  73809495669512732697, 36893667506327129125, 20, 36, 73809495669512732697, 36893667781205036061, 36, 73809495669512732697, 36893667781205036069, 20,
  36, 73809495669512732697, 36893668056082943005, 24, 36893611568673066101, 36893615966719577205, 20, 36, 73809495669512732697, 36893667368888175645,
  36, 73809495669512732697, 36893667231449222181, 20, 36, 73809495669512732697, 36893667368888175645, 36, 73809495669512732697, 36893667231449222181,
  120, 4401269768317, 36, 193789008286845, 110750446169087803429, 20, 36, 73809495669512732697, 36893667368888175645, 36, 73809495669512732697,
  36893667231449222181, 20, 36, 73809495669512732697, 36893667368888175645, 36, 73809495669512732697, 36893667231449222181, 20, 36,
  73809495669512732697, 36893667368888175645, 36, 73809495669512732697, 36893667231449222181, 20, 36, 73809495669512732697, 36893667368888175645, 36,
  73809495669512732697, 36893667231449222181, 120, 4401269768317, 36, 193789008286845, 110750446169087803429, 120, 4401269768317, 36,
  193789008286845, 110750446169087803429, 20, 36, 73809495669512732697, 36893667506327129117, 36, 73809495669512732697, 36893667231449222181, 20, 36,
  73809495669512732697, 36893667368888175645, 36, 73809495669512732697, 36893667231449222181, 120, 4401269768317, 36, 193789008286845,
  110750446169087803429, 20, 36, 73809495669512732697, 36893667506327129117, 36, 73809495669512732697, 36893667506327129125, 20, 36,
  73809495669512732697, 36893666131937594401, 36, 73809495669512732697, 36893666681693408309, 20, 36, 73809495669512732697, 36893666131937594401, 36,
  73809495669512732697, 36893666681693408309, 20, 36, 73809495669512732697, 36893666131937594401, 36, 73809495669512732697, 36893666681693408309, 20,
  36, 73809495669512732697, 36893666131937594401, 36, 73809495669512732697, 36893666681693408309, 20, 36, 73809495669512732697, 36893666131937594401,
  36, 73809495669512732697, 36893666681693408309, 20, 36, 73809495669512732697, 36893666131937594401, 36, 73809495669512732697, 36893666681693408309,
  20, 36, 73809495669512732697, 36893666131937594401, 36, 73809495669512732697, 36893666956571315245, 20, 36, 73809495669512732697,
  36893666131937594401, 36, 73809495669512732697, 36893666956571315245, 20, 36, 73809495669512732697, 36893666131937594401, 36, 73809495669512732697,
  36893667231449222181]

theorem side6a_linf_run25 : run .linf 2 90 17 side6aEnv [] side6a_linf_25 (side6aPaths25.map fun P => ⟨[P], []⟩) = true := Run.run_one (by decide +kernel)

def side6a_linf_26 : List ℕ := [
  20, 36, 73809495669512732697, 36893667506327129117, 36, 73809495669512732697, 36893667506327129125, 20, 36, 73809495669512732697,
  36893667368888175645, 36, 73809495669512732697, 36893667231449222181, 20, 36, 73809495669512732697, 36893667368888175645, 36, 73809495669512732697,
  36893667231449222181, 120, 4401269768317, 36, 193789008286845, 110750446169087803429, 20, 36, 73809495669512732697, 36893667368888175645, 36,
  73809495669512732697, 36893667231449222181, 20, 36, 73809495669512732697, 36893667368888175645, 36, 73809495669512732697, 36893667231449222181, 20,
  36, 73809495669512732697, 36893667368888175645, 36, 73809495669512732697, 36893667231449222181, 120, 4401269768317, 36, 193789008286845,
  110750446169087803429, 20, 36, 73809495669512732697, 36893667506327129117, 36, 73809495669512732697, 36893667506327129125, 20, 36,
  73809495669512732697, 36893667368888175645, 36, 73809495669512732697, 36893667231449222181, 20, 36, 73809495669512732697, 36893667368888175645, 36,
  73809495669512732697, 36893667231449222181, 120, 4401269768317, 36, 193789008286845, 110750446169087803429, 20, 36, 73809495669512732697,
  36893667506327129117, 36, 73809495669512732697, 36893667506327129125, 20, 36, 73809495669512732697, 36893666131937594401, 36, 73809495669512732697,
  36893667231449222181, 20, 36, 73809495669512732697, 36893666131937594401, 36, 73809495669512732697, 36893667231449222181, 20, 36,
  73809495669512732697, 36893667506327129117, 36, 73809495669512732697, 36893667506327129125, 20, 16, 12, 36893580232591673453, 36893580232591673381,
  36893597824777718393, 36, 73809495669512732697, 36893667781205036069, 2251815928201253, 2251815928201253, 2251815928201253, 2251815928201253,
  2251815928201253, 2251815928201253, 2251815928201253, 2251815928201253, 2251815928201253, 2251815928201253, 2251815928201253, 2251815928201253,
  2251815928201253, 2251815928201253, 120, 4401269768317, 60, 299342174888061, 110750551728646520893, 104, 120, 110741267301057364077,
  110741267301057364077, 120, 36894036942234072605, 36894035292966630961, 96, 108, 110736763289113002085, 110736763289113002085, 108,
  9903653470116816628504670769, 60, 73823008942296399973, 1209523321677247896158309, 96, 112, 110736763426551955557, 110736763426551955557, 112,
  36894001620423029277, 36894000108594541105, 8, 64, 60, 140, 1209516153758636283273361, 1209516153758636283273361, 604467816707807027136005, 68,
  604468104938183178913285, 140, 9903606649974514544380420661, 136, 604473293084953910904325, 72, 604468393168559330690565, 132, 4,
  604473002778837244855349, 604473002638099756500021, 60, 19816712672765189874588338313, 12, 16, 128, 9903682212738156853419328053, 124, 20, 120, 88,
  56, 52, 0, 9903597131166342134083166257, 4, 604463493252302189429849, 162259509623585547990659129942065, 1814237314060062814117009,
  110732258040218058813, 56, 0, 9903597131166342134083166257, 4, 604463493252302189429849, 162259509623585547990659129942065,
  1814241891617240316379197, 604472140163449303795205, 604464646173669357585925, 604472495947957305083441, 604464360195230458463281,
  9903540541743653171625214981, 12, 604464069765831051118109, 4, 0, 140, 60, 1209516125065780844824077, 162259608151039846582937942237233, 132, 136,
  604473293137867907991069, 604473002778837244855349, 9903529796537765826117518385, 604463493340263119651929, 132, 604463851446664800896005,
  604463851288335126496261, 132, 0, 4, 604463491176424236205105, 77371336071418749829334021, 4, 8, 604463493252302189429849,
  604463493340263119651929, 604463563057958974718981, 0, 4, 604463491176424236205109, 604463563110872971822109, 4, 8, 604463493252302189429849,
  604463493340263119651929, 604463563216288649118725, 88, 100, 110732259414607593565, 110732259414607593565, 100, 9903643951020413842055704113, 60,
  73823008667418493021, 1209522745181311220514909, 88, 104, 110732259552046547037, 110732259552046547037, 104, 36893965748856172081,
  36893964924222451249, 2251822370652221, 2251822370652221, 2251822370652221, 2251822370652221, 2251822370652221, 2251822370652221, 2251822370652221,
  2251822370652221, 2251824518135877, 2251824518135877, 2251833108070501, 2251828813103189, 2251826665619533, 2251826665619533, 96, 104,
  110736763151674048613, 8, 100, 132, 1814311125770971247555173, 1814311125770971247555173, 1814311125225613480178277, 100, 132,
  1814311125770971247555173, 1814311125770971247555173, 1814311125225613480178277, 132, 128, 0, 4, 604463491211608608293941,
  604463563093280785777677, 4, 8, 604463493287486561518689, 604463493375447491740769, 604463563093280785761305, 604472786465317642650173, 0, 4,
  604463491211608608293949, 604463563110872971822109, 4, 8, 604463493287486561518689, 604463493375447491740769, 604463563233880835163141, 120,
  4401269768317, 92, 440079730356349, 110750692474724810845, 2251833108070501, 104, 120, 110741267301057364077, 110741267301057364077, 120,
  36894036942234072605, 36894035842722444869, 2251828813103189, 120, 4401269768317, 44, 228973397153917, 110750481355607375917, 104, 120,
  110741267301057364077, 110741267301057364077, 120, 36894036942234072609, 36894035018088724001]

theorem side6a_linf_run26 : run .linf 2 90 17 side6aEnv [] side6a_linf_26 (side6aPaths26.map fun P => ⟨[P], []⟩) = true := Run.run_one (by decide +kernel)

def side6a_linf_27 : List ℕ := [
  8, 44, 4, 40, 0, 140, 1209368568511863132788369, 136, 604473293049769538815493, 132, 4722445331322474873993, 36, 73813999544018141225, 80,
  4722391288264460866697, 88, 92, 100, 128, 9903682212733653253791957549, 124, 120, 116, 73814002155358257273, 96, 104, 112,
  604471563667512628151813, 20, 24, 73813998856823373849, 1209368557833406203825201, 16, 604464646138484985497093, 12, 604464360160046086374437,
  1209368552802040995121201, 604470698976384172819973, 604470122515631869265413, 604472140128264931706373, 604472495912772932994597,
  9448192189300289318485, 604469834285255717488133, 73814001055846629461, 604463493217117817340997, 1209368568705377179276813,
  1209368548439178856104973, 4, 0, 48, 604466663751118047938053, 88, 100, 80, 110727755814980091997, 92, 96, 104, 20, 24, 604464954670381271488529,
  1814166951560973666025497, 16, 604464646138484985497093, 12, 132, 604464360160046086374445, 604464360160046086374437,
  29723311333803086518876637233, 604470698976384172819973, 604470122515631869265413, 604469834285255717488133, 604470431012343783042645, 80, 100, 76,
  104, 132, 20, 24, 604464954670381271488529, 14173152410065916922929, 16, 604464646138484985497093, 12, 604464360160046086374445,
  1814163504002819868854321, 40, 96, 14173152748578956915209, 36, 84, 92, 604470122515631869265413, 20, 24, 604464954670381271488529,
  14173152410065916922929, 16, 604464646138484985497093, 12, 604464360160046086374437, 1814163504002819868854321, 4722416058062411410057,
  4722391288264460866697, 1814163520294421994149385, 604470698976384172819973, 1814163540014024701782029, 9903643542012485291335233029,
  1209374594715192648859733, 604463493217117817340997, 604463801713692292285997, 12, 604464069748238865073697, 80, 140, 77371410430404995376678485,
  1814163502313970008589837, 44, 88, 16, 20, 24, 73813998856823373849, 132, 136, 140, 4, 0, 40, 1209368568511863132788369, 1209368568705377179276813,
  604463493305078747563089, 604463851341249123583001, 604473293120275721946657, 4722445331322474873993, 1209368557833406203825201,
  604464646208991168628257, 1209368552802040995121201, 73814001055846629461, 88, 16, 20, 24, 604464954670381271488529, 1814166951560973666025497,
  604464646208991168628257, 29723311333803086518876637233, 1209374594715192648859733, 0, 132, 4, 604463491141239864116257,
  77371336066915150201963525, 4, 604463491141239864116269, 604463563093280785777697, 4, 8, 604463493217117817340997, 604463493305078747563089, 132,
  604463563022774602630149, 604463563110872971805721, 80, 92, 110727755540102185045, 110727755540102185045, 92, 9903634431919507455979366949, 44,
  73814001193285582933, 1209374594732784834904149, 80, 96, 110727755677541138517, 110727755677541138517, 96, 36893930152167221797,
  36893929464972454433, 44, 20, 24, 73813998856823373849, 4722382826285459049521, 24, 9448191855048754465925, 36893615829280623749, 72, 76,
  36893844527699207813, 14172576179249880245893, 76, 604468748777028533102129, 1209374018201663787171917, 132, 0, 4, 604463491106055492027425,
  77371336066915150201963525, 4, 8, 604463493217117817340997, 604463493287486561518665, 604463563022774602630149, 0, 4, 604463491106055492027437,
  604463563093280785777697, 4, 8, 604463493217117817340997, 604463493287486561518665, 604463563110872971805721, 8, 44, 4, 40, 0, 140,
  1209368568511863132788369, 136, 604473293049769538815493, 132, 604473002708468500677677, 36, 73813999544018141225, 72, 4722391288264444089481, 80,
  128, 9903682212733653253791957549, 124, 120, 116, 73814002155358257273, 84, 112, 604471563667512628151813, 20, 24, 73813998856823373849,
  1209368557833406203825201, 16, 604464646138484985497093, 12, 604464360160046086374437, 1209368552802040995121201, 604469257824503413933573,
  604472140128264931706373, 604472495912772932994597, 73814000780968722509, 604463493217117817340997, 1209368568705377179276813,
  1209368548439178856104973, 4, 48, 604466663751118047938053, 52, 0, 56, 604467260513390485706769, 72, 40, 68, 64, 60, 132, 136, 76, 80,
  14172576199865723267081, 36, 140, 20, 24, 604464954670381271488529, 604465004315530288830509, 16, 604464646138484985497093, 12,
  604464360160046086374445, 1814089717026525013870641, 604473293049769538815493, 4722391288264444089481, 4722411554462767261321,
  604473002708468500677677, 76, 80, 14172576199865723267081, 36, 20, 24, 604464954670381271488529, 604465004174792800475181, 16,
  604464646138484985497093, 12, 604464360160046086374437, 1814089717026525013870641, 4722391288264444089481, 4722411554462767261321,
  604467816672622655047173, 604468104902998806824453, 1814089748534130219426829, 604466445185819033142833, 80, 40, 76, 84, 136, 140, 20, 24,
  604464954670381271488529, 132, 604465004315530288830509, 604465004174792800475181, 16, 604464646138484985497093, 12, 132, 604464360160046086374445,
  604464360160046086374437, 29722102407983471887554447409, 604473293049769538815493, 132, 604473002708468500677677, 140,
  9903691651130054317388863505, 128, 9903682212733653253791957549, 124, 120, 116, 604471872199408914143249, 112, 604471563667512628151813, 20, 24,
  604464954670381271488529, 604465004174792800475181, 16, 604464646138484985497093, 12, 604464360160046086374437, 29722102407983471887554447409,
  604472140128264931706373, 604472495912772932994597, 604469257824503413933573, 19814383914218362416228476465, 604466445168219489572365,
  1209374018219255973216333, 604463493217117817340997, 9903586541866049096702040613, 604463801924798524818981, 12, 604464069748238865073697, 44, 16,
  20, 24, 73813998856823373849, 132, 4, 136, 140, 40, 0, 1209368568511863132788369, 604463493287486561518665, 1209368568705377179276813,
  604473293120275721946657, 604473002708468500677677, 604463851464256986940421, 1209368557833406203825201, 604464646208991168628257,
  1209368552802040995121201, 48, 604466663821624231069217, 72, 4, 76, 16, 20, 24, 604464954670381271488529, 132, 604465004315530288830509,
  604465004174792800475181, 604464646208991168628257, 1814089717026525013870641, 14172576178012929664649, 4722373836815888024589, 16, 20, 24,
  604464954670381271488529, 132, 604465004315530288830509, 604465004174792800475181, 604464646208991168628257, 29722102407983471887554447409, 0, 132,
  4, 604463491106055492027425, 77371336066915150201963525, 4, 604463491106055492027437, 604463563093280785777697, 4, 8, 604463493217117817340997,
  604463493287486561518665, 132, 604463563022774602630149, 604463563233880835163141, 72, 84, 110723251665596776525, 110723251665596776525, 84,
  9903624912823104669530400293, 44, 73814000918407675981, 1209374018236848159260749]

theorem side6a_linf_run27 : run .linf 2 90 17 side6aEnv [] side6a_linf_27 (side6aPaths27.map fun P => ⟨[P], []⟩) = true := Run.run_one (by decide +kernel)

def side6a_linf_28 : List ℕ := [
  72, 88, 110723251803035729997, 110723251803035729997, 88, 36893896479623620129, 36893894280600364577, 120, 4401269768317, 52, 264157786020989,
  110750516542126948405, 104, 120, 110741267301057364077, 110741267301057364077, 120, 36894037079673026085, 36894035292966630953, 96, 108,
  110736763289113002085, 110736763289113002085, 108, 9903653470116816628504670761, 52, 73818505342668898405, 1209449534700953041174629, 96, 112,
  110736763426551955557, 110736763426551955557, 112, 36894000658350354985, 36894000108594541097, 8, 52, 132, 88, 20, 24, 73818502456450875417,
  110732256802193145881, 24, 73818502457525207065, 604465004227569358619685, 20, 24, 73818502456450875417, 9448768317313961033753, 24,
  9448768314425712053341, 604465004227569358619685, 20, 24, 73818502456450875417, 88, 110732256802193145881, 9448768317313961033753, 24, 88,
  73818502457525207065, 9448768314425712053341, 604465004209839733621765, 88, 132, 20, 24, 1814237295658636211653689, 14173728870818237123641, 24,
  14173728872333095403545, 604465004227569358619685, 20, 24, 1814237295658636211653689, 14173728870818237123641, 24, 14173728872333095403545,
  604465004209839733621765, 20, 24, 1209448957870764830687257, 1814241314998020824563737, 132, 24, 1209448957870902344548377,
  604465004227569358619685, 24, 1209448957870902344548377, 604465004209839733621765, 132, 88, 52, 20, 24, 73818502456450875417,
  110732256802193145881, 24, 73818502457525207065, 604465004227569358619685, 20, 24, 1814237295658636211653689, 14173728870818237123641, 24,
  14173728872333095403545, 604465004227569358619685, 52, 20, 24, 73818502456450875417, 9448768317313961033753, 24, 9448768314425712053341,
  604465004227569358619685, 20, 24, 1209448957870764830687257, 1814241314998020824563737, 24, 1209448957870902344548377, 604465004227569358619685,
  52, 20, 24, 73818502456450875417, 88, 110732256802193145881, 9448768317313961033753, 24, 88, 73818502457525207065, 9448768314425712053341,
  604465004209839733621765, 88, 20, 24, 1814237295658636211653689, 14173728870818237123641, 24, 14173728872333095403545, 604465004209839733621765,
  20, 24, 1209448957870764830687257, 1814241314998020824563737, 24, 1209448957870902344548377, 604465004209839733621765, 132, 0, 4,
  604463491176424236205097, 77371336071418749829334021, 4, 8, 604463493252302189429849, 604463493340263119651929, 604463563057958974718981, 0, 4,
  604463491176424236205109, 604463563075688599733285, 4, 8, 604463493252302189429849, 604463493340263119651929, 604463563216288649118725, 88, 100,
  110732259414607593565, 110732259414607593565, 100, 9903643951020413842055704105, 52, 73818505067790991453, 1209448958205016365531229, 88, 104,
  110732259552046547037, 110732259552046547037, 104, 36893965473978265129, 36893964924222451241, 108, 88, 36893982377895800325, 36893982378969542289,
  88, 36893983614846381573, 36893983615920123537, 132, 0, 4, 604463491141239864116265, 77371336071418749829334021, 4, 8, 604463493252302189429841,
  604463493322670933607505, 604463563057958974718981, 0, 4, 604463491141239864116277, 604463563075688599733285, 4, 8, 604463493252302189429841,
  604463493322670933607505, 604463563216288649118725, 8, 52, 140, 56, 1209442362278741800918161, 1209442362859283940383889, 136,
  604473293085091349874229, 56, 1209442362278741800918161, 19815503673160850748241496205, 56, 604467240247054723581445, 140,
  9903592482010374806964476941, 162260459225298335339854617779241, 12, 604464069730646679029285, 140, 52, 154808619275665435338671709,
  162259608141521326640903813471273, 76, 9903540537708445497685125173, 9903540537708445497685125173, 132, 0, 4, 604463491141239864116265,
  77371336071418749829334021, 4, 8, 604463493252302189429841, 604463493322670933607505, 604463563057958974718981, 0, 4, 604463491141239864116277,
  604463563075688599733285, 4, 8, 604463493252302189429841, 604463493322670933607505, 604463563216288649118725, 116, 96, 36894017563341632137,
  36894017562267890181, 96, 36894018800292213385, 36894018799218471429, 132, 0, 4, 604463491141239864116265, 77371336071418749829334021, 4, 8,
  604463493252302189429841, 604463493322670933607505, 604463563057958974718981, 0, 4, 604463491141239864116277, 604463563075688599733285, 4, 8,
  604463493252302189429841, 604463493322670933607505, 604463563269065207251973, 124, 104, 36894052747713721997, 36894052746639980037, 104,
  36894053984664303245, 36894053983590561285, 80, 96, 110727755677541138517, 110727755677541138517, 96, 36893931938873616933, 36893929739850361385,
  120, 4401269768317, 60, 299342174888061, 110750551728646520893, 104, 120, 110741267301057364077, 110741267301057364077, 120, 36894037079673026085,
  36894035018088724009, 96, 108, 110736763289113002085, 110736763289113002085, 108, 9903653470112313028877300265, 60, 73823008942296399973,
  1209523321677247896158309, 96, 112, 110736763426551955557, 110736763426551955557, 112, 36894000658350354985, 36893999833716634153, 8, 60, 0, 4, 56,
  140, 64, 1209516153758636283273361, 68, 604468104902998806824453, 9903606649970010944753050157, 132, 136, 604473293049769538815493,
  604473002778837244855341, 9903529796537765826117518377, 1209516151471652097498637, 1209516122198254519583757, 4, 604463493217117817341017,
  1209516122198254519583757, 64, 604467816672622655047173, 140, 9903601927315297698947735593, 68, 604468104902998806824453, 136,
  604473293049769538815493, 132, 4, 604473002778837244855341, 604473002620507570455597, 12, 16, 20, 128, 9903682212733653253791957549, 124, 72,
  604468393133374958601733, 120, 0, 4, 9903529796537765826117518377, 9903534522912452364128690217, 4, 604463493217117817341017,
  162259509623584971529906826518569, 604472140128264931706373, 604472495912772932994601, 604464646138484985497093, 604464360160046086374441,
  9903540541739149571997844485, 12, 604464069748238865073701, 4, 0, 140, 60, 1209516125065780844824077, 162259608151039270122185638813737, 132, 136,
  604473293120275721946661, 604473002778837244855341, 9903529796537765826117518377, 604463493340263119651929, 132, 604463851446664800896005,
  604463851253150754407429, 0, 132, 4, 604463491176424236205097, 77371336066915150201963525, 4, 604463491176424236205101, 604463563093280785777701,
  4, 8, 604463493217117817341017, 604463493340263119651929, 132, 604463563022774602630149, 604463563216288649118725, 88, 100, 110732259414607593565,
  110732259414607593565, 100, 9903643951015910242428333609, 60, 73823008667418493021, 1209522745181311220514909, 88, 104, 110732259552046547037,
  110732259552046547037, 104, 36893965473978265129, 36893964649344544297, 2251822370652221, 2251822370652221, 2251822370652221, 2251822370652221,
  2251822370652221, 2251822370652221, 2251822370652221, 2251822370652221, 2251824518135877, 2251824518135877, 2251833108070501, 2251828813103189,
  2251826665619533, 2251826665619533, 96, 8, 100, 132, 1814311125770971247555173, 1814311125770971247555173, 1814311125225613480178277, 4, 0, 132,
  604463491211608608293933, 604463491211608608293949, 604463493375447491740769, 1814311073821245858382861, 132, 128, 0, 4, 604463491211608608293933,
  604463563022912041600013, 4, 8, 604463493287486561518689, 604463493375447491740769, 604463563093280785761305, 604472786465317642650173, 0, 4,
  604463491211608608293949, 604463563093280785777705, 4, 8, 604463493287486561518689, 604463493375447491740769, 604463563233880835163141, 96, 8, 100,
  132, 1814311125770971247555173, 1814311125770971247555173, 1814311125225613480178277, 4, 0, 132, 604463491211608608293933,
  604463491211608608293941, 604463493375447491740769, 1814311073821245858382861, 132, 128, 0, 4, 604463491211608608293933,
  77371336071418749829334021, 4, 8, 604463493252302189429857, 604463493375447491740769, 604463563057958974718981, 604472786430133270561333, 0, 4,
  604463491211608608293941, 604463563058096413688873, 4, 8, 604463493252302189429857, 604463493375447491740769, 604463563233880835163141, 120,
  4401269768317, 84, 404895341489277, 110750657288205238357, 120, 4401269768317, 92, 440079730356349, 110750692474724810845]

theorem side6a_linf_run28 : run .linf 2 90 17 side6aEnv [] side6a_linf_28 (side6aPaths28.map fun P => ⟨[P], []⟩) = true := Run.run_one (by decide +kernel)

def side6a_linf_29 : List ℕ := [
  120, 4401269768317, 92, 440079730356349, 110750692474724810845, 2251833108070501, 40, 24, 36893683999001546265, 36893683999001546281, 20,
  36893684685122571269, 36893684686196313233, 40, 24, 36893683724123639321, 36893683724123639337, 20, 36893684685122571269, 36893684686196313233, 20,
  40, 36893683448171990021, 36893684822561524741, 40, 36893683449245731985, 36893684823635266705, 2251828813103189, 120, 4401269768317, 44,
  228973397153917, 110750481355607375917, 28, 44, 73813999544018141217, 36893702690699218965, 44, 73813999544018141217, 36893702690699218989, 28, 44,
  73813999544018141217, 36893702415821312021, 44, 73813999544018141217, 36893702415821312045, 28, 44, 73813999544018141217, 36893702415821312021, 44,
  73813999544018141217, 36893702415821312045, 28, 44, 73813999544018141217, 36893702278382358549, 44, 73813999544018141217, 36893702140943405101, 28,
  44, 73813999544018141217, 36893702278382358549, 44, 73813999544018141217, 36893702140943405101, 28, 44, 73813999544018141217, 36893702278382358549,
  44, 73813999544018141217, 36893702140943405101, 28, 44, 73813999544018141217, 36893702278382358549, 44, 73813999544018141217, 36893702140943405101,
  28, 44, 73813999544018141217, 36893702278382358549, 44, 73813999544018141217, 36893702140943405101, 28, 44, 73813999544018141217,
  36893702278382358549, 44, 73813999544018141217, 36893702140943405101, 28, 44, 73813999544018141217, 36893702278382358549, 44, 73813999544018141217,
  36893702140943405101, 28, 44, 73813999544018141217, 36893702278382358549, 44, 73813999544018141217, 36893702140943405101, 28, 44,
  73813999544018141217, 36893702690699218965, 44, 73813999544018141217, 36893702140943405101, 28, 44, 73813999544018141217, 36893702690699218965, 44,
  73813999544018141217, 36893702140943405101, 28, 44, 73813999544018141217, 36893702965577125909, 44, 73813999544018141217, 36893702140943405101, 28,
  44, 73813999544018141217, 36893703240455032853, 32, 36893646753045155957, 36893651151091667061, 28, 44, 73813999544018141217, 36893702278382358549,
  44, 73813999544018141217, 36893702140943405101, 28, 44, 73813999544018141217, 36893702278382358549, 44, 73813999544018141217, 36893702140943405101,
  120, 4401269768317, 44, 228973397153917, 110750481355607375917, 28, 44, 73813999544018141217, 36893702278382358549, 44, 73813999544018141217,
  36893702140943405101, 28, 44, 73813999544018141217, 36893702278382358549, 44, 73813999544018141217, 36893702140943405101, 28, 44,
  73813999544018141217, 36893702278382358549, 44, 73813999544018141217, 36893702140943405101, 28, 44, 73813999544018141217, 36893702278382358549, 44,
  73813999544018141217, 36893702140943405101, 28, 44, 73813999544018141217, 36893702278382358549, 44, 73813999544018141217, 36893702140943405101,
  120, 4401269768317, 44, 228973397153917, 110750481355607375917, 28, 44, 73813999544018141217, 36893702415821312021, 44, 73813999544018141217,
  36893702415821312045, 28, 44, 73813999544018141217, 36893702278382358549, 44, 73813999544018141217, 36893702140943405101, 28, 44,
  73813999544018141217, 36893702278382358549, 44, 73813999544018141217, 36893702140943405101, 120, 4401269768317, 44, 228973397153917,
  110750481355607375917, 28, 44, 73813999544018141217, 36893702690699218965, 44, 73813999544018141217, 36893702690699218989, 28, 44,
  73813999544018141217, 36893702415821312021, 44, 73813999544018141217, 36893702415821312045, 28, 44, 73813999544018141217, 36893702415821312021, 44,
  73813999544018141217, 36893702415821312045, 2251818075684909, 2251818075684909, 2251818075684909, 2251818075684909, 2251818075684909,
  2251818075684909, 2251818075684909, 2251818075684909]

theorem side6a_linf_run29 : run .linf 2 90 17 side6aEnv [] side6a_linf_29 (side6aPaths29.map fun P => ⟨[P], []⟩) = true := Run.run_one (by decide +kernel)

def side6a_linf_30 : List ℕ := [
  88, 48, 52, 73818503418523549749, 14173728993963539438137, 52, 73818503419597881397, 110732257765340151861, 48, 52, 73818503418523549749,
  1814241315121166126874677, 52, 9448768437571014367837, 1814241315121303640735797, 52, 8, 56, 9448768455301595667593, 132,
  1209442362824099568295049, 1209442362824099568295049, 12, 604464069836199795295765, 4722376088478220813837, 88, 8, 84, 132, 4722418309862241873033,
  4722418309862241873033, 1814237331493919184137229, 12, 604464069836199795295765, 4722376088615735264781, 48, 1814241315121166126874677,
  1814241315121303640735797, 120, 4401269768317, 52, 264157786020989, 110750516542126948405, 104, 120, 110741267301057364077, 110741267301057364077,
  120, 36894036667356165653, 36894035155527677461, 96, 108, 110736763289113002085, 110736763289113002085, 108, 9903653470114564828690985517, 52,
  73818505342668898405, 1209449534700953041174629, 96, 112, 110736763426551955557, 110736763426551955557, 112, 36894001345545122325,
  36893999971155587605, 120, 4401269768317, 52, 264157786020989, 110750516542126948405, 104, 120, 110741267301057364077, 110741267301057364077, 120,
  36894036942234072597, 36894035155527677461, 96, 108, 110736763289113002085, 110736763289113002085, 108, 9903653470114564828690985517, 52,
  73818505342668898405, 1209449534700953041174629, 96, 112, 110736763426551955557, 110736763426551955557, 112, 36894001482984075797,
  36893999971155587605, 2251820223168565, 2251820223168565, 2251820223168565, 2251820223168565, 2251820223168565, 2251820223168565, 2251820223168565,
  2251820223168565, 120, 4401269768317, 60, 299342174888061, 110750551728646520893, 104, 120, 110741267301057364077, 110741267301057364077, 120,
  36894036942234072597, 36894035292966630933, 96, 108, 110736763289113002085, 110736763289113002085, 108, 9903653470116816628504670769, 60,
  73823008942296399973, 1209523321677247896158309, 96, 112, 110736763426551955557, 110736763426551955557, 112, 36894001482984075797,
  36894000108594541077, 8, 60, 132, 136, 140, 1209516197123374882768397, 604473293084953910904325, 4722445331322508428425, 140, 4, 64,
  1209516153758636283273361, 68, 604468104938183178913285, 9903606649974514544380420661, 0, 1209516122198254519583757, 1209516122198254519583757, 4,
  0, 9903529796537765826117518357, 604463493252302189429849, 0, 1209516122198254519583757, 1209516122198254519583757, 64, 604467816707807027136005,
  140, 9903601927319801298575106097, 132, 4, 136, 604473293084953910904325, 604473002778837244855349, 136, 604473293084953910904325,
  604473002532546640233525, 4, 0, 9903529796537765826117518357, 604463493252302189429849, 12, 88, 56, 0, 9903597131166342134083166257,
  162259509623585547990659129942065, 110732258040218058813, 56, 0, 9903597131166342134083166257, 162259509623585547990659129942065,
  1814241891617240316379197, 9903540541743653171625214981, 132, 4, 136, 140, 12, 604464069801015423206933, 60, 1209516125065780844824077,
  162259608151039846582937942237233, 604473293173052280079893, 604473002778837244855349, 604463851446664800896005, 4, 140, 12,
  604464069801015423206933, 60, 1209516125065780844824077, 162259608151039846582937942237233, 0, 9903529796537765826117518357,
  604463493340263119651929, 604463851288335126496261, 132, 0, 4, 604463491176424236205077, 77371336071418749829334021, 4, 8,
  604463493252302189429849, 604463493340263119651929, 604463563057958974718981, 0, 4, 604463491176424236205109, 604463563146057343910933, 4, 8,
  604463493252302189429849, 604463493340263119651929, 604463563216288649118725, 88, 100, 110732259414607593565, 110732259414607593565, 100,
  9903643951020413842055704113, 60, 73823008667418493021, 1209522745181311220514909, 88, 104, 110732259552046547037, 110732259552046547037, 104,
  36893966161173032469, 36893964924222451221, 2251822370652221, 2251822370652221, 2251822370652221, 2251822370652221, 2251822370652221,
  2251822370652221, 2251822370652221, 2251822370652221, 2251824518135877, 2251824518135877, 2251833108070501, 2251828813103189, 2251826665619533,
  2251826665619533, 120, 4401269768317, 52, 264157786020989, 110750516542126948405, 20, 24, 36893615004646902893, 36893612118428879981, 24,
  36893615004646902809, 36893612118428879897, 36, 52, 73818503418523549737, 36893737600193401877, 52, 73818503418523549737, 36893737050437588021, 36,
  52, 73818503418523549737, 36893737600193401877, 52, 73818503418523549737, 36893737050437588021, 36, 52, 73818503418523549737, 36893737462754448405,
  52, 73818503418523549737, 36893737050437588021, 36, 52, 73818503418523549737, 36893737462754448405, 52, 73818503418523549737, 36893737050437588021,
  36, 52, 73818503418523549737, 36893737462754448405, 52, 73818503418523549737, 36893737050437588021, 20, 24, 36893615416963763321,
  36893612118428879993, 24, 36893615416963763225, 36893612118428879897, 20, 24, 36893615829280623749, 36893612118428880005, 24, 36893615829280623641,
  36893612118428879897]

theorem side6a_linf_run30 : run .linf 2 90 17 side6aEnv [] side6a_linf_30 (side6aPaths30.map fun P => ⟨[P], []⟩) = true := Run.run_one (by decide +kernel)

def side6a_linf_31 : List ℕ := [
  36, 52, 73818503418523549737, 36893737462754448405, 52, 73818503418523549737, 36893737050437588021, 36, 52, 73818503418523549737,
  36893737462754448405, 52, 73818503418523549737, 36893737050437588021, 36, 52, 73818503418523549737, 36893737462754448405, 52, 73818503418523549737,
  36893737050437588021, 36, 52, 73818503418523549737, 36893737875071308821, 52, 73818503418523549737, 36893737050437588021, 36, 52,
  73818503418523549737, 36893737875071308821, 52, 73818503418523549737, 36893737050437588021, 20, 24, 36893615004646902893, 36893612118428879981, 24,
  36893615004646902809, 36893612118428879897, 20, 24, 36893615279524809841, 36893611980989926517, 24, 36893615279524809749, 36893612118428879897,
  120, 4401269768317, 60, 299342174888061, 110750551728646520893, 4, 8, 36893541887123653769, 24, 36893615004646901357, 36893612943062598793, 8,
  36893541887123653641, 24, 36893615004646901357, 36893612941988856837, 4, 24, 36893614729768993937, 36893613217940505729, 24, 36893614728695251973,
  36893612941988856837, 4, 24, 36893614729768993933, 36893612943062598793, 24, 36893614728695251973, 36893612941988856837, 4, 24,
  36893614454891086993, 36893612943062598801, 24, 36893614453817345029, 36893612941988856837, 4, 24, 36893614454891086985, 36893612943062598793, 24,
  36893614453817345029, 36893612941988856837, 4, 24, 36893614454891086993, 36893613217940505729, 24, 36893614453817345029, 36893612941988856837, 4,
  24, 36893614454891086985, 36893612943062598793, 24, 36893614453817345029, 36893612941988856837, 2251822370652221, 2251822370652221,
  2251822370652221, 2251822370652221, 2251822370652221, 2251822370652221, 2251822370652221, 2251822370652221, 2251824518135877, 2251824518135877,
  2251833108070501, 2251828813103189, 2251826665619533, 2251826665619533, 44, 60, 73823007293028958257, 36893772784565491737, 60,
  73823007293028958257, 36893771959931770941, 52, 68, 73827511167534366777, 36893807968937581593, 68, 73827511167534366777, 36893807968937581605,
  120, 4401269768317, 84, 404895341489277, 110750657288205238357, 120, 4401269768317, 92, 440079730356349, 110750692474724810845, 120, 4401269768317,
  92, 440079730356349, 110750692474724810845, 2251833108070501, 52, 68, 73827511167534366777, 36893808243815488541, 68, 73827511167534366777,
  36893808518693395521, 60, 76, 73832015042039775297, 36893843428187578397, 76, 73832015042039775297, 36893842878431764525, 32, 36,
  36893667781205037677, 36893665307303875181, 36, 36893667781205037605, 36893665307303875109, 2251828813103189, 120, 4401269768317, 68,
  334526563755133, 110750586915166093381, 52, 68, 73827511167534366777, 36893808381254442021, 68, 73827511167534366777, 36893808518693395521, 52, 68,
  73827511167534366777, 36893808381254442021, 64, 36893787902850374777, 36893789552117816433, 120, 4401269768317, 68, 334526563755133,
  110750586915166093381, 52, 68, 73827511167534366777, 36893808381254442021, 64, 36893787902850374777, 36893789552117816433, 120, 4401269768317, 68,
  334526563755133, 110750586915166093381, 120, 4401269768317, 68, 334526563755133, 110750586915166093381, 2251824518135877, 76, 140, 128,
  36894124078530577001, 73832017241063030917, 136, 36894122154385229329, 132, 36894104562199184401, 8, 12, 16, 20, 9450497681565293742713,
  36893594388803881577, 604464432516707287058537, 4722376018109526967889, 4, 12, 16, 20, 9450497681565293742713, 36893594388803881577,
  604464432516707287058537, 36893562502966674953, 36893544910780630025, 72, 112, 140, 4722447811958288693877, 116, 110745770763245912181, 0,
  1814458708150218072799861, 1814458708150218072799861, 1814464405537860718755917, 36893843840504440425, 120, 4401269768317, 76, 369710952622205,
  110750622101685665869, 120, 4401269768317, 76, 369710952622205, 110750622101685665869, 2251826665619533, 120, 4401269768317, 84, 404895341489277,
  110750657288205238357, 2251828813103189, 2251830960586845, 2251833108070501, 120, 4401269768317, 76, 369710952622205, 110750622101685665869, 60,
  76, 73832015042039775297, 36893843565626531877, 76, 73832015042039775297, 36893843428187578441, 120, 4401269768317, 84, 404895341489277,
  110750657288205238357, 2251828813103189, 2251830960586845, 2251833108070501, 112, 116, 110745770763245912181, 4722434230790662404725, 84,
  73836519878617858137, 80, 1209745835425795690998317, 36893879299754437217, 2251830960586845, 2251830960586845, 2251833108070501, 2251833108070501,
  120, 4401269768317, 76, 369710952622205, 110750622101685665869]

theorem side6a_linf_run31 : run .linf 2 90 17 side6aEnv [] side6a_linf_31 (side6aPaths31.map fun P => ⟨[P], []⟩) = true := Run.run_one (by decide +kernel)

def side6a_linf_32 : List ℕ := [
  120, 4401269768317, 92, 440079730356349, 110750692474724810845, 120, 4401269768317, 84, 404895341489277, 110750657288205238357, 120, 4401269768317,
  92, 440079730356349, 110750692474724810845, 2251833108070501, 2251833108070501, 120, 4401269768317, 84, 404895341489277, 110750657288205238357,
  2251833108070501, 120, 4401269768317, 92, 440079730356349, 110750692474724810845, 2251833108070501, 112, 288235189738209397, 44, 28,
  73813999544018141217, 73813999544018141217, 36894104148911128693, 28, 44, 73813999544018141217, 36893701866065498153, 44, 73813999544018141217,
  36893702140943405101, 28, 44, 73813999544018141217, 36893701866065498153, 44, 73813999544018141217, 36893702140943405101, 28, 44,
  73813999544018141217, 36893702965577125925, 44, 73813999544018141217, 36893702140943405101, 112, 288235189738209397, 44, 28, 73813999544018141217,
  73813999544018141217, 36894104148911128693, 28, 44, 73813999544018141217, 36893702828138172453, 44, 73813999544018141217, 36893702140943405101,
  112, 288235189738209397, 44, 28, 73813999544018141217, 73813999544018141217, 36894104148911128693, 112, 288235189738209397, 44, 28,
  73813999544018141217, 73813999544018141217, 36894104148911128693, 112, 288235189738209397, 44, 28, 73813999544018141217, 73813999544018141217,
  36894104148911128693, 28, 44, 73813999544018141217, 36893701591187591209, 44, 73813999544018141217, 36893702140943405101, 28, 44,
  73813999544018141217, 36893701591187591209, 44, 73813999544018141217, 36893702140943405101, 28, 44, 73813999544018141217, 36893701591187591209, 44,
  73813999544018141217, 36893702415821312045, 112, 288235189738209397, 44, 28, 73813999544018141217, 73813999544018141217, 36894104148911128693, 112,
  288235189738209397, 44, 28, 73813999544018141217, 73813999544018141217, 36894104148911128693, 112, 288235189738209397, 44, 28,
  73813999544018141217, 73813999544018141217, 36894104148911128693, 28, 44, 73813999544018141217, 36893701591187591209, 44, 73813999544018141217,
  36893702690699218989, 2251818075684909, 2251818075684909, 2251818075684909, 2251818075684909, 112, 288235189738209397, 68, 288235188663746677,
  36894104148961460341, 96, 92, 136, 4722422831054072066189, 4722422831054072066189, 36893928365460828173, 4, 0, 8, 136, 604463781693784573756985,
  604463781693784573756989, 12, 604464065244639237703737, 604464119287697327195653, 36893523745181794829, 8, 36893541337367839757, 136,
  604463853575456751224353, 604463853716056800626181, 2251824518135877, 2251824518135877, 2251830960586845, 4, 0, 12, 8, 136,
  604463781728968945845829, 140, 36894121879507322477, 604463488572780701632525, 604464065279823609792581, 36893562090649813581,
  36893523745181794829, 136, 8, 36893541337367839757, 604463853610641123313185, 0, 604463565556186831996521, 604463565538594645935181, 112,
  288235189738209397, 84, 288235188664008821, 36894104148995014773, 2251830960586845, 112, 288235189738209397, 52, 288235188663484533,
  36894104148927905909, 4, 0, 8, 136, 604463781658600201668141, 604463781658600201668149, 12, 604464065209454865614893, 88,
  1814237289061566444996113, 604464114749050766690353, 36893523745181794829, 8, 36893541337367839757, 136, 604463853540134940182021,
  604463853698464614581765, 4, 0, 8, 136, 604463781623415829579309, 604463781623415829579317, 12, 604464065209454865614893, 120,
  604464132763311837218309, 604464132728127465129477, 36893523745181794829, 8, 36893541337367839757, 136, 604463853540134940182021,
  604463853698464614581765, 8, 4, 136, 604463781623415829579309, 604463781623415829579317, 36893541337367839757, 12, 52, 1209442337702457896863249,
  0, 604464065209454865614893, 604464094693958675925045, 96, 604464119657270673082421, 1209234229574174773, 112, 288235189738209397, 60,
  288235188663615605, 36894104148944683125, 4, 96, 136, 0, 8, 604463781693784573756977, 12, 604464065244639237703729, 1814311076073045672068625,
  36893523745181794829, 0, 8, 604463781693784573756989, 12, 604464065244639237703729, 1814311076073045672068625, 36893523745181794829, 136, 0, 8,
  604463781693784573756977, 12, 604464065244639237703729, 604464119287697327195653, 36893523745181794829, 0, 8, 604463781693784573756989, 12,
  604464065244639237703729, 604464119287697327195653, 36893523745181794829, 8, 36893541337367839757, 136, 604463853522680193091105,
  604463853716056800626181, 4, 0, 8, 136, 604463781658600201668145, 604463781658600201668157, 12, 604464065244639237703729, 120,
  604464132798496209307141, 604464132745719651173893, 36893523745181794829, 8, 36893541337367839757, 136, 604463853522680193091105,
  604463853698464614581765]

theorem side6a_linf_run32 : run .linf 2 90 17 side6aEnv [] side6a_linf_32 (side6aPaths32.map fun P => ⟨[P], []⟩) = true := Run.run_one (by decide +kernel)

def side6a_linf_33 : List ℕ := [
  136, 60, 64, 4722404816518048129165, 1209516154321586236694669, 4, 0, 8, 604463781658600201668145, 12, 604464065244639237703729,
  36893562228088768013, 36893523745181794829, 8, 36893541337367839757, 604463853522680193091105, 60, 132, 36894104287321277453,
  4722445348914694472845, 4, 0, 140, 36894121879507322477, 604463488572780701632525, 36893523745181794829, 8, 36893541337367839757,
  604463853698464614581765, 112, 288235189738209397, 68, 288235188663746677, 36894104148961460341, 96, 8, 4, 136, 604463781693784573756977,
  604463781693784573756981, 36893541337367839757, 12, 0, 604464065209454865614897, 4, 36893523745181794829, 136, 604463853540134940182021,
  604463853716056800626181, 1814311076073045672068625, 8, 4, 136, 604463781693784573756977, 604463781693784573756981, 36893541337367839757, 12, 0,
  604464065209454865614897, 4, 36893523745181794829, 136, 604463853540134940182021, 604463853716056800626181, 604464119252512955106821,
  2251824518135877, 2251824518135877, 2251830960586845, 136, 68, 72, 4722409320117692277901, 1209589945801480719049869, 4, 0, 8,
  604463781728968945845813, 12, 604464065279823609792581, 36893562228088768013, 36893523745181794829, 8, 36893541337367839757,
  604463853610641123313185, 132, 36894104287321277453, 68, 4722445348914711250061, 4, 0, 140, 36894121879507322477, 604463488572780701632525,
  36893523745181794829, 8, 36893541337367839757, 604463853698464614581765, 76, 88, 84, 80, 136, 4722413823717336426637, 4722413823717336426637,
  36893875588902693389, 36893893181088738317, 73832015454356635729, 72, 104, 108, 4722429867928506611309, 4722429568861343856237,
  1814390618561565880418381, 36893843703065486861, 112, 288235189738209397, 76, 48, 576812609991344161, 576812609991344161, 36894104148978237557,
  112, 288235189738209397, 84, 288235188664008821, 36894104148995014773, 112, 288235189738209397, 84, 288235188664008821, 36894104148995014773,
  2251830960586845, 112, 288235189738209397, 52, 36, 73818503418523549737, 73818503418523549737, 36894104148927905909, 36, 52, 73818503418523549737,
  36893737737632355357, 52, 73818503418523549737, 36893737050437588021, 36, 52, 73818503418523549737, 36893737737632355357, 52, 73818503418523549737,
  36893737050437588021, 36, 52, 73818503418523549737, 36893738149949215773, 52, 73818503418523549737, 36893737050437588021, 112, 288235189738209397,
  52, 36, 73818503418523549737, 73818503418523549737, 36894104148927905909, 112, 288235189738209397, 52, 36, 73818503418523549737,
  73818503418523549737, 36894104148927905909, 112, 288235189738209397, 52, 36, 73818503418523549737, 73818503418523549737, 36894104148927905909,
  2251820223168565, 2251820223168565, 112, 288235189738209397, 60, 288235188663615605, 36894104148944683125, 112, 288235189738209397, 60,
  288235188663615605, 36894104148944683125, 2251822370652221, 2251822370652221, 112, 288235189738209397, 68, 288235188663746677,
  36894104148961460341, 4, 0, 8, 136, 604463781693784573756985, 604463781693784573756989, 12, 604464065244639237703737, 96,
  1814311076073045672068625, 604464119287697327195653, 36893523745181794829, 8, 36893541337367839757, 136, 604463853557864565179945,
  604463853716056800626181, 2251824518135877, 2251824518135877, 2251830960586845, 112, 288235189738209397, 60, 44, 73823007293028958257,
  73823007293028958257, 36894104148944683125, 44, 60, 73823007293028958257, 36893772922004445213, 60, 73823007293028958257, 36893771959931770941, 44,
  60, 73823007293028958257, 36893772922004445213, 60, 73823007293028958257, 36893771959931770941, 44, 60, 73823007293028958257, 36893773334321305629,
  60, 73823007293028958257, 36893771959931770941, 112, 288235189738209397, 68, 52, 73827511167534366777, 73827511167534366777, 36894104148961460341,
  52, 68, 73827511167534366777, 36893808106376535069, 68, 73827511167534366777, 36893807968937581605, 2251824518135877, 2251824518135877,
  2251830960586845, 52, 68, 73827511167534366777, 36893808243815488545, 68, 73827511167534366777, 36893808518693395521, 60, 76, 73832015042039775297,
  36893843428187578401, 76, 73832015042039775297, 36893842878431764525, 112, 288235189738209397, 76, 60, 73832015042039775297, 73832015042039775297,
  36894104148978237557, 112, 288235189738209397, 84, 68, 73836518916545183817, 73836518916545183817, 36894104148995014773, 112, 288235189738209397,
  84, 68, 73836518916545183817, 73836518916545183817, 36894104148995014773, 2251830960586845, 52, 68, 73827511167534366777, 36893807968937581593, 68,
  73827511167534366777, 36893808518693395521, 12, 0, 36893559754187604553, 4, 36893523745181794829, 8, 36893541337367839757, 36893559754187605517, 0,
  36893562228088767049, 4, 36893523745181794829, 8, 36893541337367839757, 36893562228088768013]

theorem side6a_linf_run33 : run .linf 2 90 17 side6aEnv [] side6a_linf_33 (side6aPaths33.map fun P => ⟨[P], []⟩) = true := Run.run_one (by decide +kernel)

def side6a_linf_34 : List ℕ := [
  8, 4, 136, 604463781306756480779805, 0, 140, 36894121879507322477, 604463488572780701632525, 36893523745181794829, 36893541337367839757, 12, 68,
  4722375613489231169041, 24, 28, 36893632596832947821, 104, 1814384871739880432995949, 0, 604464065103901749348381, 4, 36893523745181794829, 136,
  604463853434719262869041, 604463853698464614581765, 604464078773030305859121, 36893562228088768013, 112, 288235189738209397, 76, 60,
  73832015042039775297, 73832015042039775297, 36894104148978237557, 112, 288235189738209397, 84, 68, 73836518916545183817, 73836518916545183817,
  36894104148995014773, 112, 288235189738209397, 76, 288235188663877749, 36894104148978237557, 112, 288235189738209397, 84, 68, 73836518916545183817,
  73836518916545183817, 36894104148995014773, 2251830960586845, 112, 288235189738209397, 84, 288235188664008821, 36894104148995014773, 120,
  4401269768317, 52, 264157786020989, 110750516542126948405, 0, 16, 4722377970567140606469, 4722378128896815006213, 16, 36893577896129462797,
  36893578995641090573, 0, 16, 4722377970567140606469, 4722378128896815006213, 16, 36893577896129462797, 36893578995641090573, 0, 16,
  4722377970567140606469, 4722378128896815006213, 16, 36893577896129462797, 36893580095152718345, 120, 4401269768317, 52, 264157786020989,
  110750516542126948405, 0, 16, 4722377970567140606469, 4722378146489001050629, 16, 36893577896129462797, 36893579957713764873, 120, 4401269768317,
  52, 264157786020989, 110750516542126948405, 120, 4401269768317, 52, 264157786020989, 110750516542126948405, 120, 4401269768317, 52,
  264157786020989, 110750516542126948405, 0, 4, 36893523882620748401, 36893527456033538681, 4, 36893523882620748297, 36893527456033538573, 0, 16,
  4722377970567140606469, 4722378128896815006213, 4, 36893523882620748297, 36893527181155631633, 0, 4, 36893523882620748401, 36893527456033538681, 4,
  36893523882620748297, 36893527456033538573, 120, 4401269768317, 52, 264157786020989, 110750516542126948405, 120, 4401269768317, 52,
  264157786020989, 110750516542126948405, 120, 4401269768317, 52, 264157786020989, 110750516542126948405, 0, 4, 36893523882620748401,
  36893527456033538681, 4, 36893523882620748297, 36893527456033538573, 2251820223168565, 2251820223168565, 2251820223168565, 2251820223168565, 120,
  4401269768317, 76, 369710952622205, 110750622101685665869, 16, 0, 36893578445885276713, 36893578445885276689, 0, 4722378128896815006213,
  36893578858202137101, 2251826665619533, 2251826665619533, 2251833108070501, 0, 12, 36893559066992837205, 36893561403455046229, 16,
  36893578720763183633, 36893579957713764873, 120, 4401269768317, 92, 440079730356349, 110750692474724810845, 2251833108070501, 120, 4401269768317,
  60, 299342174888061, 110750551728646520893, 0, 16, 36893577896129462825, 4722378146489001050629, 4, 36893523882620748297, 36893527593472492049, 16,
  0, 36893577896129462825, 36893578171007369741, 0, 4722378128896815006213, 36893578858202137101, 0, 16, 36893577896129462825,
  4722378128896815006213, 4, 36893523882620748297, 36893527593472492049, 120, 4401269768317, 68, 334526563755133, 110750586915166093381, 0, 16,
  36893578033568416297, 4722378128896815006213, 16, 36893578033568416273, 36893578995641090573, 16, 0, 36893578033568416297, 36893578033568416273, 0,
  4722378128896815006213, 36893578995641090573, 0, 16, 36893578033568416297, 4722378128896815006213, 16, 36893578033568416273, 36893580095152718345,
  120, 4401269768317, 76, 369710952622205, 110750622101685665869, 0, 16, 36893578033568416297, 4722378128896815006213, 16, 36893578171007369741,
  36893578858202137101, 2251826665619533, 2251826665619533, 2251833108070501, 0, 16, 36893578720763183657, 4722378146489001050629, 16,
  36893578171007369745, 36893579957713764873, 0, 12, 36893559066992837205, 36893561266016092753, 16, 36893578171007369745, 36893579957713764873, 120,
  4401269768317, 84, 404895341489277, 110750657288205238357, 120, 4401269768317, 92, 440079730356349, 110750692474724810845, 120, 4401269768317, 92,
  440079730356349, 110750692474724810845, 2251833108070501, 120, 4401269768317, 60, 299342174888061, 110750551728646520893, 16, 0,
  36893578171007369773, 36893578171007369741, 0, 4722378128896815006213, 36893578995641090573]

theorem side6a_linf_run34 : run .linf 2 90 17 side6aEnv [] side6a_linf_34 (side6aPaths34.map fun P => ⟨[P], []⟩) = true := Run.run_one (by decide +kernel)

def side6a_linf_35 : List ℕ := [
  16, 0, 36893578171007369773, 36893578171007369741, 0, 4722378128896815006213, 36893578995641090573, 0, 16, 36893578171007369773,
  4722378128896815006213, 16, 36893578171007369741, 36893580095152718345, 120, 4401269768317, 60, 299342174888061, 110750551728646520893, 120,
  4401269768317, 60, 299342174888061, 110750551728646520893, 120, 4401269768317, 60, 299342174888061, 110750551728646520893, 2251822370652221,
  2251822370652221, 120, 4401269768317, 68, 334526563755133, 110750586915166093381, 120, 4401269768317, 68, 334526563755133, 110750586915166093381,
  2251824518135877, 2251824518135877, 120, 4401269768317, 76, 369710952622205, 110750622101685665869, 0, 16, 36893578308446323249,
  4722378128896815006213, 16, 36893578445885276689, 36893578858202137101, 2251826665619533, 2251826665619533, 2251833108070501, 120, 4401269768317,
  68, 334526563755133, 110750586915166093381, 0, 16, 36893578445885276725, 4722378128896815006213, 16, 36893577483812602385, 36893578995641090573, 0,
  16, 36893578445885276725, 4722378128896815006213, 16, 36893577483812602385, 36893578995641090573, 0, 16, 36893578445885276725,
  4722378128896815006213, 16, 36893577483812602385, 36893580095152718345, 120, 4401269768317, 76, 369710952622205, 110750622101685665869, 0, 16,
  4722377935382768517637, 4722378128896815006213, 16, 36893577621251555853, 36893578858202137101, 2251826665619533, 2251826665619533,
  2251833108070501, 0, 16, 36893578720763183677, 4722378146489001050629, 16, 36893577621251555857, 36893579957713764873, 0, 12, 36893559066992837205,
  36893560991138185801, 16, 36893577896129462797, 36893579957713764873, 120, 4401269768317, 84, 404895341489277, 110750657288205238357, 120,
  4401269768317, 92, 440079730356349, 110750692474724810845, 120, 4401269768317, 92, 440079730356349, 110750692474724810845, 2251833108070501, 0, 16,
  36893578720763183677, 4722378146489001050629, 16, 36893577346373648913, 36893579957713764873, 0, 12, 36893559066992837205, 36893560991138185801,
  16, 36893577621251555853, 36893579957713764873, 0, 16, 36893577346373648953, 4722378146489001050629, 16, 36893577346373648913,
  36893579957713764873, 120, 4401269768317, 84, 404895341489277, 110750657288205238357, 120, 4401269768317, 92, 440079730356349,
  110750692474724810845, 120, 4401269768317, 84, 404895341489277, 110750657288205238357, 120, 4401269768317, 92, 440079730356349,
  110750692474724810845, 2251833108070501, 120, 4401269768317, 92, 440079730356349, 110750692474724810845, 120, 4401269768317, 60, 299342174888061,
  110750551728646520893, 0, 16, 36893578171007369773, 4722378146489001050629, 16, 36893578171007369741, 36893579957713764873, 0, 16,
  36893578171007369773, 4722378164081187095045, 16, 36893578171007369741, 36893579957713764873, 120, 4401269768317, 60, 299342174888061,
  110750551728646520893, 0, 16, 36893578171007369773, 4722378199265559183877, 16, 36893578171007369741, 36893579957713764873, 120, 4401269768317, 60,
  299342174888061, 110750551728646520893, 120, 4401269768317, 60, 299342174888061, 110750551728646520893, 2251822370652221, 120, 4401269768317, 84,
  404895341489277, 110750657288205238357, 2251828813103189, 2251830960586845, 2251833108070501, 120, 4401269768317, 76, 369710952622205,
  110750622101685665869, 16, 0, 36893578308446323249, 36893578720763183633, 0, 4722378146489001050629, 36893579957713764873, 120, 4401269768317, 84,
  404895341489277, 110750657288205238357, 2251828813103189, 2251830960586845, 2251833108070501, 120, 4401269768317, 68, 334526563755133,
  110750586915166093381, 0, 16, 36893578445885276725, 4722378146489001050629, 16, 36893578445885276689, 36893579957713764873, 16, 0,
  36893578445885276725, 36893578445885276689, 0, 4722378164081187095045, 36893579957713764873, 120, 4401269768317, 68, 334526563755133,
  110750586915166093381, 0, 16, 36893578445885276725, 4722378199265559183877, 16, 36893578445885276689, 36893579957713764873, 120, 4401269768317, 68,
  334526563755133, 110750586915166093381, 120, 4401269768317, 68, 334526563755133, 110750586915166093381, 2251824518135877, 16, 0,
  36893577071495742009, 36893578583324230161, 0, 4722378128896815006213, 36893579957713764873, 120, 4401269768317, 76, 369710952622205,
  110750622101685665869]

theorem side6a_linf_run35 : run .linf 2 90 17 side6aEnv [] side6a_linf_35 (side6aPaths35.map fun P => ⟨[P], []⟩) = true := Run.run_one (by decide +kernel)

def side6a_linf_36 : List ℕ := [
  120, 4401269768317, 76, 369710952622205, 110750622101685665869, 2251826665619533, 120, 4401269768317, 84, 404895341489277, 110750657288205238357,
  2251828813103189, 2251830960586845, 2251833108070501, 120, 4401269768317, 76, 369710952622205, 110750622101685665869, 0, 16, 36893578720763183677,
  4722378146489001050629, 16, 36893577758690509329, 36893579957713764873, 120, 4401269768317, 84, 404895341489277, 110750657288205238357,
  2251828813103189, 2251830960586845, 2251833108070501, 120, 4401269768317, 84, 404895341489277, 110750657288205238357, 120, 4401269768317, 92,
  440079730356349, 110750692474724810845, 120, 4401269768317, 84, 404895341489277, 110750657288205238357, 120, 4401269768317, 68, 334526563755133,
  110750586915166093381, 120, 4401269768317, 92, 440079730356349, 110750692474724810845, 120, 4401269768317, 84, 404895341489277,
  110750657288205238357, 120, 4401269768317, 92, 440079730356349, 110750692474724810845, 120, 4401269768317, 76, 369710952622205,
  110750622101685665869, 120, 4401269768317, 92, 440079730356349, 110750692474724810845, 120, 4401269768317, 84, 404895341489277,
  110750657288205238357, 120, 4401269768317, 92, 440079730356349, 110750692474724810845, 2251833108070501, 2251833108070501, 2251833108070501, 120,
  4401269768317, 92, 440079730356349, 110750692474724810845, 2251833108070501, 120, 4401269768317, 92, 440079730356349, 110750692474724810845, 120,
  4401269768317, 76, 369710952622205, 110750622101685665869, 2251833108070501, 120, 4401269768317, 92, 440079730356349, 110750692474724810845,
  2251833108070501, 120, 4401269768317, 84, 404895341489277, 110750657288205238357, 2251833108070501, 120, 4401269768317, 92, 440079730356349,
  110750692474724810845, 2251833108070501]

theorem side6a_linf_run36 : run .linf 2 90 17 side6aEnv [] side6a_linf_36 (side6aPaths36.map fun P => ⟨[P], []⟩) = true := Run.run_one (by decide +kernel)

theorem side6a_linf : side6aTab.Refuted .linf 2 90 17 36 :=
  Tab.refuted_one (T := side6aTab) rfl side6a_paths (parts (part side6a_linf_run0) (parts (part side6a_linf_run1) (parts (part side6a_linf_run2) (parts (part side6a_linf_run3) (parts (part side6a_linf_run4) (parts (part side6a_linf_run5) (parts (part side6a_linf_run6) (parts (part side6a_linf_run7) (parts (part side6a_linf_run8) (parts (part side6a_linf_run9) (parts (part side6a_linf_run10) (parts (part side6a_linf_run11) (parts (part side6a_linf_run12) (parts (part side6a_linf_run13) (parts (part side6a_linf_run14) (parts (part side6a_linf_run15) (parts (part side6a_linf_run16) (parts (part side6a_linf_run17) (parts (part side6a_linf_run18) (parts (part side6a_linf_run19) (parts (part side6a_linf_run20) (parts (part side6a_linf_run21) (parts (part side6a_linf_run22) (parts (part side6a_linf_run23) (parts (part side6a_linf_run24) (parts (part side6a_linf_run25) (parts (part side6a_linf_run26) (parts (part side6a_linf_run27) (parts (part side6a_linf_run28) (parts (part side6a_linf_run29) (parts (part side6a_linf_run30) (parts (part side6a_linf_run31) (parts (part side6a_linf_run32) (parts (part side6a_linf_run33) (parts (part side6a_linf_run34) (parts (part side6a_linf_run35) (part side6a_linf_run36)))))))))))))))))))))))))))))))))))))

end MinCert
end Peano
