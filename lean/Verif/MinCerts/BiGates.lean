import Verif.Lemmas.BiGates

set_option autoImplicit false
set_option maxRecDepth 100000

/-
The exhaustive checks for the gates of plane curves with two patterns on the grid 2×2.
-/
namespace Peano.BiGates

theorem check1 : fin4 (TF.take 9) (quad (mem6 surv)) = true := by decide +kernel

theorem check2 : fin4 (TF.drop 9) (quad (mem6 surv)) = true := by decide +kernel

end Peano.BiGates
