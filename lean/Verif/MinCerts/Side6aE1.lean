import Verif.MinCerts.Side6aTab

set_option autoImplicit false

/-
Side, grid 6, steps to adjacent cells: no curve has less dilation.  This file is generated.
-/
namespace Peano
namespace MinCert

theorem side6a_part4 : side6aEnum.partF 27 side6aTree side6aFront4 = true := by decide +kernel

theorem side6a_part5 : side6aEnum.partF 27 side6aTree side6aFront5 = true := by decide +kernel

theorem side6a_part6 : side6aEnum.partF 27 side6aTree side6aFront6 = true := by decide +kernel

end MinCert
end Peano
