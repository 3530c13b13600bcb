import Verif.MinCerts.Side6aTab

set_option autoImplicit false

/-
Side, grid 6, steps to adjacent cells: no curve has less dilation.  This file is generated.
-/
namespace Peano
namespace MinCert

theorem side6a_part0 : side6aEnum.partF 27 side6aTree side6aFront0 = true := by decide +kernel

theorem side6a_part1 : side6aEnum.partF 27 side6aTree side6aFront1 = true := by decide +kernel

theorem side6a_part2 : side6aEnum.partF 27 side6aTree side6aFront2 = true := by decide +kernel

theorem side6a_part3 : side6aEnum.partF 27 side6aTree side6aFront3 = true := by decide +kernel

end MinCert
end Peano
