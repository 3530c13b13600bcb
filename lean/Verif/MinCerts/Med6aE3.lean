import Verif.MinCerts.Med6aTab

set_option autoImplicit false

/-
Median, grid 6, steps to adjacent cells: no curve has less dilation.  This file is generated.
-/
namespace Peano
namespace MinCert

theorem med6a_part21 : med6aEnum.partF 27 med6aTree med6aFront21 = true := by decide +kernel

theorem med6a_part22 : med6aEnum.partF 27 med6aTree med6aFront22 = true := by decide +kernel

theorem med6a_part23 : med6aEnum.partF 27 med6aTree med6aFront23 = true := by decide +kernel

theorem med6a_part24 : med6aEnum.partF 27 med6aTree med6aFront24 = true := by decide +kernel

theorem med6a_part25 : med6aEnum.partF 27 med6aTree med6aFront25 = true := by decide +kernel

theorem med6a_part26 : med6aEnum.partF 27 med6aTree med6aFront26 = true := by decide +kernel

theorem med6a_part27 : med6aEnum.partF 27 med6aTree med6aFront27 = true := by decide +kernel

end MinCert
end Peano
