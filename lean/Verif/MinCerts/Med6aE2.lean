import Verif.MinCerts.Med6aTab

set_option autoImplicit false

/-
Median, grid 6, steps to adjacent cells: no curve has less dilation.  This file is generated.
-/
namespace Peano
namespace MinCert

theorem med6a_part14 : med6aEnum.partF 27 med6aTree med6aFront14 = true := by decide +kernel

theorem med6a_part15 : med6aEnum.partF 27 med6aTree med6aFront15 = true := by decide +kernel

theorem med6a_part16 : med6aEnum.partF 27 med6aTree med6aFront16 = true := by decide +kernel

theorem med6a_part17 : med6aEnum.partF 27 med6aTree med6aFront17 = true := by decide +kernel

theorem med6a_part18 : med6aEnum.partF 27 med6aTree med6aFront18 = true := by decide +kernel

theorem med6a_part19 : med6aEnum.partF 27 med6aTree med6aFront19 = true := by decide +kernel

theorem med6a_part20 : med6aEnum.partF 27 med6aTree med6aFront20 = true := by decide +kernel

end MinCert
end Peano
