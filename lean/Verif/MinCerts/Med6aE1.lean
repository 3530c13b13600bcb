import Verif.MinCerts.Med6aTab

set_option autoImplicit false

/-
Median, grid 6, steps to adjacent cells: no curve has less dilation.  This file is generated.
-/
namespace Peano
namespace MinCert

theorem med6a_part7 : med6aEnum.partF 27 med6aTree med6aFront7 = true := by decide +kernel

theorem med6a_part8 : med6aEnum.partF 27 med6aTree med6aFront8 = true := by decide +kernel

theorem med6a_part9 : med6aEnum.partF 27 med6aTree med6aFront9 = true := by decide +kernel

theorem med6a_part10 : med6aEnum.partF 27 med6aTree med6aFront10 = true := by decide +kernel

theorem med6a_part11 : med6aEnum.partF 27 med6aTree med6aFront11 = true := by decide +kernel

theorem med6a_part12 : med6aEnum.partF 27 med6aTree med6aFront12 = true := by decide +kernel

theorem med6a_part13 : med6aEnum.partF 27 med6aTree med6aFront13 = true := by decide +kernel

end MinCert
end Peano
