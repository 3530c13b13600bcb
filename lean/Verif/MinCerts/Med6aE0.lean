import Verif.MinCerts.Med6aTab

set_option autoImplicit false

/-
Median, grid 6, steps to adjacent cells: no curve has less dilation.  This file is generated.
-/
namespace Peano
namespace MinCert

theorem med6a_part0 : med6aEnum.partF 27 med6aTree med6aFront0 = true := by decide +kernel

theorem med6a_part1 : med6aEnum.partF 27 med6aTree med6aFront1 = true := by decide +kernel

theorem med6a_part2 : med6aEnum.partF 27 med6aTree med6aFront2 = true := by decide +kernel

theorem med6a_part3 : med6aEnum.partF 27 med6aTree med6aFront3 = true := by decide +kernel

theorem med6a_part4 : med6aEnum.partF 27 med6aTree med6aFront4 = true := by decide +kernel

theorem med6a_part5 : med6aEnum.partF 27 med6aTree med6aFront5 = true := by decide +kernel

theorem med6a_part6 : med6aEnum.partF 27 med6aTree med6aFront6 = true := by decide +kernel

end MinCert
end Peano
