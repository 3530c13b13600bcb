import Verif.Lemmas.Results2
import Verif.MinCerts.Bi2a
import Verif.MinCerts.Bi2b
import Verif.MinCerts.Bi2c
import Verif.MinCerts.Dil.Bi

set_option autoImplicit false

/-
Property C78: the table of the least dilations of plane curves with two patterns on the grid 2×2 (results.md).  The vocabulary is in `Spec/Bifractals.lean`;
`IsCandidate N 2 none`, `IsDilation` and `GatesIn` are those of the searches (C53, C74).
-/
namespace Peano
open MinCert

/-- C78. Gates `0, 0` → `0, 1 / 2` and `0, 0` → `1 / 2, 1`. -/
theorem C78_row1 : LeastDilationOf .l1 2 2 (FCurve.GatesIn [[⟨![0, 0], ![0, 1 / 2]⟩, ⟨![0, 0], ![1 / 2, 1]⟩]]) (40 / 3) ∧
    LeastDilationOf .l2 2 2 (FCurve.GatesIn [[⟨![0, 0], ![0, 1 / 2]⟩, ⟨![0, 0], ![1 / 2, 1]⟩]]) (20 / 3) ∧
    LeastDilationOf .linf 2 2 (FCurve.GatesIn [[⟨![0, 0], ![0, 1 / 2]⟩, ⟨![0, 0], ![1 / 2, 1]⟩]]) 5 := by
  have c0 : Best.bi1L1L2.IsCandidate 2 2 none := isCandidate_of (by decide +kernel)
  have g0 : Best.bi1L1L2.GatesIn [[⟨![0, 0], ![0, 1 / 2]⟩, ⟨![0, 0], ![1 / 2, 1]⟩]] := hasGates_two (by decide +kernel)
  have c1 : Best.bi1Linf.IsCandidate 2 2 none := isCandidate_of (by decide +kernel)
  have g1 : Best.bi1Linf.GatesIn [[⟨![0, 0], ![0, 1 / 2]⟩, ⟨![0, 0], ![1 / 2, 1]⟩]] := hasGates_two (by decide +kernel)
  have hF : b1Tab.For ([⟨![0, 0], ![0, 1 / 2]⟩, ⟨![0, 0], ![1 / 2, 1]⟩] : GateTuple 2) := by decide +kernel
  have hU : ∀ m ∈ ([⟨![0, 0], ![0, 1 / 2]⟩, ⟨![0, 0], ![1 / 2, 1]⟩] : GateTuple 2), ∀ j, (0 ≤ m.entrance j ∧ m.entrance j ≤ 1) ∧ (0 ≤ m.exit j ∧ m.exit j ≤ 1) := by decide +kernel
  refine ⟨?_, ?_, ?_⟩
  · have := least_of_two (m := .l1) b1_ok hF hU (by norm_num) b1_l1 (by norm_num) (v := 40 / 3) (by norm_num) c0 g0 BestDil.Bi1L1L2.cert_l1
    push_cast at this
    exact this
  · have := least_of_two (m := .l2) b1_ok hF hU (by norm_num) b1_l2 (by norm_num) (v := 20 / 3) (by norm_num) c0 g0 BestDil.Bi1L1L2.cert_l2
    push_cast at this
    exact this
  · have := least_of_two (m := .linf) b1_ok hF hU (by norm_num) b1_linf (by norm_num) (v := 5) (by norm_num) c1 g1 BestDil.Bi1Linf.cert_linf
    exact_mod_cast this

/-- C78. Gates `0, 0` → `0, 1` and `0, 0` → `0, 1`. -/
theorem C78_row2 : LeastDilationOf .l1 2 2 (FCurve.GatesIn [[⟨![0, 0], ![0, 1]⟩, ⟨![0, 0], ![0, 1]⟩]]) 9 ∧
    LeastDilationOf .l2 2 2 (FCurve.GatesIn [[⟨![0, 0], ![0, 1]⟩, ⟨![0, 0], ![0, 1]⟩]]) 6 ∧
    LeastDilationOf .linf 2 2 (FCurve.GatesIn [[⟨![0, 0], ![0, 1]⟩, ⟨![0, 0], ![0, 1]⟩]]) 6 := by
  have c0 : Best.bi2L1L2Linf.IsCandidate 2 2 none := isCandidate_of (by decide +kernel)
  have g0 : Best.bi2L1L2Linf.GatesIn [[⟨![0, 0], ![0, 1]⟩, ⟨![0, 0], ![0, 1]⟩]] := hasGates_two (by decide +kernel)
  have hF : b2Tab.For ([⟨![0, 0], ![0, 1]⟩, ⟨![0, 0], ![0, 1]⟩] : GateTuple 2) := by decide +kernel
  have hU : ∀ m ∈ ([⟨![0, 0], ![0, 1]⟩, ⟨![0, 0], ![0, 1]⟩] : GateTuple 2), ∀ j, (0 ≤ m.entrance j ∧ m.entrance j ≤ 1) ∧ (0 ≤ m.exit j ∧ m.exit j ≤ 1) := by decide +kernel
  refine ⟨?_, ?_, ?_⟩
  · have := least_of_two (m := .l1) b2_ok hF hU (by norm_num) b2_l1 (by norm_num) (v := 9) (by norm_num) c0 g0 BestDil.Bi2L1L2Linf.cert_l1
    exact_mod_cast this
  · have := least_of_bound (m := .l2) (k := 2) (v := 6) (by norm_num) (by norm_num) c0 g0 BestDil.Bi2L1L2Linf.cert_l2 fun e D he hge hD => by
      have h0 : 0 < e.mult := by rw [he.mult_eq]; omega
      obtain ⟨D', hD', -⟩ := (FCurve.C58_dilation (by decide) .linf (by decide) e he.full h0 he.checked).1
      have h1 := b2_ok.bound_of (S := [⟨![0, 0], ![0, 1]⟩, ⟨![0, 0], ![0, 1]⟩]) (by simp) hF hU (by decide) (by norm_num) b2_linf (by norm_num) he hge hD'
      have h2 := linf_le_l2 he.full h0 he.checked hD' hD
      norm_num at h1 ⊢
      linarith
    exact_mod_cast this
  · have := least_of_two (m := .linf) b2_ok hF hU (by norm_num) b2_linf (by norm_num) (v := 6) (by norm_num) c0 g0 BestDil.Bi2L1L2Linf.cert_linf
    exact_mod_cast this

/-- C78. Gates `0, 0` → `0, 1` and `0, 0` → `1 / 2, 1`. -/
theorem C78_row3 : LeastDilationOf .l1 2 2 (FCurve.GatesIn [[⟨![0, 0], ![0, 1]⟩, ⟨![0, 0], ![1 / 2, 1]⟩]]) 12 ∧
    LeastDilationOf .l2 2 2 (FCurve.GatesIn [[⟨![0, 0], ![0, 1]⟩, ⟨![0, 0], ![1 / 2, 1]⟩]]) 6 ∧
    LeastDilationOf .linf 2 2 (FCurve.GatesIn [[⟨![0, 0], ![0, 1]⟩, ⟨![0, 0], ![1 / 2, 1]⟩]]) 5 := by
  have c0 : Best.bi3L1L2.IsCandidate 2 2 none := isCandidate_of (by decide +kernel)
  have g0 : Best.bi3L1L2.GatesIn [[⟨![0, 0], ![0, 1]⟩, ⟨![0, 0], ![1 / 2, 1]⟩]] := hasGates_two (by decide +kernel)
  have c1 : Best.bi3Linf.IsCandidate 2 2 none := isCandidate_of (by decide +kernel)
  have g1 : Best.bi3Linf.GatesIn [[⟨![0, 0], ![0, 1]⟩, ⟨![0, 0], ![1 / 2, 1]⟩]] := hasGates_two (by decide +kernel)
  have hF : b3Tab.For ([⟨![0, 0], ![0, 1]⟩, ⟨![0, 0], ![1 / 2, 1]⟩] : GateTuple 2) := by decide +kernel
  have hU : ∀ m ∈ ([⟨![0, 0], ![0, 1]⟩, ⟨![0, 0], ![1 / 2, 1]⟩] : GateTuple 2), ∀ j, (0 ≤ m.entrance j ∧ m.entrance j ≤ 1) ∧ (0 ≤ m.exit j ∧ m.exit j ≤ 1) := by decide +kernel
  refine ⟨?_, ?_, ?_⟩
  · have := least_of_two (m := .l1) b3_ok hF hU (by norm_num) b3_l1 (by norm_num) (v := 12) (by norm_num) c0 g0 BestDil.Bi3L1L2.cert_l1
    exact_mod_cast this
  · have := least_of_two (m := .l2) b3_ok hF hU (by norm_num) b3_l2 (by norm_num) (v := 6) (by norm_num) c0 g0 BestDil.Bi3L1L2.cert_l2
    exact_mod_cast this
  · have := least_of_two (m := .linf) b3_ok hF hU (by norm_num) b3_linf (by norm_num) (v := 5) (by norm_num) c1 g1 BestDil.Bi3Linf.cert_linf
    exact_mod_cast this

/-- C78. Gates `0, 0` → `0, 1` and `0, 0` → `2 / 3, 1`. -/
theorem C78_row4 : LeastDilationOf .l1 2 2 (FCurve.GatesIn [[⟨![0, 0], ![0, 1]⟩, ⟨![0, 0], ![2 / 3, 1]⟩]]) 12 ∧
    LeastDilationOf .l2 2 2 (FCurve.GatesIn [[⟨![0, 0], ![0, 1]⟩, ⟨![0, 0], ![2 / 3, 1]⟩]]) 6 ∧
    LeastDilationOf .linf 2 2 (FCurve.GatesIn [[⟨![0, 0], ![0, 1]⟩, ⟨![0, 0], ![2 / 3, 1]⟩]]) (17 / 3) := by
  have c0 : Best.bi4L1L2.IsCandidate 2 2 none := isCandidate_of (by decide +kernel)
  have g0 : Best.bi4L1L2.GatesIn [[⟨![0, 0], ![0, 1]⟩, ⟨![0, 0], ![2 / 3, 1]⟩]] := hasGates_two (by decide +kernel)
  have c1 : Best.bi4Linf.IsCandidate 2 2 none := isCandidate_of (by decide +kernel)
  have g1 : Best.bi4Linf.GatesIn [[⟨![0, 0], ![0, 1]⟩, ⟨![0, 0], ![2 / 3, 1]⟩]] := hasGates_two (by decide +kernel)
  have hF : b4Tab.For ([⟨![0, 0], ![0, 1]⟩, ⟨![0, 0], ![2 / 3, 1]⟩] : GateTuple 2) := by decide +kernel
  have hU : ∀ m ∈ ([⟨![0, 0], ![0, 1]⟩, ⟨![0, 0], ![2 / 3, 1]⟩] : GateTuple 2), ∀ j, (0 ≤ m.entrance j ∧ m.entrance j ≤ 1) ∧ (0 ≤ m.exit j ∧ m.exit j ≤ 1) := by decide +kernel
  refine ⟨?_, ?_, ?_⟩
  · have := least_of_two (m := .l1) b4_ok hF hU (by norm_num) b4_l1 (by norm_num) (v := 12) (by norm_num) c0 g0 BestDil.Bi4L1L2.cert_l1
    exact_mod_cast this
  · have := least_of_two (m := .l2) b4_ok hF hU (by norm_num) b4_l2 (by norm_num) (v := 6) (by norm_num) c0 g0 BestDil.Bi4L1L2.cert_l2
    exact_mod_cast this
  · have := least_of_two (m := .linf) b4_ok hF hU (by norm_num) b4_linf (by norm_num) (v := 17 / 3) (by norm_num) c1 g1 BestDil.Bi4Linf.cert_linf
    push_cast at this
    exact this

/-- C78. Gates `0, 0` → `0, 1` and `0, 0` → `1, 1`. -/
theorem C78_row5 : LeastDilationOf .l1 2 2 (FCurve.GatesIn [[⟨![0, 0], ![0, 1]⟩, ⟨![0, 0], ![1, 1]⟩]]) 12 ∧
    LeastDilationOf .l2 2 2 (FCurve.GatesIn [[⟨![0, 0], ![0, 1]⟩, ⟨![0, 0], ![1, 1]⟩]]) 6 ∧
    LeastDilationOf .linf 2 2 (FCurve.GatesIn [[⟨![0, 0], ![0, 1]⟩, ⟨![0, 0], ![1, 1]⟩]]) (36 / 7) := by
  have c0 : Best.bi5L1L2.IsCandidate 2 2 none := isCandidate_of (by decide +kernel)
  have g0 : Best.bi5L1L2.GatesIn [[⟨![0, 0], ![0, 1]⟩, ⟨![0, 0], ![1, 1]⟩]] := hasGates_two (by decide +kernel)
  have c1 : Best.bi5Linf.IsCandidate 2 2 none := isCandidate_of (by decide +kernel)
  have g1 : Best.bi5Linf.GatesIn [[⟨![0, 0], ![0, 1]⟩, ⟨![0, 0], ![1, 1]⟩]] := hasGates_two (by decide +kernel)
  have hF : b5Tab.For ([⟨![0, 0], ![0, 1]⟩, ⟨![0, 0], ![1, 1]⟩] : GateTuple 2) := by decide +kernel
  have hU : ∀ m ∈ ([⟨![0, 0], ![0, 1]⟩, ⟨![0, 0], ![1, 1]⟩] : GateTuple 2), ∀ j, (0 ≤ m.entrance j ∧ m.entrance j ≤ 1) ∧ (0 ≤ m.exit j ∧ m.exit j ≤ 1) := by decide +kernel
  refine ⟨?_, ?_, ?_⟩
  · have := least_of_two (m := .l1) b5_ok hF hU (by norm_num) b5_l1 (by norm_num) (v := 12) (by norm_num) c0 g0 BestDil.Bi5L1L2.cert_l1
    exact_mod_cast this
  · have := least_of_two (m := .l2) b5_ok hF hU (by norm_num) b5_l2 (by norm_num) (v := 6) (by norm_num) c0 g0 BestDil.Bi5L1L2.cert_l2
    exact_mod_cast this
  · have := least_of_two (m := .linf) b5_ok hF hU (by norm_num) b5_linf (by norm_num) (v := 36 / 7) (by norm_num) c1 g1 BestDil.Bi5Linf.cert_linf
    push_cast at this
    exact this

/-- C78. Gates `0, 0` → `0, 1` and `0, 1 / 2` → `0, 1 / 2`. -/
theorem C78_row6 : LeastDilationOf .l1 2 2 (FCurve.GatesIn [[⟨![0, 0], ![0, 1]⟩, ⟨![0, 1 / 2], ![0, 1 / 2]⟩]]) 9 ∧
    LeastDilationOf .l2 2 2 (FCurve.GatesIn [[⟨![0, 0], ![0, 1]⟩, ⟨![0, 1 / 2], ![0, 1 / 2]⟩]]) 6 ∧
    LeastDilationOf .linf 2 2 (FCurve.GatesIn [[⟨![0, 0], ![0, 1]⟩, ⟨![0, 1 / 2], ![0, 1 / 2]⟩]]) 6 := by
  have c0 : Best.bi6L1L2Linf.IsCandidate 2 2 none := isCandidate_of (by decide +kernel)
  have g0 : Best.bi6L1L2Linf.GatesIn [[⟨![0, 0], ![0, 1]⟩, ⟨![0, 1 / 2], ![0, 1 / 2]⟩]] := hasGates_two (by decide +kernel)
  have hF : b6Tab.For ([⟨![0, 0], ![0, 1]⟩, ⟨![0, 1 / 2], ![0, 1 / 2]⟩] : GateTuple 2) := by decide +kernel
  have hU : ∀ m ∈ ([⟨![0, 0], ![0, 1]⟩, ⟨![0, 1 / 2], ![0, 1 / 2]⟩] : GateTuple 2), ∀ j, (0 ≤ m.entrance j ∧ m.entrance j ≤ 1) ∧ (0 ≤ m.exit j ∧ m.exit j ≤ 1) := by decide +kernel
  refine ⟨?_, ?_, ?_⟩
  · have := least_of_two (m := .l1) b6_ok hF hU (by norm_num) b6_l1 (by norm_num) (v := 9) (by norm_num) c0 g0 BestDil.Bi6L1L2Linf.cert_l1
    exact_mod_cast this
  · have := least_of_two (m := .l2) b6_ok hF hU (by norm_num) b6_l2 (by norm_num) (v := 6) (by norm_num) c0 g0 BestDil.Bi6L1L2Linf.cert_l2
    exact_mod_cast this
  · have := least_of_two (m := .linf) b6_ok hF hU (by norm_num) b6_linf (by norm_num) (v := 6) (by norm_num) c0 g0 BestDil.Bi6L1L2Linf.cert_linf
    exact_mod_cast this

/-- C78. Gates `0, 0` → `0, 1` and `0, 1 / 2` → `1 / 2, 0`. -/
theorem C78_row7 : LeastDilationOf .l1 2 2 (FCurve.GatesIn [[⟨![0, 0], ![0, 1]⟩, ⟨![0, 1 / 2], ![1 / 2, 0]⟩]]) 9 ∧
    LeastDilationOf .l2 2 2 (FCurve.GatesIn [[⟨![0, 0], ![0, 1]⟩, ⟨![0, 1 / 2], ![1 / 2, 0]⟩]]) 6 ∧
    LeastDilationOf .linf 2 2 (FCurve.GatesIn [[⟨![0, 0], ![0, 1]⟩, ⟨![0, 1 / 2], ![1 / 2, 0]⟩]]) 6 := by
  have c0 : Best.bi7L1L2Linf.IsCandidate 2 2 none := isCandidate_of (by decide +kernel)
  have g0 : Best.bi7L1L2Linf.GatesIn [[⟨![0, 0], ![0, 1]⟩, ⟨![0, 1 / 2], ![1 / 2, 0]⟩]] := hasGates_two (by decide +kernel)
  have hF : b7Tab.For ([⟨![0, 0], ![0, 1]⟩, ⟨![0, 1 / 2], ![1 / 2, 0]⟩] : GateTuple 2) := by decide +kernel
  have hU : ∀ m ∈ ([⟨![0, 0], ![0, 1]⟩, ⟨![0, 1 / 2], ![1 / 2, 0]⟩] : GateTuple 2), ∀ j, (0 ≤ m.entrance j ∧ m.entrance j ≤ 1) ∧ (0 ≤ m.exit j ∧ m.exit j ≤ 1) := by decide +kernel
  refine ⟨?_, ?_, ?_⟩
  · have := least_of_two (m := .l1) b7_ok hF hU (by norm_num) b7_l1 (by norm_num) (v := 9) (by norm_num) c0 g0 BestDil.Bi7L1L2Linf.cert_l1
    exact_mod_cast this
  · have := least_of_two (m := .l2) b7_ok hF hU (by norm_num) b7_l2 (by norm_num) (v := 6) (by norm_num) c0 g0 BestDil.Bi7L1L2Linf.cert_l2
    exact_mod_cast this
  · have := least_of_two (m := .linf) b7_ok hF hU (by norm_num) b7_linf (by norm_num) (v := 6) (by norm_num) c0 g0 BestDil.Bi7L1L2Linf.cert_linf
    exact_mod_cast this

/-- C78. Gates `0, 0` → `0, 1` and `0, 1 / 2` → `1, 1 / 2`. -/
theorem C78_row8 : LeastDilationOf .l1 2 2 (FCurve.GatesIn [[⟨![0, 0], ![0, 1]⟩, ⟨![0, 1 / 2], ![1, 1 / 2]⟩]]) 9 ∧
    LeastDilationOf .l2 2 2 (FCurve.GatesIn [[⟨![0, 0], ![0, 1]⟩, ⟨![0, 1 / 2], ![1, 1 / 2]⟩]]) 6 ∧
    LeastDilationOf .linf 2 2 (FCurve.GatesIn [[⟨![0, 0], ![0, 1]⟩, ⟨![0, 1 / 2], ![1, 1 / 2]⟩]]) 6 := by
  have c0 : Best.bi8L1L2Linf.IsCandidate 2 2 none := isCandidate_of (by decide +kernel)
  have g0 : Best.bi8L1L2Linf.GatesIn [[⟨![0, 0], ![0, 1]⟩, ⟨![0, 1 / 2], ![1, 1 / 2]⟩]] := hasGates_two (by decide +kernel)
  have hF : b8Tab.For ([⟨![0, 0], ![0, 1]⟩, ⟨![0, 1 / 2], ![1, 1 / 2]⟩] : GateTuple 2) := by decide +kernel
  have hU : ∀ m ∈ ([⟨![0, 0], ![0, 1]⟩, ⟨![0, 1 / 2], ![1, 1 / 2]⟩] : GateTuple 2), ∀ j, (0 ≤ m.entrance j ∧ m.entrance j ≤ 1) ∧ (0 ≤ m.exit j ∧ m.exit j ≤ 1) := by decide +kernel
  refine ⟨?_, ?_, ?_⟩
  · have := least_of_two (m := .l1) b8_ok hF hU (by norm_num) b8_l1 (by norm_num) (v := 9) (by norm_num) c0 g0 BestDil.Bi8L1L2Linf.cert_l1
    exact_mod_cast this
  · have := least_of_two (m := .l2) b8_ok hF hU (by norm_num) b8_l2 (by norm_num) (v := 6) (by norm_num) c0 g0 BestDil.Bi8L1L2Linf.cert_l2
    exact_mod_cast this
  · have := least_of_two (m := .linf) b8_ok hF hU (by norm_num) b8_linf (by norm_num) (v := 6) (by norm_num) c0 g0 BestDil.Bi8L1L2Linf.cert_linf
    exact_mod_cast this

/-- C78. Gates `0, 1 / 3` → `1 / 3, 1` and `0, 1 / 3` → `1, 1 / 3`. -/
theorem C78_row9 : LeastDilationOf .l1 2 2 (FCurve.GatesIn [[⟨![0, 1 / 3], ![1 / 3, 1]⟩, ⟨![0, 1 / 3], ![1, 1 / 3]⟩]]) 9 ∧
    LeastDilationOf .l2 2 2 (FCurve.GatesIn [[⟨![0, 1 / 3], ![1 / 3, 1]⟩, ⟨![0, 1 / 3], ![1, 1 / 3]⟩]]) 5 ∧
    LeastDilationOf .linf 2 2 (FCurve.GatesIn [[⟨![0, 1 / 3], ![1 / 3, 1]⟩, ⟨![0, 1 / 3], ![1, 1 / 3]⟩]]) 5 := by
  have c0 : Best.bi9L1L2Linf.IsCandidate 2 2 none := isCandidate_of (by decide +kernel)
  have g0 : Best.bi9L1L2Linf.GatesIn [[⟨![0, 1 / 3], ![1 / 3, 1]⟩, ⟨![0, 1 / 3], ![1, 1 / 3]⟩]] := hasGates_two (by decide +kernel)
  have hF : b9Tab.For ([⟨![0, 1 / 3], ![1 / 3, 1]⟩, ⟨![0, 1 / 3], ![1, 1 / 3]⟩] : GateTuple 2) := by decide +kernel
  have hU : ∀ m ∈ ([⟨![0, 1 / 3], ![1 / 3, 1]⟩, ⟨![0, 1 / 3], ![1, 1 / 3]⟩] : GateTuple 2), ∀ j, (0 ≤ m.entrance j ∧ m.entrance j ≤ 1) ∧ (0 ≤ m.exit j ∧ m.exit j ≤ 1) := by decide +kernel
  refine ⟨?_, ?_, ?_⟩
  · have := least_of_two (m := .l1) b9_ok hF hU (by norm_num) b9_l1 (by norm_num) (v := 9) (by norm_num) c0 g0 BestDil.Bi9L1L2Linf.cert_l1
    exact_mod_cast this
  · have := least_of_two (m := .l2) b9_ok hF hU (by norm_num) b9_l2 (by norm_num) (v := 5) (by norm_num) c0 g0 BestDil.Bi9L1L2Linf.cert_l2
    exact_mod_cast this
  · have := least_of_two (m := .linf) b9_ok hF hU (by norm_num) b9_linf (by norm_num) (v := 5) (by norm_num) c0 g0 BestDil.Bi9L1L2Linf.cert_linf
    exact_mod_cast this

/-- C78. The table of `results.md` for curves with two patterns on the grid 2×2. -/
theorem C78_table : ∀ w ∈ bifractalTable2, w.Right 2 := by
  simp only [bifractalTable2, List.forall_mem_cons, List.not_mem_nil, false_imp_iff, implies_true, and_true]
  refine ⟨?_, ?_, ?_, ?_, ?_, ?_, ?_, ?_, ?_⟩
  · exact ⟨⟨_, C78_row1.1, by norm_num [CutTo]⟩, ⟨_, C78_row1.2.1, by norm_num [CutTo]⟩, ⟨_, C78_row1.2.2, by norm_num [CutTo]⟩⟩
  · exact ⟨⟨_, C78_row2.1, by norm_num [CutTo]⟩, ⟨_, C78_row2.2.1, by norm_num [CutTo]⟩, ⟨_, C78_row2.2.2, by norm_num [CutTo]⟩⟩
  · exact ⟨⟨_, C78_row3.1, by norm_num [CutTo]⟩, ⟨_, C78_row3.2.1, by norm_num [CutTo]⟩, ⟨_, C78_row3.2.2, by norm_num [CutTo]⟩⟩
  · exact ⟨⟨_, C78_row4.1, by norm_num [CutTo]⟩, ⟨_, C78_row4.2.1, by norm_num [CutTo]⟩, ⟨_, C78_row4.2.2, by norm_num [CutTo]⟩⟩
  · exact ⟨⟨_, C78_row5.1, by norm_num [CutTo]⟩, ⟨_, C78_row5.2.1, by norm_num [CutTo]⟩, ⟨_, C78_row5.2.2, by norm_num [CutTo]⟩⟩
  · exact ⟨⟨_, C78_row6.1, by norm_num [CutTo]⟩, ⟨_, C78_row6.2.1, by norm_num [CutTo]⟩, ⟨_, C78_row6.2.2, by norm_num [CutTo]⟩⟩
  · exact ⟨⟨_, C78_row7.1, by norm_num [CutTo]⟩, ⟨_, C78_row7.2.1, by norm_num [CutTo]⟩, ⟨_, C78_row7.2.2, by norm_num [CutTo]⟩⟩
  · exact ⟨⟨_, C78_row8.1, by norm_num [CutTo]⟩, ⟨_, C78_row8.2.1, by norm_num [CutTo]⟩, ⟨_, C78_row8.2.2, by norm_num [CutTo]⟩⟩
  · exact ⟨⟨_, C78_row9.1, by norm_num [CutTo]⟩, ⟨_, C78_row9.2.1, by norm_num [CutTo]⟩, ⟨_, C78_row9.2.2, by norm_num [CutTo]⟩⟩

end Peano
