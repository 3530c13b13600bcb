import Verif.Lemmas.ZooDilRight

set_option autoImplicit false

/-
Property C73: the dilations that the zoo declares.  `IsWD m c D` (file `Spec/ZooDilation.lean`) says that `D` is the supremum of
`|f_p(s) - f_p(t)|^d / |s - t|` over all patterns and all pairs of times.
-/
namespace Peano.Zoo

/-- C73. The dilations declared for the plane curves are right: the exact values exactly, and the bounds of the others. -/
theorem C73_zoo2 : ∀ i ∈ infos2, ∀ e ∈ i.dilation, e.2.RightFor e.1 i.curve := by
  intro i hi
  simp only [infos2, List.mem_cons, List.not_mem_nil, or_false] at hi
  rcases hi with rfl | rfl | rfl | rfl | rfl | rfl | rfl | rfl | rfl | rfl | rfl | rfl
  · exact hilbert_right
  · exact peano_right
  · exact bauman_right
  · exact scepinBauman_right
  · intro e he; simp [peano5Info] at he
  · exact meurthe_right
  · exact coil_right
  · exact serpentine_right
  · exact rCurve_right
  · exact ye_right
  · exact betaOmega_right
  · exact arw_right

/-- C73. The dilations declared for the curves in space are right. -/
theorem C73_zoo3 : ∀ i ∈ infos3, ∀ e ∈ i.dilation, e.2.RightFor e.1 i.curve := by
  intro i hi
  simp only [infos3, List.mem_cons, List.not_mem_nil, or_false] at hi
  rcases hi with rfl | rfl | rfl | rfl | rfl | rfl | rfl | rfl
  · exact haverkortA26_right
  · exact haverkortF_right
  · exact tokarev_right
  · exact neptunus_right
  · exact luna_right
  · exact iupiter_right
  · exact spring_right
  · exact best3dL1_right

/-- C73. The dilation declared for the curve in dimension 4 is right. -/
theorem C73_zoo4 : ∀ i ∈ infos4, ∀ e ∈ i.dilation, e.2.RightFor e.1 i.curve := by
  intro i hi
  simp only [infos4, List.mem_cons, List.not_mem_nil, or_false] at hi
  subst hi
  exact facetGated4d_right

/-- C73. The values in the comments: zoo.py:344 ("calculations show that WD = 1533\sqrt{6}/221") and zoo.py:367 ("WD = 1920/31?"), and the bounds in
the documentation strings, zoo.py:342 and 366. -/
theorem C73_comments : IsWD .l2 spring (1533 * Real.sqrt 6 / 221) ∧ 1533 * Real.sqrt 6 / 221 < 17 ∧
    IsWD .l2 facetGated4d (1920 / 31) ∧ (1920 / 31 : ℝ) < 61.9354839 := by
  have h6 : Real.sqrt 6 ^ 2 = 6 := Real.sq_sqrt (by norm_num)
  refine ⟨?_, ?_, ?_, by norm_num⟩
  · apply wd_sqrt (valid_spring.1) (by positivity)
    have := eq_of (by decide) valid_spring (by norm_num) rfl ZooDil.Spring.cert_l2sq
    have e : (1533 * Real.sqrt 6 / 221) ^ 2 = ((14100534 / 48841 : ℚ) : ℝ) := by rw [div_pow, mul_pow, h6]; norm_num
    rw [e]
    exact this
  · have : Real.sqrt 6 < 2.4505 := by
      rw [Real.sqrt_lt' (by norm_num)]; norm_num
    linarith
  · have := eq_of (by decide) valid_facetGated4d (by norm_num) rfl ZooDil.FacetGated4d.cert_l2
    have e : (1920 / 31 : ℝ) = ((1920 / 31 : ℚ) : ℝ) := by norm_num
    rw [e]
    exact this

/-- C73. Exact dilations of the other curves for which the zoo gives bounds only (all but that of the curve `iupiter` in the metric l2; for l2 the
squares are given). -/
theorem C73_exact : IsWD .l2Squared haverkortA26 (1568 / 3 : ℚ) ∧ IsWD .l1 haverkortF (9604 / 107 : ℚ) ∧
    IsWD .l2Squared haverkortF (2151296 / 6241 : ℚ) ∧ IsWD .l1 tokarev (4032 / 41 : ℚ) ∧ IsWD .l1 neptunus (2401 / 27 : ℚ) ∧
    IsWD .l2Squared neptunus (16807 / 50 : ℚ) ∧ IsWD .l1 luna (378 / 5 : ℚ) ∧ IsWD .l2Squared luna (16807 / 50 : ℚ) ∧
    IsWD .l1 iupiter (58653 / 661 : ℚ) ∧ IsWD .linf iupiter (3584 / 211 : ℚ) ∧ IsWD .l1 spring (175273 / 2113 : ℚ) ∧
    IsWD .l1 best3dL1 (614656 / 6849 : ℚ) :=
  ⟨eq_of (by decide) valid_haverkortA26 (by norm_num) rfl ZooDil.HaverkortA26.cert_l2sq,
    eq_of (by decide) valid_haverkortF (by norm_num) rfl ZooDil.HaverkortF.cert_l1,
    eq_of (by decide) valid_haverkortF (by norm_num) rfl ZooDil.HaverkortF.cert_l2sq,
    eq_of (by decide) valid_tokarev (by norm_num) rfl ZooDil.Tokarev.cert_l1,
    eq_of (by decide) valid_neptunus (by norm_num) rfl ZooDil.Neptunus.cert_l1,
    eq_of (by decide) valid_neptunus (by norm_num) rfl ZooDil.Neptunus.cert_l2sq,
    eq_of (by decide) valid_luna (by norm_num) rfl ZooDil.Luna.cert_l1,
    eq_of (by decide) valid_luna (by norm_num) rfl ZooDil.Luna.cert_l2sq,
    eq_of (by decide) valid_iupiter (by norm_num) rfl ZooDil.Iupiter.cert_l1,
    eq_of (by decide) valid_iupiter (by norm_num) rfl ZooDil.Iupiter.cert_linf,
    eq_of (by decide) valid_spring (by norm_num) rfl ZooDil.Spring.cert_l1,
    eq_of (by decide) valid_best3dL1 (by norm_num) rfl ZooDil.Best3dL1.cert_l1⟩

/-- An instance: the YE curve has dilation 5 43/73. -/
example : IsWD .l2 ye (5 + 43 / 73 : ℚ) := by
  have := C73_zoo2 yeInfo (by simp [infos2]) (.l2, .eq (408 / 73)) (by simp [yeInfo])
  have e : (5 + 43 / 73 : ℚ) = 408 / 73 := by norm_num
  have hc : yeInfo.curve = ye := by simp only [yeInfo]
  rw [hc] at this
  rw [e]
  exact this

end Peano.Zoo
