import Verif.Lemmas.DilCheck
import Verif.Spec.ZooDilation

set_option autoImplicit false

/-
From certificates to dilations.
-/
namespace Peano.Zoo
open DilCert
variable {d : ℕ}

/-- The ratio function for the metric. -/
def Metric.ratio : Metric → Ratio
  | .l1 => .l1
  | .linf => .linf
  | _ => .l2sq

/-- The value of the ratio function for a dilation. -/
def Metric.sq (m : Metric) (q : ℚ) : ℚ := match m with
  | .l2 => q ^ 2
  | _ => q

/-- The bound of the ratio function. -/
def bnd (k : DilCert.Kind) (vn vd : ℕ) : ℚ := match k with
  | .plane => (vn / vd) ^ 2
  | _ => vn / vd

theorem bnd_eq (k : DilCert.Kind) (vn vd : ℕ) : k.ratio.bound (k.w vn vd) = (bnd k vn vd : ℚ) := by
  cases k <;> simp only [DilCert.Kind.ratio, Ratio.bound, DilCert.Kind.w, bnd] <;> push_cast <;> first | rfl | skip
  exact Real.sq_sqrt (by positivity)

/-- There is a certificate that the dilation is between `lo` and `up`. -/
def Cert (m : Metric) (c : FCurve d) (lo up : ℚ) : Prop :=
  ∃ (k : DilCert.Kind) (N G vn vd : ℕ) (prow : List (List (List ℤ × Spec d))) (core : List (Ent d)) (p : ℕ) (P Q : Pt),
    k.Dim d ∧ 0 < vd ∧ k.ratio = m.ratio ∧ bnd k vn vd ≤ m.sq up ∧ c.div = N ∧ c.genus = G ∧ Rows c prow ∧ formB c.mult core = true ∧
      autosB k N vn vd prow core = true ∧ closedB k N G vn vd prow core core = true ∧ lowB m.ratio c p P Q (m.sq lo)

theorem Cert.weaken {m : Metric} {c : FCurve d} {a b : ℚ} (h : Cert m c a b) (m' : Metric) (lo up : ℚ) (hm : m'.ratio = m.ratio) (hl : m'.sq lo ≤ m.sq a)
    (hu : m.sq b ≤ m'.sq up) : Cert m' c lo up := by
  obtain ⟨k, N, G, vn, vd, prow, core, p, P, Q, h1, h2, h3, h4, h5, h6, h7, h8, h9, h10, h11⟩ := h
  refine ⟨k, N, G, vn, vd, prow, core, p, P, Q, h1, h2, by rw [hm, h3], h4.trans hu, h5, h6, h7, h8, h9, h10, ?_⟩
  rw [hm]
  exact ⟨h11.1, h11.2.1, h11.2.2.1, h11.2.2.2.1, hl.trans h11.2.2.2.2⟩

theorem maxAbs_eq_iSup (hd : d ≠ 0) (x : Fin d → ℝ) : maxAbs x = ⨆ j, |x j| := by
  haveI : Nonempty (Fin d) := ⟨⟨0, by omega⟩⟩
  apply le_antisymm
  · rw [maxAbs_le (Real.iSup_nonneg fun j => abs_nonneg _)]
    exact fun i => le_ciSup (f := fun j => |x j|) (Set.finite_range _).bddAbove i
  · exact ciSup_le fun j => abs_le_maxAbs x j

/-- The ratio function and the quotient. -/
theorem val_eq (hd : d ≠ 0) (m : Metric) (x : Fin d → ℝ) {t : ℝ} :
    m.ratio.val x t = (if m = .l2 then m.quotient x t ^ 2 else m.quotient x t) := by
  cases m <;> simp only [Metric.ratio, Ratio.val, Ratio.num, Ratio.den, Metric.quotient, Metric.length]
  · simp [sumAbs_eq]
  · rw [if_pos trivial, div_pow, ← pow_mul, mul_comm d 2, pow_mul, ← sumSq_eq, Real.sq_sqrt (sumSq_nonneg x)]
  · rw [if_neg (by simp), div_pow, ← pow_mul, mul_comm d 2, pow_mul, ← sumSq_eq, Real.sq_sqrt (sumSq_nonneg x)]
  · simp [maxAbs_eq_iSup hd]

theorem quotient_nonneg (m : Metric) (x : Fin d → ℝ) {t : ℝ} (ht : 0 < t) : 0 ≤ m.quotient x t := by
  have h : 0 ≤ m.length x := by
    cases m <;> simp only [Metric.length]
    · exact Finset.sum_nonneg fun j _ => abs_nonneg _
    · exact Real.sqrt_nonneg _
    · exact Real.sqrt_nonneg _
    · exact Real.iSup_nonneg fun j => abs_nonneg _
  cases m <;> simp only [Metric.quotient] <;> positivity

theorem Cert.sound (hd : d ≠ 0) {m : Metric} {c : FCurve d} {lo up : ℚ} (h : c.Full) (hex : ∃ f, c.Realizes f)
    (hgr : ∀ f, c.Realizes f → ∃ D, IsGreatest (c.ratios m.ratio f) D) (hlo : 0 ≤ lo) (hup : 0 ≤ up) (hC : Cert m c lo up) :
    ∃ D : ℝ, IsWD m c D ∧ lo ≤ D ∧ D ≤ up := by
  obtain ⟨k, N, G, vn, vd, prow, core, p, P, Q, h1, h2, h3, h4, rfl, rfl, h5, h6, h7, h8, h9⟩ := hC
  obtain ⟨f, hf⟩ := hex
  have hu := upper h1 hd h h2 hf h5 h6 h7 h8
  rw [bnd_eq, h3] at hu
  obtain ⟨x, hx, hlx⟩ := lower h hf h9
  obtain ⟨D, ⟨p', hp', s, t, hs, hst, ht, rfl⟩, hD⟩ := hgr f hf
  have hl := hlx.trans (hD hx)
  have hu := (hu _ ⟨p', hp', s, t, hs, hst, ht, rfl⟩).trans (Rat.cast_le.2 h4)
  rw [val_eq hd] at hl hu
  have hlo' : (0 : ℝ) ≤ lo := by exact_mod_cast hlo
  have hup' : (0 : ℝ) ≤ up := by exact_mod_cast hup
  have hq := quotient_nonneg m (fun j => f p' s j - f p' t j) (sub_pos.2 hst)
  refine ⟨m.quotient (fun j => f p' s j - f p' t j) (t - s), ⟨f, hf, ⟨?_, fun b hb => hb ⟨p', hp', s, t, hs, hst, ht, rfl⟩⟩⟩, ?_, ?_⟩
  · rintro _ ⟨p1, hp1, s1, t1, hs1, hst1, ht1, rfl⟩
    have := hD ⟨p1, hp1, s1, t1, hs1, hst1, ht1, rfl⟩
    rw [val_eq hd, val_eq hd] at this
    by_cases hm : m = .l2
    · rw [if_pos hm, if_pos hm] at this
      exact le_of_sq_le_sq this hq
    · rwa [if_neg hm, if_neg hm] at this
  · by_cases hm : m = .l2
    · rw [if_pos hm] at hl
      subst hm
      simp only [Metric.sq] at hl
      push_cast at hl
      exact le_of_sq_le_sq hl hq
    · rw [if_neg hm] at hl
      have : m.sq lo = lo := by cases m <;> simp_all [Metric.sq]
      rwa [this] at hl
  · by_cases hm : m = .l2
    · rw [if_pos hm] at hu
      subst hm
      simp only [Metric.sq] at hu
      push_cast at hu
      exact le_of_sq_le_sq hu hup'
    · rw [if_neg hm] at hu
      have : m.sq up = up := by cases m <;> simp_all [Metric.sq]
      rwa [this] at hu

end Peano.Zoo
