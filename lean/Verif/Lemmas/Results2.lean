import Verif.Lemmas.Results
import Verif.Spec.Bifractals

set_option autoImplicit false

/-
From certificates to tables of least dilations, for any number of patterns.
-/
namespace Peano
open MinCert

theorem hasGates_two {c : FCurve 2} {l m : Link (Point 2)} (h : (decide (c.mult = 2) && decide (c.getEntrance 0 = some l.entrance) &&
    decide (c.getExit 0 = some l.exit) && decide (c.getEntrance 1 = some m.entrance) && decide (c.getExit 1 = some m.exit)) = true) :
    c.GatesIn [[l, m]] := by
  simp only [Bool.and_eq_true, decide_eq_true_eq] at h
  obtain ⟨⟨⟨⟨h0, h1⟩, h2⟩, h3⟩, h4⟩ := h
  refine ⟨[l, m], ⟨h0.symm, fun p k hk => ?_⟩, [l, m], by simp, GateTuple.SameUpToSymmetry.refl _⟩
  match p with
  | 0 => cases hk; exact ⟨h1, h2⟩
  | 1 => cases hk; exact ⟨h3, h4⟩
  | _ + 2 => cases hk

/-- All candidates with these gates up to symmetry have big dilations. -/
theorem MinCert.Tab.Ok.bound_of {T : Tab} {N cd : ℕ} {S : GateTuple 2} {r : Ratio} {vn vd : ℕ} {D : ℝ} {c : FCurve 2} (hT : T.Ok 2 N S.length cd)
    (hpos : 0 < S.length) (hF : T.For S) (hunit : ∀ m ∈ S, ∀ j, (0 ≤ m.entrance j ∧ m.entrance j ≤ 1) ∧ (0 ≤ m.exit j ∧ m.exit j ≤ 1)) (hr : r.Ok 2)
    (hvd : 0 < vd) (hR : T.Refuted r 2 vn vd (N ^ 2)) (hcd : 2 ≤ cd) (hc : c.IsCandidate N S.length none) (hg : c.GatesIn [S]) (hD : c.IsDilation r D) :
    (vn : ℝ) / vd ≤ D := by
  obtain ⟨w, B, hw, h1, h2⟩ := exists_reparam hpos hunit hc hg
  exact hT.bound hF hr hvd hR h1 (.inr hcd) h2 (hD.reparam hc.full hw)

/-- The least dilation, from a lower bound and the certificate for one curve. -/
theorem least_of_bound {N k : ℕ} {P : FCurve 2 → Prop} {v : ℚ} {c : FCurve 2} {m : Zoo.Metric} (hk : 0 < k) (h0 : 0 ≤ v) (hc : c.IsCandidate N k none) (hg : P c)
    (hC : Zoo.Cert m c v v) (hb : ∀ (e : FCurve 2) D, e.IsCandidate N k none → P e → e.IsDilation m.planeRatio D → (v : ℝ) ≤ D) :
    LeastDilationOf m.planeRatio N k P v := by
  have hval : Zoo.Valid c := ⟨by rw [hc.mult_eq]; omega, hc.full, hc.fills, hc.checked⟩
  have hD : Zoo.IsWD m c v := Zoo.eq_of (by decide) hval h0 rfl hC
  refine ⟨⟨c, hc, hg, hD.isDilation⟩, ?_⟩
  rintro D ⟨e, he, hge, hDe⟩
  exact hb e D he hge hDe

/-- The least dilation of curves with two patterns, from the certificate for all curves and the certificate for one curve. -/
theorem least_of_two {T : Tab} {N cd : ℕ} {l l' : Link (Point 2)} {vn vd : ℕ} {v : ℚ} {c : FCurve 2} {m : Zoo.Metric} (hT : T.Ok 2 N 2 cd)
    (hF : T.For [l, l']) (hunit : ∀ m ∈ [l, l'], ∀ j, (0 ≤ m.entrance j ∧ m.entrance j ≤ 1) ∧ (0 ≤ m.exit j ∧ m.exit j ≤ 1)) (hvd : 0 < vd)
    (hR : T.Refuted m.planeRatio 2 vn vd (N ^ 2)) (hcd : 2 ≤ cd) (hv : v = vn / vd) (hc : c.IsCandidate N 2 none) (hg : c.GatesIn [[l, l']])
    (hC : Zoo.Cert m c v v) : LeastDilationOf m.planeRatio N 2 (FCurve.GatesIn [[l, l']]) v := by
  refine least_of_bound (by omega) (by rw [hv]; positivity) hc hg hC fun e D he hge hDe => ?_
  rw [hv]
  push_cast
  exact hT.bound_of (S := [l, l']) (by simp) hF hunit (by cases m <;> decide) hvd hR hcd he hge hDe

/-- The euclidean dilation of a plane curve is not less than the maximum-norm dilation. -/
theorem linf_le_l2 {c : FCurve 2} {D E : ℝ} (h : c.Full) (h0 : 0 < c.mult) (hc : c.check = some true) (hD : c.IsDilation .linf D) (hE : c.IsDilation .l2 E) :
    D ≤ E := by
  obtain ⟨f, hf, hE⟩ := hE
  obtain ⟨p, hp, s, t, a, b, e, hr⟩ := (FCurve.C58_dilation (by decide) .linf (by decide) c h h0 hc).2 f D hf hD
  rw [hr]
  refine le_trans ?_ (hE.1 ⟨p, hp, s, t, a, b, e, rfl⟩)
  have hts : 0 < t - s := by linarith
  generalize (fun j => f p s j - f p t j) = x
  have hx : maxAbs x ^ 2 ≤ sumSq x := by
    have h1 : maxAbs x ≤ Real.sqrt (sumSq x) := by
      refine (maxAbs_le (Real.sqrt_nonneg _)).2 fun i => Real.abs_le_sqrt ?_
      have : sumSq x = x 0 ^ 2 + x 1 ^ 2 := by simp [sumSq, List.finRange_succ]
      rw [this]
      fin_cases i
      · show x 0 ^ 2 ≤ _
        nlinarith [sq_nonneg (x 1)]
      · show x 1 ^ 2 ≤ _
        nlinarith [sq_nonneg (x 0)]
    calc maxAbs x ^ 2 ≤ Real.sqrt (sumSq x) ^ 2 := pow_le_pow_left₀ (maxAbs_nonneg x) h1 2
      _ = sumSq x := Real.sq_sqrt (sumSq_nonneg x)
  simp only [Ratio.val, Ratio.num, Ratio.den, Nat.reduceDiv, pow_one]
  gcongr

end Peano
