import Verif.Spec.Dilation
import Verif.Lemmas.JunctionsB

set_option autoImplicit false

/- Ratios of pairs of points of junctions. -/
namespace Peano
variable {d : ℕ} {r : Ratio} {f : ℕ → ℝ → Fin d → ℝ}

/-- Ratio of a pair of points of a pair of fractions with time shift `T`. -/
noncomputable def FracPair.ratio (r : Ratio) (f : ℕ → ℝ → Fin d → ℝ) (a : FracPair d) (T : ℝ) (u v : ℝ) : ℝ :=
  r.val (fun i => actFn a.s1 f u i - (a.dx i + actFn a.s2 f v i)) (T + v - u)

theorem Junction.ratio_pair (j : Junction d) (u v : ℝ) : j.ratio r f u v = j.pair.ratio r f j.deltaT u v := rfl

theorem ratio_act (r : Ratio) (f : ℕ → ℝ → Fin d → ℝ) (a : FracPair d) (T : ℝ) (b : BaseMap d) (u v : ℝ) :
    (a.act b).ratio r f T u v = if b.timeRev then a.ratio r f T (1 - v) (1 - u) else a.ratio r f T u v := by
  unfold FracPair.act FracPair.ratio
  by_cases ht : b.timeRev = true
  · simp only [ht, if_true]
    simp only [actFn_rmul, BaseMap.applyT, ht, if_true]
    set A := actFn a.s1 f (1 - v)
    set B := actFn a.s2 f (1 - u)
    rw [show T + (1 - u) - (1 - v) = T + v - u by ring]
    conv_rhs => rw [← Ratio.val_neg, ← Ratio.val_applyVec r b]
    congr 1
    funext i
    unfold BaseMap.applyX BaseMap.applyVec
    by_cases hb : (b.coords i).2 = true <;> simp [hb] <;> ring
  · simp only [ht]
    simp only [Bool.false_eq_true, if_false, actFn_rmul, BaseMap.applyT, ht]
    set A := actFn a.s1 f u
    set B := actFn a.s2 f v
    conv_rhs => rw [← Ratio.val_applyVec r b]
    congr 1
    funext i
    unfold BaseMap.applyX BaseMap.applyVec
    by_cases hb : (b.coords i).2 = true <;> simp [hb] <;> ring

/-- Pairs that are the same have the same ratios. -/
theorem ratio_same {a a' : FracPair d} (h : a.Same a') (T : ℝ) (r : Ratio) (f : ℕ → ℝ → Fin d → ℝ) (u v : ℝ) :
    ∃ u' v', ((u' = u ∧ v' = v) ∨ (u' = 1 - v ∧ v' = 1 - u)) ∧ a'.ratio r f T u' v' = a.ratio r f T u v := by
  obtain ⟨b, rfl⟩ := h
  by_cases ht : b.timeRev = true
  · refine ⟨1 - v, 1 - u, Or.inr ⟨rfl, rfl⟩, ?_⟩
    rw [ratio_act, if_pos ht, sub_sub_cancel, sub_sub_cancel]
  · exact ⟨u, v, Or.inl ⟨rfl, rfl⟩, by rw [ratio_act, if_neg ht]⟩

namespace FCurve
variable {c : FCurve d}

/-- The pair formed by two fractions of the fractions of a pair. -/
def subP (c : FCurve d) (a : FracPair d) (i1 i2 : ℕ) : FracPair d :=
  ⟨c.curSpec a.s1 i1, c.curSpec a.s2 i2, fun k => a.dx k * (c.div : ℤ) + c.curCube a.s2 i2 k - c.curCube a.s1 i1 k⟩

theorem genus_cast (c : FCurve d) : (c.genus : ℝ) = (c.div : ℝ) ^ d := by unfold genus; push_cast; rfl

theorem ratio_sub (hr : r.Ok d) (h : c.Full) (hf : c.Realizes f) {a : FracPair d} (h1 : a.s1.pnum < c.mult) (h2 : a.s2.pnum < c.mult) (T : ℝ) {i1 i2 : ℕ}
    (hi1 : i1 < c.genus) (hi2 : i2 < c.genus) {u v : ℝ} (hu : 0 ≤ u ∧ u ≤ 1) (hv : 0 ≤ v ∧ v ≤ 1) :
    a.ratio r f T ((i1 + u) / c.genus) ((i2 + v) / c.genus) = (c.subP a i1 i2).ratio r f (T * c.genus + i2 - i1) u v := by
  have hN := h.div_pos
  have hG : (0 : ℝ) < c.genus := by exact_mod_cast h.genus_pos
  unfold FracPair.ratio
  rw [hf.walkD h h1 hi1 hu.1 hu.2, hf.walkD h h2 hi2 hv.1 hv.2, ← Ratio.val_smul r hr hN]
  congr 1
  · funext k
    show _ = actFn (c.curSpec a.s1 i1) f u k - (((a.dx k * (c.div : ℤ) + c.curCube a.s2 i2 k - c.curCube a.s1 i1 k : ℤ) : ℝ) +
      actFn (c.curSpec a.s2 i2) f v k)
    push_cast
    field_simp
    ring
  · rw [← c.genus_cast]
    field_simp
    ring

end FCurve
end Peano
