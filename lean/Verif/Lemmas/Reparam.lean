import Verif.Lemmas.PossibleB
import Verif.Lemmas.GatesFinal
import Verif.Lemmas.Utils
import Verif.Spec.Dilation

set_option autoImplicit false

/-! Curves with renumbered patterns, each of them mapped by its own isometry. -/
namespace Peano
variable {d : ℕ}
namespace FCurve
variable {c : FCurve d}

/-- The spec in position `i` of the mapped pattern `k`. -/
def reparamSpec (c : FCurve d) (w : List ℕ) (B : ℕ → BaseMap d) (k i : ℕ) : Spec d :=
  let s := c.specD k ((B k).applyCnum c.genus i)
  ⟨B k * s.baseMap * (B s.pnum)⁻¹, w.idxOf s.pnum⟩

/-- The cube in position `i` of the mapped pattern `k`. -/
def reparamCube (c : FCurve d) (B : ℕ → BaseMap d) (k i : ℕ) : Cube d :=
  (B k).applyCube c.div (c.cubeD k ((B k).applyCnum c.genus i))

/-- Patterns in the order `w`, pattern `k` mapped by `B k`. -/
def reparam (c : FCurve d) (w : List ℕ) (B : ℕ → BaseMap d) : FCurve d where
  div := c.div
  pnum := 0
  kind := .curve
  patterns := w.map fun k => ⟨(List.range c.genus).map fun i => some (c.reparamCube B k i), (List.range c.genus).map fun i => some (c.reparamSpec w B k i)⟩

variable {w : List ℕ} {B : ℕ → BaseMap d}

@[simp] theorem reparam_div : (c.reparam w B).div = c.div := rfl
@[simp] theorem reparam_genus : (c.reparam w B).genus = c.genus := rfl
@[simp] theorem reparam_mult : (c.reparam w B).mult = w.length := by simp [mult, reparam]

theorem reparam_cube? {j i k : ℕ} {x : Cube d} (h : (c.reparam w B).cube? j i = some x) (hk : w[j]? = some k) :
    i < c.genus ∧ x = c.reparamCube B k i := by
  unfold cube? reparam at h
  simp only [List.getElem?_map, hk, Option.map_some, Option.bind_some, Proto.cube?] at h
  by_cases hi : i < c.genus
  · rw [List.getElem?_range hi] at h
    simp only [Option.map_some, Option.bind_some, id_eq, Option.some.injEq] at h
    exact ⟨hi, by simpa using h.symm⟩
  · rw [List.getElem?_eq_none (by simpa using hi)] at h
    simp at h

theorem reparam_spec? {j i k : ℕ} (hk : w[j]? = some k) (hi : i < c.genus) :
    (c.reparam w B).spec? j i = some (c.reparamSpec w B k i) := by
  unfold spec? reparam
  simp [hk, hi]

/-- The maps of the curve with mapped patterns. -/
theorem Realizes.reparam {f : ℕ → ℝ → Fin d → ℝ} (h : c.Full) (hf : c.Realizes f) (hw : w.Perm (List.range c.mult)) :
    (c.reparam w B).Realizes fun j t => (B (w[j]?.getD 0)).applyX 1 (f (w[j]?.getD 0) ((B (w[j]?.getD 0)).applyT 1 t)) where
  mem_cube := by
    intro j hj t h0 h1
    rw [reparam_mult] at hj
    have hk : w[j] < c.mult := List.mem_range.1 (hw.mem_iff.1 (List.getElem_mem hj))
    rw [List.getElem?_eq_getElem hj, Option.getD_some]
    have := applyT_mem01 (B w[j]) h0 h1
    exact fun i => (B w[j]).applyX_mem (hf.mem_cube _ hk _ this.1 this.2) i
  eqn := by
    intro j i cube s hc hs t h0 h1
    have hj : j < w.length := by simpa using cube?_lt hc
    have hget := List.getElem?_eq_getElem hj
    have hk : w[j] < c.mult := List.mem_range.1 (hw.mem_iff.1 (List.getElem_mem hj))
    obtain ⟨hi, rfl⟩ := reparam_cube? hc hget
    rw [reparam_spec? hget hi, Option.some.injEq] at hs
    subst hs
    rw [hget, Option.getD_some]
    set k := w[j] with hkdef
    have hN : (c.div : ℝ) ≠ 0 := by
      have := h.two_le_div
      have : 0 < c.div := by omega
      positivity
    have ht := applyT_mem01 (B k) h0 h1
    have hi' := BaseMap.applyCnum_lt (B k) hi
    simp only [reparam_genus, reparam_div]
    rw [applyT_frac (B k) hi, hf.eqn _ _ _ _ (h.cube_eq hk hi') (h.spec_eq hk hi') _ ht.1 ht.2]
    have key := BaseMap.applyX_cube (K := ℝ) (B k) (c.div : ℤ) (by exact_mod_cast hN) (c.cubeD k ((B k).applyCnum c.genus i))
      (actFn (c.specD k ((B k).applyCnum c.genus i)) f ((B k).applyT 1 t))
    simp only [Int.cast_natCast] at key
    rw [key]
    set s0 := c.specD k ((B k).applyCnum c.genus i) with hs0
    have hm : s0.pnum < c.mult := h.specD_lt hk hi'
    have hidx : w.idxOf s0.pnum < w.length := List.idxOf_lt_length_iff.2 (hw.mem_iff.2 (List.mem_range.2 hm))
    have hwm : w[w.idxOf s0.pnum]? = some s0.pnum := by
      rw [List.getElem?_eq_getElem hidx, List.getElem_idxOf]
    have : actFn (c.reparamSpec w B k i) (fun j t => (B (w[j]?.getD 0)).applyX 1 (f (w[j]?.getD 0) ((B (w[j]?.getD 0)).applyT 1 t))) t =
        (B k).applyX 1 (actFn s0 f ((B k).applyT 1 t)) := by
      unfold actFn reparamSpec
      simp only [← hs0, hwm, Option.getD_some, BaseMap.applyX_mul, BaseMap.applyX_inv_applyX]
      congr 3
      unfold BaseMap.applyT
      by_cases hb : (B k).timeRev = true <;> by_cases hs : s0.baseMap.timeRev = true <;> by_cases hm : (B s0.pnum).timeRev = true <;>
        simp [hb, hs, hm]
    rw [this]
    rfl

theorem ratios_subset {c' : FCurve d} {f f' : ℕ → ℝ → Fin d → ℝ} (r : Ratio)
    (h : ∀ p < c.mult, ∃ q < c'.mult, ∃ b : BaseMap d, ∀ t, 0 ≤ t → t ≤ 1 → f' q t = b.applyX 1 (f p (b.applyT 1 t))) : c.ratios r f ⊆ c'.ratios r f' := by
  rintro x ⟨p, hp, s, t, h0, hst, h1, rfl⟩
  obtain ⟨q, hq, b, hb⟩ := h p hp
  have hv : ∀ u v : Fin d → ℝ, (fun j => b.applyX 1 u j - b.applyX 1 v j) = b.applyVec fun j => u j - v j := by
    intro u v
    funext j
    unfold BaseMap.applyX BaseMap.applyVec
    split <;> ring
  by_cases ht : b.timeRev = true
  · have e1 := hb (1 - t) (by linarith) (by linarith)
    have e2 := hb (1 - s) (by linarith) (by linarith)
    simp only [real_applyT, ht, if_true, sub_sub_cancel] at e1 e2
    refine ⟨q, hq, 1 - t, 1 - s, by linarith, by linarith, by linarith, ?_⟩
    rw [e1, e2, hv, Ratio.val_applyVec, show (1 - s - (1 - t)) = t - s by ring, ← Ratio.val_neg]
    congr 1
    funext j
    simp
  · have e1 := hb s (by linarith) (by linarith)
    have e2 := hb t (by linarith) (by linarith)
    simp only [real_applyT, ht] at e1 e2
    refine ⟨q, hq, s, t, h0, hst, h1, ?_⟩
    rw [e1, e2, hv, Ratio.val_applyVec]
    rfl

/-- The dilation does not depend on the numbers of patterns and on isometries applied to them. -/
theorem IsDilation.reparam {r : Ratio} {D : ℝ} (h : c.Full) (hD : c.IsDilation r D) (hw : w.Perm (List.range c.mult)) :
    (c.reparam w B).IsDilation r D := by
  obtain ⟨f, hf, hl⟩ := hD
  refine ⟨_, hf.reparam h hw (B := B), ?_⟩
  have hlen : w.length = c.mult := by rw [hw.length_eq, List.length_range]
  have : (c.reparam w B).ratios r (fun j t => (B (w[j]?.getD 0)).applyX 1 (f (w[j]?.getD 0) ((B (w[j]?.getD 0)).applyT 1 t))) = c.ratios r f := by
    apply Set.Subset.antisymm
    · apply ratios_subset
      intro j hj
      rw [reparam_mult] at hj
      refine ⟨w[j], List.mem_range.1 (hw.mem_iff.1 (List.getElem_mem hj)), (B w[j])⁻¹, ?_⟩
      intro t h0 h1
      rw [List.getElem?_eq_getElem hj, Option.getD_some]
      simp
    · apply ratios_subset
      intro k hk
      have hmem := hw.mem_iff.2 (List.mem_range.2 hk)
      obtain ⟨j, hj⟩ := List.mem_iff_getElem?.1 hmem
      refine ⟨j, ?_, B k, ?_⟩
      · rw [reparam_mult]; exact (List.getElem?_eq_some_iff.1 hj).1
      · intro t h0 h1
        rw [hj, Option.getD_some]
  rw [this]
  exact hl

end FCurve
end Peano
