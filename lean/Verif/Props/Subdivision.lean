import Verif.Lemmas.Subdivision
import Verif.Lemmas.Valid
import Verif.Model.Zoo
import Mathlib.Analysis.SpecificLimits.Basic

set_option autoImplicit false

/-
Property C16.
-/
namespace Peano
variable {d : ℕ}

namespace FCurve

theorem subdivision_cells {c : FCurve d} (hk : c.kind = .curve) (h : c.Full) (k : ℕ) :
    c.getSubdivision k = some (ofCells (c.div ^ (k + 1)) c.pnum .curve (refineIter c.div c.cells k)) := by
  conv_lhs => rw [h.eq_ofCells, hk]
  exact getSubdivision_eq h.good k

/-- C16. The `k`-th subdivision of a curve exists, is a fully defined curve with `div = N**(k+1)`, the same number of patterns and the
same selected pattern; full prototypes remain full. -/
theorem C16_subdivision (c : FCurve d) (hk : c.kind = .curve) (h : c.Full) (k : ℕ) :
    ∃ c', c.getSubdivision k = some c' ∧ c'.div = c.div ^ (k + 1) ∧ c'.mult = c.mult ∧ c'.pnum = c.pnum ∧ c'.kind = .curve ∧ c'.Full ∧
      (c.FillsGrid → c'.FillsGrid) := by
  refine ⟨_, subdivision_cells hk h k, rfl, ?_, rfl, rfl, (h.good.refineIter k).full, ?_⟩
  · rw [ofCells_mult, length_refineIter]; simp [cells]
  · intro hfill
    induction k with
    | zero =>
      rw [zero_add, pow_one]
      show (ofCells c.div c.pnum .curve c.cells).FillsGrid
      rw [← hk, ← h.eq_ofCells]; exact hfill
    | succ k ih =>
      rw [pow_succ]
      refine (h.good.isRefine (pn := c.pnum) (pn' := c.pnum) (k := c.kind) (k' := .curve) (h.good.refineIter k) (by simp)).fills ih ?_
      rw [← h.eq_ofCells]; exact hfill

theorem approx_iter {c : FCurve d} (h : c.Full) {g : ℕ → ℝ → Fin d → ℝ} {A : ℝ} (hA : 0 ≤ A) (hg : Approx c g A) (k : ℕ) :
    Approx (ofCells (c.div ^ (k + 1)) c.pnum .curve (refineIter c.div c.cells k)) g (A * (2 - (1 / 2) ^ k)) := by
  induction k with
  | zero =>
    rw [zero_add, pow_one]
    have : Approx (ofCells c.div c.pnum c.kind c.cells) g A := by rw [← h.eq_ofCells]; exact hg
    have e : A * (2 - (1 / 2) ^ 0) = A := by norm_num
    rw [e]
    exact this
  | succ k ih =>
    rw [pow_succ]
    have hq : Approx (ofCells c.div c.pnum c.kind c.cells) g A := by rw [← h.eq_ofCells]; exact hg
    have := (h.good.isRefine (pn := c.pnum) (pn' := c.pnum) (k := c.kind) (k' := .curve) (h.good.refineIter k) (by simp)).approx ih hq
    refine fun p hp i hi t h0 h1 j => (this p hp i hi t h0 h1 j).trans ?_
    rw [ofCells_div]
    have hpow : (2 : ℝ) ^ (k + 1) ≤ ((c.div ^ (k + 1) : ℕ) : ℝ) := by
      push_cast
      exact pow_le_pow_left₀ (by norm_num) h.div_ge _
    have h2 : A / ((c.div ^ (k + 1) : ℕ) : ℝ) ≤ A / 2 ^ (k + 1) := div_le_div_of_nonneg_left hA (by positivity) hpow
    have e : A * (2 - (1 / 2) ^ k) + A / 2 ^ (k + 1) = A * (2 - (1 / 2) ^ (k + 1)) := by
      have : (1 / 2 : ℝ) ^ k = 2 * (1 / 2) ^ (k + 1) := by rw [pow_succ]; ring
      rw [this, div_eq_mul_one_div A, one_div_pow]; ring
    linarith

/-- C16. The subdivision describes exactly the same maps as the curve. -/
theorem C16_same_maps (c c' : FCurve d) (hk : c.kind = .curve) (h : c.Full) (k : ℕ) (hc' : c.getSubdivision k = some c')
    (f : ℕ → ℝ → Fin d → ℝ) : c'.Realizes f ↔ c.Realizes f := by
  rw [subdivision_cells hk h k] at hc'
  have hc' := Option.some.inj hc'
  subst hc'
  have hfull : (ofCells (c.div ^ (k + 1)) c.pnum .curve (refineIter c.div c.cells k)).Full := (h.good.refineIter k).full
  have hmult : (ofCells (c.div ^ (k + 1)) c.pnum .curve (refineIter c.div c.cells k)).mult = c.mult := by
    rw [ofCells_mult, length_refineIter]; simp [cells]
  constructor
  · intro hf
    have hm : ∀ p < c.mult, ∀ t : ℝ, 0 ≤ t → t ≤ 1 → f p t ∈ unitCube d := by
      intro p hp; exact hf.mem_cube p (by rw [hmult]; exact hp)
    refine Approx.realizes h hm ?_
    cases k with
    | zero =>
      have := hf.approx hfull
      rw [zero_add, pow_one] at this
      have e : ofCells c.div c.pnum .curve (refineIter c.div c.cells 0) = c := by
        conv_rhs => rw [h.eq_ofCells, hk]
        rfl
      rwa [e] at this
    | succ k =>
      have hR := hf.approx hfull
      -- `c` followed by the `k`-th subdivision
      have href : IsRefine (ofCells c.div c.pnum c.kind c.cells) (ofCells (c.div ^ (k + 1)) c.pnum .curve (refineIter c.div c.cells k))
          (ofCells (c.div ^ (k + 1 + 1)) c.pnum .curve (refineIter c.div c.cells (k + 1))) := by
        have e : refineIter c.div c.cells (k + 1) = refineAll (c.div ^ (k + 1)) (refineIter c.div c.cells k) c.cells := by
          rw [refineAll_refineIter, refineIter_eq]
        have e2 : c.div ^ (k + 1 + 1) = c.div * c.div ^ (k + 1) := by rw [pow_succ, mul_comm]
        rw [e, e2]
        exact (h.good.refineIter k).isRefine h.good (by simp)
      rw [← h.eq_ofCells] at href
      have step : ∀ A : ℝ, 0 ≤ A → Approx c f A → Approx c f (A * (1 - (1 / 2) ^ (k + 1))) := by
        intro A hA hg
        have := href.approx_back hR (approx_iter h hA hg k)
        refine fun p hp i hi t h0 h1 j => (this p hp i hi t h0 h1 j).trans ?_
        have hpos : (0 : ℝ) ≤ A * (2 - (1 / 2) ^ k) := by
          have : (1 / 2 : ℝ) ^ k ≤ 1 := pow_le_one₀ (by norm_num) (by norm_num)
          nlinarith
        have h2 := div_le_div_of_nonneg_left hpos (by norm_num : (0 : ℝ) < 2) h.div_ge
        have e : A * (2 - (1 / 2) ^ k) / 2 = A * (1 - (1 / 2) ^ (k + 1)) := by rw [pow_succ]; ring
        linarith
      have hq0 : (0 : ℝ) ≤ 1 - (1 / 2) ^ (k + 1) := by
        have : (1 / 2 : ℝ) ^ (k + 1) ≤ 1 := pow_le_one₀ (by norm_num) (by norm_num)
        linarith
      have hq1 : (1 : ℝ) - (1 / 2) ^ (k + 1) < 1 := by
        have : (0 : ℝ) < (1 / 2 : ℝ) ^ (k + 1) := by positivity
        linarith
      have start : Approx c f 1 := by
        intro p hp i hi t h0 h1 j
        have hG : (0 : ℝ) < c.genus := by exact_mod_cast h.genus_pos
        have hi1 : (i : ℝ) + 1 ≤ c.genus := by exact_mod_cast hi
        have h3 := hm p hp ((i + t) / c.genus) (by positivity) (by rw [div_le_one hG]; linarith) j
        have h4 := (c.specD p i).baseMap.applyX_mem (hm _ (h.specD_lt hp hi) _ (applyT_mem01 (c.specD p i).baseMap h0 h1).1
          (applyT_mem01 (c.specD p i).baseMap h0 h1).2) j
        have h5 := mem_unit_of_sub h.div_pos (h.cubeD_range hp hi j) h4
        have h6 : actFn (c.specD p i) f t j = (c.specD p i).baseMap.applyX 1 (f (c.specD p i).pnum ((c.specD p i).baseMap.applyT 1 t)) j := rfl
        rw [h6, abs_le]
        constructor <;> linarith [h3.1, h3.2, h5.1, h5.2]
      have iter : ∀ n : ℕ, Approx c f ((1 - (1 / 2) ^ (k + 1)) ^ n) := by
        intro n
        induction n with
        | zero => simpa using start
        | succ n ih => rw [pow_succ]; exact step _ (pow_nonneg hq0 n) ih
      intro p hp i hi t h0 h1 j
      exact ge_of_tendsto' (tendsto_pow_atTop_nhds_zero_of_lt_one hq0 hq1) fun n => iter n p hp i hi t h0 h1 j
  · intro hf
    refine Approx.realizes hfull (by rw [hmult]; exact hf.mem_cube) ?_
    have := approx_iter h le_rfl (hf.approx h) k
    rwa [zero_mul] at this

/-- C16. Subdivisions compose: subdividing the `a`-th subdivision `b` times gives the subdivision number `(a+1)*(b+1)-1`. -/
theorem C16_composition (c : FCurve d) (hk : c.kind = .curve) (h : c.Full) (a b : ℕ) :
    (c.getSubdivision a).bind (fun c' => c'.getSubdivision b) = c.getSubdivision ((a + 1) * (b + 1) - 1) := by
  rw [subdivision_cells hk h a, Option.bind_some, getSubdivision_eq (h.good.refineIter a) b, subdivision_cells hk h, refineIter_refineIter,
    ← pow_mul]
  congr 3

example : Zoo.betaOmega.kind = .curve ∧ Zoo.betaOmega.Full := ⟨by decide +kernel, full_of_fullB (by decide +kernel)⟩
example : (Zoo.hilbert.getSubdivision 1).bind (fun c => c.cube? 0 5) = some ![0, 3] ∧
    (Zoo.hilbert.getSubdivision 1).bind (fun c => c.spec? 0 7) = some ⟨⟨![(1, true), (0, true)], false, by decide⟩, 0⟩ := by decide +kernel

end FCurve
end Peano
