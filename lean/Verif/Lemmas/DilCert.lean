import Verif.Lemmas.Faces
import Verif.Lemmas.Utils
import Verif.Spec.Dilation
import Mathlib.Analysis.SpecialFunctions.Pow.NNReal
import Mathlib.Analysis.SpecificLimits.Basic

set_option autoImplicit false

/-
Upper bounds of dilations with a finite certificate.  A state is a pair of pieces of the curve at the same depth, seen with the size of the pieces
as the unit of length: two specs, the difference of cubes and the difference of numbers in time.
-/
namespace Peano
variable {d : ℕ}

/-- The length of a vector to the power `d`, in the metric of the ratio function. -/
noncomputable def Ratio.size (r : Ratio) (x : Fin d → ℝ) : ℝ :=
  match r with
  | .l2sq => Real.sqrt (Ratio.l2sq.num x)
  | r => r.num x

theorem Ratio.size_nonneg (r : Ratio) (x : Fin d → ℝ) : 0 ≤ r.size x := by
  cases r <;> unfold Ratio.size <;> first | exact Real.sqrt_nonneg _ | exact Ratio.num_nonneg _ _

theorem Ratio.size_mono (r : Ratio) {x y : Fin d → ℝ} (h : ∀ i, |x i| ≤ |y i|) : r.size x ≤ r.size y := by
  cases r <;> unfold Ratio.size <;> first | exact Real.sqrt_le_sqrt (Ratio.num_mono _ h) | exact Ratio.num_mono _ h

theorem Ratio.size_smul (r : Ratio) (h : r.Ok d) {k : ℝ} (hk : 0 ≤ k) (x : Fin d → ℝ) : r.size (fun i => k * x i) = k ^ d * r.size x := by
  cases r <;> unfold Ratio.size
  · simp only; rw [Ratio.num_smul _ h, abs_of_nonneg hk]; rfl
  · simp only; rw [Ratio.num_smul _ h, abs_of_nonneg hk]; rfl
  · simp only
    rw [Ratio.num_smul _ h, abs_of_nonneg hk]
    show Real.sqrt (k ^ (2 * d) * _) = _
    rw [Real.sqrt_mul (by positivity), mul_comm 2 d, pow_mul, Real.sqrt_sq (by positivity)]
  · simp only; rw [Ratio.num_smul _ h, abs_of_nonneg hk]; rfl

theorem Ratio.size_applyVec (r : Ratio) (a : BaseMap d) (x : Fin d → ℝ) : r.size (a.applyVec x) = r.size x := by
  cases r <;> unfold Ratio.size <;> simp only [Ratio.num_applyVec]

theorem Ratio.size_neg (r : Ratio) (x : Fin d → ℝ) : r.size (-x) = r.size x := by
  cases r <;> unfold Ratio.size <;> simp only [Ratio.num_neg]

/-- The bound `w` of lengths to the power `d` over times, as a bound of the ratio function. -/
def Ratio.bound (r : Ratio) (w : ℝ) : ℝ := match r with
  | .l2sq => w ^ 2
  | _ => w

theorem Ratio.val_le_of_size (r : Ratio) {x : Fin d → ℝ} {t w : ℝ} (ht : 0 < t) (hw : 0 ≤ w) (h : r.size x ≤ w * t) : r.val x t ≤ r.bound w := by
  unfold Ratio.val
  rw [div_le_iff₀ (r.den_pos ht)]
  cases r <;> simp only [Ratio.size, Ratio.bound, Ratio.den] at *
  · exact h
  · exact h
  · rw [← mul_pow]
    exact (Real.sqrt_le_left (by positivity)).1 h
  · exact h

namespace DilCert

/-- Two pieces of the curve at the same depth. -/
structure State (d : ℕ) where
  a : Spec d
  b : Spec d
  D : Fin d → ℤ
  T : ℤ

variable {c : FCurve d} {f : ℕ → ℝ → Fin d → ℝ} {r : Ratio} {w : ℝ}

/-- By how much the length is too big at times `u`, `v` of the pieces. -/
noncomputable def exc (f : ℕ → ℝ → Fin d → ℝ) (r : Ratio) (w : ℝ) (s : State d) (u v : ℝ) : ℝ :=
  r.size (fun j => (s.D j : ℝ) + actFn s.b f v j - actFn s.a f u j) - w * ((s.T : ℝ) + v - u)

def Good (c : FCurve d) (s : State d) : Prop := s.a.pnum < c.mult ∧ s.b.pnum < c.mult

/-- All excesses of the state are at most `B`. -/
def Le (f : ℕ → ℝ → Fin d → ℝ) (r : Ratio) (w : ℝ) (s : State d) (B : ℝ) : Prop :=
  ∀ u v : ℝ, 0 ≤ u → u ≤ 1 → 0 ≤ v → v ≤ 1 → exc f r w s u v ≤ B

/-- Fractions `i` and `j` of the two pieces. -/
def child (c : FCurve d) (s : State d) (i j : ℕ) : State d :=
  ⟨c.curSpec s.a i, c.curSpec s.b j, fun k => c.div * s.D k + c.curCube s.b j k - c.curCube s.a i k, c.genus * s.T + j - i⟩

theorem good_child (h : c.Full) {s : State d} (hs : Good c s) {i j : ℕ} (hi : i < c.genus) (hj : j < c.genus) : Good c (child c s i j) :=
  ⟨h.curSpec_lt hs.1 hi, h.curSpec_lt hs.2 hj⟩

theorem exc_child (h : c.Full) (hr : r.Ok d) (hf : c.Realizes f) {s : State d} (hs : Good c s) {i j : ℕ} (hi : i < c.genus) (hj : j < c.genus) {u v : ℝ}
    (hu0 : 0 ≤ u) (hu1 : u ≤ 1) (hv0 : 0 ≤ v) (hv1 : v ≤ 1) :
    exc f r w (child c s i j) u v = c.genus * exc f r w s ((i + u) / c.genus) ((j + v) / c.genus) := by
  have hN := h.div_pos
  have hG : (0 : ℝ) < c.genus := by exact_mod_cast h.toShape.genus_pos
  have hGN : (c.genus : ℝ) = (c.div : ℝ) ^ d := by unfold FCurve.genus; push_cast; rfl
  unfold exc
  rw [hf.walkD h hs.1 hi hu0 hu1, hf.walkD h hs.2 hj hv0 hv1]
  have e : (fun k => (((child c s i j).D k : ℤ) : ℝ) + actFn (child c s i j).b f v k - actFn (child c s i j).a f u k) =
      fun k => (c.div : ℝ) * ((s.D k : ℝ) + (c.curCube s.b j k + actFn (c.curSpec s.b j) f v k) / c.div -
        (c.curCube s.a i k + actFn (c.curSpec s.a i) f u k) / c.div) := by
    funext k
    simp only [child]
    push_cast
    field_simp
    ring
  rw [e, r.size_smul hr hN.le, ← hGN]
  generalize r.size (fun k => (s.D k : ℝ) + (c.curCube s.b j k + actFn (c.curSpec s.b j) f v k) / c.div -
        (c.curCube s.a i k + actFn (c.curSpec s.a i) f u k) / c.div) = z
  simp only [child]
  push_cast
  field_simp
  ring

theorem le_of_children (h : c.Full) (hr : r.Ok d) (hf : c.Realizes f) {s : State d} (hs : Good c s) {B : ℝ}
    (hc : ∀ i < c.genus, ∀ j < c.genus, Le f r w (child c s i j) B) : Le f r w s (B / c.genus) := by
  intro u v hu0 hu1 hv0 hv1
  obtain ⟨i, hi, u', hu0', hu1', rfl⟩ := FCurve.exists_cell h.toShape hu0 hu1
  obtain ⟨j, hj, v', hv0', hv1', rfl⟩ := FCurve.exists_cell h.toShape hv0 hv1
  have hG : (0 : ℝ) < c.genus := by exact_mod_cast h.toShape.genus_pos
  have := hc i hi j hj u' v' hu0' hu1' hv0' hv1'
  rw [exc_child h hr hf hs hi hj hu0' hu1' hv0' hv1'] at this
  rw [le_div_iff₀ hG]
  linarith

/-- Every state has some bound. -/
theorem exists_bound (hw : 0 ≤ w) (hf : c.Realizes f) {s : State d} (hs : Good c s) : ∃ B, 0 ≤ B ∧ Le f r w s B := by
  refine ⟨|r.size (fun j => |(s.D j : ℝ)| + 1)| + w * (|(s.T : ℝ)| + 1), by positivity, ?_⟩
  intro u v hu0 hu1 hv0 hv1
  unfold exc
  have h1 : r.size (fun j => (s.D j : ℝ) + actFn s.b f v j - actFn s.a f u j) ≤ r.size (fun j => |(s.D j : ℝ)| + 1) := by
    apply r.size_mono
    intro j
    have ha := hf.actFn_mem hs.1 hu0 hu1 j
    have hb := hf.actFn_mem hs.2 hv0 hv1 j
    rw [abs_of_nonneg (a := |(s.D j : ℝ)| + 1) (by positivity), abs_le]
    have := neg_abs_le (s.D j : ℝ)
    have := le_abs_self (s.D j : ℝ)
    constructor <;> linarith
  have h2 := le_abs_self (r.size (fun j => |(s.D j : ℝ)| + 1))
  have h3 : -(w * ((s.T : ℝ) + v - u)) ≤ w * (|(s.T : ℝ)| + 1) := by
    rw [← mul_neg]
    apply mul_le_mul_of_nonneg_left _ hw
    have := neg_abs_le (s.T : ℝ)
    linarith
  linarith

/-- The state is bounded by whatever bounds the states of the list. -/
def Resolved (f : ℕ → ℝ → Fin d → ℝ) (r : Ratio) (w : ℝ) (core : List (State d)) (s : State d) : Prop :=
  ∀ B, 0 ≤ B → (∀ o ∈ core, Le f r w o B) → Le f r w s B

/-- If all children of the states of the list are resolved, there is no excess at all. -/
theorem core_le (h : c.Full) (hd : d ≠ 0) (hr : r.Ok d) (hw : 0 ≤ w) (hf : c.Realizes f) {core : List (State d)} (hgood : ∀ o ∈ core, Good c o)
    (hcl : ∀ o ∈ core, ∀ i < c.genus, ∀ j < c.genus, Resolved f r w core (child c o i j)) : ∀ o ∈ core, Le f r w o 0 := by
  have hG : (2 : ℝ) ≤ c.genus := by
    have : 2 ≤ c.genus := by
      unfold FCurve.genus
      calc 2 ≤ c.div := h.two_le_div
        _ = c.div ^ 1 := (pow_one _).symm
        _ ≤ c.div ^ d := Nat.pow_le_pow_right (by have := h.two_le_div; omega) (by omega)
    exact_mod_cast this
  have hB : ∃ B, 0 ≤ B ∧ ∀ o ∈ core, Le f r w o B := by
    clear hcl
    induction core with
    | nil => exact ⟨0, le_refl _, by simp⟩
    | cons a core ih =>
      obtain ⟨B1, h1, h2⟩ := ih fun o ho => hgood o (List.mem_cons_of_mem _ ho)
      obtain ⟨B2, h3, h4⟩ := exists_bound (r := r) hw hf (hgood a List.mem_cons_self)
      refine ⟨max B1 B2, le_max_of_le_left h1, ?_⟩
      intro o ho u v a1 a2 a3 a4
      rcases List.mem_cons.1 ho with rfl | ho
      · exact (h4 u v a1 a2 a3 a4).trans (le_max_right _ _)
      · exact (h2 o ho u v a1 a2 a3 a4).trans (le_max_left _ _)
  obtain ⟨B, hB0, hB⟩ := hB
  have key : ∀ k : ℕ, ∀ o ∈ core, Le f r w o (B / (c.genus : ℝ) ^ k) := by
    intro k
    induction k with
    | zero => simpa using hB
    | succ k ih =>
      intro o ho
      rw [pow_succ, ← div_div]
      exact le_of_children h hr hf (hgood o ho) fun i hi j hj => hcl o ho i hi j hj _ (by positivity) ih
  intro o ho u v a1 a2 a3 a4
  have ht : Filter.Tendsto (fun k : ℕ => B / (c.genus : ℝ) ^ k) Filter.atTop (nhds 0) := by
    apply Filter.Tendsto.const_div_atTop
    exact tendsto_pow_atTop_atTop_of_one_lt (by linarith)
  exact ge_of_tendsto' ht fun k => key k o ho u v a1 a2 a3 a4

/-- Fractions `i` and `j` of pattern `p`. -/
def auto (c : FCurve d) (p i j : ℕ) : State d :=
  ⟨c.specD p i, c.specD p j, fun k => c.cubeD p j k - c.cubeD p i k, (j : ℤ) - i⟩

theorem good_auto (h : c.Full) {p : ℕ} (hp : p < c.mult) {i j : ℕ} (hi : i < c.genus) (hj : j < c.genus) : Good c (auto c p i j) :=
  ⟨h.specD_lt hp hi, h.specD_lt hp hj⟩

/-- Bound of the dilation. -/
theorem size_le (h : c.Full) (hd : d ≠ 0) (hr : r.Ok d) (hw : 0 ≤ w) (hf : c.Realizes f)
    (ha : ∀ p < c.mult, ∀ i j, i < j → j < c.genus → Le f r w (auto c p i j) 0) :
    ∀ p < c.mult, ∀ s t : ℝ, 0 ≤ s → s ≤ t → t ≤ 1 → r.size (fun j => f p s j - f p t j) ≤ w * (t - s) := by
  have hG : (2 : ℝ) ≤ c.genus := by
    have : 2 ≤ c.genus := by
      unfold FCurve.genus
      calc 2 ≤ c.div := h.two_le_div
        _ = c.div ^ 1 := (pow_one _).symm
        _ ≤ c.div ^ d := Nat.pow_le_pow_right (by have := h.two_le_div; omega) (by omega)
    exact_mod_cast this
  have hG0 : (0 : ℝ) < c.genus := by linarith
  have hGN : (c.genus : ℝ) = (c.div : ℝ) ^ d := by unfold FCurve.genus; push_cast; rfl
  have hN := h.div_pos
  have scale : ∀ x : Fin d → ℝ, r.size (fun j => x j / c.div) = r.size x / c.genus := by
    intro x
    have := r.size_smul hr (k := (c.div : ℝ)⁻¹) (by positivity) x
    rw [inv_pow, ← hGN] at this
    rw [div_eq_inv_mul, ← this]
    congr 1
    funext j
    rw [div_eq_inv_mul]
  have hB0 : 0 ≤ r.size (fun _ : Fin d => (1 : ℝ)) := r.size_nonneg _
  set B := r.size (fun _ : Fin d => (1 : ℝ)) with hB
  have key : ∀ k : ℕ, ∀ p < c.mult, ∀ s t : ℝ, 0 ≤ s → s ≤ t → t ≤ 1 →
      r.size (fun j => f p s j - f p t j) ≤ w * (t - s) + B / (c.genus : ℝ) ^ k := by
    intro k
    induction k with
    | zero =>
      intro p hp s t h0 h1 h2
      have : r.size (fun j => f p s j - f p t j) ≤ B := by
        apply r.size_mono
        intro j
        have e1 := hf.mem_cube p hp s h0 (h1.trans h2) j
        have e2 := hf.mem_cube p hp t (h0.trans h1) h2 j
        rw [abs_one, abs_le]
        constructor <;> linarith [e1.1, e1.2, e2.1, e2.2]
      have : 0 ≤ w * (t - s) := mul_nonneg hw (by linarith)
      simp only [pow_zero, div_one]
      linarith
    | succ k ih =>
      intro p hp s t h0 h1 h2
      obtain ⟨i, hi, u, hu0, hu1, rfl⟩ := FCurve.exists_cell h.toShape h0 (h1.trans h2)
      obtain ⟨j, hj, v, hv0, hv1, rfl⟩ := FCurve.exists_cell h.toShape (h0.trans h1) h2
      have hst : (i : ℝ) + u ≤ j + v := by
        rw [div_le_div_iff_of_pos_right hG0] at h1
        exact h1
      have hpos : 0 ≤ B / (c.genus : ℝ) ^ k := by positivity
      rw [pow_succ, ← div_div]
      -- pairs of different fractions, in order
      have diff : ∀ i < c.genus, ∀ j < c.genus, i < j → ∀ u v : ℝ, 0 ≤ u → u ≤ 1 → 0 ≤ v → v ≤ 1 →
          r.size (fun m => f p ((i + u) / c.genus) m - f p ((j + v) / c.genus) m) ≤
            w * ((j + v) / c.genus - (i + u) / c.genus) + B / (c.genus : ℝ) ^ k / c.genus := by
        intro i hi j hj hij u v hu0 hu1 hv0 hv1
        have := ha p hp i j hij hj u v hu0 hu1 hv0 hv1
        unfold exc auto at this
        rw [hf.eqnD h hp hi hu0 hu1, hf.eqnD h hp hj hv0 hv1]
        have e : (fun m => (c.cubeD p i m + actFn (c.specD p i) f u m) / (c.div : ℝ) - (c.cubeD p j m + actFn (c.specD p j) f v m) / (c.div : ℝ)) =
            fun m => (-(fun m => ((c.cubeD p j m - c.cubeD p i m : ℤ) : ℝ) + actFn (c.specD p j) f v m - actFn (c.specD p i) f u m)) m / (c.div : ℝ) := by
          funext m
          simp only [Pi.neg_apply]
          push_cast
          ring
        rw [e, scale, r.size_neg]
        have h4 : 0 ≤ B / (c.genus : ℝ) ^ k / c.genus := by positivity
        have h5 : w * ((j + v) / c.genus - (i + u) / c.genus) = w * (((j : ℤ) - (i : ℤ) : ℤ) + v - u) / c.genus := by
          push_cast
          field_simp
          ring
        rw [h5]
        have h6 : r.size (fun m => ((c.cubeD p j m - c.cubeD p i m : ℤ) : ℝ) + actFn (c.specD p j) f v m - actFn (c.specD p i) f u m) / (c.genus : ℝ) ≤
            w * (((j : ℤ) - (i : ℤ) : ℤ) + v - u) / c.genus := by
          apply div_le_div_of_nonneg_right _ hG0.le
          linarith
        linarith
      rcases lt_trichotomy i j with hij | hij | hij
      · exact diff i hi j hj hij u v hu0 hu1 hv0 hv1
      · subst hij
        have huv : u ≤ v := by linarith
        rw [hf.eqnD h hp hi hu0 hu1, hf.eqnD h hp hi hv0 hv1]
        have e : (fun m => (c.cubeD p i m + actFn (c.specD p i) f u m) / (c.div : ℝ) - (c.cubeD p i m + actFn (c.specD p i) f v m) / (c.div : ℝ)) =
            fun m => (actFn (c.specD p i) f u - actFn (c.specD p i) f v) m / (c.div : ℝ) := by
          funext m
          simp only [Pi.sub_apply]
          ring
        rw [e, scale]
        have hsp := h.specD_lt hp hi
        have h7 : r.size (actFn (c.specD p i) f u - actFn (c.specD p i) f v) ≤ w * (v - u) + B / (c.genus : ℝ) ^ k := by
          unfold actFn
          rw [BaseMap.applyX_sub, r.size_applyVec]
          unfold BaseMap.applyT
          by_cases ht : (c.specD p i).baseMap.timeRev = true
          · simp only [ht, if_true]
            have := ih _ hsp (1 - v) (1 - u) (by linarith) (by linarith) (by linarith)
            have e2 : (f (c.specD p i).pnum (1 - u) - f (c.specD p i).pnum (1 - v)) =
                -(fun j => f (c.specD p i).pnum (1 - v) j - f (c.specD p i).pnum (1 - u) j) := by
              funext j; simp
            rw [e2, r.size_neg]
            linarith
          · simp only [ht]
            simp only [Bool.false_eq_true, if_false]
            exact ih _ hsp u v hu0 huv hv1
        have h8 : w * ((i + v) / c.genus - (i + u) / c.genus) + B / (c.genus : ℝ) ^ k / c.genus = (w * (v - u) + B / (c.genus : ℝ) ^ k) / c.genus := by
          field_simp
          ring
        rw [h8]
        exact div_le_div_of_nonneg_right h7 hG0.le
      · have hij' : (j : ℝ) + 1 ≤ i := by exact_mod_cast hij
        have hv : v = 1 := by linarith
        have hu : u = 0 := by linarith
        have hji : (i : ℝ) = j + 1 := by linarith
        subst hv hu
        rw [hji]
        have e : (fun m => f p (((j : ℝ) + 1 + 0) / c.genus) m - f p (((j : ℝ) + 1) / c.genus) m) = fun m => (0 : ℝ) * (1 : ℝ) := by
          funext m
          rw [add_zero]
          simp
        rw [e, r.size_smul hr le_rfl, zero_pow hd, zero_mul]
        have : 0 ≤ B / (c.genus : ℝ) ^ k / c.genus := by positivity
        rw [add_zero, sub_self, mul_zero, zero_add]
        exact this
  intro p hp s t h0 h1 h2
  have ht : Filter.Tendsto (fun k : ℕ => w * (t - s) + B / (c.genus : ℝ) ^ k) Filter.atTop (nhds (w * (t - s) + 0)) := by
    apply Filter.Tendsto.const_add
    apply Filter.Tendsto.const_div_atTop
    exact tendsto_pow_atTop_atTop_of_one_lt (by linarith)
  have := ge_of_tendsto' ht fun k => key k p hp s t h0 h1 h2
  simpa using this

end DilCert
end Peano
