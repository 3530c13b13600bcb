import Mathlib.Algebra.BigOperators.Fin
import Mathlib.Data.Rat.BigOperators
import Mathlib.Algebra.Order.BigOperators.Group.Finset
import Mathlib.Algebra.Order.BigOperators.Group.List
import Mathlib.Algebra.Order.BigOperators.Ring.Finset
import Mathlib.Data.List.FinRange
import Mathlib.Tactic.Positivity
import Mathlib.Tactic.Ring
import Mathlib.Tactic.Linarith
import Mathlib.Tactic.FieldSimp
import Verif.Lemmas.BaseMap
import Verif.Lemmas.Itertools
import Verif.Model.Utils

namespace Peano
open Finset

section ratio
variable {K : Type*} [Field K] [LinearOrder K] [IsStrictOrderedRing K] {d : ℕ}

theorem sumAbs_eq (v : Fin d → K) : sumAbs v = ∑ i, |v i| := by
  rw [sumAbs, ← List.ofFn_eq_map, List.sum_ofFn]

theorem sumSq_eq (v : Fin d → K) : sumSq v = ∑ i, v i ^ 2 := by
  rw [sumSq, ← List.ofFn_eq_map, List.sum_ofFn]

theorem foldr_max_le {l : List K} {m : K} : l.foldr max 0 ≤ m ↔ 0 ≤ m ∧ ∀ x ∈ l, x ≤ m := by
  induction l with
  | nil => simp
  | cons a l ih => simp only [List.foldr_cons, max_le_iff, ih, List.forall_mem_cons]; tauto

theorem maxAbs_le {v : Fin d → K} {m : K} (hm : 0 ≤ m) : maxAbs v ≤ m ↔ ∀ i, |v i| ≤ m := by
  rw [maxAbs, foldr_max_le]
  simp [hm]

theorem maxAbs_nonneg (v : Fin d → K) : 0 ≤ maxAbs v := (foldr_max_le.1 le_rfl).1

theorem abs_le_maxAbs (v : Fin d → K) (i : Fin d) : |v i| ≤ maxAbs v := (maxAbs_le (maxAbs_nonneg v)).1 le_rfl i

theorem maxAbs_mono {v w : Fin d → K} (h : ∀ i, |v i| ≤ |w i|) : maxAbs v ≤ maxAbs w :=
  (maxAbs_le (maxAbs_nonneg w)).2 fun i => (h i).trans (abs_le_maxAbs w i)

theorem sumAbs_mono {v w : Fin d → K} (h : ∀ i, |v i| ≤ |w i|) : sumAbs v ≤ sumAbs w := by
  rw [sumAbs_eq, sumAbs_eq]; exact sum_le_sum fun i _ => h i

theorem sumSq_mono {v w : Fin d → K} (h : ∀ i, |v i| ≤ |w i|) : sumSq v ≤ sumSq w := by
  rw [sumSq_eq, sumSq_eq]; exact sum_le_sum fun i _ => sq_le_sq.2 (h i)

theorem sumAbs_nonneg (v : Fin d → K) : 0 ≤ sumAbs v := by
  rw [sumAbs_eq]; exact sum_nonneg fun i _ => abs_nonneg _

theorem sumSq_nonneg (v : Fin d → K) : 0 ≤ sumSq v := by
  rw [sumSq_eq]; exact sum_nonneg fun i _ => sq_nonneg _

theorem Ratio.num_nonneg (r : Ratio) (v : Fin d → K) : 0 ≤ r.num v := by
  cases r
  · exact pow_nonneg (maxAbs_nonneg v) _
  · exact pow_nonneg (sumAbs_nonneg v) _
  · exact pow_nonneg (sumSq_nonneg v) _
  · exact pow_nonneg (sumSq_nonneg v) _

theorem Ratio.num_mono (r : Ratio) {v w : Fin d → K} (h : ∀ i, |v i| ≤ |w i|) : r.num v ≤ r.num w := by
  cases r
  · exact pow_le_pow_left₀ (maxAbs_nonneg v) (maxAbs_mono h) _
  · exact pow_le_pow_left₀ (sumAbs_nonneg v) (sumAbs_mono h) _
  · exact pow_le_pow_left₀ (sumSq_nonneg v) (sumSq_mono h) _
  · exact pow_le_pow_left₀ (sumSq_nonneg v) (sumSq_mono h) _

theorem Ratio.num_congr (r : Ratio) {v w : Fin d → K} (h : ∀ i, |v i| = |w i|) : r.num v = r.num w :=
  le_antisymm (r.num_mono fun i => (h i).le) (r.num_mono fun i => (h i).ge)

theorem Ratio.den_pos (r : Ratio) {t : K} (h : 0 < t) : 0 < r.den t := by
  cases r <;> simp only [Ratio.den] <;> positivity

theorem Ratio.den_mono (r : Ratio) {s t : K} (hs : 0 ≤ s) (h : s ≤ t) : r.den s ≤ r.den t := by
  cases r <;> simp only [Ratio.den] <;> first | exact h | exact pow_le_pow_left₀ hs h _

theorem Ratio.den_ne_zero (r : Ratio) {t : K} : r.den t ≠ 0 ↔ t ≠ 0 := by
  cases r <;> simp [Ratio.den]

theorem maxAbs_smul (k : K) (v : Fin d → K) : maxAbs (fun i => k * v i) = |k| * maxAbs v := by
  apply le_antisymm
  · rw [maxAbs_le (mul_nonneg (abs_nonneg k) (maxAbs_nonneg v))]
    intro i; rw [abs_mul]; exact mul_le_mul_of_nonneg_left (abs_le_maxAbs v i) (abs_nonneg k)
  · rcases eq_or_ne k 0 with rfl | hk
    · simp [maxAbs_nonneg]
    · have hk' : 0 < |k| := abs_pos.2 hk
      rw [← le_div_iff₀' hk', maxAbs_le (div_nonneg (maxAbs_nonneg _) hk'.le)]
      intro i
      rw [le_div_iff₀' hk', ← abs_mul]
      exact abs_le_maxAbs (fun i => k * v i) i

theorem sumAbs_smul (k : K) (v : Fin d → K) : sumAbs (fun i => k * v i) = |k| * sumAbs v := by
  rw [sumAbs_eq, sumAbs_eq, mul_sum]; exact sum_congr rfl fun i _ => abs_mul _ _

theorem sumSq_smul (k : K) (v : Fin d → K) : sumSq (fun i => k * v i) = k ^ 2 * sumSq v := by
  rw [sumSq_eq, sumSq_eq, mul_sum]; exact sum_congr rfl fun i _ => mul_pow _ _ _

/-- The power of `|k|` by which the numerator scales. -/
def Ratio.deg (r : Ratio) (d : ℕ) : ℕ := match r with
  | .l2sq => 2 * d
  | _ => d

theorem Ratio.num_smul (r : Ratio) (h : r.Ok d) (k : K) (v : Fin d → K) :
    r.num (fun i => k * v i) = |k| ^ r.deg d * r.num v := by
  cases r
  · simp only [Ratio.num, Ratio.deg, maxAbs_smul, mul_pow]
  · simp only [Ratio.num, Ratio.deg, sumAbs_smul, mul_pow]
  · simp only [Ratio.num, Ratio.deg, sumSq_smul, mul_pow, pow_mul, sq_abs]
  · simp only [Ratio.num, Ratio.deg, sumSq_smul, mul_pow]
    have h : d % 2 = 0 := h
    have h2 : d = 2 * (d / 2) := by omega
    have h3 : |k| ^ d = (k ^ 2) ^ (d / 2) := by
      calc |k| ^ d = |k| ^ (2 * (d / 2)) := by rw [← h2]
        _ = _ := by rw [pow_mul, sq_abs]
    rw [h3]

theorem Ratio.den_mul (r : Ratio) (d : ℕ) (k t : K) : r.den (k ^ d * t) = k ^ r.deg d * r.den t := by
  cases r <;> simp only [Ratio.den, Ratio.deg]
  rw [mul_pow, ← pow_mul, mul_comm d 2]

/-- Homogeneity of the ratio: space scaled by `k`, time by `k^d`. -/
theorem Ratio.val_smul (r : Ratio) (h : r.Ok d) {k : K} (hk : 0 < k) (v : Fin d → K) (t : K) :
    r.val (fun i => k * v i) (k ^ d * t) = r.val v t := by
  rw [Ratio.val, Ratio.val, r.num_smul h, r.den_mul, abs_of_pos hk]
  exact mul_div_mul_left _ _ (pow_ne_zero _ hk.ne')

theorem Ratio.val_mono (r : Ratio) {v w : Fin d → K} (h : ∀ i, |v i| ≤ |w i|) {s t : K} (hs : 0 < s) (hst : s ≤ t) :
    r.val v t ≤ r.val w s :=
  div_le_div₀ (r.num_nonneg w) (r.num_mono h) (r.den_pos hs) (r.den_mono hs.le hst)

theorem Ratio.val_nonneg (r : Ratio) (v : Fin d → K) {t : K} (ht : 0 ≤ t) : 0 ≤ r.val v t :=
  div_nonneg (r.num_nonneg v) (by cases r <;> simp only [Ratio.den] <;> positivity)

theorem abs_applyVec' (a : BaseMap d) (v : Fin d → K) (i : Fin d) : |a.applyVec v i| = |v (a.coords i).1| := by
  simp only [BaseMap.applyVec]; split <;> simp

theorem Ratio.num_applyVec (r : Ratio) (a : BaseMap d) (v : Fin d → K) : r.num (a.applyVec v) = r.num v := by
  have hs : ∀ (g : K → K) , ∑ i, g (v (a.coords i).1) = ∑ i, g (v i) := fun g =>
    Equiv.sum_comp (Equiv.ofBijective (fun i => (a.coords i).1) ⟨a.inj, a.coords_surj⟩) (fun i => g (v i))
  have h1 : maxAbs (a.applyVec v) = maxAbs v := by
    apply le_antisymm
    · rw [maxAbs_le (maxAbs_nonneg v)]; intro i; rw [abs_applyVec']; exact abs_le_maxAbs v _
    · rw [maxAbs_le (maxAbs_nonneg _)]; intro i
      obtain ⟨j, hj⟩ := a.coords_surj i
      have hj : (a.coords j).1 = i := hj
      rw [← hj, ← abs_applyVec']; exact abs_le_maxAbs _ j
  have h2 : sumAbs (a.applyVec v) = sumAbs v := by
    rw [sumAbs_eq, sumAbs_eq]; simp only [abs_applyVec']; exact hs _
  have h3 : sumSq (a.applyVec v) = sumSq v := by
    rw [sumSq_eq, sumSq_eq, ← hs fun x => x ^ 2]
    refine sum_congr rfl fun i _ => ?_
    rw [← sq_abs, abs_applyVec', sq_abs]
  cases r <;> simp only [Ratio.num, h1, h2, h3]

theorem Ratio.val_applyVec (r : Ratio) (a : BaseMap d) (v : Fin d → K) (t : K) : r.val (a.applyVec v) t = r.val v t := by
  rw [Ratio.val, Ratio.val, r.num_applyVec]

theorem Ratio.num_neg (r : Ratio) (v : Fin d → K) : r.num (-v) = r.num v := r.num_congr fun i => abs_neg _

theorem Ratio.val_neg (r : Ratio) (v : Fin d → K) (t : K) : r.val (-v) t = r.val v t := by
  rw [Ratio.val, Ratio.val, r.num_neg]

theorem Ratio.fn_eq_some (r : Ratio) (h : r.Ok d) (v : Fin d → K) {t : K} (ht : t ≠ 0) : r.fn v t = some (r.val v t) := by
  rw [Ratio.fn, if_pos h, if_neg (r.den_ne_zero.2 ht)]

/-- Casting rationals. -/
theorem Ratio.val_cast (r : Ratio) (v : Fin d → ℚ) (t : ℚ) : r.val (fun i => (v i : K)) (t : K) = ((r.val v t : ℚ) : K) := by
  have h1 : maxAbs (fun i => (v i : K)) = ((maxAbs v : ℚ) : K) := by
    simp only [maxAbs]
    induction List.finRange d with
    | nil => simp
    | cons a l ih => simp only [List.map_cons, List.foldr_cons, ih, Rat.cast_max, Rat.cast_abs]
  have h2 : sumAbs (fun i => (v i : K)) = ((sumAbs v : ℚ) : K) := by
    rw [sumAbs_eq, sumAbs_eq, Rat.cast_sum]; push_cast; rfl
  have h3 : sumSq (fun i => (v i : K)) = ((sumSq v : ℚ) : K) := by
    rw [sumSq_eq, sumSq_eq, Rat.cast_sum]; push_cast; rfl
  cases r <;> simp only [Ratio.val, Ratio.num, Ratio.den, h1, h2, h3] <;> push_cast <;> rfl

end ratio

/-! ### integer coordinates -/

theorem intCubeLoop_cons {d : ℕ} (div : ℕ) (c : Cube d) (cs : List (Cube d)) :
    intCubeLoop div (c :: cs) = (fun j => (intCubeLoop div cs).1 j + c j * (intCubeLoop div cs).2, (intCubeLoop div cs).2 * div) := by
  simp only [intCubeLoop, List.reverse_cons, List.foldl_append, List.foldl_cons, List.foldl_nil]

theorem intCubeLoop_snd {d : ℕ} (div : ℕ) (cs : List (Cube d)) : (intCubeLoop div cs).2 = (div : ℤ) ^ cs.length := by
  induction cs with
  | nil => rfl
  | cons c cs ih => rw [intCubeLoop_cons]; simp only [ih, List.length_cons, pow_succ]

@[simp] theorem getIntCube_nil {d : ℕ} (div : ℕ) : getIntCube (d := d) div [] = fun _ => 0 := rfl

theorem getIntCube_cons {d : ℕ} (div : ℕ) (c : Cube d) (cs : List (Cube d)) (j : Fin d) :
    getIntCube div (c :: cs) j = getIntCube div cs j + c j * (div : ℤ) ^ cs.length := by
  simp only [getIntCube, intCubeLoop_cons, intCubeLoop_snd]

theorem getIntCube_append_singleton {d : ℕ} (div : ℕ) (c : Cube d) (cs : List (Cube d)) (j : Fin d) :
    getIntCube div (cs ++ [c]) j = getIntCube div cs j * div + c j := by
  induction cs with
  | nil => simp [getIntCube_cons]
  | cons a cs ih =>
    rw [List.cons_append, getIntCube_cons, ih, getIntCube_cons]
    simp only [List.length_append, List.length_singleton, pow_succ]; ring

theorem getIntCube_range {d : ℕ} (div : ℕ) (cs : List (Cube d)) (h : ∀ c ∈ cs, ∀ j, 0 ≤ c j ∧ c j < div) (j : Fin d) :
    0 ≤ getIntCube div cs j ∧ getIntCube div cs j < (div : ℤ) ^ cs.length := by
  induction cs with
  | nil => simp
  | cons c cs ih =>
    have hi := ih fun c' hc' => h c' (List.mem_cons_of_mem _ hc')
    have hc := h c List.mem_cons_self j
    rw [getIntCube_cons, List.length_cons, pow_succ]
    have hp : (0:ℤ) ≤ (div : ℤ) ^ cs.length := by positivity
    constructor
    · nlinarith
    · have : (c j + 1) * (div : ℤ) ^ cs.length ≤ div * (div : ℤ) ^ cs.length :=
        mul_le_mul_of_nonneg_right (by omega) hp
      nlinarith

theorem intTimeLoop_cons (dim div : ℕ) (c : ℕ) (cs : List ℕ) :
    intTimeLoop dim div (c :: cs) = ((intTimeLoop dim div cs).1 + c * (intTimeLoop dim div cs).2, (intTimeLoop dim div cs).2 * div ^ dim) := by
  simp only [intTimeLoop, List.reverse_cons, List.foldl_append, List.foldl_cons, List.foldl_nil]

theorem intTimeLoop_snd (dim div : ℕ) (cs : List ℕ) : (intTimeLoop dim div cs).2 = (div ^ dim) ^ cs.length := by
  induction cs with
  | nil => rfl
  | cons c cs ih => rw [intTimeLoop_cons]; simp only [ih, List.length_cons, pow_succ]

@[simp] theorem getIntTime_nil (dim div : ℕ) : getIntTime dim div [] = 0 := rfl

theorem getIntTime_cons (dim div : ℕ) (c : ℕ) (cs : List ℕ) :
    getIntTime dim div (c :: cs) = getIntTime dim div cs + c * (div ^ dim) ^ cs.length := by
  simp only [getIntTime, intTimeLoop_cons, intTimeLoop_snd]

theorem getIntTime_append_singleton (dim div : ℕ) (c : ℕ) (cs : List ℕ) :
    getIntTime dim div (cs ++ [c]) = getIntTime dim div cs * div ^ dim + c := by
  induction cs with
  | nil => simp [getIntTime_cons]
  | cons a cs ih =>
    rw [List.cons_append, getIntTime_cons, ih, getIntTime_cons]
    simp only [List.length_append, List.length_singleton]; ring

theorem getIntTime_lt (dim div : ℕ) (cs : List ℕ) (h : ∀ c ∈ cs, c < div ^ dim) :
    getIntTime dim div cs < (div ^ dim) ^ cs.length := by
  induction cs with
  | nil => simp
  | cons c cs ih =>
    have hi := ih fun c' hc' => h c' (List.mem_cons_of_mem _ hc')
    have hc := h c List.mem_cons_self
    rw [getIntTime_cons, List.length_cons, pow_succ]
    have : (c + 1) * (div ^ dim) ^ cs.length ≤ div ^ dim * (div ^ dim) ^ cs.length := Nat.mul_le_mul_right _ hc
    nlinarith

end Peano
