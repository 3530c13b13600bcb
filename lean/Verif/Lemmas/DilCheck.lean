import Verif.Lemmas.DilCert
import Mathlib.Analysis.InnerProductSpace.PiL2

set_option autoImplicit false

/-
A checker of certificates for `DilCert`, that the kernel can run, and its soundness.
-/
namespace Peano
namespace DilCert
variable {d : ℕ}

/-! ### arithmetic of lists -/

/-- The vector of a list. -/
def vec (l : List ℤ) : Fin d → ℤ := fun j => l.getD j 0

@[simp] theorem vec_ofFn (x : Fin d → ℤ) : vec (List.ofFn x) = x := by
  funext j
  simp [vec, List.getD, j.2]

theorem ofFn_vec {l : List ℤ} (h : l.length = d) : List.ofFn (vec l : Fin d → ℤ) = l := by
  subst h
  apply List.ext_getElem (by simp)
  intro i h1 h2
  simp [vec, List.getD, h2]

/-- `sum (|x_j| + 1)` -/
def sum1 : List ℤ → ℕ
  | [] => 0
  | x :: l => x.natAbs + 1 + sum1 l
/-- `max (|x_j| + 1)` -/
def max1 : List ℤ → ℕ
  | [] => 0
  | x :: l => max (x.natAbs + 1) (max1 l)
/-- `sum (|x_j| + 1)^2` -/
def sq1 : List ℤ → ℕ
  | [] => 0
  | x :: l => (x.natAbs + 1) * (x.natAbs + 1) + sq1 l
/-- `sum |x_j|` -/
def sum0 : List ℤ → ℕ
  | [] => 0
  | x :: l => x.natAbs + sum0 l
/-- `max |x_j|` -/
def max0 : List ℤ → ℕ
  | [] => 0
  | x :: l => max x.natAbs (max0 l)
/-- `sum x_j^2` -/
def sq0 : List ℤ → ℕ
  | [] => 0
  | x :: l => x.natAbs * x.natAbs + sq0 l
/-- Difference of lists. -/
def sub0 : List ℤ → List ℤ → List ℤ
  | x :: l, y :: m => (x - y) :: sub0 l m
  | _, _ => []

theorem sum1_eq (x : Fin d → ℤ) : (sum1 (List.ofFn x) : ℝ) = ∑ j, (|(x j : ℝ)| + 1) := by
  induction d with
  | zero => simp [sum1]
  | succ d ih => rw [List.ofFn_succ, Fin.sum_univ_succ, ← ih]; simp [sum1, Nat.cast_natAbs]

theorem sum0_eq (x : Fin d → ℤ) : (sum0 (List.ofFn x) : ℝ) = ∑ j, |(x j : ℝ)| := by
  induction d with
  | zero => simp [sum0]
  | succ d ih => rw [List.ofFn_succ, Fin.sum_univ_succ, ← ih]; simp [sum0, Nat.cast_natAbs]

theorem sq1_eq (x : Fin d → ℤ) : (sq1 (List.ofFn x) : ℝ) = ∑ j, (|(x j : ℝ)| + 1) ^ 2 := by
  induction d with
  | zero => simp [sq1]
  | succ d ih => rw [List.ofFn_succ, Fin.sum_univ_succ, ← ih]; simp [sq1, Nat.cast_natAbs, pow_two]

theorem sq0_eq (x : Fin d → ℤ) : (sq0 (List.ofFn x) : ℝ) = ∑ j, (x j : ℝ) ^ 2 := by
  induction d with
  | zero => simp [sq0]
  | succ d ih => rw [List.ofFn_succ, Fin.sum_univ_succ, ← ih]; simp [sq0, Nat.cast_natAbs, pow_two]

theorem le_max1 (x : Fin d → ℤ) (j : Fin d) : |(x j : ℝ)| + 1 ≤ max1 (List.ofFn x) := by
  induction d with
  | zero => exact j.elim0
  | succ d ih =>
    rw [List.ofFn_succ]
    simp only [max1]
    rw [Nat.cast_max]
    refine Fin.cases ?_ (fun j => ?_) j
    · exact le_max_of_le_left (by simp [Nat.cast_natAbs])
    · exact le_max_of_le_right (ih (fun i => x i.succ) j)

theorem le_max0 (x : Fin d → ℤ) (j : Fin d) : |(x j : ℝ)| ≤ max0 (List.ofFn x) := by
  induction d with
  | zero => exact j.elim0
  | succ d ih =>
    rw [List.ofFn_succ]
    simp only [max0]
    rw [Nat.cast_max]
    refine Fin.cases ?_ (fun j => ?_) j
    · exact le_max_of_le_left (by simp [Nat.cast_natAbs])
    · exact le_max_of_le_right (ih (fun i => x i.succ) j)

theorem sub0_eq (x y : Fin d → ℤ) : sub0 (List.ofFn x) (List.ofFn y) = List.ofFn fun j => x j - y j := by
  induction d with
  | zero => simp [sub0]
  | succ d ih => rw [List.ofFn_succ, List.ofFn_succ, List.ofFn_succ]; simp [sub0, ih]

/-! ### norms -/

/-- Norms of the metrics. -/
noncomputable def nrm (r : Ratio) (x : Fin d → ℝ) : ℝ := match r with
  | .linf => maxAbs x
  | .l1 => sumAbs x
  | _ => Real.sqrt (sumSq x)

theorem sqrt_pow' {s : ℝ} (hs : 0 ≤ s) (k : ℕ) : Real.sqrt (s ^ k) = Real.sqrt s ^ k := by
  conv_lhs => rw [← Real.sq_sqrt hs, ← pow_mul, mul_comm 2 k, pow_mul]
  exact Real.sqrt_sq (pow_nonneg (Real.sqrt_nonneg _) _)

theorem size_eq (r : Ratio) (hr : r ≠ .l2) (x : Fin d → ℝ) : r.size x = nrm r x ^ d := by
  cases r <;> simp only [Ratio.size, nrm, Ratio.num]
  · exact sqrt_pow' (sumSq_nonneg x) d
  · exact absurd rfl hr

theorem nrm_nonneg (r : Ratio) (x : Fin d → ℝ) : 0 ≤ nrm r x := by
  cases r <;> simp only [nrm] <;> first | exact maxAbs_nonneg x | exact sumAbs_nonneg x | exact Real.sqrt_nonneg _

theorem nrm_mono (r : Ratio) {x y : Fin d → ℝ} (h : ∀ i, |x i| ≤ |y i|) : nrm r x ≤ nrm r y := by
  cases r <;> simp only [nrm] <;> first | exact maxAbs_mono h | exact sumAbs_mono h | exact Real.sqrt_le_sqrt (sumSq_mono h)

theorem sqrt_sumSq (x : Fin d → ℝ) : Real.sqrt (sumSq x) = ‖WithLp.toLp 2 x‖ := by
  rw [EuclideanSpace.norm_eq, sumSq_eq]
  simp

theorem nrm_add_le (r : Ratio) (x y : Fin d → ℝ) : nrm r (x + y) ≤ nrm r x + nrm r y := by
  cases r <;> simp only [nrm]
  · rw [maxAbs_le (add_nonneg (maxAbs_nonneg _) (maxAbs_nonneg _))]
    exact fun i => (abs_add_le _ _).trans (add_le_add (abs_le_maxAbs x i) (abs_le_maxAbs y i))
  · rw [sumAbs_eq, sumAbs_eq, sumAbs_eq, ← Finset.sum_add_distrib]
    exact Finset.sum_le_sum fun i _ => abs_add_le _ _
  · rw [sqrt_sumSq, sqrt_sumSq, sqrt_sumSq]
    exact norm_add_le _ _
  · rw [sqrt_sumSq, sqrt_sumSq, sqrt_sumSq]
    exact norm_add_le _ _

theorem pow_sub_pow_mono {n A K : ℝ} (hn : 0 ≤ n) (h : n ≤ A) (hK : 0 ≤ K) (k : ℕ) : (n + K) ^ k - n ^ k ≤ (A + K) ^ k - A ^ k := by
  induction k with
  | zero => simp
  | succ k ih =>
    have e : ∀ x : ℝ, (x + K) ^ (k + 1) - x ^ (k + 1) = (x + K) * ((x + K) ^ k - x ^ k) + K * x ^ k := by intro x; ring
    rw [e, e]
    have h1 : 0 ≤ (n + K) ^ k - n ^ k := sub_nonneg.2 (pow_le_pow_left₀ hn (by linarith) k)
    have h2 : n ^ k ≤ A ^ k := pow_le_pow_left₀ hn h k
    have h3 : (n + K) * ((n + K) ^ k - n ^ k) ≤ (A + K) * ((A + K) ^ k - A ^ k) :=
      mul_le_mul (by linarith) ih h1 (by linarith)
    have h4 : K * n ^ k ≤ K * A ^ k := mul_le_mul_of_nonneg_left h2 hK
    linarith

/-- Lengths near two vectors, by the triangle inequality. -/
theorem dom_tri {r : Ratio} (hr : r ≠ .l2) {D D' : Fin d → ℤ} {A K W : ℝ} (hA : nrm r (fun j => |(D j : ℝ)| + 1) ≤ A)
    (hK : nrm r (fun j => (D' j : ℝ) - D j) ≤ K) (h : (A + K) ^ d - A ^ d ≤ W) {x : Fin d → ℝ} (hx : ∀ j, |x j| ≤ 1) :
    r.size (fun j => (D' j : ℝ) + x j) - r.size (fun j => (D j : ℝ) + x j) ≤ W := by
  rw [size_eq r hr, size_eq r hr]
  have h1 : nrm r (fun j => (D' j : ℝ) + x j) ≤ nrm r (fun j => (D j : ℝ) + x j) + K := by
    have := nrm_add_le r (fun j => (D j : ℝ) + x j) (fun j => (D' j : ℝ) - D j)
    have e : ((fun j => (D j : ℝ) + x j) + fun j => (D' j : ℝ) - D j) = fun j => (D' j : ℝ) + x j := by
      funext j; simp only [Pi.add_apply]; ring
    rw [e] at this
    linarith
  have h2 : nrm r (fun j => (D j : ℝ) + x j) ≤ A := by
    refine le_trans (nrm_mono r fun j => ?_) hA
    rw [abs_of_nonneg (a := |(D j : ℝ)| + 1) (by positivity)]
    exact (abs_add_le _ _).trans (add_le_add le_rfl (hx j))
  have hK0 : 0 ≤ K := (nrm_nonneg _ _).trans hK
  have h3 := pow_sub_pow_mono (nrm_nonneg r _) h2 hK0 d
  have h4 : nrm r (fun j => (D' j : ℝ) + x j) ^ d ≤ (nrm r (fun j => (D j : ℝ) + x j) + K) ^ d := pow_le_pow_left₀ (nrm_nonneg r _) h1 d
  linarith

/-- Lengths near two vectors of the plane. -/
theorem dom_plane {D D' : Fin 2 → ℤ} {W : ℝ}
    (h : (∑ j, (D' j : ℝ) ^ 2) + 2 * (∑ j, |(D' j : ℝ) - D j|) ≤ (∑ j, (D j : ℝ) ^ 2) + W) {x : Fin 2 → ℝ} (hx : ∀ j, |x j| ≤ 1) :
    Ratio.l2sq.size (fun j => (D' j : ℝ) + x j) - Ratio.l2sq.size (fun j => (D j : ℝ) + x j) ≤ W := by
  rw [size_eq _ (by decide), size_eq _ (by decide)]
  simp only [nrm]
  rw [Real.sq_sqrt (sumSq_nonneg _), Real.sq_sqrt (sumSq_nonneg _), sumSq_eq, sumSq_eq]
  have hj : ∀ j, ((D' j : ℝ) - D j) * x j ≤ |(D' j : ℝ) - D j| := by
    intro j
    calc _ ≤ |((D' j : ℝ) - D j) * x j| := le_abs_self _
      _ = |(D' j : ℝ) - D j| * |x j| := abs_mul _ _
      _ ≤ |(D' j : ℝ) - D j| * 1 := mul_le_mul_of_nonneg_left (hx j) (abs_nonneg _)
      _ = _ := mul_one _
  have h0 := hj 0
  have h1 := hj 1
  simp only [Fin.sum_univ_two] at h ⊢
  nlinarith

/-! ### tests of states -/

/-- How lengths are measured, and the arithmetic used: `space n S` is for irrational lengths, in units `sqrt n / S`. -/
inductive Kind
  | linf
  | l1
  | plane
  | space (n S : ℕ)

def Kind.ratio : Kind → Ratio
  | .linf => .linf
  | .l1 => .l1
  | _ => .l2sq

/-- The bound `vn / vd` is for the ratio, except for `plane`: for its square root. -/
noncomputable def Kind.w (k : Kind) (vn vd : ℕ) : ℝ := match k with
  | .space _ _ => Real.sqrt (vn / vd)
  | _ => vn / vd

def Kind.Dim (k : Kind) (d : ℕ) : Prop := match k with
  | .plane => d = 2
  | .space n S => 0 < n ∧ 0 < S
  | _ => True

theorem Kind.w_nonneg (k : Kind) (vn vd : ℕ) : 0 ≤ k.w vn vd := by
  cases k <;> simp only [Kind.w] <;> positivity

theorem Kind.ratio_ne (k : Kind) : k.ratio ≠ .l2 := by cases k <;> simp [Kind.ratio]

theorem Kind.ratio_ok (k : Kind) (hd : d ≠ 0) : k.ratio.Ok d := by
  cases k <;> (simp [Kind.ratio, Ratio.Ok]; try omega)

/-- The pieces are so far from each other in time that no pair of points has excess. -/
def okB (k : Kind) (d vn vd : ℕ) (D : List ℤ) (T : ℕ) : Bool := match k with
  | .linf => Nat.ble (Nat.pow (max1 D) d * vd) (vn * (T - 1))
  | .l1 => Nat.ble (Nat.pow (sum1 D) d * vd) (vn * (T - 1))
  | .plane => Nat.ble (sq1 D * vd) (vn * (T - 1))
  | .space _ _ => Nat.ble (Nat.pow (sq1 D) d * vd) (vn * ((T - 1) * (T - 1)))

/-- Square root, rounded up, by bits. -/
def csqrt : ℕ → ℕ → ℕ → ℕ
  | 0, _, k => k + 1
  | b + 1, m, k => if Nat.ble m (Nat.pow (k + Nat.pow 2 b) 2) then csqrt b m k else csqrt b m (k + Nat.pow 2 b)

/-- Pieces with difference `D'`, `T'` have no more excess than pieces with `D`, `T`. -/
def domB (k : Kind) (d vn vd : ℕ) (D : List ℤ) (T al : ℕ) (D' : List ℤ) (T' : ℕ) : Bool :=
  Nat.ble T T' && match k with
  | .linf => Nat.ble (Nat.pow (max1 D + max0 (sub0 D' D)) d * vd) (Nat.pow (max1 D) d * vd + vn * (T' - T))
  | .l1 => Nat.ble (Nat.pow (sum1 D + sum0 (sub0 D' D)) d * vd) (Nat.pow (sum1 D) d * vd + vn * (T' - T))
  | .plane => Nat.ble ((sq0 D' + 2 * sum0 (sub0 D' D)) * vd) (sq0 D * vd + vn * (T' - T))
  | .space n S =>
    let e := sq0 (sub0 D' D)
    let ka := if Nat.beq e 0 then 0 else csqrt 20 ((e * (S * S) + n - 1) / n) 0
    Nat.ble (sq1 D * (S * S)) (al * al * n) && Nat.ble (e * (S * S)) (ka * ka * n) &&
      Nat.ble (Nat.pow n d * Nat.pow (Nat.pow (al + ka) d - Nat.pow al d) 2 * vd) (vn * Nat.pow ((T' - T) * Nat.pow S d) 2)

theorem le_div_mul {a b v t : ℝ} (hb : 0 < b) (h : a * b ≤ v * t) : a ≤ v / b * t := by
  rw [div_mul_eq_mul_div, le_div_iff₀ hb]; exact h

theorem okB_sound {k : Kind} (hk : k.Dim d) {vn vd : ℕ} (hvd : 0 < vd) {D : Fin d → ℤ} {T : ℕ} (hT : 1 ≤ T)
    (h : okB k d vn vd (List.ofFn D) T = true) : k.ratio.size (fun j => |(D j : ℝ)| + 1) ≤ k.w vn vd * ((T : ℝ) - 1) := by
  have hv : (0 : ℝ) < vd := by exact_mod_cast hvd
  have hc : ((T - 1 : ℕ) : ℝ) = (T : ℝ) - 1 := by rw [Nat.cast_sub hT]; simp
  have habs : ∀ j, |(|(D j : ℝ)| + 1)| = |(D j : ℝ)| + 1 := fun j => abs_of_nonneg (by positivity)
  rw [size_eq _ k.ratio_ne]
  cases k with
  | linf =>
    simp only [okB, Nat.ble_eq, Nat.pow_eq] at h
    have h' : ((max1 (List.ofFn D) : ℝ)) ^ d * vd ≤ vn * ((T : ℝ) - 1) := by rw [← hc]; exact_mod_cast h
    refine le_trans ?_ (le_div_mul hv h')
    refine pow_le_pow_left₀ (nrm_nonneg _ _) ?_ d
    simp only [Kind.ratio, nrm]
    rw [maxAbs_le (by positivity)]
    intro j
    rw [habs]
    exact le_max1 D j
  | l1 =>
    simp only [okB, Nat.ble_eq, Nat.pow_eq] at h
    have h' : ((sum1 (List.ofFn D) : ℝ)) ^ d * vd ≤ vn * ((T : ℝ) - 1) := by rw [← hc]; exact_mod_cast h
    refine le_trans ?_ (le_div_mul hv h')
    refine pow_le_pow_left₀ (nrm_nonneg _ _) ?_ d
    simp only [Kind.ratio, nrm]
    rw [sumAbs_eq, sum1_eq]
    simp only [habs]
    exact le_rfl
  | plane =>
    obtain rfl : d = 2 := hk
    simp only [okB, Nat.ble_eq] at h
    have h' : ((sq1 (List.ofFn D) : ℝ)) * vd ≤ vn * ((T : ℝ) - 1) := by rw [← hc]; exact_mod_cast h
    refine le_trans ?_ (le_div_mul hv h')
    simp only [Kind.ratio, nrm]
    rw [Real.sq_sqrt (sumSq_nonneg _), sumSq_eq, sq1_eq]
  | space n S =>
    simp only [okB, Nat.ble_eq, Nat.pow_eq] at h
    have h' : ((sq1 (List.ofFn D) : ℝ)) ^ d * vd ≤ vn * (((T : ℝ) - 1) * ((T : ℝ) - 1)) := by rw [← hc]; exact_mod_cast h
    have h2 := le_div_mul hv h'
    simp only [Kind.ratio, nrm, Kind.w]
    rw [sumSq_eq, ← sq1_eq, ← sqrt_pow' (by positivity)]
    have hT1 : (0 : ℝ) ≤ (T : ℝ) - 1 := by rw [← hc]; positivity
    calc _ ≤ Real.sqrt (vn / vd * (((T : ℝ) - 1) * ((T : ℝ) - 1))) := Real.sqrt_le_sqrt h2
      _ = _ := by rw [Real.sqrt_mul (by positivity), Real.sqrt_mul_self hT1]

theorem domB_sound {k : Kind} (hk : k.Dim d) {vn vd : ℕ} (hvd : 0 < vd) {D D' : Fin d → ℤ} {T T' al : ℕ}
    (h : domB k d vn vd (List.ofFn D) T al (List.ofFn D') T' = true) {x : Fin d → ℝ} (hx : ∀ j, |x j| ≤ 1) :
    k.ratio.size (fun j => (D' j : ℝ) + x j) - k.ratio.size (fun j => (D j : ℝ) + x j) ≤ k.w vn vd * ((T' : ℝ) - T) := by
  have hv : (0 : ℝ) < vd := by exact_mod_cast hvd
  unfold domB at h
  rw [Bool.and_eq_true, Nat.ble_eq, sub0_eq] at h
  obtain ⟨hTT, h⟩ := h
  have hc : ((T' - T : ℕ) : ℝ) = (T' : ℝ) - T := by rw [Nat.cast_sub hTT]
  have hT0 : (0 : ℝ) ≤ (T' : ℝ) - T := by rw [← hc]; positivity
  have habs : ∀ j, |(|(D j : ℝ)| + 1)| = |(D j : ℝ)| + 1 := fun j => abs_of_nonneg (by positivity)
  cases k with
  | linf =>
    simp only [Nat.ble_eq, Nat.pow_eq] at h
    refine dom_tri (A := max1 (List.ofFn D)) (K := max0 (List.ofFn fun j => D' j - D j)) (Kind.ratio_ne _) ?_ ?_ ?_ hx
    · simp only [Kind.ratio, nrm]
      rw [maxAbs_le (by positivity)]
      intro j
      rw [habs]
      exact le_max1 D j
    · simp only [Kind.ratio, nrm]
      rw [maxAbs_le (by positivity)]
      intro j
      have := le_max0 (fun j => D' j - D j) j
      push_cast at this
      exact this
    · simp only [Kind.w]
      apply le_div_mul hv
      rw [← hc, sub_mul, sub_le_iff_le_add']
      exact_mod_cast h
  | l1 =>
    simp only [Nat.ble_eq, Nat.pow_eq] at h
    refine dom_tri (A := sum1 (List.ofFn D)) (K := sum0 (List.ofFn fun j => D' j - D j)) (Kind.ratio_ne _) ?_ ?_ ?_ hx
    · simp only [Kind.ratio, nrm]
      rw [sumAbs_eq, sum1_eq]
      simp only [habs]
      exact le_rfl
    · simp only [Kind.ratio, nrm]
      rw [sumAbs_eq, sum0_eq]
      push_cast
      exact le_rfl
    · simp only [Kind.w]
      apply le_div_mul hv
      rw [← hc, sub_mul, sub_le_iff_le_add']
      exact_mod_cast h
  | plane =>
    obtain rfl : d = 2 := hk
    simp only [Nat.ble_eq] at h
    refine dom_plane ?_ hx
    simp only [Kind.w]
    have h' : ((sq0 (List.ofFn D') : ℝ) + 2 * (sum0 (List.ofFn fun j => D' j - D j))) * vd ≤ (sq0 (List.ofFn D)) * vd + vn * ((T' : ℝ) - T) := by
      rw [← hc]
      exact_mod_cast h
    rw [sq0_eq, sq0_eq, sum0_eq] at h'
    push_cast at h'
    have := le_div_mul (a := (∑ j, (D' j : ℝ) ^ 2) + 2 * (∑ j, |(D' j : ℝ) - D j|) - ∑ j, (D j : ℝ) ^ 2) (v := vn) (t := (T' : ℝ) - T) hv (by linarith)
    linarith
  | space n S =>
    obtain ⟨hn, hS⟩ := hk
    have hn' : (0 : ℝ) < n := by exact_mod_cast hn
    have hS' : (0 : ℝ) < S := by exact_mod_cast hS
    simp only [Bool.and_eq_true, Nat.ble_eq, Nat.pow_eq] at h
    generalize (if Nat.beq (sq0 (List.ofFn fun j => D' j - D j)) 0 = true then 0
      else csqrt 20 ((sq0 (List.ofFn fun j => D' j - D j) * (S * S) + n - 1) / n) 0) = ka at h
    obtain ⟨⟨h1, h2⟩, h3⟩ := h
    have e1 : ((sq1 (List.ofFn D) : ℝ)) * (S * S) ≤ al * al * n := by exact_mod_cast h1
    have e2 : ((sq0 (List.ofFn fun j => D' j - D j) : ℝ)) * (S * S) ≤ ka * ka * n := by exact_mod_cast h2
    have e3 : (n : ℝ) ^ d * ((al + ka) ^ d - al ^ d) ^ 2 * vd ≤ vn * (((T' : ℝ) - T) * S ^ d) ^ 2 := by
      rw [← hc]
      have : al ^ d ≤ (al + ka) ^ d := Nat.pow_le_pow_left (by omega) d
      have := h3
      have e : (((al + ka) ^ d - al ^ d : ℕ) : ℝ) = ((al : ℝ) + ka) ^ d - al ^ d := by
        rw [Nat.cast_sub (by assumption)]; push_cast; rfl
      rw [← e]
      exact_mod_cast h3
    have root : ∀ {m a : ℕ}, (m : ℝ) * (S * S) ≤ a * a * n → Real.sqrt m ≤ a * Real.sqrt n / S := by
      intro m a hm
      apply Real.sqrt_le_iff.2
      refine ⟨by positivity, ?_⟩
      rw [div_pow, mul_pow, Real.sq_sqrt hn'.le, le_div_iff₀ (by positivity)]
      nlinarith
    refine dom_tri (A := al * Real.sqrt n / S) (K := ka * Real.sqrt n / S) (Kind.ratio_ne _) ?_ ?_ ?_ hx
    · simp only [Kind.ratio, nrm]
      rw [sumSq_eq, ← sq1_eq]
      exact root e1
    · simp only [Kind.ratio, nrm]
      rw [sumSq_eq]
      have := root e2
      rw [sq0_eq] at this
      push_cast at this
      exact this
    · simp only [Kind.w]
      have hq : (al * Real.sqrt n / S + ka * Real.sqrt n / S) ^ d - (al * Real.sqrt n / S) ^ d = Real.sqrt n ^ d * (((al : ℝ) + ka) ^ d - al ^ d) / S ^ d := by
        rw [← add_div, ← add_mul, div_pow, div_pow, mul_pow, mul_pow]
        ring
      rw [hq, div_le_iff₀ (by positivity)]
      have hpos : 0 ≤ ((al : ℝ) + ka) ^ d - al ^ d := sub_nonneg.2 (pow_le_pow_left₀ (by positivity) (by linarith [(Nat.cast_nonneg ka : (0:ℝ) ≤ ka)]) d)
      refine le_of_sq_le_sq ?_ (by positivity)
      have e4 := le_div_mul hv e3
      rw [mul_pow, ← pow_mul, mul_comm d 2, pow_mul, Real.sq_sqrt hn'.le]
      rw [mul_assoc, mul_pow, Real.sq_sqrt (by positivity)]
      exact e4

/-! ### states up to isometries -/

variable {c : FCurve d} {f : ℕ → ℝ → Fin d → ℝ} {r : Ratio} {w : ℝ}

/-- The state seen after an isometry. -/
def act (g : BaseMap d) (s : State d) : State d := ⟨Spec.rmulBaseMap g s.a, Spec.rmulBaseMap g s.b, g.applyVec s.D, s.T⟩

theorem exc_act (g : BaseMap d) (hg : g.timeRev = false) (s : State d) (u v : ℝ) : exc f r w (act g s) u v = exc f r w s u v := by
  unfold exc act
  have ht : ∀ t : ℝ, g.applyT 1 t = t := by intro t; simp [BaseMap.applyT, hg]
  simp only [actFn_rmul, ht]
  congr 1
  rw [← r.size_applyVec g (fun j => (s.D j : ℝ) + actFn s.b f v j - actFn s.a f u j)]
  congr 1
  funext j
  simp only [BaseMap.applyVec, BaseMap.applyX]
  split <;> push_cast <;> ring

theorem le_act {g : BaseMap d} (hg : g.timeRev = false) {s : State d} {B : ℝ} (h : Le f r w (act g s) B) : Le f r w s B := by
  intro u v h1 h2 h3 h4
  rw [← exc_act g hg]
  exact h u v h1 h2 h3 h4

/-! ### certificates -/

/-- A state of a certificate.  The first spec is the pattern `p`, with time reversed if `tr`. -/
structure Ent (d : ℕ) where
  tr : Bool
  p : ℕ
  b : Spec d
  key : ℕ
  D : List ℤ
  T : ℕ
  al : ℕ

/-- Pattern `p`, with time reversed if `tr`. -/
def revSpec (d : ℕ) (tr : Bool) (p : ℕ) : Spec d := ⟨⟨fun j => (j, false), tr, fun _ _ h => h⟩, p⟩

def Ent.st (o : Ent d) : State d := ⟨revSpec d o.tr o.p, o.b, vec o.D, o.T⟩

/-- A number that (in practice) tells the specs apart. -/
def key (tr : Bool) (p : ℕ) (b : Spec d) : ℕ :=
  (List.finRange d).foldr (fun j n => n * 16 + 2 * (b.baseMap.coords j).1 + (b.baseMap.coords j).2.toNat)
    ((p * 8 + b.pnum) * 4 + 2 * tr.toNat + b.baseMap.timeRev.toNat)

/-- Cubes and specs of fractions, from those of patterns. -/
def rows (N : ℕ) (prow : List (List (List ℤ × Spec d))) (s : Spec d) : List (List ℤ × Spec d) :=
  let l := prow.getD s.pnum []
  (if s.baseMap.timeRev then l.reverse else l).map fun e => (List.ofFn (s.baseMap.applyCube N (vec e.1)), Spec.rmulBaseMap s.baseMap e.2)

/-- Difference of cubes of fractions. -/
def childD (N : ℕ) : List ℤ → List ℤ → List ℤ → List ℤ
  | x :: l, p :: m, q :: n => (N * x + q - p) :: childD N l m n
  | _, _, _ => []

theorem childD_eq (N : ℕ) (x p q : Fin d → ℤ) : childD N (List.ofFn x) (List.ofFn p) (List.ofFn q) = List.ofFn fun j => N * x j + q j - p j := by
  induction d with
  | zero => simp [childD]
  | succ d ih => rw [List.ofFn_succ, List.ofFn_succ, List.ofFn_succ, List.ofFn_succ]; simp [childD, ih]

/-- A state that is far in time, or is bounded by one of the list. -/
def resB (k : Kind) (vn vd : ℕ) (core : List (Ent d)) (a b : Spec d) (D : List ℤ) (T : ℕ) : Bool :=
  okB k d vn vd D T ||
    let g := a.baseMap.cubeMap⁻¹
    let b' := Spec.rmulBaseMap g b
    let D' := List.ofFn (g.applyVec (vec D))
    let m := key a.baseMap.timeRev a.pnum b'
    core.any fun o => Nat.beq o.key m && domB k d vn vd o.D o.T o.al D' T && decide (o.tr = a.baseMap.timeRev) && Nat.beq o.p a.pnum && decide (o.b = b')

/-- All children of the states of the list are resolved. -/
def closedB (k : Kind) (N G vn vd : ℕ) (prow : List (List (List ℤ × Spec d))) (core todo : List (Ent d)) : Bool :=
  todo.all fun o =>
    let rb := (rows N prow o.b).zipIdx
    (rows N prow (revSpec d o.tr o.p)).zipIdx.all fun ei => rb.all fun ej =>
      resB k vn vd core ei.1.2 ej.1.2 (childD N o.D ei.1.1 ej.1.1) (G * o.T + ej.2 - ei.2)

/-- The check of a list in two parts: the first `n` states after the first `a`, and the rest. -/
theorem closedB_split {k : Kind} {N G vn vd : ℕ} {prow : List (List (List ℤ × Spec d))} {core todo : List (Ent d)} (a n : ℕ)
    (h1 : closedB k N G vn vd prow core ((todo.drop a).take n) = true) (h2 : closedB k N G vn vd prow core (todo.drop (a + n)) = true) :
    closedB k N G vn vd prow core (todo.drop a) = true := by
  rw [← List.take_append_drop n (todo.drop a), closedB, List.all_append, List.drop_drop, Bool.and_eq_true]
  exact ⟨h1, h2⟩

/-- All pairs of fractions of patterns are resolved. -/
def autosB (k : Kind) (N vn vd : ℕ) (prow : List (List (List ℤ × Spec d))) (core : List (Ent d)) : Bool :=
  prow.all fun l => l.zipIdx.all fun ei => l.zipIdx.all fun ej => Nat.ble ej.2 ei.2 ||
    resB k vn vd core ei.1.2 ej.1.2 (childD N (List.replicate d 0) ei.1.1 ej.1.1) (ej.2 - ei.2)

/-- Patterns, numbers and lengths are in range. -/
def formB (mult : ℕ) (core : List (Ent d)) : Bool :=
  core.all fun o => Nat.ble (o.p + 1) mult && Nat.ble (o.b.pnum + 1) mult && Nat.ble 1 o.T && Nat.beq o.D.length d

/-- The table of cubes and specs of the patterns. -/
def Rows (c : FCurve d) (prow : List (List (List ℤ × Spec d))) : Prop :=
  prow = (List.range c.mult).map fun p => (List.range c.genus).map fun i => (List.ofFn (c.cubeD p i), c.specD p i)

instance (c : FCurve d) (prow : List (List (List ℤ × Spec d))) : Decidable (Rows c prow) := inferInstanceAs (Decidable (_ = _))

variable {prow : List (List (List ℤ × Spec d))}

theorem reverse_map_range {α : Type*} (g : ℕ → α) (n : ℕ) : ((List.range n).map g).reverse = (List.range n).map fun i => g (n - 1 - i) := by
  apply List.ext_getElem (by simp)
  intro i h1 h2
  simp

theorem rows_eq (hrow : Rows c prow) {s : Spec d} (hs : s.pnum < c.mult) :
    rows c.div prow s = (List.range c.genus).map fun i => (List.ofFn (c.curCube s i), c.curSpec s i) := by
  unfold rows
  have hl : prow.getD s.pnum [] = (List.range c.genus).map fun i => (List.ofFn (c.cubeD s.pnum i), c.specD s.pnum i) := by
    rw [hrow, List.getD_eq_getElem?_getD, List.getElem?_map, List.getElem?_range hs]; rfl
  simp only [hl]
  unfold FCurve.curCube FCurve.curSpec BaseMap.applyCnum
  by_cases ht : s.baseMap.timeRev = true
  · simp only [ht, if_true]
    rw [reverse_map_range, List.map_map]
    apply List.map_congr_left
    intro i _
    simp
  · simp only [ht]
    simp only [Bool.false_eq_true, if_false]
    rw [List.map_map]
    apply List.map_congr_left
    intro i _
    simp

theorem mem_zipIdx_map_range {α : Type*} (g : ℕ → α) {n i : ℕ} (hi : i < n) : (g i, i) ∈ ((List.range n).map g).zipIdx := by
  rw [List.mem_zipIdx_iff_getElem?]
  simp [hi]

/-- Resolved states. -/
theorem resB_sound {k : Kind} (hk : k.Dim d) {vn vd : ℕ} (hvd : 0 < vd) (hf : c.Realizes f) {core : List (Ent d)} (hcore : formB c.mult core = true)
    {s : State d} (hs : Good c s) {T : ℕ} (hT : 1 ≤ T) (hsT : s.T = T) (h : resB k vn vd core s.a s.b (List.ofFn s.D) T = true) :
    Resolved f k.ratio (k.w vn vd) (core.map Ent.st) s := by
  have hw := k.w_nonneg vn vd
  intro B hB hle
  unfold resB at h
  rw [Bool.or_eq_true] at h
  rcases h with h | h
  · -- far in time
    have h1 := okB_sound hk hvd hT h
    intro u v hu0 hu1 hv0 hv1
    unfold exc
    have h2 : k.ratio.size (fun j => (s.D j : ℝ) + actFn s.b f v j - actFn s.a f u j) ≤ k.ratio.size (fun j => |(s.D j : ℝ)| + 1) := by
      apply Ratio.size_mono
      intro j
      have ha := hf.actFn_mem hs.1 hu0 hu1 j
      have hb := hf.actFn_mem hs.2 hv0 hv1 j
      rw [abs_of_nonneg (a := |(s.D j : ℝ)| + 1) (by positivity), abs_le]
      have := neg_abs_le (s.D j : ℝ)
      have := le_abs_self (s.D j : ℝ)
      constructor <;> linarith
    have h3 : k.w vn vd * ((T : ℝ) - 1) ≤ k.w vn vd * ((s.T : ℝ) + v - u) := by
      apply mul_le_mul_of_nonneg_left _ hw
      rw [hsT]
      push_cast
      linarith
    linarith
  · -- bounded by a state of the list
    simp only [vec_ofFn, List.any_eq_true, Bool.and_eq_true, decide_eq_true_eq, Nat.beq_eq] at h
    obtain ⟨o, ho, ⟨⟨⟨_, h2⟩, h3⟩, h4⟩, h5⟩ := h
    have hoo := List.all_eq_true.1 hcore o ho
    simp only [Bool.and_eq_true, Nat.ble_eq, Nat.beq_eq] at hoo
    obtain ⟨⟨⟨ho1, ho2⟩, ho3⟩, ho4⟩ := hoo
    apply le_act (g := s.a.baseMap.cubeMap⁻¹) (by simp [BaseMap.cubeMap])
    have hg : Spec.rmulBaseMap s.a.baseMap.cubeMap⁻¹ s.a = o.st.a := by
      unfold Ent.st Spec.rmulBaseMap revSpec
      simp only [Spec.mk.injEq]
      refine ⟨?_, h4.symm⟩
      have e : s.a.baseMap = s.a.baseMap.cubeMap * ⟨fun j => (j, false), s.a.baseMap.timeRev, fun _ _ h => h⟩ := by
        apply BaseMap.ext
        · intro i; simp [BaseMap.cubeMap, BaseMap.mul_coords]
        · simp [BaseMap.cubeMap]
      rw [h3]
      nth_rewrite 2 [e]
      rw [← mul_assoc, inv_mul_cancel, one_mul]
    have hb : Spec.rmulBaseMap s.a.baseMap.cubeMap⁻¹ s.b = o.st.b := h5.symm
    rw [← ofFn_vec ho4] at h2
    intro u v hu0 hu1 hv0 hv1
    have hox := hle o.st (List.mem_map_of_mem ho) u v hu0 hu1 hv0 hv1
    unfold exc at hox ⊢
    simp only [act]
    rw [hg, hb, hsT]
    have hx : ∀ j, |actFn o.st.b f v j - actFn o.st.a f u j| ≤ 1 := by
      intro j
      have ha := hf.actFn_mem (s := o.st.a) (by simpa [Ent.st, revSpec] using ho1) hu0 hu1 j
      have hb := hf.actFn_mem (s := o.st.b) (by simpa [Ent.st] using ho2) hv0 hv1 j
      rw [abs_le]
      constructor <;> linarith
    have h6 := domB_sound hk hvd h2 hx
    simp only [Ent.st] at hox h6 ⊢
    simp only [add_sub_assoc] at hox ⊢
    push_cast at hox ⊢
    linarith

theorem closedB_sound {k : Kind} (hk : k.Dim d) (h : c.Full) {vn vd : ℕ} (hvd : 0 < vd) (hf : c.Realizes f) (hrow : Rows c prow) {core : List (Ent d)}
    (hcore : formB c.mult core = true) (hcl : closedB k c.div c.genus vn vd prow core core = true) :
    ∀ o ∈ core.map Ent.st, ∀ i < c.genus, ∀ j < c.genus, Resolved f k.ratio (k.w vn vd) (core.map Ent.st) (child c o i j) := by
  intro o ho i hi j hj
  obtain ⟨o, ho', rfl⟩ := List.mem_map.1 ho
  have hoo := List.all_eq_true.1 hcore o ho'
  simp only [Bool.and_eq_true, Nat.ble_eq, Nat.beq_eq] at hoo
  obtain ⟨⟨⟨ho1, ho2⟩, ho3⟩, ho4⟩ := hoo
  have hgood : Good c o.st := ⟨ho1, ho2⟩
  have h1 := List.all_eq_true.1 hcl o ho'
  simp only [rows_eq hrow (s := o.b) ho2, rows_eq hrow (s := revSpec d o.tr o.p) ho1] at h1
  have h2 := List.all_eq_true.1 (List.all_eq_true.1 h1 _ (mem_zipIdx_map_range _ hi)) _ (mem_zipIdx_map_range _ hj)
  rw [← ofFn_vec ho4, childD_eq] at h2
  have hGT : c.genus ≤ c.genus * o.T := Nat.le_mul_of_pos_right _ ho3
  refine resB_sound hk hvd hf hcore (good_child h hgood hi hj) (T := c.genus * o.T + j - i) (by omega) ?_ h2
  simp only [child, Ent.st]
  push_cast [Nat.cast_sub (show i ≤ c.genus * o.T + j by omega)]
  ring

theorem curSpec_one (c : FCurve d) (p i : ℕ) : c.curSpec ⟨1, p⟩ i = c.specD p i := by
  simp [FCurve.curSpec, Spec.rmulBaseMap, BaseMap.applyCnum]

theorem autosB_sound {k : Kind} (hk : k.Dim d) (h : c.Full) {vn vd : ℕ} (hvd : 0 < vd) (hf : c.Realizes f) (hrow : Rows c prow) {core : List (Ent d)}
    (hcore : formB c.mult core = true) (hau : autosB k c.div vn vd prow core = true) {p : ℕ} (hp : p < c.mult) {i j : ℕ} (hij : i < j) (hj : j < c.genus) :
    Resolved f k.ratio (k.w vn vd) (core.map Ent.st) (auto c p i j) := by
  have h1 := List.all_eq_true.1 hau ((List.range c.genus).map fun i => (List.ofFn (c.cubeD p i), c.specD p i)) (by
    rw [hrow]; exact List.mem_map_of_mem (f := fun p => (List.range c.genus).map fun i => (List.ofFn (c.cubeD p i), c.specD p i)) (List.mem_range.2 hp))
  have h2 := List.all_eq_true.1 (List.all_eq_true.1 h1 _ (mem_zipIdx_map_range _ (hij.trans hj))) _ (mem_zipIdx_map_range _ hj)
  rw [Bool.or_eq_true, Nat.ble_eq] at h2
  replace h2 := h2.resolve_left (by simp only; omega)
  have e0 : List.replicate d (0 : ℤ) = List.ofFn fun _ : Fin d => (0 : ℤ) := by simp
  rw [e0, childD_eq] at h2
  simp only [mul_zero, zero_add] at h2
  refine resB_sound hk hvd hf hcore (good_auto h hp (hij.trans hj) hj) (T := j - i) (by omega) ?_ h2
  simp only [auto]
  push_cast [Nat.cast_sub hij.le]
  ring

/-- The ratios are bounded. -/
theorem upper {k : Kind} (hk : k.Dim d) (hd : d ≠ 0) (h : c.Full) {vn vd : ℕ} (hvd : 0 < vd) (hf : c.Realizes f) (hrow : Rows c prow) {core : List (Ent d)}
    (hcore : formB c.mult core = true) (hau : autosB k c.div vn vd prow core = true)
    (hcl : closedB k c.div c.genus vn vd prow core core = true) : ∀ x ∈ c.ratios k.ratio f, x ≤ k.ratio.bound (k.w vn vd) := by
  have hw := k.w_nonneg vn vd
  have hgood : ∀ o ∈ core.map Ent.st, Good c o := by
    intro o ho
    obtain ⟨o, ho', rfl⟩ := List.mem_map.1 ho
    have hoo := List.all_eq_true.1 hcore o ho'
    simp only [Bool.and_eq_true, Nat.ble_eq, Nat.beq_eq] at hoo
    exact ⟨hoo.1.1.1, hoo.1.1.2⟩
  have h1 := core_le h hd (k.ratio_ok hd) hw hf hgood (closedB_sound hk h hvd hf hrow hcore hcl)
  have h2 := size_le h hd (k.ratio_ok hd) hw hf fun p hp i j hij hj => autosB_sound hk h hvd hf hrow hcore hau hp hij hj 0 le_rfl h1
  rintro x ⟨p, hp, s, t, hs, hst, ht, rfl⟩
  exact Ratio.val_le_of_size _ (sub_pos.2 hst) hw (h2 p hp s t hs hst.le ht)

/-! ### points -/

/-- The time after fractions `l`, when the time in the last of them is `t`. -/
def timeOf (c : FCurve d) : List ℕ → ℚ → ℚ
  | [], t => t
  | i :: l, t => (i + timeOf c l t) / c.genus

/-- The spec after fractions `l`. -/
def specOf (c : FCurve d) : Spec d → List ℕ → Spec d
  | s, [] => s
  | s, i :: l => specOf c (c.curSpec s i) l

/-- The point after fractions `l`, when the point in the last of them is `x`. -/
def posOf (c : FCurve d) : Spec d → List ℕ → (Fin d → ℚ) → Fin d → ℚ
  | _, [], x => x
  | s, i :: l, x => fun j => (c.curCube s i j + posOf c (c.curSpec s i) l x j) / c.div

/-- A point of a curve: fractions, first `pre`, then `per` for ever, with the time and the point in the fraction after `pre`. -/
structure Pt where
  pre : List ℕ
  per : List ℕ
  t : ℚ
  x : List ℚ

def Pt.time (c : FCurve d) (P : Pt) : ℚ := timeOf c P.pre P.t
def Pt.pos (c : FCurve d) (s : Spec d) (P : Pt) : Fin d → ℚ := posOf c s P.pre fun j => P.x.getD j 0

/-- The numbers are right. -/
def Pt.Ok (c : FCurve d) (s : Spec d) (P : Pt) : Prop :=
  P.per ≠ [] ∧ (∀ i ∈ P.pre ++ P.per, i < c.genus) ∧ 0 ≤ P.t ∧ P.t ≤ 1 ∧ specOf c s (P.pre ++ P.per) = specOf c s P.pre ∧
    timeOf c P.per P.t = P.t ∧ ∀ j : Fin d, posOf c (specOf c s P.pre) P.per (fun j => P.x.getD j 0) j = P.x.getD j 0

instance (c : FCurve d) (s : Spec d) (P : Pt) : Decidable (P.Ok c s) := by unfold Pt.Ok; infer_instance

theorem timeOf_mem (h : c.Full) : ∀ {l : List ℕ}, (∀ i ∈ l, i < c.genus) → ∀ {t : ℚ}, 0 ≤ t → t ≤ 1 → 0 ≤ timeOf c l t ∧ timeOf c l t ≤ 1
  | [], _, _, h0, h1 => ⟨h0, h1⟩
  | i :: l, hl, t, h0, h1 => by
    obtain ⟨e1, e2⟩ := timeOf_mem h (fun i hi => hl i (List.mem_cons_of_mem _ hi)) (l := l) h0 h1
    have hi : ((i : ℚ) + 1) ≤ c.genus := by exact_mod_cast hl i List.mem_cons_self
    have hG : (0 : ℚ) < c.genus := by exact_mod_cast h.toShape.genus_pos
    simp only [timeOf]
    exact ⟨by positivity, by rw [div_le_one hG]; linarith⟩

theorem specOf_lt (h : c.Full) : ∀ {l : List ℕ}, (∀ i ∈ l, i < c.genus) → ∀ {s : Spec d}, s.pnum < c.mult → (specOf c s l).pnum < c.mult
  | [], _, _, hs => hs
  | i :: _, hl, _, hs => specOf_lt h (fun i hi => hl i (List.mem_cons_of_mem _ hi)) (h.curSpec_lt hs (hl i List.mem_cons_self))

theorem specOf_append (c : FCurve d) : ∀ (s : Spec d) (l m : List ℕ), specOf c s (l ++ m) = specOf c (specOf c s l) m
  | _, [], _ => rfl
  | s, i :: l, m => specOf_append c (c.curSpec s i) l m

/-- The map on a chain of fractions. -/
theorem actFn_timeOf (h : c.Full) (hf : c.Realizes f) : ∀ {l : List ℕ}, (∀ i ∈ l, i < c.genus) → ∀ {s : Spec d}, s.pnum < c.mult →
    ∀ {t : ℚ}, 0 ≤ t → t ≤ 1 → ∀ (x : Fin d → ℚ) (j : Fin d),
      actFn s f (timeOf c l t) j - posOf c s l x j = (actFn (specOf c s l) f t j - x j) / (c.div : ℝ) ^ l.length
  | [], _, _, _, _, _, _, _, _ => by simp [timeOf, posOf, specOf]
  | i :: l, hl, s, hs, t, h0, h1, x, j => by
    have hl' : ∀ i ∈ l, i < c.genus := fun i hi => hl i (List.mem_cons_of_mem _ hi)
    have hi := hl i List.mem_cons_self
    have hN := h.div_pos
    obtain ⟨e1, e2⟩ := timeOf_mem h hl' h0 h1
    have ih := actFn_timeOf h hf hl' (h.curSpec_lt hs hi) h0 h1 x j
    simp only [timeOf, posOf, specOf, List.length_cons]
    push_cast
    rw [hf.walkD h hs hi (by exact_mod_cast e1) (by exact_mod_cast e2), pow_succ, ← div_div, ← ih]
    field_simp
    ring

theorem Pt.actFn_eq (h : c.Full) (hf : c.Realizes f) {s : Spec d} (hs : s.pnum < c.mult) {P : Pt} (hP : P.Ok c s) :
    actFn s f (P.time c) = fun j => ((P.pos c s j : ℚ) : ℝ) := by
  obtain ⟨h1, h2, h3, h4, h5, h6, h7⟩ := hP
  have hpre : ∀ i ∈ P.pre, i < c.genus := fun i hi => h2 i (List.mem_append_left _ hi)
  have hper : ∀ i ∈ P.per, i < c.genus := fun i hi => h2 i (List.mem_append_right _ hi)
  rw [specOf_append] at h5
  have hN : (2 : ℝ) ≤ c.div := by exact_mod_cast h.two_le_div
  funext j
  have e1 := actFn_timeOf h hf hper (specOf_lt h hpre hs) h3 h4 (fun j => P.x.getD j 0) j
  rw [h5, h6, h7 j] at e1
  have hpow : (2 : ℝ) ≤ (c.div : ℝ) ^ P.per.length := by
    have : 1 ≤ P.per.length := List.length_pos_iff.2 h1
    calc (2 : ℝ) ≤ c.div := hN
      _ = (c.div : ℝ) ^ 1 := (pow_one _).symm
      _ ≤ _ := pow_le_pow_right₀ (by linarith) this
  have e2 : actFn (specOf c s P.pre) f (P.t : ℝ) j - ((P.x.getD j 0 : ℚ) : ℝ) = 0 := by
    rw [eq_div_iff (by linarith)] at e1
    nlinarith
  have e3 := actFn_timeOf h hf hpre hs h3 h4 (fun j => P.x.getD j 0) j
  rw [e2, zero_div] at e3
  unfold Pt.time Pt.pos
  linarith

/-- Two points with a big ratio. -/
def lowB (r : Ratio) (c : FCurve d) (p : ℕ) (P Q : Pt) (v : ℚ) : Prop :=
  p < c.mult ∧ P.Ok c ⟨1, p⟩ ∧ Q.Ok c ⟨1, p⟩ ∧ P.time c < Q.time c ∧
    v ≤ r.val (fun j => P.pos c ⟨1, p⟩ j - Q.pos c ⟨1, p⟩ j) (Q.time c - P.time c)

instance (r : Ratio) (c : FCurve d) (p : ℕ) (P Q : Pt) (v : ℚ) : Decidable (lowB r c p P Q v) := by unfold lowB; infer_instance

theorem lower (h : c.Full) (hf : c.Realizes f) {p : ℕ} {P Q : Pt} {v : ℚ} (hlow : lowB r c p P Q v) : ∃ x ∈ c.ratios r f, (v : ℝ) ≤ x := by
  obtain ⟨hp, hP, hQ, ht, hv⟩ := hlow
  have eP := P.actFn_eq h hf (s := ⟨1, p⟩) hp hP
  have eQ := Q.actFn_eq h hf (s := ⟨1, p⟩) hp hQ
  rw [actFn_one] at eP eQ
  have mP := timeOf_mem h (fun i hi => hP.2.1 i (List.mem_append_left _ hi)) hP.2.2.1 hP.2.2.2.1
  have mQ := timeOf_mem h (fun i hi => hQ.2.1 i (List.mem_append_left _ hi)) hQ.2.2.1 hQ.2.2.2.1
  refine ⟨_, ⟨p, hp, (P.time c : ℝ), (Q.time c : ℝ), ?_, ?_, ?_, rfl⟩, ?_⟩
  · exact_mod_cast mP.1
  · exact_mod_cast ht
  · exact_mod_cast mQ.2
  · rw [eP, eQ]
    have := Ratio.val_cast (K := ℝ) r (fun j => P.pos c ⟨1, p⟩ j - Q.pos c ⟨1, p⟩ j) (Q.time c - P.time c)
    push_cast at this
    rw [this]
    exact_mod_cast hv

end DilCert
end Peano
