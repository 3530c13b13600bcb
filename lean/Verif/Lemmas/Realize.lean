import Mathlib.Analysis.SpecificLimits.Basic
import Mathlib.Topology.Order.Compact
import Mathlib.Topology.MetricSpace.Pseudo.Pi
import Verif.Lemmas.Gates

/- Existence, uniqueness, continuity and surjectivity of the maps described by a curve. -/
namespace Peano
variable {d : ℕ}

/-! ### cells of [0,1] -/

/-- Number of the time interval containing `t`. -/
noncomputable def cell (G : ℕ) (t : ℝ) : ℕ := min ⌊(G : ℝ) * t⌋₊ (G - 1)

theorem cell_lt {G : ℕ} (hG : 0 < G) (t : ℝ) : cell G t < G := by unfold cell; omega

theorem cell_mem {G : ℕ} (hG : 0 < G) {t : ℝ} (h0 : 0 ≤ t) (h1 : t ≤ 1) :
    0 ≤ (G : ℝ) * t - cell G t ∧ (G : ℝ) * t - cell G t ≤ 1 := by
  have hG' : (0 : ℝ) < G := by exact_mod_cast hG
  have hnn : 0 ≤ (G : ℝ) * t := by positivity
  have hle : (G : ℝ) * t ≤ G := by nlinarith
  unfold cell
  rcases le_total ⌊(G : ℝ) * t⌋₊ (G - 1) with h | h
  · rw [min_eq_left h]
    constructor
    · have := Nat.floor_le hnn; linarith
    · have := (Nat.lt_floor_add_one ((G : ℝ) * t)).le; linarith
  · rw [min_eq_right h]
    have h2 : ((G - 1 : ℕ) : ℝ) ≤ (G : ℝ) * t := le_trans (by exact_mod_cast h) (Nat.floor_le hnn)
    constructor
    · linarith
    · rw [Nat.cast_sub (by omega)]; push_cast; linarith

theorem cell_eq {G : ℕ} (hG : 0 < G) (t : ℝ) : ((cell G t : ℕ) + ((G : ℝ) * t - cell G t)) / G = t := by
  have hG' : (G : ℝ) ≠ 0 := by positivity
  field_simp
  ring

theorem cell_frac {G i : ℕ} (hi : i < G) {t : ℝ} (h0 : 0 ≤ t) (h1 : t < 1 ∨ (i = G - 1 ∧ t = 1)) : cell G ((i + t) / G) = i := by
  have hG' : (G : ℝ) ≠ 0 := by
    have : 0 < G := by omega
    positivity
  unfold cell
  rw [mul_div_cancel₀ _ hG']
  rcases h1 with h1 | ⟨h, rfl⟩
  · have : ⌊(i : ℝ) + t⌋₊ = i := by
      rw [Nat.floor_eq_iff (by positivity)]
      constructor <;> linarith
    rw [this]; omega
  · have : ⌊(i : ℝ) + 1⌋₊ = i + 1 := by
      exact_mod_cast Nat.floor_natCast (i + 1)
    rw [this]; omega

theorem applyX_sub_abs (b : BaseMap d) (x y : Fin d → ℝ) (j : Fin d) :
    |b.applyX 1 x j - b.applyX 1 y j| = |x (b.coords j).1 - y (b.coords j).1| := by
  unfold BaseMap.applyX
  split
  · rw [abs_sub_comm]; congr 1; ring
  · rfl

theorem applyX_tendsto (b : BaseMap d) {x : ℕ → Fin d → ℝ} {y : Fin d → ℝ}
    (h : ∀ j, Filter.Tendsto (fun k => x k j) Filter.atTop (nhds (y j))) (j : Fin d) :
    Filter.Tendsto (fun k => b.applyX 1 (x k) j) Filter.atTop (nhds (b.applyX 1 y j)) := by
  unfold BaseMap.applyX
  by_cases hb : (b.coords j).2 = true
  · simp only [hb, if_true]; exact tendsto_const_nhds.sub (h _)
  · simp only [hb, if_false, Bool.false_eq_true]; exact h _

namespace FCurve
variable {c : FCurve d}

/-- Entries with default values. -/
def cubeD (c : FCurve d) (p i : ℕ) : Cube d := (c.cube? p i).getD 0
def specD (c : FCurve d) (p i : ℕ) : Spec d := (c.spec? p i).getD ⟨1, 0⟩

theorem Full.cube_eq (h : c.Full) {p i : ℕ} (hp : p < c.mult) (hi : i < c.genus) : c.cube? p i = some (c.cubeD p i) := by
  have := h.cube_def p hp i hi
  rw [Option.isSome_iff_exists] at this
  obtain ⟨x, hx⟩ := this
  simp [cubeD, hx]

theorem Full.spec_eq (h : c.Full) {p i : ℕ} (hp : p < c.mult) (hi : i < c.genus) : c.spec? p i = some (c.specD p i) := by
  have := h.spec_def p hp i hi
  rw [Option.isSome_iff_exists] at this
  obtain ⟨x, hx⟩ := this
  simp [specD, hx]

theorem Full.cubeD_range (h : c.Full) {p i : ℕ} (hp : p < c.mult) (hi : i < c.genus) (j : Fin d) :
    0 ≤ c.cubeD p i j ∧ c.cubeD p i j < (c.div : ℤ) := h.cube_range _ _ _ (h.cube_eq hp hi) j

theorem Full.specD_lt (h : c.Full) {p i : ℕ} (hp : p < c.mult) (hi : i < c.genus) : (c.specD p i).pnum < c.mult :=
  h.spec_range _ _ _ (h.spec_eq hp hi)

theorem Full.gates (h : c.Full) : c.GatesDefined where
  toShape := h.toShape
  cube_def := fun p hp => ⟨h.cube_def p hp _ h.genus_pos, h.cube_def p hp _ (by have := h.genus_pos; omega)⟩
  spec_def := fun p hp => ⟨h.spec_def p hp _ h.genus_pos, h.spec_def p hp _ (by have := h.genus_pos; omega)⟩

theorem Shape.div_pos (h : c.Shape) : (0 : ℝ) < c.div := by
  have := h.two_le_div
  have : 0 < c.div := by omega
  exact_mod_cast this

theorem Shape.div_ge (h : c.Shape) : (2 : ℝ) ≤ c.div := by exact_mod_cast h.two_le_div

/-- A point of a sub-cube is in the cube. -/
theorem mem_unit_of_sub {N : ℕ} (hN : (0 : ℝ) < N) {x : ℤ} (hx : 0 ≤ x ∧ x < (N : ℤ)) {y : ℝ} (hy : 0 ≤ y ∧ y ≤ 1) :
    0 ≤ ((x : ℝ) + y) / N ∧ ((x : ℝ) + y) / N ≤ 1 := by
  have h1 : (0 : ℝ) ≤ x := by exact_mod_cast hx.1
  have h2 : (x : ℝ) + 1 ≤ N := by
    have : x + 1 ≤ (N : ℤ) := by omega
    exact_mod_cast this
  constructor
  · apply div_nonneg <;> linarith
  · rw [div_le_one hN]; linarith

/-- Approximations. -/
noncomputable def iter (c : FCurve d) : ℕ → ℕ → ℝ → Fin d → ℝ
  | 0 => fun _ _ _ => 0
  | k + 1 => fun p t j =>
    ((c.cubeD p (cell c.genus t) j : ℝ) + actFn (c.specD p (cell c.genus t)) (iter c k) ((c.genus : ℝ) * t - cell c.genus t) j) / c.div

theorem Full.iter_mem (h : c.Full) (k : ℕ) {p : ℕ} (hp : p < c.mult) {t : ℝ} (h0 : 0 ≤ t) (h1 : t ≤ 1) (j : Fin d) :
    0 ≤ c.iter k p t j ∧ c.iter k p t j ≤ 1 := by
  induction k generalizing p t j with
  | zero => simp [iter]
  | succ k ih =>
    have hcl := cell_lt h.genus_pos t
    have hu := cell_mem h.genus_pos h0 h1
    have ht := applyT_mem01 (c.specD p (cell c.genus t)).baseMap hu.1 hu.2
    have hx : ∀ i, 0 ≤ c.iter k _ _ i ∧ c.iter k _ _ i ≤ 1 := fun i => ih (h.specD_lt hp hcl) ht.1 ht.2 i
    exact mem_unit_of_sub h.div_pos (h.cubeD_range hp hcl j) (BaseMap.applyX_mem _ hx j)

theorem Full.iter_diff (h : c.Full) (k : ℕ) {p : ℕ} (hp : p < c.mult) {t : ℝ} (h0 : 0 ≤ t) (h1 : t ≤ 1) (j : Fin d) :
    |c.iter k p t j - c.iter (k + 1) p t j| ≤ 1 * ((1 : ℝ) / c.div) ^ k := by
  induction k generalizing p t j with
  | zero =>
    have := h.iter_mem 0 hp h0 h1 j
    have := h.iter_mem 1 hp h0 h1 j
    rw [abs_le]
    constructor <;> simp <;> linarith
  | succ k ih =>
    have hcl := cell_lt h.genus_pos t
    have hu := cell_mem h.genus_pos h0 h1
    have ht := applyT_mem01 (c.specD p (cell c.genus t)).baseMap hu.1 hu.2
    have hd := h.div_pos
    have e1 : c.iter (k + 1) p t j - c.iter (k + 1 + 1) p t j =
      (actFn (c.specD p (cell c.genus t)) (c.iter k) ((c.genus : ℝ) * t - cell c.genus t) j
        - actFn (c.specD p (cell c.genus t)) (c.iter (k + 1)) ((c.genus : ℝ) * t - cell c.genus t) j) / c.div := by
      conv_lhs => rw [iter, iter]
      ring
    rw [e1, abs_div, abs_of_pos hd]
    unfold actFn
    rw [applyX_sub_abs]
    have := ih (h.specD_lt hp hcl) ht.1 ht.2 ((c.specD p (cell c.genus t)).baseMap.coords j).1
    rw [one_mul] at this ⊢
    rw [pow_succ, mul_one_div]
    exact div_le_div_of_nonneg_right this hd.le

/-- The limit of the approximations satisfies the equations on half-open cells. -/
theorem Full.exists_halfOpen (h : c.Full) : ∃ f : ℕ → ℝ → Fin d → ℝ,
    (∀ p < c.mult, ∀ t : ℝ, 0 ≤ t → t ≤ 1 → f p t ∈ unitCube d) ∧
    ∀ p < c.mult, ∀ i < c.genus, ∀ t : ℝ, 0 ≤ t → (t < 1 ∨ (i = c.genus - 1 ∧ t = 1)) →
      f p ((i + t) / c.genus) = fun j => ((c.cubeD p i j : ℝ) + actFn (c.specD p i) f t j) / c.div := by
  have hd := h.div_pos
  have hr : (1 : ℝ) / c.div < 1 := by
    rw [div_lt_one hd]; linarith [h.div_ge]
  have htend : ∀ p < c.mult, ∀ t : ℝ, 0 ≤ t → t ≤ 1 → ∀ j,
      Filter.Tendsto (fun k => c.iter k p t j) Filter.atTop (nhds (Filter.limUnder Filter.atTop fun k => c.iter k p t j)) := by
    intro p hp t h0 h1 j
    exact (cauchySeq_of_le_geometric _ 1 hr fun k => by rw [Real.dist_eq]; exact h.iter_diff k hp h0 h1 j).tendsto_limUnder
  refine ⟨fun p t j => Filter.limUnder Filter.atTop fun k => c.iter k p t j, ?_, ?_⟩
  · intro p hp t h0 h1 j
    exact ⟨ge_of_tendsto' (htend p hp t h0 h1 j) fun k => (h.iter_mem k hp h0 h1 j).1,
      le_of_tendsto' (htend p hp t h0 h1 j) fun k => (h.iter_mem k hp h0 h1 j).2⟩
  · intro p hp i hi t h0 h1
    have h1' : t ≤ 1 := by rcases h1 with h1 | h1 <;> linarith [h1]
    have hG : (0 : ℝ) < c.genus := by exact_mod_cast h.genus_pos
    have hT0 : 0 ≤ ((i : ℝ) + t) / c.genus := by positivity
    have hT1 : ((i : ℝ) + t) / c.genus ≤ 1 := by
      rw [div_le_one hG]
      have : (i : ℝ) + 1 ≤ c.genus := by exact_mod_cast hi
      linarith
    have hcell := cell_frac hi h0 h1
    have hu : (c.genus : ℝ) * (((i : ℝ) + t) / c.genus) - i = t := by field_simp; ring
    have ht := applyT_mem01 (c.specD p i).baseMap h0 h1'
    funext j
    refine tendsto_nhds_unique ((Filter.tendsto_add_atTop_iff_nat 1).2 (htend p hp _ hT0 hT1 j)) ?_
    have e : (fun k => c.iter (k + 1) p (((i : ℝ) + t) / c.genus) j) =
        fun k => ((c.cubeD p i j : ℝ) + actFn (c.specD p i) (c.iter k) t j) / c.div := by
      funext k
      simp only [iter, hcell, hu]
    rw [e]
    apply Filter.Tendsto.div_const
    apply Filter.Tendsto.const_add
    unfold actFn
    exact applyX_tendsto _ (fun j => htend _ (h.specD_lt hp hi) _ ht.1 ht.2 j) j

/-- Any time is in some fraction. -/
theorem exists_cell (h : c.Shape) {t : ℝ} (h0 : 0 ≤ t) (h1 : t ≤ 1) :
    ∃ i < c.genus, ∃ u : ℝ, 0 ≤ u ∧ u ≤ 1 ∧ t = (i + u) / c.genus :=
  ⟨cell c.genus t, cell_lt h.genus_pos t, _, (cell_mem h.genus_pos h0 h1).1, (cell_mem h.genus_pos h0 h1).2, (cell_eq h.genus_pos t).symm⟩

theorem Realizes.eqnD {f : ℕ → ℝ → Fin d → ℝ} (h : c.Full) (hf : c.Realizes f) {p i : ℕ} (hp : p < c.mult) (hi : i < c.genus) {t : ℝ}
    (h0 : 0 ≤ t) (h1 : t ≤ 1) :
    f p ((i + t) / c.genus) = fun j => ((c.cubeD p i j : ℝ) + actFn (c.specD p i) f t j) / c.div :=
  hf.eqn p i _ _ (h.cube_eq hp hi) (h.spec_eq hp hi) t h0 h1

/-- Uniqueness. -/
theorem Realizes.unique {f g : ℕ → ℝ → Fin d → ℝ} (h : c.Full) (hf : c.Realizes f) (hg : c.Realizes g) {p : ℕ} (hp : p < c.mult)
    {t : ℝ} (h0 : 0 ≤ t) (h1 : t ≤ 1) : f p t = g p t := by
  have hd := h.div_pos
  have key : ∀ k : ℕ, ∀ p < c.mult, ∀ t : ℝ, 0 ≤ t → t ≤ 1 → ∀ j, |f p t j - g p t j| ≤ ((1 : ℝ) / c.div) ^ k := by
    intro k
    induction k with
    | zero =>
      intro p hp t h0 h1 j
      have := hf.mem_cube p hp t h0 h1 j
      have := hg.mem_cube p hp t h0 h1 j
      rw [abs_le]; constructor <;> simp <;> linarith
    | succ k ih =>
      intro p hp t h0 h1 j
      obtain ⟨i, hi, u, hu0, hu1, rfl⟩ := exists_cell h.toShape h0 h1
      rw [hf.eqnD h hp hi hu0 hu1, hg.eqnD h hp hi hu0 hu1]
      have e : ((c.cubeD p i j : ℝ) + actFn (c.specD p i) f u j) / c.div - ((c.cubeD p i j : ℝ) + actFn (c.specD p i) g u j) / c.div
          = (actFn (c.specD p i) f u j - actFn (c.specD p i) g u j) / c.div := by ring
      rw [e, abs_div, abs_of_pos hd]
      unfold actFn
      rw [applyX_sub_abs, pow_succ, mul_one_div]
      have ht := applyT_mem01 (c.specD p i).baseMap hu0 hu1
      exact div_le_div_of_nonneg_right (ih _ (h.specD_lt hp hi) _ ht.1 ht.2 _) hd.le
  funext j
  have hr : (1 : ℝ) / c.div < 1 := by rw [div_lt_one hd]; linarith [h.div_ge]
  have hlim : Filter.Tendsto (fun k : ℕ => ((1 : ℝ) / c.div) ^ k) Filter.atTop (nhds 0) :=
    tendsto_pow_atTop_nhds_zero_of_lt_one (by positivity) hr
  have := ge_of_tendsto' hlim fun k => key k p hp t h0 h1 j
  have := abs_nonpos_iff.1 this
  linarith

/-- Two times in the same fraction of depth `k` are mapped to points at distance at most `N^-k` in each coordinate. -/
theorem Realizes.fraction_diam {f : ℕ → ℝ → Fin d → ℝ} (h : c.Full) (hf : c.Realizes f) (k : ℕ) {p : ℕ} (hp : p < c.mult) {m : ℕ}
    (hm : m < c.genus ^ k) {s t : ℝ} (hs0 : (m : ℝ) / (c.genus : ℝ) ^ k ≤ s) (hs1 : s ≤ ((m : ℝ) + 1) / (c.genus : ℝ) ^ k)
    (ht0 : (m : ℝ) / (c.genus : ℝ) ^ k ≤ t) (ht1 : t ≤ ((m : ℝ) + 1) / (c.genus : ℝ) ^ k) (j : Fin d) :
    |f p s j - f p t j| ≤ ((1 : ℝ) / c.div) ^ k := by
  have hd := h.div_pos
  have hG : (0 : ℝ) < c.genus := by exact_mod_cast h.genus_pos
  induction k generalizing p m s t j with
  | zero =>
    have hm0 : m = 0 := by simpa using hm
    subst hm0
    simp only [pow_zero, Nat.cast_zero, div_one, zero_add] at hs0 hs1 ht0 ht1
    have := hf.mem_cube p hp s hs0 hs1 j
    have := hf.mem_cube p hp t ht0 ht1 j
    rw [abs_le]; constructor <;> simp <;> linarith
  | succ k ih =>
    have hGk : 0 < c.genus ^ k := Nat.pow_pos h.genus_pos
    have hGk' : (0 : ℝ) < (c.genus : ℝ) ^ k := by positivity
    obtain ⟨i, m', hi, hm', rfl⟩ : ∃ i m', i < c.genus ∧ m' < c.genus ^ k ∧ m = i * c.genus ^ k + m' := by
      refine ⟨m / c.genus ^ k, m % c.genus ^ k, ?_, Nat.mod_lt _ hGk, ?_⟩
      · rw [Nat.div_lt_iff_lt_mul hGk]; rw [pow_succ] at hm; rwa [mul_comm] at hm
      · rw [mul_comm]; exact (Nat.div_add_mod m (c.genus ^ k)).symm
    -- local times
    have conv : ∀ x : ℝ, ((i * c.genus ^ k + m' : ℕ) : ℝ) / (c.genus : ℝ) ^ (k + 1) ≤ x → x ≤ (((i * c.genus ^ k + m' : ℕ) : ℝ) + 1) / (c.genus : ℝ) ^ (k + 1) →
        ∃ u : ℝ, x = (i + u) / c.genus ∧ (m' : ℝ) / (c.genus : ℝ) ^ k ≤ u ∧ u ≤ ((m' : ℝ) + 1) / (c.genus : ℝ) ^ k := by
      intro x hx0 hx1
      refine ⟨c.genus * x - i, by field_simp; ring, ?_, ?_⟩
      · rw [div_le_iff₀ (by positivity)] at hx0 ⊢
        push_cast at hx0
        rw [pow_succ] at hx0
        nlinarith
      · rw [le_div_iff₀ (by positivity)] at hx1 ⊢
        push_cast at hx1
        rw [pow_succ] at hx1
        nlinarith
    obtain ⟨u, rfl, hu0, hu1⟩ := conv s hs0 hs1
    obtain ⟨v, rfl, hv0, hv1⟩ := conv t ht0 ht1
    have hm1 : ((m' : ℝ) + 1) / (c.genus : ℝ) ^ k ≤ 1 := by
      rw [div_le_one hGk']
      exact_mod_cast hm'
    have hm2 : 0 ≤ (m' : ℝ) / (c.genus : ℝ) ^ k := by positivity
    rw [hf.eqnD h hp hi (hm2.trans hu0) (hu1.trans hm1), hf.eqnD h hp hi (hm2.trans hv0) (hv1.trans hm1)]
    have e : ((c.cubeD p i j : ℝ) + actFn (c.specD p i) f u j) / c.div - ((c.cubeD p i j : ℝ) + actFn (c.specD p i) f v j) / c.div
        = (actFn (c.specD p i) f u j - actFn (c.specD p i) f v j) / c.div := by ring
    simp only [e]
    rw [abs_div, abs_of_pos hd]
    unfold actFn
    rw [applyX_sub_abs, pow_succ, mul_one_div]
    refine div_le_div_of_nonneg_right ?_ hd.le
    have tm : ∀ x : ℝ, (m' : ℝ) / (c.genus : ℝ) ^ k ≤ x → x ≤ ((m' : ℝ) + 1) / (c.genus : ℝ) ^ k →
        (((c.specD p i).baseMap.applyCnum (c.genus ^ k) m' : ℕ) : ℝ) / (c.genus : ℝ) ^ k ≤ (c.specD p i).baseMap.applyT 1 x ∧
        (c.specD p i).baseMap.applyT 1 x ≤ ((((c.specD p i).baseMap.applyCnum (c.genus ^ k) m' : ℕ) : ℝ) + 1) / (c.genus : ℝ) ^ k := by
      intro x hx0 hx1
      unfold BaseMap.applyCnum BaseMap.applyT
      by_cases hr : (c.specD p i).baseMap.timeRev = true
      · simp only [hr, if_true]
        rw [div_le_iff₀ hGk'] at hx0 ⊢
        rw [le_div_iff₀ hGk'] at hx1 ⊢
        rw [Nat.cast_sub (by omega), Nat.cast_sub (by omega)]
        push_cast
        constructor <;> nlinarith
      · simp only [hr, if_false, Bool.false_eq_true]; exact ⟨hx0, hx1⟩
    exact ih (h.specD_lt hp hi) (BaseMap.applyCnum_lt _ hm') (tm u hu0 hu1).1 (tm u hu0 hu1).2 (tm v hv0 hv1).1 (tm v hv0 hv1).2 _

/-- Times at distance at most `G^-k` are mapped to points at distance at most `2 N^-k` in each coordinate. -/
theorem Realizes.modulus {f : ℕ → ℝ → Fin d → ℝ} (h : c.Full) (hf : c.Realizes f) (k : ℕ) {p : ℕ} (hp : p < c.mult) {s t : ℝ}
    (hs0 : 0 ≤ s) (hst : s ≤ t) (ht1 : t ≤ 1) (hd : t - s ≤ 1 / (c.genus : ℝ) ^ k) (j : Fin d) :
    |f p s j - f p t j| ≤ 2 * ((1 : ℝ) / c.div) ^ k := by
  have hGk : 0 < c.genus ^ k := Nat.pow_pos h.genus_pos
  have hGk' : (0 : ℝ) < (c.genus : ℝ) ^ k := by exact_mod_cast hGk
  have hdp := h.div_pos
  set m := cell (c.genus ^ k) s with hmdef
  have hm := cell_lt hGk s
  rw [← hmdef] at hm
  have hms := cell_mem hGk hs0 (hst.trans ht1)
  rw [← hmdef] at hms
  push_cast at hms
  have hsm0 : (m : ℝ) / (c.genus : ℝ) ^ k ≤ s := by rw [div_le_iff₀ hGk']; linarith
  have hsm1 : s ≤ ((m : ℝ) + 1) / (c.genus : ℝ) ^ k := by rw [le_div_iff₀ hGk']; linarith
  by_cases ht : t ≤ ((m : ℝ) + 1) / (c.genus : ℝ) ^ k
  · have := hf.fraction_diam h k hp hm hsm0 hsm1 (hsm0.trans hst) ht j
    have h0 : (0 : ℝ) ≤ ((1 : ℝ) / c.div) ^ k := by positivity
    linarith
  · push Not at ht
    have hm2 : m + 1 < c.genus ^ k := by
      have h1 : ((m : ℝ) + 1) / (c.genus : ℝ) ^ k < 1 := lt_of_lt_of_le ht ht1
      rw [div_lt_one hGk'] at h1
      exact_mod_cast h1
    set x := ((m : ℝ) + 1) / (c.genus : ℝ) ^ k with hx
    have hx0 : (m : ℝ) / (c.genus : ℝ) ^ k ≤ x := by rw [hx]; apply div_le_div_of_nonneg_right _ hGk'.le; linarith
    have a1 := hf.fraction_diam h k hp hm hsm0 hsm1 hx0 le_rfl j
    have ht2 : t ≤ (((m + 1 : ℕ) : ℝ) + 1) / (c.genus : ℝ) ^ k := by
      have : t ≤ s + 1 / (c.genus : ℝ) ^ k := by linarith
      refine this.trans ?_
      push_cast
      rw [add_div ((m : ℝ) + 1)]
      linarith
    have a2 := hf.fraction_diam h k hp hm2 (s := x) (t := t) (by push_cast; exact le_rfl)
      (by push_cast; rw [hx]; apply div_le_div_of_nonneg_right _ hGk'.le; linarith) (by push_cast; exact ht.le) ht2 j
    have := abs_sub_le (f p s j) (f p x j) (f p t j)
    linarith

theorem Full.two_le_genus (h : c.Full) (hd : d ≠ 0) : 2 ≤ c.genus := by
  unfold genus
  calc 2 ≤ c.div := h.two_le_div
    _ = c.div ^ 1 := (pow_one _).symm
    _ ≤ c.div ^ d := Nat.pow_le_pow_right (by have := h.two_le_div; omega) (by omega)

/-- Continuity. -/
theorem Realizes.continuousOn {f : ℕ → ℝ → Fin d → ℝ} (h : c.Full) (hf : c.Realizes f) {p : ℕ} (hp : p < c.mult) :
    ContinuousOn (f p) (Set.Icc 0 1) := by
  rw [continuousOn_pi]
  intro j
  have hdim : d ≠ 0 := by rintro rfl; exact j.elim0
  rw [Metric.continuousOn_iff]
  intro t ht ε hε
  have hdp := h.div_pos
  have hr : (1 : ℝ) / c.div < 1 := by rw [div_lt_one hdp]; linarith [h.div_ge]
  obtain ⟨k, hk⟩ := exists_pow_lt_of_lt_one (half_pos hε) hr
  have hG : (0 : ℝ) < c.genus := by exact_mod_cast h.genus_pos
  refine ⟨1 / (c.genus : ℝ) ^ k, by positivity, fun s hs hst => ?_⟩
  rw [Real.dist_eq] at hst ⊢
  have key : ∀ s t : ℝ, s ∈ Set.Icc (0:ℝ) 1 → t ∈ Set.Icc (0:ℝ) 1 → s ≤ t → |s - t| < 1 / (c.genus : ℝ) ^ k → |f p s j - f p t j| < ε := by
    intro s t hs ht hst hlt
    rw [abs_sub_comm, abs_of_nonneg (by linarith)] at hlt
    have := hf.modulus h k hp hs.1 hst ht.2 hlt.le j
    linarith
  rcases le_total s t with hle | hle
  · exact key s t hs ht hle hst
  · rw [abs_sub_comm] at hst ⊢; exact key t s ht hs hle hst

/-- Surjectivity. -/
theorem Realizes.surjective {f : ℕ → ℝ → Fin d → ℝ} (h : c.Full) (hfill : c.FillsGrid) (hf : c.Realizes f) {p : ℕ} (hp : p < c.mult)
    {x : Fin d → ℝ} (hx : x ∈ unitCube d) : ∃ t : ℝ, 0 ≤ t ∧ t ≤ 1 ∧ f p t = x := by
  have hdp := h.div_pos
  have hG : (0 : ℝ) < c.genus := by exact_mod_cast h.genus_pos
  have approx : ∀ k : ℕ, ∀ p < c.mult, ∀ x ∈ unitCube d, ∃ t : ℝ, 0 ≤ t ∧ t ≤ 1 ∧ ∀ j, |f p t j - x j| ≤ ((1 : ℝ) / c.div) ^ k := by
    intro k
    induction k with
    | zero =>
      intro p hp x hx
      refine ⟨0, le_rfl, zero_le_one, fun j => ?_⟩
      have := hf.mem_cube p hp 0 le_rfl zero_le_one j
      have := hx j
      rw [abs_le]; constructor <;> simp <;> linarith
    | succ k ih =>
      intro p hp x hx
      have hN : 0 < c.div := by have := h.two_le_div; omega
      obtain ⟨i, hi, hc⟩ := hfill p hp (fun j => (cell c.div (x j) : ℤ)) (fun j => ⟨by positivity, by exact_mod_cast cell_lt hN (x j)⟩)
      have hci : c.cubeD p i = fun j => (cell c.div (x j) : ℤ) := by simp [cubeD, hc]
      set y : Fin d → ℝ := fun j => (c.div : ℝ) * x j - cell c.div (x j) with hy
      have hy1 : ∀ j, 0 ≤ y j ∧ y j ≤ 1 := fun j => cell_mem hN (hx j).1 (hx j).2
      obtain ⟨u, hu0, hu1, hu⟩ := ih (c.specD p i).pnum (h.specD_lt hp hi) ((c.specD p i).baseMap⁻¹.applyX 1 y)
        (fun j => BaseMap.applyX_mem _ hy1 j)
      have hv := applyT_mem01 (c.specD p i).baseMap hu0 hu1
      refine ⟨(i + (c.specD p i).baseMap.applyT 1 u) / c.genus, ?_, ?_, ?_⟩
      · have := hv.1; positivity
      · rw [div_le_one hG]
        have : (i : ℝ) + 1 ≤ c.genus := by exact_mod_cast hi
        linarith [hv.2]
      · intro j
        rw [hf.eqnD h hp hi hv.1 hv.2]
        have e : ((c.cubeD p i j : ℝ) + actFn (c.specD p i) f ((c.specD p i).baseMap.applyT 1 u) j) / c.div - x j
            = (actFn (c.specD p i) f ((c.specD p i).baseMap.applyT 1 u) j - y j) / c.div := by
          rw [hci, hy]
          push_cast
          field_simp
          ring
        simp only [e]
        rw [abs_div, abs_of_pos hdp, pow_succ, mul_one_div]
        refine div_le_div_of_nonneg_right ?_ hdp.le
        unfold actFn
        rw [BaseMap.applyT_applyT]
        have e2 : y j = (c.specD p i).baseMap.applyX 1 ((c.specD p i).baseMap⁻¹.applyX 1 y) j := by
          rw [BaseMap.applyX_applyX_inv]
        rw [e2, applyX_sub_abs]
        exact hu _
  have hcomp : IsCompact (f p '' Set.Icc 0 1) := isCompact_Icc.image_of_continuousOn (hf.continuousOn h hp)
  have hmem : x ∈ closure (f p '' Set.Icc 0 1) := by
    rw [Metric.mem_closure_iff]
    intro ε hε
    have hr : (1 : ℝ) / c.div < 1 := by rw [div_lt_one hdp]; linarith [h.div_ge]
    obtain ⟨k, hk⟩ := exists_pow_lt_of_lt_one hε hr
    obtain ⟨t, ht0, ht1, ht⟩ := approx k p hp x hx
    refine ⟨f p t, ⟨t, ⟨ht0, ht1⟩, rfl⟩, ?_⟩
    rw [dist_pi_lt_iff hε]
    intro j
    rw [Real.dist_eq, abs_sub_comm]
    exact lt_of_le_of_lt (ht j) hk
  rw [hcomp.isClosed.closure_eq] at hmem
  obtain ⟨t, ht, rfl⟩ := hmem
  exact ⟨t, ht.1, ht.2, rfl⟩

end FCurve
end Peano
