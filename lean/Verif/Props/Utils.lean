import Mathlib.Data.Real.Sqrt
import Mathlib.Tactic.NormNum
import Mathlib.Tactic.FinCases
import Verif.Lemmas.UtilsB
import Verif.Lemmas.Memo

set_option autoImplicit false

/- Properties C25-C30: `peano/utils.py`. -/
namespace Peano

/-! ### C25 integer coordinates -/

/-- Point `x` of the unit cube placed into the nested fraction with cubes `cs` (outermost first): `x ↦ (c + x)/N` repeatedly. -/
noncomputable def nestX {d : ℕ} (div : ℕ) : List (Cube d) → (Fin d → ℝ) → Fin d → ℝ
  | [], x => x
  | c :: cs, x => fun j => (c j + nestX div cs x j) / div

/-- Time `t` of `[0,1]` placed into the nested fraction with cube numbers `cs` (outermost first): `t ↦ (c + t)/G` repeatedly. -/
noncomputable def nestT (genus : ℕ) : List ℕ → ℝ → ℝ
  | [], t => t
  | c :: cs, t => (c + nestT genus cs t) / genus

/-- C25. The fraction of depth `l` reached through cubes `cs` is the cube `[x/N^l, (x+1)/N^l]` with `x` the integer cube; the
integer cube stays in range. -/
theorem C25_int_cube {d : ℕ} (div : ℕ) (hdiv : 0 < div) (cs : List (Cube d)) (x : Fin d → ℝ) (j : Fin d) :
    nestX div cs x j = (getIntCube div cs j + x j) / (div : ℝ) ^ cs.length ∧
    ((∀ c ∈ cs, ∀ j, 0 ≤ c j ∧ c j < div) → 0 ≤ getIntCube div cs j ∧ getIntCube div cs j < (div : ℤ) ^ cs.length) := by
  refine ⟨?_, fun h => getIntCube_range div cs h j⟩
  induction cs with
  | nil => simp [nestX]
  | cons c cs ih =>
    have hd : (div : ℝ) ≠ 0 := by positivity
    simp only [nestX, ih, getIntCube_cons, List.length_cons, pow_succ]
    push_cast
    field_simp
    ring

/-- C25. Same for times, with `G = div^dim`. -/
theorem C25_int_time (dim div : ℕ) (hdiv : 0 < div) (cs : List ℕ) (t : ℝ) :
    nestT (div ^ dim) cs t = (getIntTime dim div cs + t) / ((div : ℝ) ^ dim) ^ cs.length ∧
    ((∀ c ∈ cs, c < div ^ dim) → getIntTime dim div cs < (div ^ dim) ^ cs.length) := by
  refine ⟨?_, getIntTime_lt dim div cs⟩
  induction cs with
  | nil => simp [nestT]
  | cons c cs ih =>
    have hd : (div : ℝ) ≠ 0 := by positivity
    simp only [nestT, ih, getIntTime_cons, List.length_cons, pow_succ]
    push_cast
    field_simp
    ring

/-- C25. `lru_cache` does not change results: from an empty cache, any history of calls, whatever the cache size (0 included),
returns the uncached values. -/
theorem C25_lru_cache_transparent {κ ν : Type} [DecidableEq κ] (f : κ → ν) (maxsize : ℕ) (ks : List κ) :
    (Memo.run f maxsize [] ks).1 = ks.map f :=
  (Memo.run_spec (fun _ he => by simp at he) ks).1

example : getIntCube (d := 2) 2 [![1, 0], ![0, 1], ![1, 1]] = ![5, 3] ∧ getIntTime 2 2 [3, 0, 2] = 50 := by
  refine ⟨?_, by decide⟩
  funext j; fin_cases j <;> simp [getIntCube_cons]

example : (Memo.run (fun n : ℕ => n * n) 2 [] [1, 2, 1, 3, 2, 1]).1 = [1, 4, 1, 9, 4, 1] := by decide

/-! ### C26 periodic sums -/

/-- The digit sequence: `start`, then `period` forever. -/
def periodicDigit (start period : List ℤ) (n : ℕ) : ℤ :=
  if n < start.length then start.getD n 0 else period.getD ((n - start.length) % period.length) 0

/-- C26. The result is the sum of the infinite series. -/
theorem C26_periodic_sum (start period : List ℤ) (d : ℕ) (hd : 2 ≤ d) (hp : period ≠ []) :
    ∃ q : ℚ, getPeriodicSum start period d = some q ∧
      HasSum (fun n => (periodicDigit start period n : ℝ) / (d : ℝ) ^ (n + 1)) (q : ℝ) := by
  refine ⟨_, getPeriodicSum_eq hd hp, ?_⟩
  have := hasSum_seqAfter hd start (hasSum_cyc hd period hp)
  have he : seqAfter start (cyc period) = periodicDigit start period := rfl
  rw [he] at this
  convert this using 1
  push_cast
  rw [div_div, mul_comm ((d : ℝ) ^ start.length)]

/-- C26. Otherwise (base 0 or 1, or empty period) the code raises ZeroDivisionError. -/
theorem C26_periodic_sum_error (start period : List ℤ) (d : ℕ) (h : d = 1 ∨ period = []) : getPeriodicSum start period d = none := by
  unfold getPeriodicSum
  simp only [digitsLoop_snd]
  rw [if_pos]
  right
  rcases h with rfl | rfl <;> simp

example : getPeriodicSum [1] [0, 1] 2 = some (2/3) := by decide +kernel

/-! ### C27 lcm -/

/-- C27. For positive numbers, `get_lcm` returns a positive number that divides exactly the common multiples. -/
theorem C27_lcm (xs : List ℕ) (hx : ∀ x ∈ xs, 0 < x) :
    ∃ m, getLcm xs = some m ∧ 0 < m ∧ (∀ x ∈ xs, x ∣ m) ∧ ∀ k, (∀ x ∈ xs, x ∣ k) → m ∣ k := by
  obtain ⟨m, h1, h2, h3⟩ := getLcm_fold xs hx 1 Nat.one_pos
  refine ⟨m, h1, h2, ((h3 m).1 dvd_rfl).2, fun k hk => (h3 k).2 ⟨one_dvd _, hk⟩⟩

example : getLcm [4, 6, 10] = some 60 := by decide

/-! ### C28 faces -/

/-- C28. `gen_faces(dim, face_dim)` lists exactly the faces with `face_dim` free coordinates, each once. -/
theorem C28_gen_faces (dim faceDim : ℕ) (h : faceDim ≤ dim) :
    ∃ l, genFaces dim faceDim = some l ∧ l.Nodup ∧
      ∀ f : Face dim, f ∈ l ↔ (Finset.univ.filter fun i => f i = none).card = faceDim := by
  obtain ⟨l, h1, h2, h3⟩ := mem_genFaces h
  refine ⟨l, h1, h2, fun f => ?_⟩
  rw [h3 f]
  have : (Finset.univ.filter fun i => f i = none) = ((List.finRange dim).filter fun i => f i = none).toFinset := by
    ext i; simp
  rw [this, List.toFinset_card_of_nodup ((List.nodup_finRange dim).filter _)]

example : (genFaces 3 1).map List.length = some 12 := by decide +kernel

/-! ### C29 combinations_product -/

/-- C29. `combinations_product` never fails; what it yields are choices of one element per position from the pool of the
position's id. -/
theorem C29_valid_choices {I T : Type} [DecidableEq I] (ids : List I) (pool : I → List T) :
    ∃ res, combinationsProduct ids pool = some res ∧ ∀ out ∈ res, List.Forall₂ (fun id t => t ∈ pool id) ids out := by
  obtain ⟨res, h1, h2, _⟩ := combinationsProduct_spec ids pool
  refine ⟨res, h1, fun out ho => ?_⟩
  obtain ⟨hl, hm⟩ := (h2 out).1 ho
  rw [List.forall₂_iff_zip]
  refine ⟨hl.symm, ?_⟩
  intro id t hz
  refine (Itertools.cwr_mem (hm id)).2 t ?_
  unfold groupAt
  exact List.mem_map.2 ⟨(id, t), List.mem_filter.2 ⟨hz, by simp⟩, rfl⟩

/-- C29. With pools without repetition, every choice `x` is represented exactly once up to permuting positions with equal ids
(the multiset of pairs (id, value) identifies the class), and nothing is yielded twice. -/
theorem C29_each_class_once {I T : Type} [DecidableEq I] (ids : List I) (pool : I → List T) (hp : ∀ id, (pool id).Nodup) :
    ∃ res, combinationsProduct ids pool = some res ∧ res.Nodup ∧
      ∀ x, List.Forall₂ (fun id t => t ∈ pool id) ids x → ∃! out, out ∈ res ∧ (ids.zip out).Perm (ids.zip x) := by
  classical
  obtain ⟨res, h1, h2, h3⟩ := combinationsProduct_spec ids pool
  refine ⟨res, h1, h3 hp, fun x hx => ?_⟩
  rw [List.forall₂_iff_zip] at hx
  have hex : ∀ id, ∃ g ∈ Itertools.combinationsWithReplacement (pool id) (ids.count id), g.Perm (groupAt ids x id) := by
    intro id
    apply Itertools.cwr_exists
    · rw [groupAt, List.length_map, ← List.countP_eq_length_filter, List.count]
      have : ids = (ids.zip x).map Prod.fst := by rw [List.map_fst_zip]; exact hx.1.le
      conv_rhs => rw [this, List.countP_map]
      apply List.countP_congr
      intro p _
      simp
    · intro t ht
      rw [groupAt, List.mem_map] at ht
      obtain ⟨⟨k, t'⟩, hk, rfl⟩ := ht
      rw [List.mem_filter] at hk
      have := hx.2 hk.1
      simp only [decide_eq_true_eq] at hk
      rw [← hk.2]; exact this
  choose G hG hGp using hex
  obtain ⟨out, ho1, ho2, ho3⟩ := distribute_spec ids ((ids.dedup).map fun id => (id, G id)) (by
    intro id
    have : glookup ((ids.dedup).map fun id => (id, G id)) id = if id ∈ ids then G id else [] := by
      have : ∀ l : List I, glookup (l.map fun id => (id, G id)) id = if id ∈ l then G id else [] := by
        intro l
        induction l with
        | nil => simp [glookup]
        | cons a l ih =>
          by_cases e : id = a
          · subst e; simp [glookup, List.lookup_cons]
          · have hb : (id == a) = false := by simpa using e
            simp only [glookup] at ih
            simp only [glookup, List.map_cons, List.lookup_cons, hb, ih, List.mem_cons, e, false_or]
      rw [this]; simp
    rw [this]
    split
    · exact (Itertools.cwr_mem (hG id)).1
    · rename_i h; rw [List.count_eq_zero_of_not_mem h]; rfl)
  have hog : ∀ id, groupAt ids out id = G id := by
    intro id
    rw [ho3 id]
    have : ∀ l : List I, glookup (l.map fun id => (id, G id)) id = if id ∈ l then G id else [] := by
      intro l
      induction l with
      | nil => simp [glookup]
      | cons a l ih =>
        by_cases e : id = a
        · subst e; simp [glookup, List.lookup_cons]
        · have hb : (id == a) = false := by simpa using e
          simp only [glookup] at ih
          simp only [glookup, List.map_cons, List.lookup_cons, hb, ih, List.mem_cons, e, false_or]
    rw [this]
    split
    · rfl
    · rename_i h
      rw [List.mem_dedup] at h
      have := (Itertools.cwr_mem (hG id)).1
      rw [List.count_eq_zero_of_not_mem h] at this
      exact (List.length_eq_zero_iff.1 this).symm
  refine ⟨out, ⟨(h2 out).2 ⟨ho2, fun id => hog id ▸ hG id⟩, zip_perm_iff.2 fun id => hog id ▸ hGp id⟩, ?_⟩
  rintro y ⟨hy, hyp⟩
  obtain ⟨hy1, hy2⟩ := (h2 y).1 hy
  apply groupAt_inj hy1 ho2
  intro id
  rw [hog id]
  exact Itertools.cwr_unique (hp id) (hy2 id) (hG id) ((zip_perm_iff.1 hyp id).trans (hGp id).symm)

example : combinationsProduct ["a", "b", "a"] (fun s => if s = "a" then [1, 2] else [3]) =
    some [[1, 3, 1], [1, 3, 2], [2, 3, 2]] := by decide +kernel

/-! ### C30 ratio functions -/

/-- C30. The ratio functions are `‖v‖^d / t` for the `l1`, `linf` and `l2` norms; `ratio_l2_squared` is the square of that. -/
theorem C30_ratio_formulas {d : ℕ} (v : Fin d → ℝ) (t : ℝ) (ht : t ≠ 0) :
    Ratio.l1.fn v t = some ((∑ i, |v i|) ^ d / t) ∧
    Ratio.l2sq.fn v t = some ((Real.sqrt (∑ i, v i ^ 2) ^ d / t) ^ 2) ∧
    (d % 2 = 0 → Ratio.l2.fn v t = some (Real.sqrt (∑ i, v i ^ 2) ^ d / t)) ∧
    (d % 2 = 1 → Ratio.l2.fn v t = none) ∧
    (0 < d → ∃ m, IsGreatest (Set.range fun i => |v i|) m ∧ Ratio.linf.fn v t = some (m ^ d / t)) := by
  have hnn : 0 ≤ ∑ i, v i ^ 2 := Finset.sum_nonneg fun i _ => sq_nonneg _
  refine ⟨?_, ?_, ?_, ?_, ?_⟩
  · rw [Ratio.fn_eq_some .l1 (by trivial) _ ht]; simp only [Ratio.val, Ratio.num, Ratio.den, sumAbs_eq]
  · rw [Ratio.fn_eq_some .l2sq (by trivial) _ ht]; simp only [Ratio.val, Ratio.num, Ratio.den, sumSq_eq]
    rw [div_pow, ← pow_mul, mul_comm d 2, pow_mul, Real.sq_sqrt hnn]
  · intro h
    rw [Ratio.fn_eq_some .l2 (by exact h) _ ht]; simp only [Ratio.val, Ratio.num, Ratio.den, sumSq_eq]
    have h2 : d = 2 * (d / 2) := by omega
    have h3 : Real.sqrt (∑ i, v i ^ 2) ^ d = (∑ i, v i ^ 2) ^ (d / 2) := by
      calc Real.sqrt (∑ i, v i ^ 2) ^ d = Real.sqrt (∑ i, v i ^ 2) ^ (2 * (d / 2)) := by rw [← h2]
        _ = _ := by rw [pow_mul, Real.sq_sqrt hnn]
    rw [h3]
  · intro h
    rw [Ratio.fn, if_neg (by simp only [Ratio.Ok]; omega)]
  · intro h
    refine ⟨maxAbs v, ?_, by rw [Ratio.fn_eq_some .linf (by exact h) _ ht]; rfl⟩
    constructor
    · have : ∃ i, ∀ j, |v j| ≤ |v i| := by
        haveI : Nonempty (Fin d) := ⟨⟨0, h⟩⟩
        exact Finite.exists_max fun i => |v i|
      obtain ⟨i, hi⟩ := this
      exact ⟨i, le_antisymm (abs_le_maxAbs v i) ((maxAbs_le (abs_nonneg _)).2 hi)⟩
    · rintro _ ⟨i, rfl⟩; exact abs_le_maxAbs v i

/-- C30. Scaling space by `k > 0` and time by `k^d` leaves the ratio unchanged. -/
theorem C30_scaling {d : ℕ} (r : Ratio) (hr : r.Ok d) (k : ℚ) (hk : 0 < k) (v : Fin d → ℚ) (t : ℚ) (ht : t ≠ 0) :
    r.fn (fun i => k * v i) (k ^ d * t) = r.fn v t := by
  rw [r.fn_eq_some hr _ ht, r.fn_eq_some hr _ (mul_ne_zero (pow_ne_zero _ hk.ne') ht), r.val_smul hr hk]

/-- C30. The ratio is monotone in the absolute values of the coordinates and antitone in time. -/
theorem C30_monotone {d : ℕ} (r : Ratio) (hr : r.Ok d) (v w : Fin d → ℚ) (s t : ℚ) (hs : 0 < s) (hst : s ≤ t)
    (h : ∀ i, |v i| ≤ |w i|) : ∃ a b, r.fn v t = some a ∧ r.fn w s = some b ∧ 0 ≤ a ∧ a ≤ b :=
  ⟨_, _, r.fn_eq_some hr v (hs.trans_le hst).ne', r.fn_eq_some hr w hs.ne', r.val_nonneg v (hs.le.trans hst), r.val_mono h hs hst⟩

/-- C30. Cube isometries (acting on difference vectors) leave the ratio unchanged. -/
theorem C30_isometry {d : ℕ} (r : Ratio) (g : BaseMap d) (v : Fin d → ℚ) (t : ℚ) : r.fn (g.applyVec v) t = r.fn v t := by
  unfold Ratio.fn; rw [r.val_applyVec]

/-- C30. The rational computation agrees with the real formula. -/
theorem C30_exact {d : ℕ} (r : Ratio) (v : Fin d → ℚ) (t : ℚ) :
    r.fn (fun i => (v i : ℝ)) (t : ℝ) = (r.fn v t).map fun q => (q : ℝ) := by
  unfold Ratio.fn
  have : r.den (t : ℝ) = 0 ↔ r.den t = 0 := by
    have h1 := r.den_ne_zero (t := (t : ℝ)); have h2 := r.den_ne_zero (t := t)
    rw [← not_iff_not, ← ne_eq, ← ne_eq, h1, h2]; simp
  by_cases h : r.Ok d
  · rw [if_pos h, if_pos h]
    by_cases h0 : r.den t = 0
    · rw [if_pos h0, if_pos (this.2 h0)]; rfl
    · rw [if_neg h0, if_neg (fun h => h0 (this.1 h)), r.val_cast]; rfl
  · rw [if_neg h, if_neg h]; rfl

example : Ratio.l2.fn ![(3 : ℚ), 4] 5 = some 5 ∧ Ratio.l2sq.fn ![(3 : ℚ), 4] 5 = some 25 ∧ Ratio.linf.fn ![(3 : ℚ), -4] 2 = some 8 ∧
    Ratio.l1.fn ![(3 : ℚ), -4] 0 = none := by decide +kernel

end Peano
