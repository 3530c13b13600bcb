import Mathlib.Analysis.SpecificLimits.Basic
import Mathlib.Topology.Algebra.InfiniteSum.NatInt
import Mathlib.Analysis.Normed.Group.InfiniteSum
import Mathlib.Data.List.GetD
import Mathlib.Data.List.Perm.Basic
import Mathlib.Data.List.Dedup
import Verif.Lemmas.Utils

/- Periodic sums, lcm, faces, combinations_product. -/
namespace Peano

/-! ### periodic sums -/

theorem digitsLoop_cons (d : ℕ) (c : ℤ) (cs : List ℤ) :
    digitsLoop d (c :: cs) = ((digitsLoop d cs).1 + c * (digitsLoop d cs).2, (digitsLoop d cs).2 * d) := by
  simp only [digitsLoop, List.reverse_cons, List.foldl_append, List.foldl_cons, List.foldl_nil]

theorem digitsLoop_snd (d : ℕ) (cs : List ℤ) : (digitsLoop d cs).2 = (d : ℤ) ^ cs.length := by
  induction cs with
  | nil => rfl
  | cons c cs ih => rw [digitsLoop_cons]; simp only [ih, List.length_cons, pow_succ]

/-- Value of the digits as a number, over a field. -/
theorem getPeriodicSum_eq {start period : List ℤ} {d : ℕ} (hd : 2 ≤ d) (hp : period ≠ []) :
    getPeriodicSum start period d = some (((digitsLoop d start).1 : ℚ) / (d : ℚ) ^ start.length
      + ((digitsLoop d period).1 : ℚ) / ((d : ℚ) ^ start.length * ((d : ℚ) ^ period.length - 1))) := by
  have h1 : (d : ℤ) ^ start.length ≠ 0 := pow_ne_zero _ (by omega)
  have h2 : (d : ℤ) ^ period.length - 1 ≠ 0 := by
    have : 1 < (d : ℤ) ^ period.length := one_lt_pow₀ (by omega) (by simpa using hp)
    omega
  unfold getPeriodicSum
  simp only [digitsLoop_snd]
  rw [if_neg (by simp only [mul_eq_zero, not_or]; exact ⟨h1, h1, h2⟩)]
  push_cast; rfl

theorem digitsLoop_fst_div (d : ℕ) (hd : 2 ≤ d) (c : ℤ) (cs : List ℤ) :
    ((digitsLoop d (c :: cs)).1 : ℝ) / (d : ℝ) ^ (cs.length + 1) = (c + ((digitsLoop d cs).1 : ℝ) / (d : ℝ) ^ cs.length) / d := by
  have hd0 : (d : ℝ) ≠ 0 := by positivity
  rw [digitsLoop_cons, digitsLoop_snd]
  push_cast
  field_simp
  ring

/-- shift: digit + rest -/
theorem hasSum_digit_cons {d : ℕ} (hd : 2 ≤ d) {f : ℕ → ℤ} {s : ℝ}
    (h : HasSum (fun n => (f (n + 1) : ℝ) / (d : ℝ) ^ (n + 1)) s) :
    HasSum (fun n => (f n : ℝ) / (d : ℝ) ^ (n + 1)) ((f 0 + s) / d) := by
  have hd0 : (d : ℝ) ≠ 0 := by positivity
  have h2 : HasSum (fun n => (f (n + 1) : ℝ) / (d : ℝ) ^ (n + 1 + 1)) (s / d) := by
    have h1 := h.div_const (d : ℝ)
    have he : (fun n => (f (n + 1) : ℝ) / (d : ℝ) ^ (n + 1 + 1)) = fun n => (f (n + 1) : ℝ) / (d : ℝ) ^ (n + 1) / d := by
      funext n; rw [pow_succ (d : ℝ) (n + 1), div_div]
    rwa [he]
  rw [← hasSum_nat_add_iff' (f := fun n => (f n : ℝ) / (d : ℝ) ^ (n + 1)) 1]
  have he : ((f 0 : ℝ) + s) / d - ∑ i ∈ Finset.range 1, (f i : ℝ) / (d : ℝ) ^ (i + 1) = s / d := by
    simp; ring
  rwa [he]

/-- The sequence starting with the list `l` and continuing with `g`. -/
def seqAfter (l : List ℤ) (g : ℕ → ℤ) (n : ℕ) : ℤ := if n < l.length then l.getD n 0 else g (n - l.length)

theorem seqAfter_succ (c : ℤ) (l : List ℤ) (g : ℕ → ℤ) (n : ℕ) : seqAfter (c :: l) g (n + 1) = seqAfter l g n := by
  simp [seqAfter]

theorem hasSum_seqAfter {d : ℕ} (hd : 2 ≤ d) (l : List ℤ) {g : ℕ → ℤ} {s : ℝ}
    (h : HasSum (fun n => (g n : ℝ) / (d : ℝ) ^ (n + 1)) s) :
    HasSum (fun n => (seqAfter l g n : ℝ) / (d : ℝ) ^ (n + 1))
      (((digitsLoop d l).1 : ℝ) / (d : ℝ) ^ l.length + s / (d : ℝ) ^ l.length) := by
  have hd0 : (d : ℝ) ≠ 0 := by positivity
  induction l with
  | nil => simpa [seqAfter, digitsLoop] using h
  | cons c l ih =>
    have := hasSum_digit_cons hd (f := seqAfter (c :: l) g) (by simpa only [seqAfter_succ] using ih)
    convert this using 1
    rw [List.length_cons, digitsLoop_fst_div d hd]
    simp only [seqAfter, List.length_cons, Nat.zero_lt_succ, if_true, List.getD_cons_zero]
    field_simp
    ring

theorem summable_digits {d : ℕ} (hd : 2 ≤ d) {f : ℕ → ℤ} {M : ℝ} (h : ∀ n, |(f n : ℝ)| ≤ M) :
    Summable fun n => (f n : ℝ) / (d : ℝ) ^ (n + 1) := by
  have hd1 : (1 : ℝ) < d := by exact_mod_cast hd
  have hg : Summable fun n : ℕ => M * ((d : ℝ)⁻¹) ^ n :=
    (summable_geometric_of_lt_one (by positivity) (inv_lt_one_of_one_lt₀ hd1)).mul_left M
  refine Summable.of_norm_bounded hg fun n => ?_
  have hM : 0 ≤ M := (abs_nonneg _).trans (h 0)
  rw [Real.norm_eq_abs, abs_div, abs_of_pos (by positivity : (0:ℝ) < (d : ℝ) ^ (n + 1)), inv_pow, ← div_eq_mul_inv]
  apply div_le_div₀ hM (h n) (by positivity)
  exact pow_le_pow_right₀ hd1.le (by omega)

/-- Periodic sequence. -/
def cyc (p : List ℤ) (n : ℕ) : ℤ := p.getD (n % p.length) 0

theorem seqAfter_cyc (p : List ℤ) (hp : p ≠ []) : seqAfter p (cyc p) = cyc p := by
  funext n
  unfold seqAfter cyc
  split
  · rename_i h; rw [Nat.mod_eq_of_lt h]
  · rename_i h
    rw [Nat.mod_eq_sub_mod (by omega : n ≥ p.length)]

theorem hasSum_cyc {d : ℕ} (hd : 2 ≤ d) (p : List ℤ) (hp : p ≠ []) :
    HasSum (fun n => (cyc p n : ℝ) / (d : ℝ) ^ (n + 1)) (((digitsLoop d p).1 : ℝ) / ((d : ℝ) ^ p.length - 1)) := by
  have hs : Summable fun n => (cyc p n : ℝ) / (d : ℝ) ^ (n + 1) := by
    apply summable_digits hd (M := ((p.map fun x => |x|).sum : ℤ))
    intro n
    have hm : n % p.length < p.length := Nat.mod_lt _ (by simpa [List.length_pos_iff] using hp)
    have : |cyc p n| ≤ (p.map fun x => |x|).sum := by
      apply List.single_le_sum
      · intro x hx
        obtain ⟨y, _, rfl⟩ := List.mem_map.1 hx
        exact abs_nonneg y
      · apply List.mem_map_of_mem
        rw [cyc, List.getD_eq_getElem _ _ hm]
        exact List.getElem_mem hm
    rw [← Int.cast_abs]
    exact_mod_cast this
  obtain ⟨s, h⟩ := hs
  have h2 := hasSum_seqAfter hd p h
  rw [seqAfter_cyc p hp] at h2
  have he := h.unique h2
  have hd1 : (1 : ℝ) < d := by exact_mod_cast hd
  have h1 : 1 < (d : ℝ) ^ p.length := one_lt_pow₀ hd1 (by simpa using hp)
  have hne : (d : ℝ) ^ p.length - 1 ≠ 0 := by linarith
  have : s = ((digitsLoop d p).1 : ℝ) / ((d : ℝ) ^ p.length - 1) := by
    rw [eq_div_iff hne]
    have h0 : (d : ℝ) ^ p.length ≠ 0 := by positivity
    field_simp at he
    linarith
  rwa [this] at h

/-! ### lcm -/

theorem getLcm_fold (xs : List ℕ) (hx : ∀ x ∈ xs, 0 < x) (a : ℕ) (ha : 0 < a) :
    ∃ m, xs.foldlM (fun lcm x => if Nat.gcd lcm x = 0 then none else some (lcm * x / Nat.gcd lcm x)) a = some m ∧ 0 < m ∧
      ∀ k, m ∣ k ↔ a ∣ k ∧ ∀ x ∈ xs, x ∣ k := by
  induction xs generalizing a with
  | nil => exact ⟨a, rfl, ha, by simp⟩
  | cons x xs ih =>
    have hx0 := hx x List.mem_cons_self
    obtain ⟨m, h1, h2, h3⟩ := ih (fun y hy => hx y (List.mem_cons_of_mem _ hy)) (Nat.lcm a x) (Nat.lcm_pos ha hx0)
    refine ⟨m, ?_, h2, ?_⟩
    · rw [List.foldlM_cons, if_neg (Nat.gcd_pos_of_pos_left _ ha).ne']
      exact h1
    · intro k; rw [h3, Nat.lcm_dvd_iff, List.forall_mem_cons]; tauto

/-! ### faces -/

theorem sublist_eq_filter {α : Type*} [DecidableEq α] {cs l : List α} (h : cs.Sublist l) (hl : l.Nodup) :
    cs = l.filter (· ∈ cs) := by
  induction h with
  | slnil => rfl
  | @cons cs l a h ih =>
    rw [List.nodup_cons] at hl
    have ha : a ∉ cs := fun hc => hl.1 (h.subset hc)
    rw [List.filter_cons_of_neg (by simpa using ha)]
    exact ih hl.2
  | @cons_cons cs l a h ih =>
    rw [List.nodup_cons] at hl
    rw [List.filter_cons_of_pos (by simp)]
    congr 1
    conv_lhs => rw [ih hl.2]
    apply List.filter_congr
    intro x hx
    have : x ≠ a := fun h => hl.1 (h ▸ hx)
    simp [this]

/-- The inner loop of `gen_faces`. -/
def buildFace {d : ℕ} (values : List Bool) (coords : List (Fin d)) : Face d :=
  (values.zip coords).foldl (fun (face : Face d) vc => Function.update face vc.2 (some vc.1)) (fun _ => none)

theorem buildFace_aux {d : ℕ} (vs : List Bool) (cs : List (Fin d)) (hc : cs.Nodup) (hl : vs.length = cs.length) (face : Face d) :
    (∀ i, i ∉ cs → (vs.zip cs).foldl (fun (face : Face d) vc => Function.update face vc.2 (some vc.1)) face i = face i) ∧
    cs.map ((vs.zip cs).foldl (fun (face : Face d) vc => Function.update face vc.2 (some vc.1)) face) = vs.map some := by
  induction vs generalizing cs face with
  | nil =>
    have : cs = [] := by simpa using hl.symm
    subst this; simp
  | cons v vs ih =>
    cases cs with
    | nil => simp at hl
    | cons c cs =>
      rw [List.nodup_cons] at hc
      have := ih cs hc.2 (by simpa using hl) (Function.update face c (some v))
      simp only [List.zip_cons_cons, List.foldl_cons, List.map_cons]
      refine ⟨?_, ?_⟩
      · intro i hi
        rw [List.mem_cons, not_or] at hi
        rw [this.1 i hi.2, Function.update_of_ne hi.1]
      · rw [this.2, this.1 c hc.1]; simp

theorem buildFace_spec {d : ℕ} {vs : List Bool} {cs : List (Fin d)} (hc : cs.Nodup) (hl : vs.length = cs.length) :
    (∀ i, i ∉ cs → buildFace vs cs i = none) ∧ cs.map (buildFace vs cs) = vs.map some :=
  buildFace_aux vs cs hc hl _

theorem buildFace_isSome {d : ℕ} {vs : List Bool} {cs : List (Fin d)} (hc : cs.Nodup) (hl : vs.length = cs.length) (i : Fin d) :
    (buildFace vs cs i).isSome = true ↔ i ∈ cs := by
  obtain ⟨h1, h2⟩ := buildFace_spec hc hl
  constructor
  · intro h; by_contra hi; rw [h1 i hi] at h; simp at h
  · intro hi
    have : buildFace vs cs i ∈ vs.map some := by rw [← h2]; exact List.mem_map_of_mem hi
    obtain ⟨v, _, hv⟩ := List.mem_map.1 this
    rw [← hv]; rfl

theorem buildFace_inj {d : ℕ} {vs vs' : List Bool} {cs cs' : List (Fin d)} (hc : cs.Sublist (List.finRange d))
    (hc' : cs'.Sublist (List.finRange d)) (hl : vs.length = cs.length) (hl' : vs'.length = cs'.length)
    (h : buildFace vs cs = buildFace vs' cs') : cs = cs' ∧ vs = vs' := by
  have hn := (List.nodup_finRange d).sublist hc
  have hn' := (List.nodup_finRange d).sublist hc'
  have h1 : cs = cs' := by
    rw [sublist_eq_filter hc (List.nodup_finRange d), sublist_eq_filter hc' (List.nodup_finRange d)]
    apply List.filter_congr
    intro i _
    have := buildFace_isSome hn hl i
    rw [h, buildFace_isSome hn' hl' i] at this
    simp only [decide_eq_decide]
    exact this.symm
  subst h1
  refine ⟨rfl, ?_⟩
  have := (buildFace_spec hn hl).2
  rw [h, (buildFace_spec hn hl').2] at this
  exact (List.map_injective_iff.2 (Option.some_injective _) this).symm

theorem mem_genFaces {d k : ℕ} (h : k ≤ d) :
    ∃ l, genFaces d k = some l ∧ l.Nodup ∧ ∀ f : Face d, f ∈ l ↔ ((List.finRange d).filter fun i => f i = none).length = k := by
  unfold genFaces
  rw [if_pos h]
  refine ⟨_, rfl, ?_, ?_⟩
  · rw [List.nodup_flatMap]
    constructor
    · intro cs hcs
      rw [Itertools.mem_combinations] at hcs
      apply List.Nodup.map_on _ (Itertools.nodup_productRepeat (by decide) _)
      intro vs hvs vs' hvs' he
      rw [Itertools.mem_productRepeat] at hvs hvs'
      exact (buildFace_inj hcs.1 hcs.1 (hvs.1.trans hcs.2.symm) (hvs'.1.trans hcs.2.symm) he).2
    · apply (Itertools.nodup_combinations (List.nodup_finRange d) _).pairwise_of_forall_ne
      intro cs hcs cs' hcs' hne
      rw [Itertools.mem_combinations] at hcs hcs'
      simp only [Function.onFun]
      intro f hf hf'
      obtain ⟨vs, hvs, h1⟩ := List.mem_map.1 hf
      obtain ⟨vs', hvs', h2⟩ := List.mem_map.1 hf'
      rw [Itertools.mem_productRepeat] at hvs hvs'
      exact hne (buildFace_inj hcs.1 hcs'.1 (hvs.1.trans hcs.2.symm) (hvs'.1.trans hcs'.2.symm) (h1.trans h2.symm)).1
  · intro f
    have hlen : ((List.finRange d).filter fun i => f i = none).length + ((List.finRange d).filter fun i => (f i).isSome).length = d := by
      have := List.length_eq_length_filter_add (l := List.finRange d) (fun i => decide (f i = none))
      rw [List.length_finRange] at this
      have h2 : ((List.finRange d).filter fun i => !decide (f i = none)) = (List.finRange d).filter fun i => (f i).isSome := by
        apply List.filter_congr; intro i _; cases f i <;> simp
      rw [h2] at this
      omega
    simp only [List.mem_flatMap, List.mem_map, Itertools.mem_combinations, Itertools.mem_productRepeat]
    constructor
    · rintro ⟨cs, ⟨hcs, hcl⟩, vs, ⟨hvl, _⟩, rfl⟩
      have hn := (List.nodup_finRange d).sublist hcs
      have : ((List.finRange d).filter fun i => (buildFace vs cs i).isSome) = cs := by
        conv_rhs => rw [sublist_eq_filter hcs (List.nodup_finRange d)]
        apply List.filter_congr
        intro i _
        rw [Bool.eq_iff_iff, buildFace_isSome hn (by omega)]; simp
      have hlen : ((List.finRange d).filter fun i => buildFace vs cs i = none).length +
        ((List.finRange d).filter fun i => (buildFace vs cs i).isSome).length = d := hlen
      rw [this] at hlen
      have : ((List.finRange d).filter fun i => buildFace vs cs i = none).length = k := by omega
      exact this
    · intro hk
      refine ⟨(List.finRange d).filter fun i => (f i).isSome, ⟨List.filter_sublist, by omega⟩,
        ((List.finRange d).filter fun i => (f i).isSome).map fun i => (f i).getD false, ⟨by simp only [List.length_map]; omega, by simp⟩, ?_⟩
      set cs := (List.finRange d).filter fun i => (f i).isSome with hcs
      have hn : cs.Nodup := (List.nodup_finRange d).filter _
      obtain ⟨h1, h2⟩ := buildFace_spec (vs := cs.map fun i => (f i).getD false) hn (by simp)
      change buildFace _ _ = f
      funext i
      by_cases hi : i ∈ cs
      · rw [List.map_map] at h2
        have := List.map_inj_left.1 h2 i hi
        rw [this]
        rw [hcs, List.mem_filter] at hi
        obtain ⟨v, hv⟩ := Option.isSome_iff_exists.1 hi.2
        simp [hv]
      · rw [h1 i hi]
        rw [hcs, List.mem_filter] at hi
        simp at hi
        exact hi.symm

/-! ### combinations with replacement -/

namespace Itertools
variable {α : Type*}

theorem cwr_mem {l : List α} {r : ℕ} {x : List α} (h : x ∈ combinationsWithReplacement l r) : x.length = r ∧ ∀ a ∈ x, a ∈ l := by
  induction l, r using combinationsWithReplacement.induct generalizing x with
  | case1 l => rw [combinationsWithReplacement] at h; simp at h; subst h; simp
  | case2 r => rw [combinationsWithReplacement] at h; simp at h
  | case3 a l r ih1 ih2 =>
    rw [combinationsWithReplacement, List.mem_append, List.mem_map] at h
    rcases h with ⟨y, hy, rfl⟩ | h
    · obtain ⟨h1, h2⟩ := ih1 hy
      refine ⟨by simp [h1], ?_⟩
      intro b hb
      rcases List.mem_cons.1 hb with rfl | hb
      · simp
      · exact h2 b hb
    · obtain ⟨h1, h2⟩ := ih2 h
      exact ⟨h1, fun b hb => List.mem_cons_of_mem _ (h2 b hb)⟩

theorem cwr_exists [DecidableEq α] {l : List α} {r : ℕ} {y : List α} (hy : y.length = r) (hl : ∀ a ∈ y, a ∈ l) :
    ∃ x ∈ combinationsWithReplacement l r, x.Perm y := by
  induction l, r using combinationsWithReplacement.induct generalizing y with
  | case1 l => refine ⟨[], by rw [combinationsWithReplacement]; simp, ?_⟩; simp at hy; subst hy; simp
  | case2 r => cases y with
    | nil => simp at hy
    | cons a y => exact absurd (hl a List.mem_cons_self) (by simp)
  | case3 a l r ih1 ih2 =>
    rw [combinationsWithReplacement]
    by_cases ha : a ∈ y
    · obtain ⟨x, hx, hp⟩ := ih1 (y := y.erase a) (by rw [List.length_erase_of_mem ha, hy]; rfl)
        (fun b hb => hl b (List.mem_of_mem_erase hb))
      exact ⟨a :: x, by simp [hx], (List.Perm.cons a hp).trans (List.perm_cons_erase ha).symm⟩
    · obtain ⟨x, hx, hp⟩ := ih2 hy (fun b hb => by
        rcases List.mem_cons.1 (hl b hb) with rfl | h
        · exact absurd hb ha
        · exact h)
      exact ⟨x, by simp [hx], hp⟩

theorem cwr_unique {l : List α} {r : ℕ} (hl : l.Nodup) {x y : List α} (hx : x ∈ combinationsWithReplacement l r)
    (hy : y ∈ combinationsWithReplacement l r) (hp : x.Perm y) : x = y := by
  induction l, r using combinationsWithReplacement.induct generalizing x y with
  | case1 l => rw [combinationsWithReplacement] at hx hy; simp at hx hy; rw [hx, hy]
  | case2 r => rw [combinationsWithReplacement] at hx; simp at hx
  | case3 a l r ih1 ih2 =>
    rw [combinationsWithReplacement, List.mem_append, List.mem_map] at hx hy
    have hna := (List.nodup_cons.1 hl).1
    rcases hx with ⟨x, hx, rfl⟩ | hx <;> rcases hy with ⟨y, hy, rfl⟩ | hy
    · rw [ih1 hl hx hy (List.Perm.cons_inv hp)]
    · exact absurd ((cwr_mem hy).2 a (hp.subset (by simp))) hna
    · exact absurd ((cwr_mem hx).2 a (hp.symm.subset (by simp))) hna
    · exact ih2 (List.nodup_cons.1 hl).2 hx hy hp

theorem cwr_nodup {l : List α} {r : ℕ} (hl : l.Nodup) : (combinationsWithReplacement l r).Nodup := by
  induction l, r using combinationsWithReplacement.induct with
  | case1 l => rw [combinationsWithReplacement]; simp
  | case2 r => rw [combinationsWithReplacement]; simp
  | case3 a l r ih1 ih2 =>
    have hna := List.nodup_cons.1 hl
    rw [combinationsWithReplacement, List.nodup_append]
    refine ⟨(ih1 hl).map (fun x y h => by simpa using h), ih2 hna.2, ?_⟩
    intro x hx y hy he
    obtain ⟨x, _, rfl⟩ := List.mem_map.1 hx
    subst he
    exact hna.1 ((cwr_mem hy).2 a (by simp))

end Itertools

/-! ### combinations_product -/

section cp
variable {I T : Type} [DecidableEq I]

/-- Entries of `out` at the positions whose id is `id`. -/
def groupAt (ids : List I) (out : List T) (id : I) : List T := ((ids.zip out).filter (fun p => p.1 = id)).map Prod.snd

theorem counterBump_keys (id : I) (c : List (I × ℕ)) :
    (counterBump id c).map Prod.fst = if id ∈ c.map Prod.fst then c.map Prod.fst else c.map Prod.fst ++ [id] := by
  induction c with
  | nil => simp [counterBump]
  | cons p c ih =>
    obtain ⟨k, n⟩ := p
    by_cases h : k = id
    · simp [counterBump, h]
    · have h' : ¬ id = k := fun e => h e.symm
      simp only [counterBump, h, if_false, List.map_cons, ih, List.mem_cons, h', false_or]
      split <;> simp

theorem counterBump_mem (id : I) (c : List (I × ℕ)) (hc : (c.map Prod.fst).Nodup) {k : I} {n : ℕ} (h : (k, n) ∈ counterBump id c) :
    (k ≠ id ∧ (k, n) ∈ c) ∨ (k = id ∧ ∃ m, n = m + 1 ∧ ((k, m) ∈ c ∨ m = 0 ∧ k ∉ c.map Prod.fst)) := by
  induction c with
  | nil => simp [counterBump] at h; exact Or.inr ⟨h.1, 0, h.2, Or.inr ⟨rfl, by simp⟩⟩
  | cons p c ih =>
    obtain ⟨k', n'⟩ := p
    rw [List.map_cons, List.nodup_cons] at hc
    by_cases hk : k' = id
    · subst hk
      simp only [counterBump, if_true, List.mem_cons, Prod.mk.injEq] at h
      rcases h with ⟨rfl, rfl⟩ | h
      · exact Or.inr ⟨rfl, n', rfl, Or.inl (by simp)⟩
      · refine Or.inl ⟨?_, by simp [h]⟩
        intro e
        exact hc.1 (e ▸ (List.mem_map_of_mem h : (k, n).1 ∈ _))
    · simp only [counterBump, hk, if_false, List.mem_cons, Prod.mk.injEq] at h
      rcases h with ⟨rfl, rfl⟩ | h
      · exact Or.inl ⟨hk, by simp⟩
      · rcases ih hc.2 h with ⟨h1, h2⟩ | ⟨h1, m, h2, h3⟩
        · exact Or.inl ⟨h1, by simp [h2]⟩
        · refine Or.inr ⟨h1, m, h2, ?_⟩
          rcases h3 with h3 | ⟨h3, h4⟩
          · exact Or.inl (by simp [h3])
          · refine Or.inr ⟨h3, ?_⟩
            subst h1
            simp only [List.map_cons, List.mem_cons, not_or]
            exact ⟨fun e => hk e.symm, h4⟩

theorem counterItems_append (ids : List I) (id : I) : counterItems (ids ++ [id]) = counterBump id (counterItems ids) := by
  simp [counterItems]

theorem counterItems_keys_nodup (ids : List I) : ((counterItems ids).map Prod.fst).Nodup := by
  induction ids using List.reverseRecOn with
  | nil => simp [counterItems]
  | append_singleton ids id ih =>
    rw [counterItems_append, counterBump_keys]
    split
    · exact ih
    · rename_i h
      exact List.nodup_append.2 ⟨ih, by simp, by simpa using fun a b hab e => h (by rw [← e]; exact List.mem_map_of_mem (f := Prod.fst) hab)⟩

theorem counterItems_keys_mem (ids : List I) (k : I) : k ∈ (counterItems ids).map Prod.fst ↔ k ∈ ids := by
  induction ids using List.reverseRecOn with
  | nil => simp [counterItems]
  | append_singleton ids id ih =>
    rw [counterItems_append, counterBump_keys]
    split
    · rename_i h
      rw [ih]
      simp only [List.mem_append, List.mem_singleton]
      constructor
      · exact Or.inl
      · rintro (h' | rfl)
        · exact h'
        · exact ih.1 h
    · rw [List.mem_append, ih]; simp

theorem counterItems_count (ids : List I) {k : I} {n : ℕ} (h : (k, n) ∈ counterItems ids) : n = ids.count k := by
  induction ids using List.reverseRecOn generalizing n with
  | nil => simp [counterItems] at h
  | append_singleton ids id ih =>
    rw [counterItems_append] at h
    rw [List.count_append, List.count_singleton]
    rcases counterBump_mem id _ (counterItems_keys_nodup ids) h with ⟨h1, h2⟩ | ⟨h1, m, rfl, h3⟩
    · rw [ih h2]
      have : ¬ id = k := fun e => h1 e.symm
      simp [this]
    · subst h1
      simp only [BEq.rfl, if_true]
      rcases h3 with h3 | ⟨rfl, h3⟩
      · rw [ih h3]
      · rw [counterItems_keys_mem] at h3
        rw [List.count_eq_zero_of_not_mem h3]

/-- The group stored for `id`. -/
def glookup (gs : List (I × List T)) (id : I) : List T := (gs.lookup id).getD []

theorem popFirst_spec {id : I} {gs : List (I × List T)} {x : T} {g : List T} (h : glookup gs id = x :: g) :
    ∃ gs', popFirst id gs = some (x, gs') ∧ ∀ k, glookup gs' k = if k = id then g else glookup gs k := by
  induction gs with
  | nil => simp [glookup] at h
  | cons p gs ih =>
    obtain ⟨k', g'⟩ := p
    by_cases hk : k' = id
    · subst hk
      simp only [glookup, List.lookup_cons, BEq.rfl, Option.getD_some] at h
      subst h
      refine ⟨(k', g) :: gs, by simp [popFirst], ?_⟩
      intro k
      by_cases hkk : k = k'
      · subst hkk; simp [glookup, List.lookup_cons]
      · have hb : (k == k') = false := by simpa using hkk
        simp only [glookup, List.lookup_cons, hb, hkk, if_false]
    · have hb : (id == k') = false := by simpa using fun e => hk (Eq.symm e)
      have h' : glookup gs id = x :: g := by simpa only [glookup, List.lookup_cons, hb] using h
      obtain ⟨gs', h1, h2⟩ := ih h'
      refine ⟨(k', g') :: gs', by simp [popFirst, hk, h1], ?_⟩
      intro k
      by_cases hkk : k = k'
      · subst hkk; simp [glookup, List.lookup_cons, hk]
      · have hb : (k == k') = false := by simpa using hkk
        have := h2 k
        simp only [glookup] at this
        simp only [glookup, List.lookup_cons, hb, this]

theorem distribute_spec (ids : List I) (gs : List (I × List T)) (h : ∀ id, (glookup gs id).length = ids.count id) :
    ∃ out, distribute ids gs = some out ∧ out.length = ids.length ∧ ∀ id, groupAt ids out id = glookup gs id := by
  induction ids generalizing gs with
  | nil =>
    refine ⟨[], rfl, rfl, fun id => ?_⟩
    have := h id
    simp only [List.count_nil, List.length_eq_zero_iff] at this
    rw [this]; rfl
  | cons a ids ih =>
    have ha := h a
    rw [List.count_cons_self] at ha
    obtain ⟨x, g, hxg⟩ := List.exists_cons_of_length_eq_add_one ha
    obtain ⟨gs', h1, h2⟩ := popFirst_spec hxg
    obtain ⟨out, h3, h4, h5⟩ := ih gs' (by
      intro id
      rw [h2 id]
      split
      · rename_i e; subst e; rw [hxg] at ha; simpa using ha
      · rename_i e
        rw [h id, List.count_cons_of_ne (fun e' => e e'.symm)])
    refine ⟨x :: out, by simp [distribute, h1, h3], by simp [h4], ?_⟩
    intro id
    have h5 := h5 id
    rw [h2 id] at h5
    unfold groupAt at h5 ⊢
    rw [List.zip_cons_cons]
    by_cases e : id = a
    · subst e
      rw [List.filter_cons_of_pos (by simp), List.map_cons, h5, if_pos rfl, hxg]
    · rw [List.filter_cons_of_neg (by simpa using fun e' => e e'.symm), h5, if_neg e]

theorem groupAt_inj {ids : List I} {x y : List T} (hx : x.length = ids.length) (hy : y.length = ids.length)
    (h : ∀ id, groupAt ids x id = groupAt ids y id) : x = y := by
  induction ids generalizing x y with
  | nil => 
    have h1 : x = [] := by simpa using hx
    have h2 : y = [] := by simpa using hy
    rw [h1, h2]
  | cons a ids ih =>
    cases x with
    | nil => simp at hx
    | cons b x =>
      cases y with
      | nil => simp at hy
      | cons c y =>
        have ha := h a
        simp only [groupAt, List.zip_cons_cons] at ha
        rw [List.filter_cons_of_pos (by simp), List.filter_cons_of_pos (by simp), List.map_cons, List.map_cons, List.cons.injEq] at ha
        obtain ⟨hbc, ha⟩ := ha
        simp only at hbc
        subst hbc
        congr 1
        refine ih (by simpa using hx) (by simpa using hy) fun id => ?_
        by_cases e : id = a
        · subst e; exact ha
        · have := h id
          simp only [groupAt, List.zip_cons_cons] at this
          rw [List.filter_cons_of_neg (by simpa using fun e' => e e'.symm), List.filter_cons_of_neg (by simpa using fun e' => e e'.symm)] at this
          exact this

/-- A family of groups admissible for `combinations_product`. -/
theorem glookup_zip {items : List (I × ℕ)} (pool : I → List T) {g : List (List T)}
    (hg : List.Forall₂ (· ∈ ·) g (items.map fun p => Itertools.combinationsWithReplacement (pool p.1) p.2))
    (hn : (items.map Prod.fst).Nodup) :
    (∀ p ∈ items, glookup ((items.map Prod.fst).zip g) p.1 ∈ Itertools.combinationsWithReplacement (pool p.1) p.2) ∧
    (∀ k, k ∉ items.map Prod.fst → glookup ((items.map Prod.fst).zip g) k = []) ∧
    g = items.map fun p => glookup ((items.map Prod.fst).zip g) p.1 := by
  induction items generalizing g with
  | nil =>
    simp only [List.map_nil, List.forall₂_nil_right_iff] at hg
    subst hg
    simp [glookup]
  | cons p items ih =>
    rw [List.map_cons, List.forall₂_cons_right_iff] at hg
    obtain ⟨x, g', hx, hg', rfl⟩ := hg
    rw [List.map_cons, List.nodup_cons] at hn
    obtain ⟨h1, h2, h3⟩ := ih hg' hn.2
    have hself : glookup (((p :: items).map Prod.fst).zip (x :: g')) p.1 = x := by
      simp [glookup, List.lookup_cons]
    have hother : ∀ k, k ≠ p.1 → glookup (((p :: items).map Prod.fst).zip (x :: g')) k = glookup ((items.map Prod.fst).zip g') k := by
      intro k hk
      have hb : (k == p.1) = false := by simpa using hk
      simp only [glookup, List.map_cons, List.zip_cons_cons, List.lookup_cons, hb]
    refine ⟨?_, ?_, ?_⟩
    · intro q hq
      rcases List.mem_cons.1 hq with rfl | hq'
      · rw [hself]; exact hx
      · rw [hother q.1 (fun e => hn.1 (e ▸ List.mem_map_of_mem (f := Prod.fst) hq'))]
        exact h1 q hq'
    · intro k hk
      rw [List.map_cons, List.mem_cons, not_or] at hk
      rw [hother k hk.1]
      exact h2 k hk.2
    · rw [List.map_cons, hself]
      congr 1
      conv_lhs => rw [h3]
      apply List.map_congr_left
      intro q hq
      rw [hother q.1 (fun e => hn.1 (e ▸ List.mem_map_of_mem (f := Prod.fst) hq))]

theorem cwr_zero (l : List T) : Itertools.combinationsWithReplacement l 0 = [[]] := by
  rw [Itertools.combinationsWithReplacement]

theorem mapM_some_of {α β : Type} (f : α → Option β) (l : List α) (h : ∀ a ∈ l, ∃ b, f a = some b) :
    ∃ r, l.mapM f = some r ∧ List.Forall₂ (fun a b => f a = some b) l r := by
  induction l with
  | nil => exact ⟨[], rfl, List.Forall₂.nil⟩
  | cons a l ih =>
    obtain ⟨b, hb⟩ := h a List.mem_cons_self
    obtain ⟨r, hr, hf⟩ := ih fun a' ha' => h a' (List.mem_cons_of_mem _ ha')
    exact ⟨b :: r, by rw [List.mapM_cons, hb, hr]; rfl, List.Forall₂.cons hb hf⟩

theorem mem_of_forall₂ {α β : Type} {R : α → β → Prop} {l : List α} {r : List β} (h : List.Forall₂ R l r) :
    (∀ b ∈ r, ∃ a ∈ l, R a b) ∧ ∀ a ∈ l, ∃ b ∈ r, R a b := by
  induction h with
  | nil => simp
  | @cons a b l r hab hf ih =>
    constructor
    · intro b' hb'
      rcases List.mem_cons.1 hb' with rfl | hb'
      · exact ⟨a, by simp, hab⟩
      · obtain ⟨a', ha', hr⟩ := ih.1 b' hb'; exact ⟨a', by simp [ha'], hr⟩
    · intro a' ha'
      rcases List.mem_cons.1 ha' with rfl | ha'
      · exact ⟨b, by simp, hab⟩
      · obtain ⟨b', hb', hr⟩ := ih.2 a' ha'; exact ⟨b', by simp [hb'], hr⟩

theorem nodup_of_forall₂ {α β : Type} {R : α → β → Prop} {l : List α} {r : List β} (h : List.Forall₂ R l r) (hl : l.Nodup)
    (hinj : ∀ a ∈ l, ∀ a' ∈ l, ∀ b, R a b → R a' b → a = a') : r.Nodup := by
  induction h with
  | nil => exact List.nodup_nil
  | @cons a b l r hab hf ih =>
    rw [List.nodup_cons] at hl ⊢
    refine ⟨?_, ih hl.2 fun a ha a' ha' => hinj a (List.mem_cons_of_mem _ ha) a' (List.mem_cons_of_mem _ ha')⟩
    intro hb
    obtain ⟨a', ha', hr⟩ := (mem_of_forall₂ hf).1 b hb
    have := hinj a List.mem_cons_self a' (List.mem_cons_of_mem _ ha') b hab hr
    exact hl.1 (this ▸ ha')

/-- Exact description of the output of `combinations_product`. -/
theorem combinationsProduct_spec (ids : List I) (pool : I → List T) :
    ∃ res, combinationsProduct ids pool = some res ∧
      (∀ out, out ∈ res ↔ out.length = ids.length ∧
        ∀ id, groupAt ids out id ∈ Itertools.combinationsWithReplacement (pool id) (ids.count id)) ∧
      ((∀ id, (pool id).Nodup) → res.Nodup) := by
  have hn := counterItems_keys_nodup ids
  have hlook : ∀ g ∈ Itertools.product ((counterItems ids).map fun p => Itertools.combinationsWithReplacement (pool p.1) p.2), ∀ id,
      glookup (((counterItems ids).map Prod.fst).zip g) id ∈ Itertools.combinationsWithReplacement (pool id) (ids.count id) := by
    intro g hg id
    rw [Itertools.mem_product] at hg
    obtain ⟨h1, h2, h3⟩ := glookup_zip pool hg hn
    by_cases hid : id ∈ (counterItems ids).map Prod.fst
    · obtain ⟨⟨k, n⟩, hp, rfl⟩ := List.mem_map.1 hid
      have := h1 _ hp
      rwa [counterItems_count ids hp] at this
    · rw [h2 id hid]
      rw [counterItems_keys_mem] at hid
      rw [List.count_eq_zero_of_not_mem hid, cwr_zero]; simp
  have hdist : ∀ g ∈ Itertools.product ((counterItems ids).map fun p => Itertools.combinationsWithReplacement (pool p.1) p.2),
      ∃ out, distribute ids (((counterItems ids).map Prod.fst).zip g) = some out ∧ out.length = ids.length ∧
        ∀ id, groupAt ids out id = glookup (((counterItems ids).map Prod.fst).zip g) id := by
    intro g hg
    exact distribute_spec ids _ fun id => (Itertools.cwr_mem (hlook g hg id)).1
  obtain ⟨res, hres, hf⟩ := mapM_some_of (fun g => distribute ids (((counterItems ids).map Prod.fst).zip g))
    (Itertools.product ((counterItems ids).map fun p => Itertools.combinationsWithReplacement (pool p.1) p.2))
    (fun g hg => by obtain ⟨o, h, _⟩ := hdist g hg; exact ⟨o, h⟩)
  refine ⟨res, hres, ?_, ?_⟩
  · intro out
    constructor
    · intro ho
      obtain ⟨g, hg, hr⟩ := (mem_of_forall₂ hf).1 out ho
      obtain ⟨o, h1, h2, h3⟩ := hdist g hg
      rw [h1] at hr
      simp only [Option.some.injEq] at hr
      subst hr
      exact ⟨h2, fun id => h3 id ▸ hlook g hg id⟩
    · rintro ⟨hl, hm⟩
      have hg : ((counterItems ids).map fun p => groupAt ids out p.1) ∈
          Itertools.product ((counterItems ids).map fun p => Itertools.combinationsWithReplacement (pool p.1) p.2) := by
        rw [Itertools.mem_product, List.forall₂_map_left_iff, List.forall₂_map_right_iff, List.forall₂_same]
        intro p hp
        have := hm p.1
        rwa [← counterItems_count ids hp] at this
      obtain ⟨o, ho, hr⟩ := (mem_of_forall₂ hf).2 _ hg
      obtain ⟨o', h1, h2, h3⟩ := hdist _ hg
      rw [h1] at hr
      simp only [Option.some.injEq] at hr
      subst hr
      have : out = o' := by
        apply groupAt_inj hl h2
        intro id
        rw [h3 id]
        obtain ⟨e1, e2, e3⟩ := glookup_zip pool (Itertools.mem_product.1 hg) hn
        by_cases hid : id ∈ (counterItems ids).map Prod.fst
        · obtain ⟨p, hp, rfl⟩ := List.mem_map.1 hid
          exact List.map_inj_left.1 e3 p hp
        · rw [e2 id hid]
          rw [counterItems_keys_mem] at hid
          have := (Itertools.cwr_mem (hm id)).1
          rw [List.count_eq_zero_of_not_mem hid] at this
          simpa using this
      rw [this]; exact ho
  · intro hp
    apply nodup_of_forall₂ hf
    · apply Itertools.nodup_product
      intro l hl
      obtain ⟨p, _, rfl⟩ := List.mem_map.1 hl
      exact Itertools.cwr_nodup (hp p.1)
    · intro g hg g' hg' o h1 h2
      obtain ⟨o1, a1, a2, a3⟩ := hdist g hg
      obtain ⟨o2, b1, b2, b3⟩ := hdist g' hg'
      simp only [a1, Option.some.injEq] at h1
      simp only [b1, Option.some.injEq] at h2
      subst h1; subst h2
      rw [(glookup_zip pool (Itertools.mem_product.1 hg) hn).2.2, (glookup_zip pool (Itertools.mem_product.1 hg') hn).2.2]
      apply List.map_congr_left
      intro p _
      rw [← a3, ← b3]

/-- Pairs (id, value) as a multiset = groups as multisets. -/
theorem zip_perm_iff {ids : List I} {x y : List T} :
    (ids.zip x).Perm (ids.zip y) ↔ ∀ id, (groupAt ids x id).Perm (groupAt ids y id) := by
  classical
  constructor
  · intro h id
    exact (h.filter _).map _
  · intro h
    rw [List.perm_iff_count]
    rintro ⟨k, t⟩
    have := (List.perm_iff_count.1 (h k)) t
    have key : ∀ z : List T, (groupAt ids z k).count t = (ids.zip z).count (k, t) := by
      intro z
      unfold groupAt
      induction ids.zip z with
      | nil => rfl
      | cons p l ih =>
        obtain ⟨a, b⟩ := p
        by_cases e : a = k
        · subst e
          rw [List.filter_cons_of_pos (by simp), List.map_cons, List.count_cons, List.count_cons, ih]
          simp [Prod.ext_iff]
        · rw [List.filter_cons_of_neg (by simpa using e), List.count_cons, ih]
          simp [Prod.ext_iff, e]
    rw [← key, ← key, this]

end cp

end Peano
