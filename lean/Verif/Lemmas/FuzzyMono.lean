import Verif.Props.FuzzyEstimator

set_option autoImplicit false

/-
Lemmas for C62: the results of the estimators do not depend on the fuel, if it suffices.
-/
namespace Peano
variable {d : ℕ}
open FCurve (Possible HasExample)
namespace Dilation

variable {r : Ratio} {Q : HeapQ (HNode (BoundedPair d)) HNode.lt} {S : SatSolver}

theorem bisectLoop_mono {p : BisectParams} (fuel : ℕ) : ∀ {it sat : ℕ} {tree : ItemsHeap (BoundedPair d)} {adapter : Sat.Adapter d} {e : BisectEnd d},
    bisectLoop (m := Option) Q (keyBounds r) S p fuel it sat tree adapter = some e → e ≠ .outOfFuel → ∀ fuel', fuel ≤ fuel' →
      bisectLoop (m := Option) Q (keyBounds r) S p fuel' it sat tree adapter = some e := by
  induction fuel with
  | zero =>
    intro it sat tree adapter e h hne fuel' _
    unfold bisectLoop at h
    by_cases hs : tree.size > 0
    · rw [if_pos hs] at h
      exact absurd (Option.some.inj h).symm hne
    · rw [if_neg hs] at h
      cases fuel' <;> unfold bisectLoop <;> rw [if_neg hs] <;> exact h
  | succ fuel ih =>
    intro it sat tree adapter e h hne fuel' hle
    obtain ⟨k, rfl⟩ : ∃ k, fuel' = k + 1 := ⟨fuel' - 1, by omega⟩
    unfold bisectLoop at h ⊢
    by_cases hs : tree.size > 0
    · rw [if_pos hs] at h ⊢
      dsimp only at h ⊢
      by_cases hm : p.maxIter.any (fun k => decide (((it + 1 : ℕ) : ℤ) > k)) = true
      · rw [if_pos hm] at h ⊢
        exact h
      · rw [if_neg hm] at h ⊢
        have h : Option.bind (divideTree (m := Option) Q (keyBounds r) none tree) _ = _ := h
        show Option.bind (divideTree (m := Option) Q (keyBounds r) none tree) _ = _
        cases hst : divideTree (m := Option) Q (keyBounds r) none tree with
        | none => rw [hst] at h; cases h
        | some tree' =>
          rw [hst, Option.bind_some] at h
          rw [Option.bind_some]
          generalize forbid tree' adapter = y at h ⊢
          obtain ⟨t, a⟩ := y
          dsimp only at h ⊢
          by_cases h1 : it + 1 < sat
          · rw [if_pos h1] at h ⊢
            exact ih h hne k (by omega)
          · rw [if_neg h1] at h ⊢
            by_cases h2 : (S.solve a.intClauses).isNone = true
            · rw [if_pos h2] at h ⊢
              exact h
            · rw [if_neg h2] at h ⊢
              exact ih h hne k (by omega)
    · rw [if_neg hs] at h ⊢
      exact h

variable {c : FCurve d}

theorem bisectFuzzy_mono {p : BisectParams} {fuel fuel' : ℕ} (hle : fuel ≤ fuel') {good bad : ℚ} {tree : ItemsHeap (BoundedPair d)} {adapter : Sat.Adapter d}
    {out : BisectResult d} (h : bisectFuzzy (m := Option) Q (keyBounds r) S fuel c good bad p (some tree) (some adapter) = some out) (hne : out ≠ .outOfFuel) :
    bisectFuzzy (m := Option) Q (keyBounds r) S fuel' c good bad p (some tree) (some adapter) = some out := by
  unfold bisectFuzzy at h ⊢
  have h : Option.bind (tree.copyAndCleanup Q (some good) (some bad)) _ = _ := h
  show Option.bind (tree.copyAndCleanup Q (some good) (some bad)) _ = _
  cases hst : tree.copyAndCleanup Q (some good) (some bad) with
  | none => rw [hst] at h; cases h
  | some tree' =>
    rw [hst, Option.bind_some] at h
    rw [Option.bind_some]
    have h : (Option.bind (bisectLoop (m := Option) Q (keyBounds r) S p fuel 0 1 (forbid tree' adapter).1 (forbid tree' adapter).2) fun e => bisectFinish S c e) = _ := h
    show (Option.bind (bisectLoop (m := Option) Q (keyBounds r) S p fuel' 0 1 (forbid tree' adapter).1 (forbid tree' adapter).2) fun e => bisectFinish S c e) = _
    cases he : bisectLoop (m := Option) Q (keyBounds r) S p fuel 0 1 (forbid tree' adapter).1 (forbid tree' adapter).2 with
    | none => rw [he] at h; cases h
    | some e =>
      rw [he, Option.bind_some] at h
      have hne' : e ≠ .outOfFuel := by
        rintro rfl
        exact hne (Option.some.inj h).symm
      rw [bisectLoop_mono fuel he hne' fuel' hle, Option.bind_some]
      exact h

theorem fuzzyLoop_mono {p : FuzzyParams d} {tol : ℚ} {tree : ItemsHeap (BoundedPair d)} {adapter : Sat.Adapter d} {fuel fuel' : ℕ} (hle : fuel ≤ fuel') (n : ℕ) :
    ∀ {curr : Option (FCurve d)} {lo up : ℚ} {curr' : Option (FCurve d)} {lo' up' : ℚ},
      fuzzyLoop (m := Option) Q (keyBounds r) S fuel c p tol tree adapter n curr lo up = some (.ok curr' lo' up') → ∀ n', n ≤ n' →
        fuzzyLoop (m := Option) Q (keyBounds r) S fuel' c p tol tree adapter n' curr lo up = some (.ok curr' lo' up') := by
  induction n with
  | zero =>
    intro curr lo up curr' lo' up' h n' _
    unfold fuzzyLoop at h
    by_cases hs : up > lo * tol
    · rw [if_pos hs] at h
      cases h
    · rw [if_neg hs] at h
      cases n' <;> unfold fuzzyLoop <;> rw [if_neg hs] <;> exact h
  | succ n ih =>
    intro curr lo up curr' lo' up' h n' hn
    obtain ⟨k, rfl⟩ : ∃ k, n' = k + 1 := ⟨n' - 1, by omega⟩
    unfold fuzzyLoop at h ⊢
    by_cases hs : up > lo * tol
    · rw [if_pos hs] at h ⊢
      generalize testThresholds lo up = y at h ⊢
      obtain ⟨tl, tu⟩ := y
      have h : Option.bind (bisectFuzzy (m := Option) Q (keyBounds r) S fuel c tu tl p.bisect (some tree) (some adapter)) _ = _ := h
      show Option.bind (bisectFuzzy (m := Option) Q (keyBounds r) S fuel' c tu tl p.bisect (some tree) (some adapter)) _ = _
      cases hb : bisectFuzzy (m := Option) Q (keyBounds r) S fuel c tu tl p.bisect (some tree) (some adapter) with
      | none => rw [hb] at h; cases h
      | some out =>
        rw [hb, Option.bind_some] at h
        have hne : out ≠ .outOfFuel := by
          rintro rfl
          cases h
        rw [bisectFuzzy_mono hle hb hne, Option.bind_some]
        cases out with
        | outOfFuel => exact absurd rfl hne
        | outOfIter => exact h
        | found c' =>
          dsimp only at h ⊢
          by_cases h2 : p.stopUp.any (fun stop => decide (lo > stop)) = true
          · rw [if_pos h2] at h ⊢; exact h
          · rw [if_neg h2] at h ⊢; exact ih h k (by omega)
        | absent =>
          dsimp only at h ⊢
          by_cases h2 : p.stopUp.any (fun stop => decide (tl > stop)) = true
          · rw [if_pos h2] at h ⊢; exact h
          · rw [if_neg h2] at h ⊢; exact ih h k (by omega)
    · rw [if_neg hs] at h ⊢
      exact h

theorem estimateFuzzy_mono (hd : d ≠ 0) (hr : r.Ok d) (hE : c.Estimable) {p : FuzzyParams d} (htol : p.relTolInv ≠ 0) {fuel fuel' : ℕ} (hle : fuel ≤ fuel')
    {curve : Option (FCurve d)} {lo up : ℚ} (h : estimateFuzzy (m := Option) Q (keyBounds r) S fuel c p = some (.ok curve lo up)) :
    estimateFuzzy (m := Option) Q (keyBounds r) S fuel' c p = some (.ok curve lo up) := by
  obtain ⟨tree, adapter, t1, t2, heq⟩ := estimateFuzzy_eq (Q := Q) (S := S) hE hd hr p htol
  rw [heq] at h ⊢
  cases hst : fuzzyStart (m := Option) Q (keyBounds r) fuel c p with
  | none => rw [hst] at h; cases h
  | some y =>
    cases y with
    | none => rw [hst] at h; cases h
    | some y =>
      rw [fuzzyStart_mono hle hst]
      rw [hst] at h
      exact fuzzyLoop_mono hle fuel h fuel' hle

theorem testThresholds_nonneg {lo up : ℚ} (h0 : 0 ≤ lo) (h1 : 0 ≤ up) : 0 ≤ (testThresholds lo up).1 ∧ 0 ≤ (testThresholds lo up).2 := by
  unfold testThresholds
  by_cases h : lo = 0
  · rw [if_pos h]; constructor <;> dsimp only <;> linarith
  · rw [if_neg h]; constructor <;> dsimp only <;> linarith

theorem fuzzyLoop_nonneg {p : FuzzyParams d} {tol : ℚ} {tree : ItemsHeap (BoundedPair d)} {adapter : Sat.Adapter d} {fuel : ℕ} (n : ℕ) :
    ∀ {curr : Option (FCurve d)} {lo up : ℚ} {curr' : Option (FCurve d)} {lo' up' : ℚ}, 0 ≤ lo → 0 ≤ up →
      fuzzyLoop (m := Option) Q (keyBounds r) S fuel c p tol tree adapter n curr lo up = some (.ok curr' lo' up') → 0 ≤ lo' := by
  induction n with
  | zero =>
    intro curr lo up curr' lo' up' h0 _ h
    unfold fuzzyLoop at h
    by_cases hs : up > lo * tol
    · rw [if_pos hs] at h
      cases h
    · rw [if_neg hs] at h
      cases h
      exact h0
  | succ n ih =>
    intro curr lo up curr' lo' up' h0 hu h
    unfold fuzzyLoop at h
    by_cases hs : up > lo * tol
    · rw [if_pos hs] at h
      obtain ⟨a1, a2⟩ := testThresholds_nonneg h0 hu
      generalize testThresholds lo up = y at h a1 a2
      obtain ⟨tl, tu⟩ := y
      have h : Option.bind (bisectFuzzy (m := Option) Q (keyBounds r) S fuel c tu tl p.bisect (some tree) (some adapter)) _ = _ := h
      cases hb : bisectFuzzy (m := Option) Q (keyBounds r) S fuel c tu tl p.bisect (some tree) (some adapter) with
      | none => rw [hb] at h; cases h
      | some out =>
        rw [hb, Option.bind_some] at h
        cases out with
        | outOfFuel => cases h
        | outOfIter => cases h; exact h0
        | found c' =>
          dsimp only at h
          by_cases h2 : p.stopUp.any (fun stop => decide (lo > stop)) = true
          · rw [if_pos h2] at h; cases h; exact h0
          · rw [if_neg h2] at h; exact ih h0 a2 h
        | absent =>
          dsimp only at h
          by_cases h2 : p.stopUp.any (fun stop => decide (tl > stop)) = true
          · rw [if_pos h2] at h; cases h; exact a1
          · rw [if_neg h2] at h; exact ih a1 hu h
    · rw [if_neg hs] at h
      cases h
      exact h0

theorem UpOK.nonneg (hE : c.Estimable) (hd : d ≠ 0) (hr : r.Ok d) {u : ℚ} (h : UpOK c r u) : 0 ≤ u := by
  obtain ⟨e, D, h1, h2, h3⟩ := h
  have : (0 : ℝ) ≤ u := (dilation_pos hE hd hr h1 h2).le.trans h3
  exact_mod_cast this

/-- The returned lower bound is not negative. -/
theorem estimateFuzzy_nonneg (hd : d ≠ 0) (hr : r.Ok d) (hE : c.Estimable) {p : FuzzyParams d} (htol : p.relTolInv ≠ 0) {fuel : ℕ}
    (hlo : ∀ l, p.startLo = some l → 0 ≤ l) (hup : ∀ u, p.startUp = some u → UpOK c r u)
    {curve : Option (FCurve d)} {lo up : ℚ} (h : estimateFuzzy (m := Option) Q (keyBounds r) S fuel c p = some (.ok curve lo up)) : 0 ≤ lo := by
  obtain ⟨tree, adapter, t1, t2, heq⟩ := estimateFuzzy_eq (Q := Q) (S := S) hE hd hr p htol
  rw [heq] at h
  obtain ⟨start, s1, s2⟩ := fuzzyStart_ok (Q := Q) hE hd hr p htol fuel
  rw [s1, Option.bind_some] at h
  cases start with
  | none => cases h
  | some y =>
    obtain ⟨curr, up0⟩ := y
    obtain ⟨a1, a2⟩ := s2 curr up0 rfl
    have hU : UpOK c r up0 := by
      cases hu : p.startUp with
      | none =>
        obtain ⟨b1, b2⟩ := a2 hu
        obtain ⟨c0, rfl⟩ := Option.isSome_iff_exists.1 b1
        exact curOK_up hE hd hr b2
      | some u =>
        obtain ⟨_, rfl⟩ := a1 u hu
        exact hup _ hu
    refine fuzzyLoop_nonneg fuel ?_ (hU.nonneg hE hd hr) h
    cases hl : p.startLo with
    | none => exact le_rfl
    | some l => exact hlo l hl

end Dilation
end Peano
