import Verif.Lemmas.FuzzyTerm

set_option autoImplicit false

/-
Properties C49 and C61: `estimate_dilation_fuzzy`.
-/
namespace Peano
variable {d : ℕ}
open FCurve (Possible HasExample)
namespace Dilation

/-- C49. The method raises no exception (`rel_tol_inv = 0` is excluded).  If it returns `curve`, `lo`, `up`, then
* `lo` is at most the dilation of each possible curve, provided that this is so for `start_lower_bound`, if it is given;
* `up` is at least the dilation of some possible curve, provided that this is so for `start_upper_bound`, if it is given;
* a returned curve is possible and its dilation is at most `up`, provided that this is so for `start_curve` and `start_upper_bound`, if they are given;
* a curve is returned, if `start_upper_bound` is absent or `start_curve` is given;
* without `max_iter` and `stop_upper_bound` the tolerance is reached; without `max_iter` it is reached or `lo` exceeds `stop_upper_bound`. -/
theorem C49_fuzzy (hd : d ≠ 0) (r : Ratio) (hr : r.Ok d) (c : FCurve d) (hE : c.Estimable) (Q : HeapQ (HNode (BoundedPair d)) HNode.lt) (S : SatSolver)
    (p : FuzzyParams d) (htol : p.relTolInv ≠ 0) (fuel : ℕ) :
    ∃ res, estimateFuzzy (m := Option) Q (keyBounds r) S fuel c p = some res ∧ ∀ curve lo up, res = .ok curve lo up →
      ((∀ l, p.startLo = some l → ∀ e D, Possible c e → e.IsDilation r D → (l : ℝ) ≤ D) → ∀ e D, Possible c e → e.IsDilation r D → (lo : ℝ) ≤ D) ∧
      ((∀ u, p.startUp = some u → ∃ e D, Possible c e ∧ e.IsDilation r D ∧ D ≤ u) → ∃ e D, Possible c e ∧ e.IsDilation r D ∧ D ≤ up) ∧
      ((∀ u c0, p.startUp = some u → p.startCurve = some c0 → HasExample c c0 ∧ ∀ D, c0.IsDilation r D → D ≤ u) →
        ∀ c', curve = some c' → HasExample c c' ∧ ∀ D, c'.IsDilation r D → D ≤ up) ∧
      ((p.startUp.isSome → p.startCurve.isSome) → curve.isSome) ∧
      (p.bisect.maxIter = none → up ≤ lo * (1 + 1 / (p.relTolInv : ℚ)) ∨ ∃ s, p.stopUp = some s ∧ s < lo) := by
  obtain ⟨tree, adapter, t1, t2, heq⟩ := estimateFuzzy_eq (Q := Q) (S := S) hE hd hr p htol
  obtain ⟨start, s1, s2⟩ := fuzzyStart_ok (Q := Q) hE hd hr p htol fuel
  rw [heq, s1, Option.bind_some]
  cases start with
  | none => exact ⟨_, rfl, by simp⟩
  | some y =>
    obtain ⟨curr, up0⟩ := y
    obtain ⟨a1, a2⟩ := s2 curr up0 rfl
    obtain ⟨res, g1, g2⟩ := fuzzyLoop_ok (S := S) hE hd hr p (1 + 1 / (p.relTolInv : ℚ)) t1 t2 fuel fuel curr (p.startLo.getD 0) up0
    refine ⟨res, g1, ?_⟩
    intro curve lo up hres
    have h := g2 curve lo up hres
    refine ⟨?_, ?_, ?_, ?_, h.stop⟩
    · intro hlo
      apply h.loOk
      cases hl : p.startLo with
      | none =>
        intro e D he hD
        show ((0 : ℚ) : ℝ) ≤ D
        rw [Rat.cast_zero]
        exact (dilation_pos hE hd hr he hD).le
      | some l => exact hlo l hl
    · intro hup
      apply h.upOk
      cases hu : p.startUp with
      | none =>
        obtain ⟨b1, b2⟩ := a2 hu
        obtain ⟨c0, rfl⟩ := Option.isSome_iff_exists.1 b1
        exact curOK_up hE hd hr b2
      | some u =>
        obtain ⟨_, rfl⟩ := a1 u hu
        exact hup _ hu
    · intro hcur
      apply h.curOk
      cases hu : p.startUp with
      | none => exact (a2 hu).2
      | some u =>
        obtain ⟨rfl, rfl⟩ := a1 u hu
        intro c0 hc0
        exact hcur _ c0 hu hc0
    · intro hs
      apply h.someOk
      cases hu : p.startUp with
      | none => exact (a2 hu).1
      | some u =>
        obtain ⟨rfl, rfl⟩ := a1 u hu
        exact hs (by rw [hu]; rfl)

theorem regularLoop_mono {r : Ratio} {Q : HeapQ (HNode (BoundedPair d)) HNode.lt} {p : RegularParams} {tol : Option ℚ} {stash : Stash d} (fuel : ℕ) :
    ∀ {n : ℕ} {st : RegularState d} {lo up : ℚ} {a : Option (Argmax d)}, regularLoop (m := Option) Q (keyBounds r) p tol stash fuel n st = some (.ok lo up a) →
      ∀ fuel', fuel ≤ fuel' → regularLoop (m := Option) Q (keyBounds r) p tol stash fuel' n st = some (.ok lo up a) := by
  induction fuel with
  | zero => intro n st lo up a h; cases h
  | succ fuel ih =>
    intro n st lo up a h fuel' hle
    obtain ⟨k, rfl⟩ : ∃ k, fuel' = k + 1 := ⟨fuel' - 1, by omega⟩
    unfold regularLoop at h ⊢
    by_cases hs : regularStop p tol (n + 1) st = true
    · rw [if_pos hs] at h ⊢
      exact h
    · rw [if_neg hs] at h ⊢
      have h : Option.bind (regularStep (m := Option) Q (keyBounds r) stash st) _ = _ := h
      show Option.bind (regularStep (m := Option) Q (keyBounds r) stash st) _ = _
      cases hst : regularStep (m := Option) Q (keyBounds r) stash st with
      | none => rw [hst] at h; cases h
      | some st' =>
        rw [hst, Option.bind_some] at h
        rw [Option.bind_some]
        exact ih h k (by omega)

theorem estimateRegular_mono {r : Ratio} {Q : HeapQ (HNode (BoundedPair d)) HNode.lt} {c : FCurve d} {k : ℤ} {fuel fuel' : ℕ} (hle : fuel ≤ fuel')
    {lo up : ℚ} {a : Option (Argmax d)} (h : estimateRegular (m := Option) Q (keyBounds r) fuel c ⟨some k, none, none, none⟩ = some (.ok lo up a)) :
    estimateRegular (m := Option) Q (keyBounds r) fuel' c ⟨some k, none, none, none⟩ = some (.ok lo up a) := by
  unfold estimateRegular at h ⊢
  have h : Option.bind (tolerance k) _ = _ := h
  show Option.bind (tolerance k) _ = _
  cases ht : tolerance k with
  | none => rw [ht] at h; cases h
  | some tol =>
    rw [ht, Option.bind_some] at h
    rw [Option.bind_some]
    have h : Option.bind (regularInit (m := Option) Q (keyBounds r) c none) _ = _ := h
    show Option.bind (regularInit (m := Option) Q (keyBounds r) c none) _ = _
    cases hi : regularInit (m := Option) Q (keyBounds r) c none with
    | none => rw [hi] at h; cases h
    | some st =>
      rw [hi, Option.bind_some] at h
      rw [Option.bind_some]
      exact regularLoop_mono fuel h fuel' hle

theorem fuzzyStart_mono {r : Ratio} {Q : HeapQ (HNode (BoundedPair d)) HNode.lt} {c : FCurve d} {p : FuzzyParams d} {fuel fuel' : ℕ} (hle : fuel ≤ fuel')
    {y : Option (FCurve d) × ℚ} (h : fuzzyStart (m := Option) Q (keyBounds r) fuel c p = some (some y)) :
    fuzzyStart (m := Option) Q (keyBounds r) fuel' c p = some (some y) := by
  unfold fuzzyStart at h ⊢
  cases hu : p.startUp with
  | some u => rw [hu] at h; exact h
  | none =>
    rw [hu] at h
    dsimp only at h ⊢
    have h : Option.bind c.getCurveExample _ = _ := h
    show Option.bind c.getCurveExample _ = _
    cases hc : c.getCurveExample with
    | none => rw [hc] at h; cases h
    | some e =>
      rw [hc, Option.bind_some] at h
      rw [Option.bind_some]
      have h : Option.bind (estimateRegular (m := Option) Q (keyBounds r) fuel e ⟨some p.relTolInv, none, none, none⟩) _ = _ := h
      show Option.bind (estimateRegular (m := Option) Q (keyBounds r) fuel' e ⟨some p.relTolInv, none, none, none⟩) _ = _
      cases he : estimateRegular (m := Option) Q (keyBounds r) fuel e ⟨some p.relTolInv, none, none, none⟩ with
      | none => rw [he] at h; cases h
      | some res =>
        cases res with
        | outOfFuel => rw [he, Option.bind_some] at h; cases h
        | ok lo up a =>
          rw [estimateRegular_mono hle he]
          rw [he] at h
          exact h

/-- C61. With a positive `rel_tol_inv`, a non-negative `start_lower_bound` (if given) and a `start_upper_bound` (if given) that is at least the
dilation of some possible curve, the method returns after finitely many iterations, whatever the other parameters, the solver and the schedule
of its calls are. -/
theorem C61_terminates (hd : d ≠ 0) (r : Ratio) (hr : r.Ok d) (c : FCurve d) (hE : c.Estimable) (Q : HeapQ (HNode (BoundedPair d)) HNode.lt) (S : SatSolver)
    (p : FuzzyParams d) (htol : 0 < p.relTolInv) (hlo : ∀ l, p.startLo = some l → 0 ≤ l)
    (hup : ∀ u, p.startUp = some u → ∃ e D, Possible c e ∧ e.IsDilation r D ∧ D ≤ u) :
    ∃ fuel0, ∀ fuel, fuel0 ≤ fuel → ∃ curve lo up, estimateFuzzy (m := Option) Q (keyBounds r) S fuel c p = some (.ok curve lo up) := by
  obtain ⟨tree, adapter, t1, t2, heq⟩ := estimateFuzzy_eq (Q := Q) (S := S) hE hd hr p htol.ne'
  obtain ⟨f0, hf0⟩ := fuzzyStart_terminates (Q := Q) hE hd hr p htol
  obtain ⟨start, s1, s2⟩ := fuzzyStart_ok (Q := Q) hE hd hr p htol.ne' f0
  cases start with
  | none => exact absurd s1 (hf0 f0 le_rfl)
  | some y =>
    obtain ⟨curr, up0⟩ := y
    obtain ⟨a1, a2⟩ := s2 curr up0 rfl
    have hU : UpOK c r up0 := by
      cases hu : p.startUp with
      | none =>
        obtain ⟨b1, b2⟩ := a2 hu
        obtain ⟨c0, rfl⟩ := Option.isSome_iff_exists.1 b1
        exact curOK_up hE hd hr b2
      | some u =>
        obtain ⟨_, rfl⟩ := a1 u hu
        exact hup _ hu
    have hL : 0 ≤ p.startLo.getD 0 := by
      cases hl : p.startLo with
      | none => exact le_rfl
      | some l => exact hlo l hl
    obtain ⟨j, f1, hf1⟩ := fuzzyLoop_terminates (Q := Q) (S := S) hE hd hr p t1 t2 (k := (p.relTolInv : ℚ)) (by exact_mod_cast htol) rfl hL hU
    refine ⟨max f0 (max j f1), fun fuel hle => ?_⟩
    rw [heq, fuzzyStart_mono (by omega) s1, Option.bind_some]
    exact hf1 fuel (by omega) fuel (by omega) curr

/-- C49, C61 on the forgotten Hilbert curve. -/
example : ∃ c', Zoo.hilbert.forget none false = some c' ∧ c'.Estimable ∧ ∃ fuel e lo up,
    estimateFuzzy (m := Option) (sortedHeapQ _) (keyBounds Ratio.l2) Sat.choiceSolver fuel c' ⟨1000, none, none, none, none, ⟨none, fun n => n + 1⟩⟩ = some (.ok (some e) lo up) ∧
    HasExample c' e ∧ up ≤ lo * (1001 / 1000) := by
  obtain ⟨h, hk, h0, hc, hfill⟩ := hilbert_hyps
  obtain ⟨c', e1, e2, _⟩ := FCurve.C56_forget Zoo.hilbert none false (by decide +kernel) h h0 (by simp) (by simp [FCurve.InGroup])
  have hE := FCurve.C44_forgotten_curves Zoo.hilbert c' h h0 hc hfill none false (by simp) e1
  refine ⟨c', e1, hE, ?_⟩
  obtain ⟨f0, hf0⟩ := C61_terminates (by decide) Ratio.l2 (by decide) c' hE (sortedHeapQ _) Sat.choiceSolver ⟨1000, none, none, none, none, ⟨none, fun n => n + 1⟩⟩ (by decide)
    (by simp) (by simp)
  obtain ⟨curve, lo, up, hrun⟩ := hf0 f0 le_rfl
  obtain ⟨res, k1, k2⟩ := C49_fuzzy (by decide) Ratio.l2 (by decide) c' hE (sortedHeapQ _) Sat.choiceSolver ⟨1000, none, none, none, none, ⟨none, fun n => n + 1⟩⟩ (by decide) f0
  rw [hrun] at k1
  obtain ⟨_, _, q3, q4, q5⟩ := k2 curve lo up (Option.some.inj k1).symm
  obtain ⟨e, rfl⟩ := Option.isSome_iff_exists.1 (q4 (by simp))
  refine ⟨f0, e, lo, up, hrun, (q3 (by simp) e rfl).1, ?_⟩
  rcases q5 rfl with h | ⟨s, hs, _⟩
  · norm_num at h ⊢
    exact h
  · cases hs

end Dilation
end Peano
