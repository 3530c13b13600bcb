import Verif.Lemmas.FuzzyLoop

set_option autoImplicit false

/- Termination of the estimator for fuzzy curves. -/
namespace Peano
variable {d : ℕ} {r : Ratio} {c e : FCurve d}
open FCurve (Possible HasExample)
namespace Dilation
variable {Q : HeapQ (HNode (BoundedPair d)) HNode.lt} {S : SatSolver}

theorem item_lo_pos (hd : d ≠ 0) (hr : r.Ok d) {x : BoundedPair d} (hx : ItemOK c r none x) : 0 < x.lo := by
  obtain ⟨e, he⟩ := hx.pair.sub.estimable.exists_possible
  obtain ⟨hf, hc, _⟩ := hx.pair.sub.estimable.possible e he
  obtain ⟨f, hfr⟩ := hf.realizes_of_check hc
  obtain ⟨b, k, hb, hk, _, _, hlo, _⟩ := hx.pair.bounds hd hr he hfr (stash := none) trivial (by simp)
  have e := hx.bounds
  rw [show getBounds (m := Option) (pureB r) none x.pair = some b from hb] at e
  have e1 : x.lo = b.lo := by rw [Option.some.inj e]
  rw [e1, hlo rfl]
  apply r.val_pos
  · refine ⟨⟨0, Nat.pos_of_ne_zero hd⟩, ?_⟩
    have := hk.dx_pos ⟨0, Nat.pos_of_ne_zero hd⟩
    exact_mod_cast this.ne'
  · exact_mod_cast hk.min_pos.trans hk.min_lt

theorem exists_min (xs : List (BoundedPair d)) (h : ∀ x ∈ xs, 0 < x.lo) : ∃ m : ℚ, 0 < m ∧ ∀ x ∈ xs, m ≤ x.lo := by
  induction xs with
  | nil => exact ⟨1, one_pos, by simp⟩
  | cons a xs ih =>
    obtain ⟨m, h1, h2⟩ := ih fun x hx => h x (List.mem_cons_of_mem _ hx)
    refine ⟨min m a.lo, lt_min h1 (h a List.mem_cons_self), ?_⟩
    intro x hx
    rcases List.mem_cons.1 hx with rfl | hx
    · exact min_le_right _ _
    · exact (min_le_left _ _).trans (h2 x hx)

/-- There is a positive lower bound of all dilations. -/
theorem exists_loOK (hE : c.Estimable) (hd : d ≠ 0) (hr : r.Ok d) : ∃ m : ℚ, 0 < m ∧ LoOK c r m := by
  obtain ⟨xs, h1, _⟩ := createTree_first (Q := sortedHeapQ _) hE hd hr none none false
  obtain ⟨m, hm, hle⟩ := exists_min xs fun x hx => item_lo_pos hd hr (h1.1 x hx).1
  refine ⟨m, hm, ?_⟩
  intro e D he hD
  obtain ⟨f, hw⟩ := (wit_iff hE hd hr he).2 hD
  obtain ⟨y, hy, hj, _⟩ := hE.firstCover hd hr he hw.real hw.great.1
  obtain ⟨x, hx, a1, _, _⟩ := h1.2 y hy
  have := wit_lo_le hd hr hw (h1.1 x hx).1 ⟨by rw [a1]; exact hj, by rw [(h1.1 x hx).2]; exact hE.agrees he⟩
  have h2 : (m : ℝ) ≤ x.lo := by exact_mod_cast hle x hx
  linarith

section loop
variable (hE : c.Estimable) (hd : d ≠ 0) (hr : r.Ok d) (p : FuzzyParams d) {tol : ℚ} {tree : ItemsHeap (BoundedPair d)} {adapter : Sat.Adapter d}
  (htree : createTree (m := Option) Q (keyBounds r) c none none false none = some tree) (hadapter : Sat.loadCurve c = some adapter)
include hE hd hr htree hadapter

/-- One iteration. -/
theorem fuzzyLoop_step {lo up : ℚ} (h0 : 0 < (testThresholds lo up).1) (hlt : (testThresholds lo up).1 < (testThresholds lo up).2)
    (hfound : UpOK c r (testThresholds lo up).2 → ∃ j fuel0, ∀ fuel ≥ fuel0, ∀ n ≥ j, ∀ curr, ∃ curr' lo' up',
      fuzzyLoop (m := Option) Q (keyBounds r) S fuel c p tol tree adapter n curr lo (testThresholds lo up).2 = some (.ok curr' lo' up'))
    (habsent : ∃ j fuel0, ∀ fuel ≥ fuel0, ∀ n ≥ j, ∀ curr, ∃ curr' lo' up',
      fuzzyLoop (m := Option) Q (keyBounds r) S fuel c p tol tree adapter n curr (testThresholds lo up).1 up = some (.ok curr' lo' up')) :
    ∃ j fuel0, ∀ fuel ≥ fuel0, ∀ n ≥ j, ∀ curr, ∃ curr' lo' up',
      fuzzyLoop (m := Option) Q (keyBounds r) S fuel c p tol tree adapter n curr lo up = some (.ok curr' lo' up') := by
  obtain ⟨f0, hf0⟩ := C48_terminates hd r hr c hE Q S p.bisect (testThresholds lo up).2 (testThresholds lo up).1 h0 hlt (some tree) (some adapter)
    (by rintro _ ⟨⟩; exact htree) (by rintro _ ⟨⟩; exact hadapter)
  obtain ⟨j2, f2, hf2⟩ := habsent
  obtain ⟨j1, f1, hf1⟩ : ∃ j fuel0, UpOK c r (testThresholds lo up).2 → ∀ fuel ≥ fuel0, ∀ n ≥ j, ∀ curr, ∃ curr' lo' up',
      fuzzyLoop (m := Option) Q (keyBounds r) S fuel c p tol tree adapter n curr lo (testThresholds lo up).2 = some (.ok curr' lo' up') := by
    by_cases hu : UpOK c r (testThresholds lo up).2
    · obtain ⟨j, f, h⟩ := hfound hu
      exact ⟨j, f, fun _ => h⟩
    · exact ⟨0, 0, fun h => absurd h hu⟩
  refine ⟨max j1 j2 + 1, max f0 (max f1 f2), ?_⟩
  intro fuel hfuel n hn curr
  obtain ⟨n, rfl⟩ : ∃ n', n = n' + 1 := ⟨n - 1, by omega⟩
  unfold fuzzyLoop
  by_cases hgt : up > lo * tol
  · rw [if_pos hgt]
    obtain ⟨out, h1, _, h3, _⟩ := C47_bisect hd r hr c hE Q S p.bisect (testThresholds lo up).2 (testThresholds lo up).1 (some tree) (some adapter)
      (by rintro _ ⟨⟩; exact htree) (by rintro _ ⟨⟩; exact hadapter) fuel
    obtain ⟨out', g1, g2, _⟩ := hf0 fuel (by omega)
    rw [h1] at g1
    cases g1
    dsimp only
    show ∃ curr' lo' up', Option.bind _ _ = _
    rw [h1, Option.bind_some]
    cases out with
    | outOfFuel => exact absurd rfl g2
    | outOfIter => exact ⟨_, _, _, rfl⟩
    | found c' =>
      have hcur : CurOK c r (some c') (testThresholds lo up).2 := by rintro _ ⟨⟩; exact h3 c' rfl
      by_cases hs : p.stopUp.any (fun stop => decide (lo > stop)) = true
      · simp only [hs]
        exact ⟨_, _, _, rfl⟩
      · simp only [hs]
        exact hf1 (curOK_up hE hd hr hcur) fuel (by omega) n (by omega) _
    | absent =>
      by_cases hs : p.stopUp.any (fun stop => decide ((testThresholds lo up).1 > stop)) = true
      · simp only [hs]
        exact ⟨_, _, _, rfl⟩
      · simp only [hs]
        exact hf2 fuel (by omega) n (by omega) _
  · rw [if_neg hgt]
    exact ⟨_, _, _, rfl⟩

omit hE hd hr htree hadapter in
theorem fuzzyLoop_stop {lo up : ℚ} (h : up ≤ lo * tol) : ∃ j fuel0, ∀ fuel ≥ fuel0, ∀ n ≥ j, ∀ curr, ∃ curr' lo' up',
      fuzzyLoop (m := Option) Q (keyBounds r) S fuel c p tol tree adapter n curr lo up = some (.ok curr' lo' up') := by
  refine ⟨0, 0, fun fuel _ n _ curr => ?_⟩
  cases n <;> unfold fuzzyLoop <;> rw [if_neg (not_lt.2 h)] <;> exact ⟨_, _, _, rfl⟩

/-- With a positive lower bound the gap shrinks. -/
theorem fuzzyLoop_phase2 {k lo0 : ℚ} (hk : 0 < k) (htol : tol = 1 + 1 / k) (h0 : 0 < lo0) (j : ℕ) : ∀ lo up, lo0 ≤ lo → up - lo ≤ lo0 / k * (3 / 2) ^ j →
    ∃ j fuel0, ∀ fuel ≥ fuel0, ∀ n ≥ j, ∀ curr, ∃ curr' lo' up',
      fuzzyLoop (m := Option) Q (keyBounds r) S fuel c p tol tree adapter n curr lo up = some (.ok curr' lo' up') := by
  have hstop : ∀ lo up : ℚ, lo0 ≤ lo → up - lo ≤ lo0 / k → up ≤ lo * tol := by
    intro lo up h1 h2
    have : lo0 / k ≤ lo / k := div_le_div_of_nonneg_right h1 hk.le
    have e : lo * tol = lo + lo / k := by rw [htol]; ring
    linarith
  induction j with
  | zero =>
    intro lo up h1 h2
    rw [pow_zero, mul_one] at h2
    exact fuzzyLoop_stop p (hstop lo up h1 h2)
  | succ j ih =>
    intro lo up h1 h2
    by_cases hgt : up ≤ lo * tol
    · exact fuzzyLoop_stop p hgt
    · have hlo : 0 < lo := h0.trans_le h1
      have hup : lo < up := by
        have h3 : lo < lo * tol := by
          rw [htol]
          have : 0 < lo * (1 / k) := by positivity
          linarith
        exact h3.trans (not_le.1 hgt)
      have hT : testThresholds lo up = (2 / 3 * lo + 1 / 3 * up, 1 / 3 * lo + 2 / 3 * up) := by
        unfold testThresholds
        rw [if_neg hlo.ne']
      have hgap : 2 / 3 * (up - lo) ≤ lo0 / k * (3 / 2) ^ j := by
        have e : lo0 / k * (3 / 2) ^ (j + 1) = 3 / 2 * (lo0 / k * (3 / 2) ^ j) := by ring
        rw [e] at h2
        linarith
      refine fuzzyLoop_step hE hd hr p htree hadapter ?_ ?_ (fun _ => ih _ _ h1 ?_) (ih _ _ ?_ ?_)
      all_goals rw [hT]
      all_goals dsimp only
      · linarith
      · linarith
      · linarith
      · linarith
      · linarith

/-- With the lower bound zero the upper bound shrinks. -/
theorem fuzzyLoop_phase1 {k m : ℚ} (hk : 0 < k) (htol : tol = 1 + 1 / k) (hm : 0 < m) (hlo : LoOK c r m) (j : ℕ) : ∀ up, UpOK c r up → up ≤ m * (3 / 2) ^ j →
    ∃ j fuel0, ∀ fuel ≥ fuel0, ∀ n ≥ j, ∀ curr, ∃ curr' lo' up',
      fuzzyLoop (m := Option) Q (keyBounds r) S fuel c p tol tree adapter n curr 0 up = some (.ok curr' lo' up') := by
  have hle : ∀ up, UpOK c r up → m ≤ up := by
    rintro up ⟨e, D, h1, h2, h3⟩
    have := hlo e D h1 h2
    have h4 : (m : ℝ) ≤ up := this.trans h3
    exact_mod_cast h4
  have hT : ∀ up : ℚ, testThresholds 0 up = (1 / 2 * up, 2 / 3 * up) := by
    intro up
    unfold testThresholds
    rw [if_pos rfl]
  have habs : ∀ up, m ≤ up → ∃ j fuel0, ∀ fuel ≥ fuel0, ∀ n ≥ j, ∀ curr, ∃ curr' lo' up',
      fuzzyLoop (m := Option) Q (keyBounds r) S fuel c p tol tree adapter n curr (testThresholds 0 up).1 up = some (.ok curr' lo' up') := by
    intro up hup
    rw [hT]
    have hpos : 0 < 1 / 2 * up := by linarith
    obtain ⟨j, hj⟩ := pow_unbounded_of_one_lt ((up - 1 / 2 * up) / (1 / 2 * up / k)) (show (1 : ℚ) < 3 / 2 by norm_num)
    refine fuzzyLoop_phase2 hE hd hr p htree hadapter hk htol hpos j _ _ le_rfl ?_
    rw [div_lt_iff₀ (by positivity)] at hj
    linarith
  induction j with
  | zero =>
    intro up hu h2
    have h1 := hle up hu
    rw [pow_zero, mul_one] at h2
    refine fuzzyLoop_step hE hd hr p htree hadapter ?_ ?_ (fun hu' => ?_) (habs up h1)
    · rw [hT]; dsimp only; linarith
    · rw [hT]; dsimp only; linarith
    · have := hle _ hu'
      rw [hT] at this
      dsimp only at this
      linarith
  | succ j ih =>
    intro up hu h2
    have h1 := hle up hu
    refine fuzzyLoop_step hE hd hr p htree hadapter ?_ ?_ (fun hu' => ih _ hu' ?_) (habs up h1)
    · rw [hT]; dsimp only; linarith
    · rw [hT]; dsimp only; linarith
    · rw [hT]
      dsimp only
      have e : m * (3 / 2) ^ (j + 1) = 3 / 2 * (m * (3 / 2) ^ j) := by ring
      rw [e] at h2
      linarith

/-- The loop ends. -/
theorem fuzzyLoop_terminates {k : ℚ} (hk : 0 < k) (htol : tol = 1 + 1 / k) {lo up : ℚ} (hlo : 0 ≤ lo) (hup : UpOK c r up) :
    ∃ j fuel0, ∀ fuel ≥ fuel0, ∀ n ≥ j, ∀ curr, ∃ curr' lo' up',
      fuzzyLoop (m := Option) Q (keyBounds r) S fuel c p tol tree adapter n curr lo up = some (.ok curr' lo' up') := by
  rcases hlo.eq_or_lt with rfl | hlo
  · obtain ⟨m, hm, hl⟩ := exists_loOK (r := r) hE hd hr
    obtain ⟨j, hj⟩ := pow_unbounded_of_one_lt (up / m) (show (1 : ℚ) < 3 / 2 by norm_num)
    rw [div_lt_iff₀ hm] at hj
    exact fuzzyLoop_phase1 hE hd hr p htree hadapter hk htol hm hl j up hup (by linarith)
  · obtain ⟨j, hj⟩ := pow_unbounded_of_one_lt ((up - lo) / (lo / k)) (show (1 : ℚ) < 3 / 2 by norm_num)
    rw [div_lt_iff₀ (by positivity)] at hj
    exact fuzzyLoop_phase2 hE hd hr p htree hadapter hk htol hlo j lo up le_rfl (by linarith)

end loop

/-- The start of the estimator ends. -/
theorem fuzzyStart_terminates (hE : c.Estimable) (hd : d ≠ 0) (hr : r.Ok d) (p : FuzzyParams d) (htol : 0 < p.relTolInv) :
    ∃ fuel0, ∀ fuel ≥ fuel0, fuzzyStart (m := Option) Q (keyBounds r) fuel c p ≠ some none := by
  cases hu : p.startUp with
  | some u =>
    refine ⟨0, fun fuel _ h => ?_⟩
    unfold fuzzyStart at h
    rw [hu] at h
    cases h
  | none =>
    obtain ⟨e, h1, h2⟩ := FCurve.getCurveExample_spec hE.sized hE.allowedDefined hE.nonempty
    have hex : HasExample c e := by
      have hp : e.pnum = c.pnum := h2.pnum
      unfold FCurve.HasExample
      rw [← hp]
      exact h2
    obtain ⟨k1, k2, k3, k4, k5⟩ := hex.hyps hE (by rw [FCurve.getCurveExample_kind h1]; exact hE.kind_ne)
    obtain ⟨fuel0, hf⟩ := C59_terminates hd r hr e k1 k2 k3 k4 k5 Q ⟨some p.relTolInv, none, none, none⟩ (by simp) p.relTolInv htol rfl
    refine ⟨fuel0, fun fuel hle h => ?_⟩
    obtain ⟨lo, up, a, hrun⟩ := hf fuel hle
    unfold fuzzyStart at h
    rw [hu] at h
    dsimp only at h
    have h : Option.bind c.getCurveExample _ = _ := h
    rw [h1, Option.bind_some] at h
    have h : Option.bind (estimateRegular (m := Option) Q (keyBounds r) fuel e ⟨some p.relTolInv, none, none, none⟩) _ = _ := h
    rw [hrun, Option.bind_some] at h
    cases h

end Dilation
end Peano
