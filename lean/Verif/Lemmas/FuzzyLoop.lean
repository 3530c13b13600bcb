import Verif.Props.Bisect

set_option autoImplicit false

/- The estimator for fuzzy curves. -/
namespace Peano
variable {d : ℕ} {r : Ratio} {c e : FCurve d}
open FCurve (Possible HasExample)

namespace FCurve

theorem getCurveExample_kind (h : c.getCurveExample = some e) : e.kind = c.kind := by
  unfold getCurveExample at h
  simp only [Option.bind_eq_bind, Option.bind_eq_some_iff] at h
  obtain ⟨dict, _, h⟩ := h
  unfold specifyAllowed at h
  simp only [Option.bind_eq_bind, Option.bind_eq_some_iff, Option.pure_def, Option.some.injEq] at h
  obtain ⟨_, _, rfl⟩ := h
  rfl

/-- What `estimate_dilation_regular` needs to know about examples. -/
theorem HasExample.hyps (hE : c.Estimable) (h : HasExample c e) (hk : e.kind ≠ .fuzzy) :
    e.Full ∧ e.kind ≠ .fuzzy ∧ 0 < e.mult ∧ e.check = some true ∧ e.FillsGrid := by
  obtain ⟨h1, h2, h3⟩ := hE.possible _ h
  have hf : e.Full := ⟨⟨h1.two_le_div, h1.proto_length, h1.specs_length, h1.cube_range, h1.spec_range⟩, h1.cube_def, h1.spec_def⟩
  refine ⟨hf, hk, ?_, ?_, h3⟩
  · have := h.mult
    have h4 : e.mult = c.mult := this
    rw [h4]
    exact hE.mult_pos
  · obtain ⟨f, hr⟩ := (C12_check_iff _ h1).2.1 h2
    exact (C12_check_iff e hf).2.2 ⟨f, hr.mem_cube, hr.eqn⟩

end FCurve

namespace Dilation
variable {Q : HeapQ (HNode (BoundedPair d)) HNode.lt} {S : SatSolver}

/-- A lower bound of the dilations of possible curves. -/
def LoOK (c : FCurve d) (r : Ratio) (lo : ℚ) : Prop := ∀ e D, Possible c e → e.IsDilation r D → (lo : ℝ) ≤ D

/-- An upper bound of the least dilation. -/
def UpOK (c : FCurve d) (r : Ratio) (up : ℚ) : Prop := ∃ e D, Possible c e ∧ e.IsDilation r D ∧ D ≤ up

/-- The curve is an example for the upper bound. -/
def CurOK (c : FCurve d) (r : Ratio) (curr : Option (FCurve d)) (up : ℚ) : Prop := ∀ c', curr = some c' → HasExample c c' ∧ ∀ D, c'.IsDilation r D → D ≤ up

theorem exists_dilation (hE : c.Estimable) (hd : d ≠ 0) (hr : r.Ok d) (he : Possible c e) : ∃ D, e.IsDilation r D ∧ 0 < D := by
  obtain ⟨h1, h2, h3⟩ := hE.possible e he
  have h0 : 0 < e.mult := by rw [he.mult]; exact hE.mult_pos
  obtain ⟨⟨D, hD, _⟩, hmem⟩ := FCurve.C58_dilation hd r hr e h1 h0 h2
  obtain ⟨f, hf, hlub⟩ := id hD
  exact ⟨D, hD, (regCtx hd hr h1 (by rw [he.kind]; simp) h0 h2 h3 hf ⟨hmem f D hf hD, hlub.1⟩ (stash := none) trivial).dilation_pos⟩

theorem dilation_pos (hE : c.Estimable) (hd : d ≠ 0) (hr : r.Ok d) (he : Possible c e) {D : ℝ} (hD : e.IsDilation r D) : 0 < D := by
  obtain ⟨D', h1, h2⟩ := exists_dilation hE hd hr he
  obtain ⟨k1, k2, _⟩ := hE.possible e he
  obtain ⟨⟨D0, _, hu⟩, _⟩ := FCurve.C58_dilation hd r hr e k1 (by rw [he.mult]; exact hE.mult_pos) k2
  rw [hu D hD, ← hu D' h1]
  exact h2

theorem curOK_up (hE : c.Estimable) (hd : d ≠ 0) (hr : r.Ok d) {c' : FCurve d} {up : ℚ} (h : CurOK c r (some c') up) : UpOK c r up := by
  obtain ⟨h1, h2⟩ := h c' rfl
  obtain ⟨D, hD, _⟩ := exists_dilation hE hd hr h1
  exact ⟨_, D, h1, hD, h2 D ((isDilation_with c' .curve c.pnum D).1 hD)⟩

/-- What is known after the estimator has started from `curr`, `lo`, `up`. -/
structure FuzzyOK (c : FCurve d) (r : Ratio) (p : FuzzyParams d) (tol : ℚ) (curr : Option (FCurve d)) (lo up : ℚ) (curr' : Option (FCurve d)) (lo' up' : ℚ) : Prop where
  loOk : LoOK c r lo → LoOK c r lo'
  upOk : UpOK c r up → UpOK c r up'
  curOk : CurOK c r curr up → CurOK c r curr' up'
  someOk : curr.isSome → curr'.isSome
  stop : p.bisect.maxIter = none → up' ≤ lo' * tol ∨ ∃ s, p.stopUp = some s ∧ s < lo'

theorem fuzzyLoop_ok (hE : c.Estimable) (hd : d ≠ 0) (hr : r.Ok d) (p : FuzzyParams d) (tol : ℚ) {tree : ItemsHeap (BoundedPair d)} {adapter : Sat.Adapter d}
    (htree : createTree (m := Option) Q (keyBounds r) c none none false none = some tree) (hadapter : Sat.loadCurve c = some adapter) (fuel n : ℕ) :
    ∀ curr lo up, ∃ res, fuzzyLoop (m := Option) Q (keyBounds r) S fuel c p tol tree adapter n curr lo up = some res ∧
      ∀ curr' lo' up', res = .ok curr' lo' up' → FuzzyOK c r p tol curr lo up curr' lo' up' := by
  induction n with
  | zero =>
    intro curr lo up
    unfold fuzzyLoop
    by_cases hgt : up > lo * tol
    · rw [if_pos hgt]; exact ⟨_, rfl, by simp⟩
    · rw [if_neg hgt]
      refine ⟨_, rfl, ?_⟩
      rintro _ _ _ ⟨⟩
      exact ⟨id, id, id, id, fun _ => Or.inl (not_lt.1 hgt)⟩
  | succ n ih =>
    intro curr lo up
    unfold fuzzyLoop
    by_cases hgt : up > lo * tol
    · rw [if_pos hgt]
      obtain ⟨out, h1, h2, h3, h4⟩ := C47_bisect hd r hr c hE Q S p.bisect (testThresholds lo up).2 (testThresholds lo up).1 (some tree) (some adapter)
        (by rintro _ ⟨⟩; exact htree) (by rintro _ ⟨⟩; exact hadapter) fuel
      dsimp only
      show ∃ res, Option.bind _ _ = _ ∧ _
      rw [h1, Option.bind_some]
      cases out with
      | outOfFuel => exact ⟨_, rfl, by simp⟩
      | outOfIter =>
        refine ⟨_, rfl, ?_⟩
        rintro _ _ _ ⟨⟩
        exact ⟨id, id, id, id, fun hm => absurd rfl (h2 hm)⟩
      | found c' =>
        have hcur : CurOK c r (some c') (testThresholds lo up).2 := by rintro _ ⟨⟩; exact h3 c' rfl
        by_cases hs : p.stopUp.any (fun stop => decide (lo > stop)) = true
        · simp only [hs]
          refine ⟨_, rfl, ?_⟩
          rintro _ _ _ ⟨⟩
          refine ⟨id, fun _ => curOK_up hE hd hr hcur, fun _ => hcur, fun _ => rfl, fun _ => Or.inr ?_⟩
          obtain ⟨s, k1, k2⟩ := (Option.any_eq_true _ _).1 hs
          exact ⟨s, k1, of_decide_eq_true k2⟩
        · simp only [hs]
          obtain ⟨res, g1, g2⟩ := ih (some c') lo (testThresholds lo up).2
          refine ⟨res, g1, ?_⟩
          intro curr' lo' up' hres
          have := g2 curr' lo' up' hres
          exact ⟨this.loOk, fun _ => this.upOk (curOK_up hE hd hr hcur), fun _ => this.curOk hcur, fun _ => this.someOk rfl, this.stop⟩
      | absent =>
        have hlo : LoOK c r (testThresholds lo up).1 := h4 rfl
        by_cases hs : p.stopUp.any (fun stop => decide ((testThresholds lo up).1 > stop)) = true
        · simp only [hs]
          refine ⟨_, rfl, ?_⟩
          rintro _ _ _ ⟨⟩
          refine ⟨fun _ => hlo, id, id, id, fun _ => Or.inr ?_⟩
          obtain ⟨s, k1, k2⟩ := (Option.any_eq_true _ _).1 hs
          exact ⟨s, k1, of_decide_eq_true k2⟩
        · simp only [hs]
          obtain ⟨res, g1, g2⟩ := ih curr (testThresholds lo up).1 up
          refine ⟨res, g1, ?_⟩
          intro curr' lo' up' hres
          have := g2 curr' lo' up' hres
          exact ⟨fun _ => this.loOk hlo, this.upOk, this.curOk, this.someOk, this.stop⟩
    · rw [if_neg hgt]
      refine ⟨_, rfl, ?_⟩
      rintro _ _ _ ⟨⟩
      exact ⟨id, id, id, id, fun _ => Or.inl (not_lt.1 hgt)⟩

/-- The start: either the given bound, or the bound of an example. -/
theorem fuzzyStart_ok (hE : c.Estimable) (hd : d ≠ 0) (hr : r.Ok d) (p : FuzzyParams d) (htol : p.relTolInv ≠ 0) (fuel : ℕ) :
    ∃ res, fuzzyStart (m := Option) Q (keyBounds r) fuel c p = some res ∧ ∀ curr up, res = some (curr, up) →
      (∀ u, p.startUp = some u → curr = p.startCurve ∧ up = u) ∧ (p.startUp = none → curr.isSome ∧ CurOK c r curr up) := by
  unfold fuzzyStart
  cases hu : p.startUp with
  | some u =>
    refine ⟨_, rfl, ?_⟩
    rintro _ _ ⟨⟩
    exact ⟨by rintro _ ⟨⟩; exact ⟨rfl, rfl⟩, by simp⟩
  | none =>
    obtain ⟨e, h1, h2⟩ := FCurve.getCurveExample_spec hE.sized hE.allowedDefined hE.nonempty
    have hex : HasExample c e := by
      have hp : e.pnum = c.pnum := h2.pnum
      unfold FCurve.HasExample
      rw [← hp]
      exact h2
    obtain ⟨k1, k2, k3, k4, k5⟩ := hex.hyps hE (by rw [FCurve.getCurveExample_kind h1]; exact hE.kind_ne)
    obtain ⟨res, g1, g2⟩ := C46_regular hd r hr e k1 k2 k3 k4 k5 Q ⟨some p.relTolInv, none, none, none⟩ (by simp) (by simpa using htol) fuel
    dsimp only
    show ∃ res, Option.bind c.getCurveExample _ = _ ∧ _
    rw [h1, Option.bind_some]
    show ∃ res, Option.bind (estimateRegular (m := Option) Q (keyBounds r) fuel e ⟨some p.relTolInv, none, none, none⟩) _ = _ ∧ _
    rw [g1, Option.bind_some]
    cases res with
    | outOfFuel => exact ⟨_, rfl, by simp⟩
    | ok lo up a =>
      refine ⟨_, rfl, ?_⟩
      rintro _ _ ⟨⟩
      refine ⟨by simp, fun _ => ⟨rfl, ?_⟩⟩
      rintro _ ⟨⟩
      exact ⟨hex, fun D hD => ((g2 lo up a rfl).1 D hD).2⟩

/-- The method is its loop. -/
theorem estimateFuzzy_eq (hE : c.Estimable) (hd : d ≠ 0) (hr : r.Ok d) (p : FuzzyParams d) (htol : p.relTolInv ≠ 0) :
    ∃ tree adapter, createTree (m := Option) Q (keyBounds r) c none none false none = some tree ∧ Sat.loadCurve c = some adapter ∧
      ∀ fuel, estimateFuzzy (m := Option) Q (keyBounds r) S fuel c p = (fuzzyStart (m := Option) Q (keyBounds r) fuel c p).bind fun
        | none => some .outOfFuel
        | some (curr, up) => fuzzyLoop (m := Option) Q (keyBounds r) S fuel c p (1 + 1 / (p.relTolInv : ℚ)) tree adapter fuel curr (p.startLo.getD 0) up := by
  obtain ⟨xs, _, h1⟩ := createTree_first (Q := Q) hE hd hr none none false
  obtain ⟨T, hT⟩ := hE.ready hd
  obtain ⟨st, hst, _⟩ := Sat.mean_load hT.allowed hT.templates
  refine ⟨_, st, h1, hst, fun fuel => ?_⟩
  unfold estimateFuzzy
  show Option.bind _ _ = _
  congr 1
  funext x
  cases x with
  | none => rfl
  | some y =>
    obtain ⟨curr, up⟩ := y
    dsimp only
    show Option.bind (createTree (m := Option) Q (keyBounds r) c none none false none) _ = _
    rw [show createTree (m := Option) Q (keyBounds r) c none none false none = _ from h1, Option.bind_some]
    show Option.bind (Sat.loadCurve c) _ = _
    rw [hst, Option.bind_some]
    show Option.bind (tolerance p.relTolInv) _ = _
    have ht : tolerance p.relTolInv = some (1 + 1 / (p.relTolInv : ℚ)) := by
      unfold tolerance
      rw [if_neg htol]
      have hkq : (p.relTolInv : ℚ) ≠ 0 := by exact_mod_cast htol
      congr 1
      push_cast
      field_simp
    rw [ht]
    rfl

end Dilation
end Peano
