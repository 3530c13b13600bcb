import Verif.Lemmas.Bisect
import Verif.Props.Regular
import Verif.Props.SAT

set_option autoImplicit false

/-
Properties C47 and C48: `bisect_dilation_fuzzy`.

`c` is a curve for the estimators (`Estimable`: path-fuzzy curves made from continuous paths, complete checked curves, see C44).  `S` is any
correct SAT solver, `Q` any implementation of the heap, `p.nextSat` any schedule of calls of the solver.  `fuel` is the number of iterations after
which the model gives up.
-/
namespace Peano
variable {d : ℕ} {r : Ratio} {c e : FCurve d}
open FCurve (Possible HasExample)

namespace Dilation

theorem ratios_congr {c c' : FCurve d} (hm : c.mult = c'.mult) (f : ℕ → ℝ → Fin d → ℝ) : c.ratios r f = c'.ratios r f := by
  unfold FCurve.ratios
  rw [hm]

/-- The class and the selected pattern do not matter. -/
theorem isDilation_with (c : FCurve d) (k : Kind d) (p : ℕ) (D : ℝ) : FCurve.IsDilation r { c with kind := k, pnum := p } D ↔ c.IsDilation r D := by
  constructor
  · rintro ⟨f, hf, h⟩
    exact ⟨f, ⟨hf.mem_cube, hf.eqn⟩, h⟩
  · rintro ⟨f, hf, h⟩
    exact ⟨f, ⟨hf.mem_cube, hf.eqn⟩, h⟩

theorem wit_iff (hE : c.Estimable) (hd : d ≠ 0) (hr : r.Ok d) (he : Possible c e) {D : ℝ} : (∃ f, Wit c r e f D) ↔ e.IsDilation r D := by
  constructor
  · rintro ⟨f, h⟩
    exact ⟨f, h.real, h.great.isLUB⟩
  · rintro ⟨f, hf, h⟩
    obtain ⟨h1, h2, _⟩ := hE.possible e he
    exact ⟨f, he, hf, (FCurve.C58_dilation hd r hr e h1 (by rw [he.mult]; exact hE.mult_pos) h2).2 f D hf ⟨f, hf, h⟩, h.1⟩

/-- C47. The method raises no exception except, with `max_iter`, `_RunOutOfIterationsException`.  A returned curve is one of the possible curves
and its dilation is at most `good_threshold`; if None is returned, then the dilation of each possible curve is at least `bad_threshold`.
The optional arguments are absent or are those that `estimate_dilation_fuzzy` makes for the curve. -/
theorem C47_bisect (hd : d ≠ 0) (r : Ratio) (hr : r.Ok d) (c : FCurve d) (hE : c.Estimable) (Q : HeapQ (HNode (BoundedPair d)) HNode.lt) (S : SatSolver)
    (p : BisectParams) (good bad : ℚ) (tree : Option (ItemsHeap (BoundedPair d))) (adapter : Option (Sat.Adapter d))
    (htree : ∀ t, tree = some t → createTree (m := Option) Q (keyBounds r) c none none false none = some t)
    (hadapter : ∀ a, adapter = some a → Sat.loadCurve c = some a) (fuel : ℕ) :
    ∃ out, bisectFuzzy (m := Option) Q (keyBounds r) S fuel c good bad p tree adapter = some out ∧
      (p.maxIter = none → out ≠ .outOfIter) ∧
      (∀ c', out = .found c' → HasExample c c' ∧ ∀ D, c'.IsDilation r D → D ≤ good) ∧
      (out = .absent → ∀ e D, Possible c e → e.IsDilation r D → (bad : ℝ) ≤ D) := by
  obtain ⟨tree', adapter', h1, h2⟩ := bisectFuzzy_eq (Q := Q) hE hd hr S good bad p ⟨htree, hadapter⟩
  obtain ⟨res, h3, h4, h4'⟩ := h1.loop hE hd hr S p fuel 0 1
  obtain ⟨out, h5, h6, h6'⟩ := BisInv.finish hE hd hr S h4
  refine ⟨out, by rw [show bisectFuzzy (m := Option) Q (keyBounds r) S fuel c good bad p tree adapter = _ from h2 fuel, h3, Option.bind_some, h5], ?_, ?_, ?_⟩
  · intro hm ho
    exact h4' hm (h6'.1 ho)
  · rintro c' rfl
    obtain ⟨e, k1, rfl, k3⟩ := h6
    refine ⟨?_, ?_⟩
    · show Possible c { e with kind := .curve, pnum := c.pnum }
      have : ({ e with kind := .curve, pnum := c.pnum } : FCurve d) = e := by rw [← k1.kind, ← k1.pnum]
      rwa [this]
    · intro D hD
      obtain ⟨f, hw⟩ := (wit_iff hE hd hr k1).2 ((isDilation_with e e.kind 0 D).1 hD)
      exact k3 f D hw
  · rintro rfl e D he hD
    obtain ⟨f, hw⟩ := (wit_iff hE hd hr he).2 hD
    exact h6 e f D hw

/-- C48. With `0 < bad_threshold < good_threshold` the method ends (returns or raises `_RunOutOfIterationsException`), whatever the schedule of
calls of the solver is; without `max_iter` it returns. -/
theorem C48_terminates (hd : d ≠ 0) (r : Ratio) (hr : r.Ok d) (c : FCurve d) (hE : c.Estimable) (Q : HeapQ (HNode (BoundedPair d)) HNode.lt) (S : SatSolver)
    (p : BisectParams) (good bad : ℚ) (h0 : 0 < bad) (hlt : bad < good) (tree : Option (ItemsHeap (BoundedPair d))) (adapter : Option (Sat.Adapter d))
    (htree : ∀ t, tree = some t → createTree (m := Option) Q (keyBounds r) c none none false none = some t)
    (hadapter : ∀ a, adapter = some a → Sat.loadCurve c = some a) :
    ∃ fuel0, ∀ fuel, fuel0 ≤ fuel → ∃ out, bisectFuzzy (m := Option) Q (keyBounds r) S fuel c good bad p tree adapter = some out ∧ out ≠ .outOfFuel ∧
      (p.maxIter = none → out = .absent ∨ ∃ c', out = .found c') := by
  obtain ⟨tree', adapter', h1, h2⟩ := bisectFuzzy_eq (Q := Q) hE hd hr S good bad p ⟨htree, hadapter⟩
  obtain ⟨fuel0, hf⟩ := BisInv.terminates hE hd hr S p h0 hlt tree' 0 1 adapter' h1
  refine ⟨fuel0, fun fuel hle => ?_⟩
  obtain ⟨res, h3, h4, h4'⟩ := h1.loop hE hd hr S p fuel 0 1
  obtain ⟨k1, k2⟩ := hf fuel hle res h3
  obtain ⟨out, h5, h6, h6', h6''⟩ := BisInv.finish hE hd hr S h4
  refine ⟨out, by rw [show bisectFuzzy (m := Option) Q (keyBounds r) S fuel c good bad p tree adapter = _ from h2 fuel, h3, Option.bind_some, h5], fun h => k1 (h6'' h), ?_⟩
  intro hm
  cases out with
  | found c' => exact Or.inr ⟨c', rfl⟩
  | absent => exact Or.inl rfl
  | outOfIter => exact absurd (h6' rfl) (k2 hm)
  | outOfFuel => exact absurd (h6'' rfl) k1

theorem hilbert_estimable : Zoo.hilbert.Estimable :=
  have ⟨h, hk, h0, hc, hfill⟩ := hilbert_hyps
  (FCurve.C44_full_curves Zoo.hilbert h hk h0 hc hfill).1

/-- C47, C48 on the Hilbert curve: both outcomes occur (the only possible curve is the curve itself). -/
example : ∃ good bad good' bad' : ℚ, ∃ fuel c', 0 < bad ∧ bad < good ∧ 0 < bad' ∧ bad' < good' ∧
    bisectFuzzy (m := Option) (sortedHeapQ _) (keyBounds Ratio.l2) Sat.choiceSolver fuel Zoo.hilbert good bad ⟨none, fun n => n + 1⟩ none none = some (.found c') ∧
    bisectFuzzy (m := Option) (sortedHeapQ _) (keyBounds Ratio.l2) Sat.choiceSolver fuel Zoo.hilbert good' bad' ⟨none, fun n => n + 1⟩ none none = some .absent := by
  obtain ⟨h, hk, h0, hc, hfill⟩ := hilbert_hyps
  have hE := hilbert_estimable
  have hposs := (FCurve.C44_full_curves Zoo.hilbert h hk h0 hc hfill).2
  obtain ⟨⟨D, hD, hDu⟩, hmem⟩ := FCurve.C58_dilation (by decide) Ratio.l2 (by decide) Zoo.hilbert h h0 hc
  obtain ⟨f, hf, hlub⟩ := id hD
  have hpos : 0 < D := (regCtx (by decide) (by decide) h hk h0 hc hfill hf ⟨hmem f D hf hD, hlub.1⟩ (stash := none) trivial).dilation_pos
  have hself : Possible Zoo.hilbert { Zoo.hilbert with kind := .curve } := (hposs _).2 rfl
  obtain ⟨a, ha0, haD⟩ := exists_rat_btwn hpos
  have ha0 : 0 < a := by exact_mod_cast ha0
  obtain ⟨b, hb⟩ := exists_rat_gt D
  have hb0 : 0 < b := by
    have : (0 : ℝ) < b := hpos.trans hb
    exact_mod_cast this
  obtain ⟨f1, hf1⟩ := C48_terminates (by decide) Ratio.l2 (by decide) Zoo.hilbert hE (sortedHeapQ _) Sat.choiceSolver ⟨none, fun n => n + 1⟩ (b + 1) b hb0 (by linarith) none none
    (by simp) (by simp)
  obtain ⟨f2, hf2⟩ := C48_terminates (by decide) Ratio.l2 (by decide) Zoo.hilbert hE (sortedHeapQ _) Sat.choiceSolver ⟨none, fun n => n + 1⟩ a (a / 2) (by linarith) (by linarith) none none
    (by simp) (by simp)
  obtain ⟨out, g1, _, g2⟩ := hf1 (max f1 f2) (le_max_left _ _)
  obtain ⟨out', k1, _, k2⟩ := hf2 (max f1 f2) (le_max_right _ _)
  obtain ⟨_, g1', _, _, g5⟩ := C47_bisect (by decide) Ratio.l2 (by decide) Zoo.hilbert hE (sortedHeapQ _) Sat.choiceSolver ⟨none, fun n => n + 1⟩ (b + 1) b none none
    (by simp) (by simp) (max f1 f2)
  obtain ⟨_, k1', _, k4, _⟩ := C47_bisect (by decide) Ratio.l2 (by decide) Zoo.hilbert hE (sortedHeapQ _) Sat.choiceSolver ⟨none, fun n => n + 1⟩ a (a / 2) none none
    (by simp) (by simp) (max f1 f2)
  rw [g1] at g1'
  cases g1'
  rw [k1] at k1'
  cases k1'
  have hDc := (isDilation_with (r := Ratio.l2) Zoo.hilbert .curve Zoo.hilbert.pnum D).2 hD
  rcases g2 rfl with rfl | ⟨c', rfl⟩
  · exact absurd (g5 rfl _ D hself hDc) (not_le.2 hb)
  · rcases k2 rfl with rfl | ⟨c'', rfl⟩
    · exact ⟨b + 1, b, a, a / 2, max f1 f2, c', hb0, by linarith, by linarith, by linarith, g1, k1⟩
    · exfalso
      obtain ⟨q1, q2⟩ := k4 c'' rfl
      have q3 := (hposs _).1 q1
      have : c''.IsDilation Ratio.l2 D := by
        rw [← isDilation_with c'' .curve Zoo.hilbert.pnum, q3]
        exact hDc
      exact absurd (q2 D this) (not_le.2 haD)

end Dilation
end Peano
