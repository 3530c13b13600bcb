import Verif.Lemmas.YeSame
import Verif.Props.Search
import Verif.Props.PlaneGates
import Verif.Props.Regular

set_option autoImplicit false

/-
Property C71: the checks of side curves in YE-proof.py.
-/
namespace Peano
namespace YeProof
open FCurve (Possible HasExample SameProto SameCurve)

/-- What is searched: curves on the grid 5×5 with one pattern and without diagonal steps; the tolerance of the check. -/
def params (tol : ℤ) : Search.Params 1 := { div := 5, mult := 1, maxCdist := some 1, relTolInv := some tol }

/-- The result of the estimate for fuzzy curves whose possible curves are, up to symmetry, all the candidates with the property `P`. -/
theorem estimate_list (r : Ratio) (hr : r.Ok 2) (Q : HeapQ (HNode (BoundedPair 2)) HNode.lt) (H : HeapQ (Dilation.SeqItem 2) Dilation.SeqItem.lt)
    (S : SatSolver) (nextSat : ℕ → ℕ) {tol : ℤ} (htol : 0 < tol) {P : FCurve 2 → Prop} {pcs : List (FCurve 2)}
    (h2 : ∀ pc ∈ pcs, pc.Estimable ∧ ∀ e, Possible pc e → e.IsCandidate 5 1 (some 1) ∧ P e)
    (hP : ∀ (e : FCurve 2) k pn, P { e with kind := k, pnum := pn } → P e)
    (h3 : ∀ c : FCurve 2, c.IsCandidate 5 1 (some 1) → P c → ∃ pc ∈ pcs, ∃ e, Possible pc e ∧ ∀ r D, c.IsDilation r D → e.IsDilation r D)
    (hex : ∃ pc ∈ pcs, True) :
    ∃ fuel0, ∀ fuel, fuel0 ≤ fuel → ∃ lo up cs idxs,
      Dilation.estimateSequence (m := Option) Q (Dilation.keyBounds r) S H fuel pcs ⟨tol, 4, none, ⟨none, nextSat⟩⟩ = some (.ok lo up cs idxs) ∧
      Search.RightReport r (params tol) P lo up cs := by
  have hE : ∀ c ∈ pcs, c.Estimable := fun c hc => (h2 c hc).1
  obtain ⟨f0, hf0⟩ := Dilation.C62_terminates (by omega) r hr pcs hE Q H S ⟨tol, 4, none, ⟨none, nextSat⟩⟩ htol (by norm_num) rfl
  refine ⟨f0, fun fuel hf => ?_⟩
  obtain ⟨res, g1, g2⟩ := hf0 fuel hf
  obtain ⟨res', k1, k2, k3⟩ := Dilation.C50_sequence (by omega) r hr pcs hE Q H S ⟨tol, 4, none, ⟨none, nextSat⟩⟩ htol.ne' (by norm_num) fuel
  rw [g1] at k1
  cases k1
  cases res with
  | outOfFuel => exact absurd rfl g2
  | absent =>
    obtain ⟨pc, hpc, _⟩ := hex
    obtain ⟨u, hu, _⟩ := k3 rfl pc hpc
    cases hu
  | ok lo up cs idxs =>
    obtain ⟨q1, q2, q0, q3, q4, q5, q6, q7, q8, q9⟩ := k2 lo up cs idxs rfl
    refine ⟨lo, up, cs, idxs, g1, ?_, ?_, q0, q3, ?_, q9⟩
    · intro c D hc hg hD
      obtain ⟨pc, a1, e, a2, a3⟩ := h3 c hc hg
      exact q1 pc a1 e D a2 (a3 r D hD)
    · refine q2.imp_left ?_
      rintro ⟨c, hc, e, D, a1, a2, a3⟩
      obtain ⟨b1, b2⟩ := (h2 c hc).2 e a1
      exact ⟨e, D, b1, b2, a2, a3⟩
    · intro e he
      obtain ⟨k, hk⟩ := List.mem_iff_getElem?.1 he
      have hk' : k < idxs.length := by rw [← q5]; exact (List.getElem?_eq_some_iff.1 hk).1
      obtain ⟨c, a1, a2, a3⟩ := q8 k _ e (List.getElem?_eq_getElem hk') hk
      obtain ⟨b1, b2⟩ := (h2 c (List.mem_of_getElem? a1)).2 _ a2
      exact ⟨FCurve.isCandidate_with _ _ b1, hP _ _ _ b2, fun D hD => a3 rfl (by norm_num) D hD⟩

/-- The curve has the gates `(0,0)->(1,0)`, up to symmetry. -/
def SideGates (c : FCurve 2) : Prop := c.GatesIn [[⟨![0, 0], ![1, 0]⟩]]

theorem wanted_iff {c : FCurve 2} : Wanted c ↔ c.IsCandidate 5 1 (some 1) ∧ SideGates c := by
  constructor
  · rintro ⟨h, G, h1, h2⟩
    exact ⟨h, G, h1, [side], by simp [side], h2⟩
  · rintro ⟨h, G, h1, S, hS, h2⟩
    obtain rfl : S = [side] := by simpa [side] using hS
    exact ⟨h, G, h1, h2⟩

theorem sideGates_with (e : FCurve 2) (k : Kind 2) (pn : ℕ) (h : SideGates { e with kind := k, pnum := pn }) : SideGates e := by
  obtain ⟨G, h1, h2⟩ := h
  exact ⟨G, FCurve.hasGates_with _ _ h1, h2⟩

/-- A curve with the side gates whose prototype is not the one of YE. -/
def other : FCurve 2 := Zoo.mk 2 [("iiijIIIjiiijIIIjiiiiJJJJ", "ij,ij,ij,ji,ji,IJ,IJ,IJ,ij,ij,ij,ji,ji,IJ,IJ,IJ,ij,ij,ij,ij,ij,JI,JI,JI,JI")]

theorem other_wanted : Wanted other := by
  have hf : other.Full := FCurve.full_of_fullB (by decide +kernel)
  have hm : other.mult = 1 := by decide +kernel
  have hg : other.genus = 25 := by decide +kernel
  refine ⟨⟨hf, FCurve.fills_of_fillsB hf (by decide +kernel), by decide +kernel, by decide +kernel, hm, ?_⟩, [side], ⟨by rw [hm]; rfl, ?_⟩, .refl _⟩
  · have key : ∀ i < 25, ∀ x ∈ other.cube? 0 i, ∀ y ∈ other.cube? 0 (i + 1), ∑ j, |y j - x j| ≤ 1 := by decide +kernel
    intro m hm' p i x y hx hy
    cases hm'
    have hlt : p < 1 ∧ i < 25 := by
      by_contra hne
      rw [cube?_none hf (by rw [hg, hm]; omega)] at hx
      cases hx
    obtain ⟨hp, hi⟩ := hlt
    obtain rfl : p = 0 := by omega
    exact key i hi x hx y hy
  · have h1 : other.getEntrance 0 = some side.entrance := by decide +kernel
    have h2 : other.getExit 0 = some side.exit := by decide +kernel
    intro p l hl
    match p with
    | 0 =>
      cases hl
      exact ⟨h1, h2⟩
    | _ + 1 => cases hl

theorem other_not_same : ¬ SameProto other Zoo.ye := by
  have key : ∀ b ∈ BaseMap.genBaseMaps 2 none, ¬ ∀ i < 25, other.cube? 0 i = (Zoo.ye.cube? 0 (b.applyCnum 25 i)).map (b.applyCube 5) := by decide +kernel
  rintro ⟨b, hb⟩
  rw [show other.genus = 25 by decide +kernel, show other.div = 5 by decide +kernel] at hb
  exact key b (BaseMap.mem_genBaseMaps.2 (by simp)) hb

/-- C71. `check_genus5_non_ye` always returns a report, for every hash, heap, solver and schedule of its calls, and the report is right for all
curves on the grid 5×5 with gates `(0,0)->(1,0)`, without diagonal steps, that visit the cubes in another order than YE (up to symmetry):
the lower bound is at most the dilation of any of them, the upper bound is at least the dilation of some of them, the bounds agree up to
1/200. -/
theorem C71_other_protos (r : Ratio) (hr : r.Ok 2) (Q : HeapQ (HNode (BoundedPair 2)) HNode.lt)
    (H : HeapQ (Dilation.SeqItem 2) Dilation.SeqItem.lt) (S : SatSolver) (hash : Search.Hashes 1) (nextSat : ℕ → ℕ) :
    ∃ fuel0, ∀ fuel, fuel0 ≤ fuel → ∃ lo up cs idxs, checkNonYe (m := Option) Q (Dilation.keyBounds r) S H hash nextSat fuel = some (.ok lo up cs idxs) ∧
      Search.RightReport r (params 200) (fun c => SideGates c ∧ ¬ SameProto c Zoo.ye) lo up cs := by
  obtain ⟨pcs, h1, h2, h3⟩ := otherProto_spec Zoo.ye ye_ref.wanted ye_ref.pnum hash
  have := estimate_list r hr Q H S nextSat (tol := 200) (by norm_num) (P := fun c => SideGates c ∧ ¬ SameProto c Zoo.ye) (pcs := pcs)
    (fun pc hpc => ⟨(h2 pc hpc).1, fun e he => by
      obtain ⟨a1, a2⟩ := (h2 pc hpc).2 e he
      obtain ⟨b1, b2⟩ := wanted_iff.1 a1
      exact ⟨b1, b2, a2⟩⟩)
    (fun e k pn h => ⟨sideGates_with e k pn h.1, h.2⟩) (fun c hc hP => h3 c (wanted_iff.2 ⟨hc, hP.1⟩) hP.2) (by
      obtain ⟨pc, hpc, _⟩ := h3 other other_wanted other_not_same
      exact ⟨pc, hpc, trivial⟩)
  obtain ⟨f0, hf0⟩ := this
  refine ⟨f0, fun fuel hf => ?_⟩
  obtain ⟨lo, up, cs, idxs, e1, e2⟩ := hf0 fuel hf
  refine ⟨lo, up, cs, idxs, ?_, e2⟩
  unfold checkNonYe
  rw [h1]
  exact e1

theorem sameCurve_with (e : FCurve 2) (k : Kind 2) (pn : ℕ) (h : SameCurve e Zoo.ye) : SameCurve { e with kind := k, pnum := pn } Zoo.ye := by
  obtain ⟨b, hb⟩ := h
  exact ⟨b, fun f g hf => hb f g ⟨hf.mem_cube, hf.eqn⟩⟩

/-- C71. `check_genus5_ye_proto` always returns a report (the assertion in it never fails), and the report is right for all curves on the grid
5×5 with gates `(0,0)->(1,0)`, without diagonal steps, that visit the cubes in the same order as YE (up to symmetry) but are not YE (as
functions, up to symmetry). -/
theorem C71_same_proto (r : Ratio) (hr : r.Ok 2) (Q : HeapQ (HNode (BoundedPair 2)) HNode.lt)
    (H : HeapQ (Dilation.SeqItem 2) Dilation.SeqItem.lt) (S : SatSolver) (hash : Search.Hashes 1) (nextSat : ℕ → ℕ) :
    ∃ fuel0, ∀ fuel, fuel0 ≤ fuel → ∃ lo up cs idxs, checkYeProto (m := Option) Q (Dilation.keyBounds r) S H hash nextSat fuel = some (.ok lo up cs idxs) ∧
      Search.RightReport r (params 1000) (fun c => SideGates c ∧ SameProto c Zoo.ye ∧ ¬ SameCurve c Zoo.ye) lo up cs := by
  obtain ⟨pc, pcs, h1, h2, h3, h4, h5⟩ := otherSpecs_spec ye_ref
  have hne : pcs ≠ [] := by
    have hl : (otherSpecsPcurves Zoo.ye).map List.length = some 25 := by decide +kernel
    rw [h2] at hl
    rintro rfl
    simp at hl
  have := estimate_list r hr Q H S nextSat (tol := 1000) (by norm_num) (P := fun c => SideGates c ∧ SameProto c Zoo.ye ∧ ¬ SameCurve c Zoo.ye) (pcs := pcs)
    (fun pc' hpc => ⟨(h3 pc' hpc).1, fun e he => by
      obtain ⟨a1, i, hi, a2⟩ := (h3 pc' hpc).2 e he
      obtain ⟨a3, a4, a5⟩ := h5 e a1
      obtain ⟨b1, b2⟩ := wanted_iff.1 a3
      refine ⟨b1, b2, a4, fun hs => a2 ?_⟩
      have hD : ∀ i, e.cubeD 0 i = Zoo.ye.cubeD 0 i := fun i => by unfold FCurve.cubeD; rw [a5]
      have hdiv : Zoo.ye.div = e.div := by rw [b1.div_eq, ye_candidate.div_eq]
      have hgen : e.genus = Zoo.ye.genus := by unfold FCurve.genus; rw [hdiv]
      refine (FCurve.spec_of_sameCurve b1.full ye_full b1.fills ye_candidate.fills hdiv b1.mult_eq ye_candidate.mult_eq b1.checked ye_candidate.checked
        (fun i _ => (hD i).symm) (fun b hb => ye_asymmetric b fun i hi => ?_) hs (by rw [hgen]; exact hi)).symm
      have := hb i (by rw [hgen]; exact hi)
      rw [hD, hD, hgen, ← hdiv] at this
      exact this⟩)
    (fun e k pn h => ⟨sideGates_with e k pn h.1, h.2.1, fun hs => h.2.2 (sameCurve_with e k pn hs)⟩)
    (fun c hc hP => by
      rcases same_or_other (wanted_iff.2 ⟨hc, hP.1⟩) ye_ref hP.2.1 h1 with h | ⟨e, he, hi, hD⟩
      · exact absurd h hP.2.2
      · obtain ⟨pc', q1, q2⟩ := h4 e he hi
        exact ⟨pc', q1, e, q2, hD⟩) (by
      obtain ⟨pc, hpc⟩ := List.exists_mem_of_ne_nil _ hne
      exact ⟨pc, hpc, trivial⟩)
  obtain ⟨f0, hf0⟩ := this
  refine ⟨f0, fun fuel hf => ?_⟩
  obtain ⟨lo, up, cs, idxs, e1, e2⟩ := hf0 fuel hf
  refine ⟨lo, up, cs, idxs, ?_, e2⟩
  unfold checkYeProto
  rw [one_path ye_ref hash, h2]
  exact e1

/-- C71. The two checks together: every curve on the grid 5×5 with gates `(0,0)->(1,0)`, without diagonal steps, that is not YE (as a function,
up to symmetry), has a dilation of at least one of the two lower bounds. -/
theorem C71_all_side_curves (r : Ratio) (hr : r.Ok 2) (Q : HeapQ (HNode (BoundedPair 2)) HNode.lt)
    (H : HeapQ (Dilation.SeqItem 2) Dilation.SeqItem.lt) (S : SatSolver) (hash : Search.Hashes 1) (nextSat : ℕ → ℕ) :
    ∃ fuel0, ∀ fuel, fuel0 ≤ fuel → ∃ lo up cs idxs lo' up' cs' idxs',
      checkNonYe (m := Option) Q (Dilation.keyBounds r) S H hash nextSat fuel = some (.ok lo up cs idxs) ∧
      checkYeProto (m := Option) Q (Dilation.keyBounds r) S H hash nextSat fuel = some (.ok lo' up' cs' idxs') ∧
      ∀ (c : FCurve 2) (D : ℝ), c.IsCandidate 5 1 (some 1) → SideGates c → ¬ SameCurve c Zoo.ye → c.IsDilation r D → ((min lo lo' : ℚ) : ℝ) ≤ D := by
  obtain ⟨f1, h1⟩ := C71_other_protos r hr Q H S hash nextSat
  obtain ⟨f2, h2⟩ := C71_same_proto r hr Q H S hash nextSat
  refine ⟨max f1 f2, fun fuel hf => ?_⟩
  obtain ⟨lo, up, cs, idxs, a1, a2⟩ := h1 fuel (le_trans (le_max_left _ _) hf)
  obtain ⟨lo', up', cs', idxs', b1, b2⟩ := h2 fuel (le_trans (le_max_right _ _) hf)
  refine ⟨lo, up, cs, idxs, lo', up', cs', idxs', a1, b1, fun c D hc hg hs hD => ?_⟩
  by_cases h : SameProto c Zoo.ye
  · exact le_trans (by exact_mod_cast min_le_right lo lo') (b2.lower c D hc ⟨hg, h, hs⟩ hD)
  · exact le_trans (by exact_mod_cast min_le_left lo lo') (a2.lower c D hc ⟨hg, h⟩ hD)

/-- C71. `check_ye` returns bounds for the dilation of YE, and the lower bound is the ratio for some pair of points of the curve. -/
theorem C71_check_ye (r : Ratio) (hr : r.Ok 2) (Q : HeapQ (HNode (BoundedPair 2)) HNode.lt) :
    ∃ fuel0, ∀ fuel, fuel0 ≤ fuel → ∃ lo up a, checkYe (m := Option) Q (Dilation.keyBounds r) fuel = some (.ok lo up (some a)) ∧
      (∃ D, Zoo.ye.IsDilation r D) ∧ (∀ D, Zoo.ye.IsDilation r D → (lo : ℝ) ≤ D ∧ D ≤ up) ∧
      ∀ f, Zoo.ye.Realizes f → Argmax.OnGraph f a ∧ a.t1 < a.t2 ∧ r.val (fun i => a.x1 i - a.x2 i) (a.t2 - a.t1) = lo := by
  have hk : Zoo.ye.kind ≠ .fuzzy := by rw [ye_ref.kind]; simp
  have hm : 0 < Zoo.ye.mult := by rw [ye_candidate.mult_eq]; omega
  obtain ⟨f0, hf0⟩ := Dilation.C59_terminates (by decide) r hr Zoo.ye ye_full hk hm ye_candidate.checked ye_candidate.fills Q
    { relTolInv := some 100000, maxIter := none, faceDim := some 0, maxDepth := some 5 } (by simp) 100000 (by norm_num) rfl
  refine ⟨f0, fun fuel hf => ?_⟩
  obtain ⟨lo, up, a, hrun⟩ := hf0 fuel hf
  obtain ⟨res, h1, h2⟩ := Dilation.C46_regular (by decide) r hr Zoo.ye ye_full hk hm ye_candidate.checked ye_candidate.fills Q
    { relTolInv := some 100000, maxIter := none, faceDim := some 0, maxDepth := some 5 } (by simp) (by simp) fuel
  rw [hrun] at h1
  cases h1
  obtain ⟨⟨D, hD, _⟩, _⟩ := FCurve.C58_dilation (by decide) r hr Zoo.ye ye_full hm ye_candidate.checked
  have key : ∀ f, Zoo.ye.Realizes f → ∃ a', a = some a' ∧ Argmax.OnGraph f a' ∧ a'.t1 < a'.t2 ∧ r.val (fun i => a'.x1 i - a'.x2 i) (a'.t2 - a'.t1) = lo := by
    intro f hf'
    obtain ⟨a', e1, _, e2, e3, e4⟩ := Dilation.C55_argmax (by decide) r hr Zoo.ye ye_full hk hm ye_candidate.checked ye_candidate.fills f hf' Q
      { relTolInv := some 100000, maxIter := none, faceDim := some 0, maxDepth := some 5 } 0 rfl (by omega) (by simp) fuel lo up a hrun
    exact ⟨a', e1, e2, e3, e4⟩
  obtain ⟨f, hf', _⟩ := id hD
  obtain ⟨a', rfl, _⟩ := key f hf'
  refine ⟨lo, up, a', hrun, ⟨D, hD⟩, (h2 lo up _ rfl).1, fun f hf' => ?_⟩
  obtain ⟨a'', e1, e2⟩ := key f hf'
  cases e1
  exact e2

/-- C71. Each call of `run_search` in `main` takes finite time and either prints one report, which is right for all curves on the given grid (without
diagonal steps, if so requested) that have the given gates, or for all curves on the grid if the gates are not given; or it ends with
AttributeError, and then there are no such curves. -/
theorem C71_main_searches (r : Ratio) (hr : r.Ok 2) (Q : HeapQ (HNode (BoundedPair 2)) HNode.lt)
    (H : HeapQ (Dilation.SeqItem 2) Dilation.SeqItem.lt) (S : SatSolver) (hash : Search.Hashes 1) (nextSat : ℕ → ℕ) :
    ∃ l, mainSearches nextSat = some l ∧
      l.map (fun p => (p.div, p.mult, p.gateList, p.maxCdist)) =
        [(2, 1, none, none), (3, 1, none, none), (4, 1, none, none), (6, 1, some [[⟨![0, 0], ![1, 0]⟩]], some 1), (6, 1, some [[⟨![0, 0], ![1, 1 / 2]⟩]], some 1),
          (5, 1, some [[⟨![0, 0], ![1, 1]⟩]], some 1), (5, 1, some [[⟨![0, 0], ![1, 1 / 2]⟩]], some 1)] ∧
      ∀ p ∈ l, ∃ fuel0, ∀ fuel, fuel0 ≤ fuel →
        (∃ lo up idxs cnt cs, Search.runSearch (m := Option) Q (Dilation.keyBounds r) S H hash fuel p = some ([.found .allGates lo up idxs cnt cs], .finished) ∧
          Search.RightReport r p (fun c => match p.gateList with | none => True | some gl => c.GatesIn gl) lo up cs) ∨
        (Search.runSearch (m := Option) Q (Dilation.keyBounds r) S H hash fuel p = some ([], .attributeError) ∧
          Search.Absent r p (fun c => match p.gateList with | none => True | some gl => c.GatesIn gl)) := by
  have e1 : sideLink = some ⟨![0, 0], ![1, 0]⟩ := by decide +kernel
  have e2 : diagLink = some ⟨![0, 0], ![1, 1]⟩ := by decide +kernel
  have e3 : medianLink = some ⟨![0, 0], ![1, 1 / 2]⟩ := by decide +kernel
  have none_case : ∀ p : Search.Params 1, 2 ≤ p.div → p.mult = 1 → p.relTolInv = some 1000 → p.relTolInvMult = none → p.gateList = none → p.facetGated = false →
      p.groupByGates = false → p.outputGates = false → ∃ fuel0, ∀ fuel, fuel0 ≤ fuel →
        (∃ lo up idxs cnt cs, Search.runSearch (m := Option) Q (Dilation.keyBounds r) S H hash fuel p = some ([.found .allGates lo up idxs cnt cs], .finished) ∧
          Search.RightReport r p (fun c => match p.gateList with | none => True | some gl => c.GatesIn gl) lo up cs) ∨
        (Search.runSearch (m := Option) Q (Dilation.keyBounds r) S H hash fuel p = some ([], .attributeError) ∧
          Search.Absent r p (fun c => match p.gateList with | none => True | some gl => c.GatesIn gl)) := by
    intro p h1 h2 h3 h4 h5 h6 h7 h8
    have := Search.C74_search r Q H S hash p hr (le_refl _) h1 h2 (by rw [h3]; decide) (by rw [h4]; decide) h5 h6 h7 h8
    rw [h5]
    exact this
  have some_case : ∀ (p : Search.Params 1) (l : Link (Point 2)), 2 ≤ p.div → p.mult = 1 → p.relTolInv = some 200 → p.relTolInvMult = none → p.gateList = some [[l]] →
      p.groupByGates = false → p.outputGates = false → GateTuple.InCube [l] → ∃ fuel0, ∀ fuel, fuel0 ≤ fuel →
        (∃ lo up idxs cnt cs, Search.runSearch (m := Option) Q (Dilation.keyBounds r) S H hash fuel p = some ([.found .allGates lo up idxs cnt cs], .finished) ∧
          Search.RightReport r p (fun c => match p.gateList with | none => True | some gl => c.GatesIn gl) lo up cs) ∨
        (Search.runSearch (m := Option) Q (Dilation.keyBounds r) S H hash fuel p = some ([], .attributeError) ∧
          Search.Absent r p (fun c => match p.gateList with | none => True | some gl => c.GatesIn gl)) := by
    intro p l h1 h2 h3 h4 h5 h7 h8 h9
    obtain ⟨f0, hf0⟩ := Search.C64_given_gates r Q H S hash p hr h1 (by omega) (by rw [h3]; decide) (by rw [h4]; decide) [[l]] h5
      (by simpa [h2] using h9) h7 h8
    rw [h5]
    refine ⟨f0, fun fuel hf => (hf0 fuel hf).imp_left ?_⟩
    rintro ⟨lo, up, idxs, cs, k1, k2⟩
    exact ⟨lo, up, idxs, _, cs, k1, k2⟩
  have c1 : GateTuple.InCube [(⟨![0, 0], ![1, 0]⟩ : Link (Point 2))] := by
    intro l hl j
    rw [List.mem_singleton.1 hl]
    fin_cases j <;> simp
  have c2 : GateTuple.InCube [(⟨![0, 0], ![1, 1]⟩ : Link (Point 2))] := by
    intro l hl j
    rw [List.mem_singleton.1 hl]
    fin_cases j <;> simp
  have c3 : GateTuple.InCube [(⟨![0, 0], ![1, 1 / 2]⟩ : Link (Point 2))] := by
    intro l hl j
    rw [List.mem_singleton.1 hl]
    fin_cases j <;> norm_num
  refine ⟨searches ⟨![0, 0], ![1, 0]⟩ ⟨![0, 0], ![1, 1]⟩ ⟨![0, 0], ![1, 1 / 2]⟩ nextSat, ?_, ?_, ?_⟩
  · unfold mainSearches
    rw [e1, e2, e3]
    rfl
  · rfl
  · intro p hp
    simp only [searches, List.mem_cons, List.not_mem_nil, or_false] at hp
    rcases hp with rfl | rfl | rfl | rfl | rfl | rfl | rfl
    · exact none_case _ (by norm_num) rfl rfl rfl rfl rfl rfl rfl
    · exact none_case _ (by norm_num) rfl rfl rfl rfl rfl rfl rfl
    · exact none_case _ (by norm_num) rfl rfl rfl rfl rfl rfl rfl
    · exact some_case _ _ (by norm_num) rfl rfl rfl rfl rfl rfl c1
    · exact some_case _ _ (by norm_num) rfl rfl rfl rfl rfl rfl c3
    · exact some_case _ _ (by norm_num) rfl rfl rfl rfl rfl rfl c2
    · exact some_case _ _ (by norm_num) rfl rfl rfl rfl rfl rfl c3

/-- The lower bound is printed by `main`: in a report of one of the searches, or by one of the two checks. -/
def Printed (r : Ratio) (Q : HeapQ (HNode (BoundedPair 2)) HNode.lt) (H : HeapQ (Dilation.SeqItem 2) Dilation.SeqItem.lt) (S : SatSolver)
    (hash : Search.Hashes 1) (nextSat : ℕ → ℕ) (fuel : ℕ) (lo : ℚ) : Prop :=
  (∃ l, mainSearches nextSat = some l ∧ ∃ p ∈ l, ∃ up idxs cnt cs,
    Search.runSearch (m := Option) Q (Dilation.keyBounds r) S H hash fuel p = some ([.found .allGates lo up idxs cnt cs], .finished)) ∨
  (∃ up cs idxs, checkNonYe (m := Option) Q (Dilation.keyBounds r) S H hash nextSat fuel = some (.ok lo up cs idxs)) ∨
  (∃ up cs idxs, checkYeProto (m := Option) Q (Dilation.keyBounds r) S H hash nextSat fuel = some (.ok lo up cs idxs))

theorem exists_common {α : Type*} (P : α → ℕ → Prop) (l : List α) (h : ∀ p ∈ l, ∃ f0, ∀ f, f0 ≤ f → P p f) : ∃ f0, ∀ f, f0 ≤ f → ∀ p ∈ l, P p f := by
  induction l with
  | nil => exact ⟨0, by simp⟩
  | cons a l ih =>
    obtain ⟨f1, h1⟩ := h a List.mem_cons_self
    obtain ⟨f2, h2⟩ := ih fun p hp => h p (List.mem_cons_of_mem _ hp)
    refine ⟨max f1 f2, fun f hf p hp => ?_⟩
    rcases List.mem_cons.1 hp with rfl | hp
    · exact h1 f (le_trans (le_max_left _ _) hf)
    · exact h2 f (le_trans (le_max_right _ _) hf) p hp

theorem mainSearches_upper {nextSat : ℕ → ℕ} {l : List (Search.Params 1)} (h : mainSearches nextSat = some l) : ∀ p ∈ l, p.upperBound = none := by
  unfold mainSearches at h
  simp only [Option.bind_eq_bind, Option.bind_eq_some_iff] at h
  obtain ⟨a, _, b, _, c, _, h⟩ := h
  cases h
  intro p hp
  simp only [searches, List.mem_cons, List.not_mem_nil, or_false] at hp
  rcases hp with rfl | rfl | rfl | rfl | rfl | rfl | rfl <;> rfl

/-- C71. The whole script covers all plane curves with one pattern on grids from 2×2 to 6×6 (without diagonal steps on the two largest ones): each
of them, except YE (as a function, up to symmetry), has a dilation of at least one of the lower bounds printed by the script. -/
theorem C71_main_covers (r : Ratio) (hr : r.Ok 2) (Q : HeapQ (HNode (BoundedPair 2)) HNode.lt)
    (H : HeapQ (Dilation.SeqItem 2) Dilation.SeqItem.lt) (S : SatSolver) (hash : Search.Hashes 1) (nextSat : ℕ → ℕ) :
    ∃ fuel0, ∀ fuel, fuel0 ≤ fuel → ∀ (N : ℕ) (c : FCurve 2) (D : ℝ), 2 ≤ N → N ≤ 6 → c.IsCandidate N 1 (if N ≤ 4 then none else some 1) →
      ¬ SameCurve c Zoo.ye → c.IsDilation r D → ∃ lo : ℚ, Printed r Q H S hash nextSat fuel lo ∧ lo ≤ D := by
  obtain ⟨l, hl, hmap, hrun⟩ := C71_main_searches r hr Q H S hash nextSat
  obtain ⟨f1, h1⟩ := exists_common _ l hrun
  obtain ⟨f2, h2⟩ := C71_all_side_curves r hr Q H S hash nextSat
  refine ⟨max f1 f2, fun fuel hf N c D hN1 hN2 hc hs hD => ?_⟩
  have h1 := h1 fuel (le_trans (le_max_left _ _) hf)
  obtain ⟨lo, up, cs, idxs, lo', up', cs', idxs', a1, a2, a3⟩ := h2 fuel (le_trans (le_max_right _ _) hf)
  have hsome : ∀ v ∈ l.map (fun p => (p.div, p.mult, p.gateList, p.maxCdist)), v.1 = N → v.2.1 = 1 → v.2.2.2 = (if N ≤ 4 then none else some 1) →
      (match v.2.2.1 with | none => True | some gl => c.GatesIn gl) → ∃ lo : ℚ, Printed r Q H S hash nextSat fuel lo ∧ lo ≤ D := by
    intro v hv e1 e2 e3 e4
    obtain ⟨p, hp, rfl⟩ := List.mem_map.1 hv
    have hub : p.upperBound = none := mainSearches_upper hl p hp
    have hc' : c.IsCandidate p.div p.mult p.maxCdist := by
      simp only at e1 e2 e3
      rw [e1, e2, e3]
      exact hc
    rcases h1 p hp with ⟨lo, up, idxs, cnt, cs, k1, k2⟩ | ⟨k1, k2⟩
    · exact ⟨lo, Or.inl ⟨l, hl, p, hp, up, idxs, cnt, cs, k1⟩, k2.lower c D hc' e4 hD⟩
    · obtain ⟨u, hu, _⟩ := k2 c D hc' e4 hD
      rw [hub] at hu
      cases hu
  rw [hmap] at hsome
  have hcat := C74_three_categories c hc
  have hodd := C74_diag_odd c hc
  obtain rfl | rfl | rfl | rfl | rfl : N = 2 ∨ N = 3 ∨ N = 4 ∨ N = 5 ∨ N = 6 := by omega
  · exact hsome (2, 1, none, none) (by simp) rfl rfl rfl trivial
  · exact hsome (3, 1, none, none) (by simp) rfl rfl rfl trivial
  · exact hsome (4, 1, none, none) (by simp) rfl rfl rfl trivial
  · rcases hcat with ⟨k, _⟩ | ⟨_, k, _⟩ | ⟨_, _, k⟩
    · have hlow := a3 c D hc k hs hD
      rcases min_choice lo lo' with e | e <;> rw [e] at hlow
      · exact ⟨lo, Or.inr (Or.inl ⟨_, _, _, a1⟩), hlow⟩
      · exact ⟨lo', Or.inr (Or.inr ⟨_, _, _, a2⟩), hlow⟩
    · exact hsome (5, 1, some [[⟨![0, 0], ![1, 1]⟩]], some 1) (by simp) rfl rfl rfl k
    · exact hsome (5, 1, some [[⟨![0, 0], ![1, 1 / 2]⟩]], some 1) (by simp) rfl rfl rfl k
  · rcases hcat with ⟨k, _⟩ | ⟨_, k, _⟩ | ⟨_, _, k⟩
    · exact hsome (6, 1, some [[⟨![0, 0], ![1, 0]⟩]], some 1) (by simp) rfl rfl rfl k
    · exact absurd (hodd k) (by decide)
    · exact hsome (6, 1, some [[⟨![0, 0], ![1, 1 / 2]⟩]], some 1) (by simp) rfl rfl rfl k

/-- There are such curves: one with another order of cubes; YE itself is a candidate with these gates. -/
example : other.IsCandidate 5 1 (some 1) ∧ SideGates other ∧ ¬ SameProto other Zoo.ye :=
  ⟨other_wanted.candidate, (wanted_iff.1 other_wanted).2, other_not_same⟩
example : Zoo.ye.IsCandidate 5 1 (some 1) ∧ SideGates Zoo.ye := wanted_iff.1 ye_ref.wanted

end YeProof
end Peano
