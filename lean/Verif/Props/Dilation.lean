import Verif.Lemmas.Attained
import Verif.Lemmas.EstimableOf
import Verif.Props.Curves

set_option autoImplicit false

/-
Properties C44, C45 (pairs of fractions) and C58 (the dilation is attained).

The theorems about estimators are stated for curves `c` with `c.Estimable`; `C44_full_curves` and `C44_path_fuzzy_curves` name two classes of
such curves.
-/
namespace Peano
variable {d : ℕ}
namespace FCurve

/-- C58. For a full curve (of at least one pattern) with maps `f`, some pair of times `s < t` of some pattern has the greatest ratio. -/
theorem C58_attained (hd : d ≠ 0) (r : Ratio) (hr : r.Ok d) (c : FCurve d) (h : c.Full) (h0 : 0 < c.mult) (f : ℕ → ℝ → Fin d → ℝ) (hf : c.Realizes f) :
    ∃ p < c.mult, ∃ s t : ℝ, 0 ≤ s ∧ s < t ∧ t ≤ 1 ∧ ∀ p' < c.mult, ∀ s' t' : ℝ, 0 ≤ s' → s' < t' → t' ≤ 1 →
      r.val (fun j => f p' s' j - f p' t' j) (t' - s') ≤ r.val (fun j => f p s j - f p t j) (t - s) := by
  let c' : FCurve d := { c with kind := .curve }
  have h' : c'.Full := ⟨⟨h.two_le_div, h.proto_length, h.specs_length, h.cube_range, h.spec_range⟩, h.cube_def, h.spec_def⟩
  have hf' : c'.Realizes f := ⟨hf.mem_cube, hf.eqn⟩
  obtain ⟨D, ⟨p, hp, s, t, a, b, e, rfl⟩, hu⟩ := h'.exists_greatest (r := r) hd hr rfl h0 hf'
  exact ⟨p, hp, s, t, a, b, e, fun p' hp' s' t' a' b' e' => hu ⟨p', hp', s', t', a', b', e', rfl⟩⟩

/-- C58. Each curve that passes `check()` has exactly one dilation, and the dilation is the ratio of some pair of times. -/
theorem C58_dilation (hd : d ≠ 0) (r : Ratio) (hr : r.Ok d) (c : FCurve d) (h : c.Full) (h0 : 0 < c.mult) (hc : c.check = some true) :
    (∃! D, c.IsDilation r D) ∧ ∀ f D, c.Realizes f → c.IsDilation r D → D ∈ c.ratios r f := by
  obtain ⟨f, hf⟩ := (C12_check_iff c h).2.1 hc
  have hratios : ∀ g, c.Realizes g → c.ratios r g = c.ratios r f := by
    have key : ∀ g g', c.Realizes g → c.Realizes g' → c.ratios r g ⊆ c.ratios r g' := by
      rintro g g' hg hg' _ ⟨p, hp, s, t, a, b, e, rfl⟩
      refine ⟨p, hp, s, t, a, b, e, ?_⟩
      rw [C12_unique c h g g' hg hg' p hp ⟨a, b.le.trans e⟩, C12_unique c h g g' hg hg' p hp ⟨a.trans b.le, e⟩]
    exact fun g hg => Set.Subset.antisymm (key g f hg hf) (key f g hf hg)
  obtain ⟨p, hp, s, t, a, b, e, hu⟩ := C58_attained hd r hr c h h0 f hf
  have hgr : IsGreatest (c.ratios r f) (r.val (fun j => f p s j - f p t j) (t - s)) :=
    ⟨⟨p, hp, s, t, a, b, e, rfl⟩, by rintro _ ⟨p', hp', s', t', a', b', e', rfl⟩; exact hu p' hp' s' t' a' b' e'⟩
  have huniq : ∀ D, c.IsDilation r D → D = r.val (fun j => f p s j - f p t j) (t - s) := by
    rintro D ⟨g, hg, hD⟩
    rw [hratios g hg] at hD
    exact hD.unique hgr.isLUB
  refine ⟨⟨_, ⟨f, hf, hgr.isLUB⟩, fun D hD => huniq D hD⟩, ?_⟩
  intro g D hg hD
  rw [hratios g hg, huniq D hD]
  exact hgr.1

example : Zoo.betaOmega.Full ∧ 0 < Zoo.betaOmega.mult ∧ Zoo.betaOmega.check = some true ∧ Ratio.Ok Ratio.l2 2 :=
  ⟨full_of_fullB (by decide +kernel), by decide +kernel, by decide +kernel, by decide⟩

/-- C44-C50 apply to complete curves that pass `check()` and visit all cubes (objects of the class `Curve`, or `PathFuzzyCurve` with all specs
given): such a curve is its only possible curve. -/
theorem C44_full_curves (c : FCurve d) (h : c.Full) (hk : c.kind ≠ .fuzzy) (h0 : 0 < c.mult) (hc : c.check = some true) (hfill : c.FillsGrid) :
    c.Estimable ∧ ∀ e, Possible c e ↔ e = { c with kind := .curve } :=
  ⟨estimable_of_full h hk h0 hc hfill, fun _ => h.possible_eq hk⟩

/-- C44-C50 apply to path-fuzzy curves made from valid continuous paths through all cubes, also after any number of calls of `specify`. -/
theorem C44_path_fuzzy_curves (paths : List (Path (Point d) d)) (group : Option (List (BaseMap d))) (t : Bool) (N : ℕ) (c : FCurve d) (hN : 2 ≤ N)
    (hgrp : ∀ g, group = some g → IsSubgroupList g) (hv : ∀ path ∈ paths, path.Valid N)
    (hcont : ∀ path ∈ paths, path.isContinuous = some true) (hfill : ∀ path ∈ paths, path.FillsGrid N) (hc : PathFuzzy paths group t c) : c.Estimable :=
  estimable_of_pathFuzzy hN hgrp hv hcont hfill hc

/-- C44. The bounds of each pair reached by the estimators are computed without exceptions.  For every full curve `e` consistent with the
pair, with maps `f`: no pair of points of the two pieces has a ratio above `up`, and some pair of points has a ratio of at least `lo`. -/
theorem C44_bounds (hd : d ≠ 0) (r : Ratio) (hr : r.Ok d) (c : FCurve d) (hE : c.Estimable) (p : PiecePair d) (hp : p.Reached c) :
    (∃ e, Possible p.curve e) ∧ ∃ b, Dilation.getBounds (m := Option) (Dilation.keyBounds r) none p = some b ∧
      ∀ e f, Possible p.curve e → e.Realizes f →
        (∀ u ∈ p.Times1, ∀ v ∈ p.Times2, 0 < (p.junc.deltaT : ℝ) + v - u ∧ p.junc.ratio r f u v ≤ b.up) ∧
        ∃ u ∈ p.Times1, ∃ v ∈ p.Times2, (b.lo : ℝ) ≤ p.junc.ratio r f u v := by
  have h := hE.reached hd hp
  have hG : 0 < c.genus := hE.genus_pos
  have t1 : ∀ u, u ∈ p.Times1 ↔ c.InCl p.junc.spec1 p.pos1 u := fun u =>
    (inCl_iff_times hG (h.piece1.div.trans h.sub.div) h.cnums1 u).symm
  have t2 : ∀ u, u ∈ p.Times2 ↔ c.InCl p.junc.spec2 p.pos2 u := fun u =>
    (inCl_iff_times hG (h.piece2.div.trans h.sub.div) h.cnums2 u).symm
  obtain ⟨e0, he0⟩ := h.sub.estimable.exists_possible
  obtain ⟨f0, hf0⟩ := (C12_check_iff e0 (h.sub.estimable.possible e0 he0).1).2.1 (h.sub.estimable.possible e0 he0).2.1
  obtain ⟨b, k, hb, _⟩ := h.bounds hd hr he0 hf0 (stash := none) trivial (by simp)
  refine ⟨⟨e0, he0⟩, b, hb, ?_⟩
  intro e f he hf
  obtain ⟨b', k', hb', _, hS, _⟩ := h.bounds hd hr he hf (stash := none) trivial (by simp)
  rw [hb] at hb'
  cases hb'
  constructor
  · intro u hu v hv
    exact ⟨h.dt_pos ((t1 u).1 hu) ((t2 v).1 hv), hS.up u v ((t1 u).1 hu) ((t2 v).1 hv)⟩
  · obtain ⟨u, v, hu, hv, huv⟩ := hS.lo
    exact ⟨u, (t1 u).2 hu, v, (t2 v).2 hv, huv⟩

/-- C44. If the full curve has the junction, these ratios are ratios of points of the curve. -/
theorem C44_ratios (hd : d ≠ 0) (r : Ratio) (hr : r.Ok d) (c : FCurve d) (hE : c.Estimable) (p : PiecePair d) (hp : p.Reached c) (e : FCurve d)
    (f : ℕ → ℝ → Fin d → ℝ) (he : Possible p.curve e) (hf : e.Realizes f) (hj : e.HasJunction p.junc) :
    ∀ u ∈ p.Times1, ∀ v ∈ p.Times2, p.junc.ratio r f u v ∈ e.ratios r f := by
  have h := hE.reached hd hp
  intro u hu v hv
  exact h.ratio_mem hr he hf hj ((inCl_iff_times hE.genus_pos (h.piece1.div.trans h.sub.div) h.cnums1 u).2 hu)
    ((inCl_iff_times hE.genus_pos (h.piece2.div.trans h.sub.div) h.cnums2 v).2 hv)

/-- C45. Each pair reached by the estimators is divided without exceptions.  The parts belong to the same junction, are balanced and
have only possible curves of the divided pair; for every full curve consistent with the divided pair, the pairs of times of the pieces are
exactly the pairs of times of the parts consistent with the curve. -/
theorem C45_divide (hd : d ≠ 0) (c : FCurve d) (hE : c.Estimable) (p : PiecePair d) (hp : p.Reached c) :
    (p.pos1.cnums.length = p.pos2.cnums.length ∨ p.pos1.cnums.length = p.pos2.cnums.length + 1) ∧
    ∃ subs, p.divideBalanced = some subs ∧
      (∀ p' ∈ subs, p'.junc = p.junc ∧ (p'.pos1.cnums.length = p'.pos2.cnums.length ∨ p'.pos1.cnums.length = p'.pos2.cnums.length + 1) ∧
        ∀ e, Possible p'.curve e → Possible p.curve e) ∧
      ∀ e, Possible p.curve e → ∀ u v, (u ∈ p.Times1 ∧ v ∈ p.Times2 ↔ ∃ p' ∈ subs, Possible p'.curve e ∧ u ∈ p'.Times1 ∧ v ∈ p'.Times2) := by
  have h := hE.reached hd hp
  obtain ⟨subs, h1, h2⟩ := h.divide
  have hG : 0 < c.genus := hE.genus_pos
  have t1 : ∀ q : PiecePair d, PairOK c q → ∀ u, u ∈ q.Times1 ↔ c.InCl q.junc.spec1 q.pos1 u := fun q h u =>
    (inCl_iff_times hG (h.piece1.div.trans h.sub.div) h.cnums1 u).symm
  have t2 : ∀ q : PiecePair d, PairOK c q → ∀ u, u ∈ q.Times2 ↔ c.InCl q.junc.spec2 q.pos2 u := fun q h u =>
    (inCl_iff_times hG (h.piece2.div.trans h.sub.div) h.cnums2 u).symm
  refine ⟨h.balanced, subs, h1, ?_, ?_⟩
  · intro p' hp'
    obtain ⟨g1, g2, g3, _⟩ := h2.ok p' hp'
    exact ⟨g2, g1.balanced, fun e he => ((g3.possible e).1 he).1⟩
  · intro e he u v
    rw [t1 p h, t2 p h]
    constructor
    · rintro ⟨hu, hv⟩
      obtain ⟨p', hp', g1, g2, g3⟩ := h2.closed e he u v hu hv
      have h' := (h2.ok p' hp').1
      exact ⟨p', hp', g1, (t1 p' h' u).2 g2, (t2 p' h' v).2 g3⟩
    · rintro ⟨p', hp', g1, g2, g3⟩
      obtain ⟨h', _, _, _, g4, g5⟩ := h2.ok p' hp'
      exact ⟨g4 u ((t1 p' h' u).1 g2), g5 v ((t2 p' h' v).1 g3)⟩

/-- C45. The cubes kept with the pieces are the right ones: for every full curve consistent with the pair, the patterns are in the cube of
the piece during the time of the piece. -/
theorem C45_cubes (hd : d ≠ 0) (c : FCurve d) (hE : c.Estimable) (p : PiecePair d) (hp : p.Reached c) (e : FCurve d) (f : ℕ → ℝ → Fin d → ℝ)
    (he : Possible p.curve e) (hf : e.Realizes f) :
    (∀ t ∈ p.pos1.Times, ∀ j, (p.pos1.corner j : ℝ) ≤ f p.junc.spec1.pnum t j * (c.div : ℝ) ^ p.pos1.cnums.length ∧
      f p.junc.spec1.pnum t j * (c.div : ℝ) ^ p.pos1.cnums.length ≤ p.pos1.corner j + 1) ∧
    ∀ t ∈ p.pos2.Times, ∀ j, (p.pos2.corner j : ℝ) ≤ f p.junc.spec2.pnum t j * (c.div : ℝ) ^ p.pos2.cnums.length ∧
      f p.junc.spec2.pnum t j * (c.div : ℝ) ^ p.pos2.cnums.length ≤ p.pos2.corner j + 1 := by
  have h := hE.reached hd hp
  have hdiv : e.div = c.div := he.div.trans h.sub.div
  have hfull := (h.sub.estimable.possible e he).1
  rw [← hdiv]
  exact ⟨(h.piece1.posFor e he).corner hfull hf (by rw [he.mult]; exact h.piece1.pnum),
    (h.piece2.posFor e he).corner hfull hf (by rw [he.mult]; exact h.piece2.pnum)⟩

/-- C44-C50 apply to `curve.forget(...)` of complete curves that pass `check()` and visit all cubes. -/
theorem C44_forgotten_curves (c c' : FCurve d) (h : c.Full) (h0 : 0 < c.mult) (hc : c.check = some true) (hfill : c.FillsGrid)
    (group : Option (List (BaseMap d))) (t : Bool) (hgrp : ∀ g, group = some g → IsSubgroupList g) (hf : c.forget group t = some c') : c'.Estimable := by
  obtain ⟨paths, h1, h2, h3, h4, h5⟩ := h.getPaths_facts
  have hinit : initFromPaths paths group t = some c' := by
    unfold forget at hf
    rw [h1] at hf
    exact hf
  refine estimable_of_pathFuzzy h.two_le_div hgrp h3 (paths_continuous h1 hc) ?_ (.init hinit)
  intro path hpath cube hcube
  obtain ⟨p, hp⟩ := List.mem_iff_getElem?.1 hpath
  have hpm : p < c.mult := by rw [← h2]; exact (List.getElem?_eq_some_iff.1 hp).1
  obtain ⟨pat, hpat⟩ := getElem?_of_lt hpm
  obtain ⟨i, _, hi⟩ := hfill p hpm cube hcube
  unfold FCurve.cube? at hi
  rw [hpat, Option.bind_some] at hi
  unfold Proto.cube? at hi
  rw [← h5.proto p path pat hp hpat]
  cases hq : pat.proto[i]? with
  | none => rw [hq] at hi; cases hi
  | some o =>
    rw [hq] at hi
    cases hi
    exact List.mem_of_getElem? hq

/-- Hypotheses of C44, C45 are met by the Hilbert curve and by the forgotten Hilbert curve; both have pairs, also after divisions. -/
example : Zoo.hilbert.Estimable :=
  have hf : Zoo.hilbert.Full := full_of_fullB (by decide +kernel)
  (C44_full_curves Zoo.hilbert hf (by decide +kernel) (by decide +kernel) (by decide +kernel) (fills_of_fillsB hf (by decide +kernel))).1

example : ∃ c', Zoo.hilbert.forget none false = some c' ∧ c'.Estimable ∧ ∃ p : PiecePair 2, p.Reached c' ∧ p.pos1.cnums.length = 2 := by
  have hf : Zoo.hilbert.Full := full_of_fullB (by decide +kernel)
  obtain ⟨c', e1, e2, _⟩ := C56_forget Zoo.hilbert none false (by decide +kernel) hf (by decide +kernel) (by simp) (by simp [InGroup])
  have hE := C44_forgotten_curves Zoo.hilbert c' hf (by decide +kernel) (by decide +kernel) (fills_of_fillsB hf (by decide +kernel)) none false (by simp) e1
  refine ⟨c', e1, hE, ?_⟩
  have hG : c'.genus = 4 := by
    have := e2.genus
    rw [← this]
    decide +kernel
  have hm : c'.mult = 1 := by
    have := e2.mult
    rw [← this]
    decide +kernel
  obtain ⟨data, g1, g2⟩ := hE.pairData (by decide)
  have hx : c'.FirstPair (Junction.auto 2 0, 0, 2) := by
    refine ⟨Or.inl (by simp [genAutoJunctions, hm]), by rw [hG]; decide, by rw [hG]; decide, ?_⟩
    simp [Junction.auto, BaseMap.applyCnum, BaseMap.idMap]
  obtain ⟨p, q1, q2, q3, q4, q5, q6⟩ := hE.firstPair (by decide) hx
  have hp : p.Reached c' := .first g1 ((g2 _).2 hx) q1
  obtain ⟨e, he⟩ := q2.sub.estimable.exists_possible
  obtain ⟨subs, k1, k2⟩ := q2.divide
  obtain ⟨p', hp', k3, _⟩ := k2.half e he _ _ ⟨0, le_rfl, zero_lt_one, rfl⟩ ⟨1, zero_lt_one, le_rfl, rfl⟩
  refine ⟨p', .divide hp k1 hp', ?_⟩
  obtain ⟨ok, _, _, hlev, _⟩ := k2.ok p' hp'
  have hb := ok.balanced
  have d1 : p.pos1.depth = 1 := by unfold PiecePos.depth; rw [q5]; rfl
  have d2 : p.pos2.depth = 1 := by unfold PiecePos.depth; rw [q6]; rfl
  unfold PiecePair.level at hlev
  show p'.pos1.depth = 2
  omega

end FCurve
end Peano
