import Verif.Lemmas.RegularB
import Verif.Lemmas.Termination
import Verif.Lemmas.MaxDepth
import Verif.Props.Dilation
import Verif.Props.Heap

set_option autoImplicit false

/-
Properties C46 and C55: `estimate_dilation_regular`.

`c` is a complete curve (class `Curve`, or `PathFuzzyCurve` with all specs given) that passes `check()` and visits all cubes.  `Q` is any
implementation of the heap that meets the contract of `heapq`.  The estimator runs with any number of iterations `fuel` after which the
model gives up: the statements are about each run that ends.
-/
namespace Peano
variable {d : ℕ}
namespace Dilation
open FCurve (Possible)

/-- The points used for lower bounds: first and last moments of the faces of the given dimension. -/
def stashFor (c : FCurve d) : Option ℕ → Option (Stash d)
  | none => some none
  | some k => (facePoints c k).map some

/-- The result of any run of the estimator is described by a state of its loop that meets the invariant and a condition to stop. -/
theorem estimateRegular_spec (hd : d ≠ 0) (r : Ratio) (hr : r.Ok d) (c : FCurve d) (h : c.Full) (hk : c.kind ≠ .fuzzy) (h0 : 0 < c.mult)
    (hc : c.check = some true) (hfill : c.FillsGrid) (f : ℕ → ℝ → Fin d → ℝ) (hf : c.Realizes f) (D : ℝ) (hD : IsGreatest (c.ratios r f) D)
    (Q : HeapQ (HNode (BoundedPair d)) HNode.lt) (p : RegularParams) (hface : ∀ k, p.faceDim = some k → k ≤ d) (htol : p.relTolInv ≠ some 0) :
    ∃ stash : Stash d, stashFor c p.faceDim = some stash ∧ (stash.isSome ↔ p.faceDim.isSome) ∧ RegCtx c { c with kind := .curve } f r D stash ∧ ∃ st, RegInv Q c f r D stash st ∧
      regularInit (m := Option) Q (pureB r) c stash = some st ∧
      ∀ fuel, estimateRegular (m := Option) Q (keyBounds r) fuel c p = regularLoop (m := Option) Q (pureB r) p (p.relTolInv.bind tolerance) stash fuel 0 st := by
  have hst : ∃ stash : Stash d, (stash.isSome ↔ p.faceDim.isSome) ∧ FCurve.StashOK f c.mult stash ∧
      stashFor c p.faceDim = some stash := by
    cases hp : p.faceDim with
    | none => exact ⟨none, by simp, trivial, rfl⟩
    | some k =>
      obtain ⟨pts, h1, h2⟩ := facePoints_ok h hfill hf hd (hface k hp)
      exact ⟨some pts, by simp, h2, by simp [stashFor, h1]⟩
  obtain ⟨stash, s1, s2, s3⟩ := hst
  have hctx := regCtx hd hr h hk h0 hc hfill hf hD s2
  obtain ⟨st, t1, t2, _⟩ := hctx.init (Q := Q)
  refine ⟨stash, s3, s1, hctx, st, t2, t1, ?_⟩
  intro fuel
  have t1' : regularInit (m := Option) Q (keyBounds r) c stash = some st := t1
  have e2 : ∀ k, p.relTolInv = some k → tolerance k = some (((k + 1 : ℤ) : ℚ) / (k : ℚ)) := by
    intro k hk
    unfold tolerance
    rw [if_neg]
    rintro rfl
    exact htol hk
  have e1 : ∀ k, p.faceDim = some k → ∃ pts, facePoints c k = some pts ∧ stash = some pts := by
    intro k hk
    rw [hk] at s3
    cases hpts : facePoints c k with
    | none => simp [stashFor, hpts] at s3
    | some pts => exact ⟨pts, rfl, by simpa [stashFor, hpts] using s3.symm⟩
  have e0 : p.faceDim = none → stash = none := by
    intro hk
    rw [hk] at s3
    exact (Option.some.inj s3).symm
  obtain ⟨relTol, maxIter, faceDim, maxDepth⟩ := p
  unfold estimateRegular
  cases faceDim with
  | none =>
    rw [e0 rfl] at t1' ⊢
    cases relTol with
    | none =>
      show Option.bind (regularInit (m := Option) Q (keyBounds r) c none) _ = _
      rw [t1']
      rfl
    | some k =>
      show Option.bind (tolerance k) _ = _
      rw [e2 k rfl]
      show Option.bind (regularInit (m := Option) Q (keyBounds r) c none) _ = _
      rw [t1', Option.bind_some, Option.bind_some, e2 k rfl]
  | some k' =>
    obtain ⟨pts, hpts, hs⟩ := e1 k' rfl
    rw [hs] at t1' ⊢
    cases relTol with
    | none =>
      show Option.bind (facePoints c k') _ = _
      rw [hpts]
      show Option.bind (regularInit (m := Option) Q (keyBounds r) c (some pts)) _ = _
      rw [t1']
      rfl
    | some k =>
      show Option.bind (facePoints c k') _ = _
      rw [hpts]
      show Option.bind (tolerance k) _ = _
      rw [e2 k rfl]
      show Option.bind (regularInit (m := Option) Q (keyBounds r) c (some pts)) _ = _
      rw [t1', Option.bind_some, Option.bind_some, e2 k rfl]

/-- C46. The estimator raises no exception (face dimensions above `d` and `rel_tol_inv = 0` are excluded).  If it returns `lo`, `up`, then
`lo ≤ dilation ≤ up`.  If the relative tolerance is the only rule to stop, then `up ≤ lo * (1 + 1 / rel_tol_inv)`. -/
theorem C46_regular (hd : d ≠ 0) (r : Ratio) (hr : r.Ok d) (c : FCurve d) (h : c.Full) (hk : c.kind ≠ .fuzzy) (h0 : 0 < c.mult)
    (hc : c.check = some true) (hfill : c.FillsGrid) (Q : HeapQ (HNode (BoundedPair d)) HNode.lt) (p : RegularParams)
    (hface : ∀ k, p.faceDim = some k → k ≤ d) (htol : p.relTolInv ≠ some 0) (fuel : ℕ) :
    ∃ res, estimateRegular (m := Option) Q (keyBounds r) fuel c p = some res ∧ ∀ lo up a, res = .ok lo up a →
      (∀ D, c.IsDilation r D → (lo : ℝ) ≤ D ∧ D ≤ up) ∧
      ∀ k : ℤ, p.relTolInv = some k → p.maxIter = none → p.maxDepth = none → up ≤ lo * (1 + 1 / (k : ℚ)) := by
  obtain ⟨⟨D, hD, hDu⟩, hmem⟩ := FCurve.C58_dilation hd r hr c h h0 hc
  obtain ⟨f, hf, hlub⟩ := id hD
  have hgr : IsGreatest (c.ratios r f) D := ⟨hmem f D hf hD, hlub.1⟩
  obtain ⟨stash, _, _, hctx, st, hI, _, hrun⟩ := estimateRegular_spec hd r hr c h hk h0 hc hfill f hf D hgr Q p hface htol
  obtain ⟨res, g1, g2⟩ := hctx.loop p (p.relTolInv.bind tolerance) fuel 0 st hI
  refine ⟨res, (hrun fuel).trans g1, ?_⟩
  intro lo up a hres
  obtain ⟨st', n', hI', rfl, rfl, rfl, hstop⟩ := g2 lo up a hres
  constructor
  · intro D' hD'
    rw [hDu D' hD']
    obtain ⟨P, _, p2, _, _, m, q1, q2, _⟩ := hI'.max
    refine ⟨?_, hI'.up⟩
    rw [← q2]
    exact hctx.lo_le (p2 m q1)
  · intro k hk' hmax hdep
    have hk0 : k ≠ 0 := by rintro rfl; exact htol hk'
    unfold regularStop at hstop
    rw [hk', hmax, hdep] at hstop
    have ht : tolerance k = some (((k + 1 : ℤ) : ℚ) / (k : ℚ)) := by unfold tolerance; rw [if_neg hk0]
    simp only [Option.bind_some, ht, Option.any_some, Option.any_none, Bool.or_false, decide_eq_true_eq] at hstop
    have hkq : (k : ℚ) ≠ 0 := by exact_mod_cast hk0
    have : (((k + 1 : ℤ) : ℚ) / (k : ℚ)) = 1 + 1 / (k : ℚ) := by
      push_cast
      field_simp
    rwa [this] at hstop

/-- C55. With face moments (`faceDim` given) a returned result has an `argmax`: two points on the graph of a junction of the curve, and
`lo` is the ratio at these points.  Without face moments nothing is claimed about it. -/
theorem C55_argmax (hd : d ≠ 0) (r : Ratio) (hr : r.Ok d) (c : FCurve d) (h : c.Full) (hk : c.kind ≠ .fuzzy) (h0 : 0 < c.mult)
    (hc : c.check = some true) (hfill : c.FillsGrid) (f : ℕ → ℝ → Fin d → ℝ) (hf : c.Realizes f) (Q : HeapQ (HNode (BoundedPair d)) HNode.lt)
    (p : RegularParams) (k : ℕ) (hp : p.faceDim = some k) (hkd : k ≤ d) (htol : p.relTolInv ≠ some 0) (fuel : ℕ) (lo up : ℚ) (a : Option (Argmax d))
    (hres : estimateRegular (m := Option) Q (keyBounds r) fuel c p = some (.ok lo up a)) :
    ∃ a', a = some a' ∧ FCurve.HasJunction { c with kind := .curve } a'.junc ∧ a'.OnGraph f ∧ a'.t1 < a'.t2 ∧
      r.val (fun i => a'.x1 i - a'.x2 i) (a'.t2 - a'.t1) = lo := by
  obtain ⟨⟨D, hD, hDu⟩, hmem⟩ := FCurve.C58_dilation hd r hr c h h0 hc
  have hDf : c.IsDilation r D := hD
  have hin := hmem f D hf hD
  have hub : D ∈ upperBounds (c.ratios r f) := by
    obtain ⟨x, hx⟩ := FCurve.C58_attained hd r hr c h h0 f hf
    obtain ⟨hp, s, t, a1, a2, a3, hu⟩ := hx
    have hD' : c.IsDilation r (r.val (fun j => f x s j - f x t j) (t - s)) :=
      ⟨f, hf, IsGreatest.isLUB ⟨⟨x, hp, s, t, a1, a2, a3, rfl⟩, by rintro _ ⟨p', hp', s', t', a', b', e', rfl⟩; exact hu p' hp' s' t' a' b' e'⟩⟩
    rw [← hDu _ hD']
    rintro _ ⟨p', hp', s', t', a', b', e', rfl⟩
    exact hu p' hp' s' t' a' b' e'
  obtain ⟨stash, _, hs, hctx, st, hI, _, hrun⟩ := estimateRegular_spec hd r hr c h hk h0 hc hfill f hf D ⟨hin, hub⟩ Q p
    (by intro k' hk'; rw [hp] at hk'; cases hk'; exact hkd) htol
  obtain ⟨res, g1, g2⟩ := hctx.loop p (p.relTolInv.bind tolerance) fuel 0 st hI
  rw [hrun fuel, g1] at hres
  cases hres
  obtain ⟨st', n', hI', rfl, rfl, rfl, _⟩ := g2 _ _ _ rfl
  obtain ⟨P, _, p2, _, _, m, q1, q2, q3⟩ := hI'.max
  have hstash : stash.isSome := hs.2 (by rw [hp]; rfl)
  obtain ⟨a', ha'⟩ := Option.isSome_iff_exists.1 (hctx.argmax_isSome (p2 m q1) hstash)
  obtain ⟨k1, k2, k3, k4, k5, k6⟩ := (hctx.sound (p2 m q1)).argmax a' ha'
  refine ⟨a', by rw [← q3]; exact ha', ?_, k4, k6, by rw [← q2]; exact k5⟩
  rw [k1]
  exact hctx.has (p2 m q1).pair

/-- C59. With a positive `rel_tol_inv` the estimator returns after finitely many iterations, whatever the other parameters are. -/
theorem C59_terminates (hd : d ≠ 0) (r : Ratio) (hr : r.Ok d) (c : FCurve d) (h : c.Full) (hk : c.kind ≠ .fuzzy) (h0 : 0 < c.mult)
    (hc : c.check = some true) (hfill : c.FillsGrid) (Q : HeapQ (HNode (BoundedPair d)) HNode.lt) (p : RegularParams)
    (hface : ∀ k, p.faceDim = some k → k ≤ d) (k : ℤ) (hk0 : 0 < k) (hp : p.relTolInv = some k) :
    ∃ fuel0, ∀ fuel, fuel0 ≤ fuel → ∃ lo up a, estimateRegular (m := Option) Q (keyBounds r) fuel c p = some (.ok lo up a) := by
  obtain ⟨⟨D, hD, hDu⟩, hmem⟩ := FCurve.C58_dilation hd r hr c h h0 hc
  obtain ⟨f, hf, hlub⟩ := id hD
  have hgr : IsGreatest (c.ratios r f) D := ⟨hmem f D hf hD, hlub.1⟩
  obtain ⟨stash, _, _, hctx, st, hI, _, hrun⟩ := estimateRegular_spec hd r hr c h hk h0 hc hfill f hf D hgr Q p hface
    (by rw [hp]; intro h; cases h; exact absurd hk0 (lt_irrefl _))
  have hkq : (0 : ℚ) < k := by exact_mod_cast hk0
  have ht : tolerance k = some (((k + 1 : ℤ) : ℚ) / (k : ℚ)) := by unfold tolerance; rw [if_neg hk0.ne']
  have h1 : 1 < ((k + 1 : ℤ) : ℚ) / (k : ℚ) := by
    rw [lt_div_iff₀ hkq]
    push_cast
    linarith
  obtain ⟨K, hK⟩ := hctx.close h1
  obtain ⟨fuel0, hfuel⟩ := hctx.terminates p (p.relTolInv.bind tolerance) (K := K) (Q := Q) (by
    intro st n hI hdeep
    obtain ⟨y, y1, y2, y3, y4⟩ := hctx.top hI.inv hI.items hI.track
    have := hK y (hI.items y y2) (hdeep y y1) y3
    obtain ⟨P, _, _, p3, p4, _⟩ := hI.max
    have hup := hI.up_top y y1
    have hlo := p4 y (p3 y y2)
    have hle : st.up ≤ st.lo * (((k + 1 : ℤ) : ℚ) / (k : ℚ)) :=
      (hup.trans this).trans (mul_le_mul_of_nonneg_right hlo (by linarith))
    unfold regularStop
    rw [hp]
    simp only [Option.bind_some, ht, Option.any_some, Bool.or_eq_true, decide_eq_true_eq]
    exact Or.inl (Or.inl hle)) st 0 hI
  refine ⟨fuel0, fun fuel hle => ?_⟩
  rw [hrun fuel]
  exact hfuel fuel hle

/-- C59. With `max_iter` the estimator returns after at most `max_iter + 1` tests of the conditions to stop. -/
theorem C59_max_iter (hd : d ≠ 0) (r : Ratio) (hr : r.Ok d) (c : FCurve d) (h : c.Full) (hk : c.kind ≠ .fuzzy) (h0 : 0 < c.mult)
    (hc : c.check = some true) (hfill : c.FillsGrid) (Q : HeapQ (HNode (BoundedPair d)) HNode.lt) (p : RegularParams)
    (hface : ∀ k, p.faceDim = some k → k ≤ d) (htol : p.relTolInv ≠ some 0) (N : ℕ) (hN : p.maxIter = some (N : ℤ)) (fuel : ℕ) (hfuel : N < fuel) :
    ∃ lo up a, estimateRegular (m := Option) Q (keyBounds r) fuel c p = some (.ok lo up a) := by
  obtain ⟨⟨D, hD, hDu⟩, hmem⟩ := FCurve.C58_dilation hd r hr c h h0 hc
  obtain ⟨f, hf, hlub⟩ := id hD
  have hgr : IsGreatest (c.ratios r f) D := ⟨hmem f D hf hD, hlub.1⟩
  obtain ⟨stash, _, _, hctx, st, hI, _, hrun⟩ := estimateRegular_spec hd r hr c h hk h0 hc hfill f hf D hgr Q p hface htol
  rw [hrun fuel]
  exact hctx.terminates_max p _ hN fuel 0 st hI (by omega) (by omega)

/-- C60. If `max_depth` is the only rule to stop, then the returned `lo` is at least the lower bound (`_get_bounds`, with the same points of
faces) of every pair of fractions, obtained by any divisions, whose depth is at most `max_depth`; if one of these bounds is the dilation, then `lo` is exact. -/
theorem C60_max_depth (hd : d ≠ 0) (r : Ratio) (hr : r.Ok d) (c : FCurve d) (h : c.Full) (hk : c.kind ≠ .fuzzy) (h0 : 0 < c.mult)
    (hc : c.check = some true) (hfill : c.FillsGrid) (Q : HeapQ (HNode (BoundedPair d)) HNode.lt) (p : RegularParams)
    (hface : ∀ k, p.faceDim = some k → k ≤ d) (htol : p.relTolInv = none) (hit : p.maxIter = none) (K : ℤ) (hK : p.maxDepth = some K)
    (fuel : ℕ) (lo up : ℚ) (a : Option (Argmax d))
    (hres : estimateRegular (m := Option) Q (keyBounds r) fuel c p = some (.ok lo up a)) :
    ∃ stash, stashFor c p.faceDim = some stash ∧ ∀ q : PiecePair d, q.Reached c → (q.depth : ℤ) ≤ K →
      ∀ b, getBounds (m := Option) (keyBounds r) stash q = some b → b.lo ≤ lo ∧ (c.IsDilation r (b.lo : ℝ) → lo = b.lo) := by
  obtain ⟨⟨D, hD, hDu⟩, hmem⟩ := FCurve.C58_dilation hd r hr c h h0 hc
  obtain ⟨f, hf, hlub⟩ := id hD
  have hgr : IsGreatest (c.ratios r f) D := ⟨hmem f D hf hD, hlub.1⟩
  obtain ⟨stash, s0, _, hctx, st, hI, hinit, hrun⟩ := estimateRegular_spec hd r hr c h hk h0 hc hfill f hf D hgr Q p hface (by rw [htol]; simp)
  refine ⟨stash, s0, fun q hq hdep b hb => ?_⟩
  rw [hrun fuel] at hres
  obtain ⟨st', n', hI', hlo, hstop, hcov⟩ := hctx.loop_covered p _ fuel 0 st hI lo up a hres
  unfold regularStop at hstop
  rw [htol, hit, hK] at hstop
  simp only [Option.bind_none, Option.any_none, Bool.false_or, Option.any_some, List.all_eq_true, decide_eq_true_eq] at hstop
  have hle : b.lo ≤ lo := by
    rcases hcov q (hctx.covered_init hinit hq) with hc' | ⟨x, hx, hdesc⟩
    · rw [← hlo]; exact hc' b hb
    · exfalso
      have hx' := hI'.items x hx
      obtain ⟨g1, g2, _⟩ := desc_facts hdesc hx'.pair
      have hd1 := hstop x hx
      rw [depth_eq hx'.pair] at hd1
      rw [depth_eq g1] at hdep
      have := Nat.div_le_div_right (c := 2) g2
      omega
  refine ⟨hle, fun hb' => le_antisymm ?_ hle⟩
  obtain ⟨P, _, p2, _, _, m, q1, q2, _⟩ := hI'.max
  have : (lo : ℝ) ≤ b.lo := by
    rw [hDu _ hb', ← hlo, ← q2]
    exact hctx.lo_le (p2 m q1)
  exact_mod_cast this

/-- The hypotheses of C46, C55, C59, C60 on the curve are met by the Hilbert curve, with any norm. -/
theorem hilbert_hyps : Zoo.hilbert.Full ∧ Zoo.hilbert.kind ≠ .fuzzy ∧ 0 < Zoo.hilbert.mult ∧ Zoo.hilbert.check = some true ∧ Zoo.hilbert.FillsGrid :=
  have hf : Zoo.hilbert.Full := FCurve.full_of_fullB (by decide +kernel)
  ⟨hf, by decide +kernel, by decide +kernel, by decide +kernel, FCurve.fills_of_fillsB hf (by decide +kernel)⟩

/-- C46, C59 on the Hilbert curve: a run with the parameters `rel_tol_inv = 100` returns bounds of ratio at most `1.01`. -/
example : ∃ fuel lo up a, estimateRegular (m := Option) (sortedHeapQ _) (keyBounds Ratio.l2) fuel Zoo.hilbert ⟨some 100, none, none, none⟩ = some (.ok lo up a) ∧
    (∃ D, Zoo.hilbert.IsDilation Ratio.l2 D ∧ (lo : ℝ) ≤ D ∧ D ≤ up) ∧ up ≤ lo * (101 / 100) := by
  obtain ⟨h, hk, h0, hc, hfill⟩ := hilbert_hyps
  obtain ⟨fuel0, hf⟩ := C59_terminates (by decide) Ratio.l2 (by decide) Zoo.hilbert h hk h0 hc hfill (sortedHeapQ _) ⟨some 100, none, none, none⟩
    (by simp) 100 (by decide) rfl
  obtain ⟨lo, up, a, hrun⟩ := hf fuel0 le_rfl
  obtain ⟨res, h1, h2⟩ := C46_regular (by decide) Ratio.l2 (by decide) Zoo.hilbert h hk h0 hc hfill (sortedHeapQ _) ⟨some 100, none, none, none⟩ (by simp) (by simp) fuel0
  rw [hrun] at h1
  obtain ⟨h3, h4⟩ := h2 lo up a (Option.some.inj h1).symm
  obtain ⟨⟨D, hD, _⟩, _⟩ := FCurve.C58_dilation (by decide) Ratio.l2 (by decide) Zoo.hilbert h h0 hc
  refine ⟨fuel0, lo, up, a, hrun, ⟨D, hD, h3 D hD⟩, ?_⟩
  have := h4 100 rfl rfl rfl
  norm_num at this ⊢
  exact this

/-- C55 on the Hilbert curve with moments of vertices and `max_iter = 3`. -/
example : ∃ lo up a f, Zoo.hilbert.Realizes f ∧
    estimateRegular (m := Option) (sortedHeapQ _) (keyBounds Ratio.l2) 10 Zoo.hilbert ⟨some 100, some 3, some 0, none⟩ = some (.ok lo up (some a)) ∧ a.OnGraph f := by
  obtain ⟨h, hk, h0, hc, hfill⟩ := hilbert_hyps
  obtain ⟨lo, up, a, hrun⟩ := C59_max_iter (by decide) Ratio.l2 (by decide) Zoo.hilbert h hk h0 hc hfill (sortedHeapQ _) ⟨some 100, some 3, some 0, none⟩
    (by simp) (by simp) 3 rfl 10 (by decide)
  obtain ⟨⟨D, ⟨f, hf, _⟩, _⟩, _⟩ := FCurve.C58_dilation (by decide) Ratio.l2 (by decide) Zoo.hilbert h h0 hc
  obtain ⟨a', rfl, _, h2, _⟩ := C55_argmax (by decide) Ratio.l2 (by decide) Zoo.hilbert h hk h0 hc hfill f hf (sortedHeapQ _) ⟨some 100, some 3, some 0, none⟩ 0 rfl
    (by simp) (by simp) 10 lo up a hrun
  exact ⟨lo, up, a', f, hf, hrun, h2⟩

end Dilation
end Peano
