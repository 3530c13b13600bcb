import Verif.Lemmas.Regular
import Verif.Lemmas.EstimableOf
import Verif.Lemmas.UtilsB

set_option autoImplicit false

/- The estimator for regular curves: face moments and complete curves. -/
namespace Peano
variable {d : ℕ} {r : Ratio} {f : ℕ → ℝ → Fin d → ℝ} {c : FCurve d}
open FCurve (PairOK SubCurve Possible SoundBounds)

/-- There are faces of each dimension up to `d`. -/
theorem exists_face {k : ℕ} (h : k ≤ d) : ∃ face : Face d, ((List.finRange d).filter fun i => face i = none).length = k := by
  refine ⟨fun i => if i.val < k then none else some false, ?_⟩
  have h1 : ((List.finRange d).filter fun i => (if i.val < k then none else some false : Option Bool) = none) = (List.finRange d).filter fun i => i.val < k := by
    apply List.filter_congr
    intro i _
    by_cases hi : i.val < k <;> simp [hi]
  rw [h1]
  have h2 : (((List.finRange d).filter fun i => i.val < k).map Fin.val) = (List.range d).filter fun i => i < k := by
    rw [← List.map_coe_finRange_eq_range, List.filter_map]
    rfl
  have h3 := congrArg List.length h2
  rw [List.length_map] at h3
  rw [h3]
  have h4 : (List.range d).filter (fun i => i < k) = List.range k := by
    obtain ⟨m, rfl⟩ := Nat.exists_eq_add_of_le h
    rw [List.range_add, List.filter_append]
    have e1 : (List.range k).filter (fun i => decide (i < k)) = List.range k := by
      rw [List.filter_eq_self]; intro i hi; simpa using hi
    have e2 : ((List.range m).map fun x => k + x).filter (fun i => decide (i < k)) = [] := by
      rw [List.filter_eq_nil_iff]; intro i hi; simp only [List.mem_map, List.mem_range] at hi; obtain ⟨j, _, rfl⟩ := hi; simp
    rw [e1, e2, List.append_nil]
  rw [h4, List.length_range]

namespace Dilation

theorem facePoints_ok (h : c.Full) (hfill : c.FillsGrid) (hf : c.Realizes f) (hd : d ≠ 0) {k : ℕ} (hk : k ≤ d) :
    ∃ pts, facePoints c k = some pts ∧ FCurve.StashOK f c.mult (some pts) := by
  obtain ⟨faces, g1, _, g3⟩ := mem_genFaces hk
  obtain ⟨face0, hf0⟩ := exists_face hk
  have key : ∀ pnum : ℕ, ∃ l : List (FCurve.CurvePoint d), pnum < c.mult → (do
      let faces ← genFaces d k
      let pts ← (faces.flatMap fun face => [(face, false), (face, true)]).mapM fun e => c.getFacePoint e.1 pnum e.2
      return pts.dedup.insertionSort fun a b => pointLe a b = true : Option (List (FCurve.CurvePoint d))) = some l ∧ l ≠ [] ∧
      ∀ pt ∈ l, PointOn f ⟨BaseMap.idMap d, pnum⟩ pt := by
    intro pnum
    by_cases hp : pnum < c.mult
    · have hdef : ∀ e : Face d × Bool, ∃ pt, c.getFacePoint e.1 pnum e.2 = some pt ∧ PointOn f ⟨BaseMap.idMap d, pnum⟩ pt := by
        intro e
        obtain ⟨q, x, _, h2, h3, h4⟩ := FCurve.faceLoop_spec h hfill hf hd e.1 e.2 hp
        have hm : (q : ℝ) ∈ {t | 0 ≤ t ∧ t ≤ 1 ∧ OnFace e.1 (f pnum t)} := by
          unfold FCurve.IsBest at h3
          split at h3 <;> exact h3.1
        refine ⟨⟨x, q⟩, h2, ⟨hm.1, hm.2.1⟩, ?_⟩
        intro i
        have := congrFun h4 i
        show (x i : ℝ) = actFn ⟨BaseMap.idMap d, pnum⟩ f q i
        rw [this]
        simp [actFn, BaseMap.idMap, BaseMap.applyT, BaseMap.applyX]
      choose g hg1 hg2 using hdef
      have hpts : (faces.flatMap fun face => [(face, false), (face, true)]).mapM (fun e => c.getFacePoint e.1 pnum e.2) =
          some ((faces.flatMap fun face => [(face, false), (face, true)]).map g) := mapM_eq_some_map fun e _ => hg1 e
      refine ⟨((faces.flatMap fun face => [(face, false), (face, true)]).map g).dedup.insertionSort fun a b => pointLe a b = true, fun _ => ⟨?_, ?_, ?_⟩⟩
      · rw [g1]
        show Option.bind _ _ = _
        rw [Option.bind_some]
        show Option.bind _ _ = _
        rw [hpts]
        rfl
      · have hmem : g (face0, false) ∈ (((faces.flatMap fun face => [(face, false), (face, true)]).map g).dedup.insertionSort fun a b => pointLe a b = true) := by
          rw [List.mem_insertionSort, List.mem_dedup, List.mem_map]
          exact ⟨(face0, false), List.mem_flatMap.2 ⟨face0, (g3 face0).2 hf0, by simp⟩, rfl⟩
        exact List.ne_nil_of_mem hmem
      · intro pt hpt
        rw [List.mem_insertionSort, List.mem_dedup, List.mem_map] at hpt
        obtain ⟨e, _, rfl⟩ := hpt
        exact hg2 e
    · exact ⟨[], fun h => absurd h hp⟩
  choose L hL using key
  refine ⟨(List.range c.mult).map L, ?_, ?_⟩
  · unfold facePoints
    exact mapM_eq_some_map fun p hp => (hL p (List.mem_range.1 hp)).1
  · intro p hp
    refine ⟨L p, by simp [hp], (hL p hp).2⟩

/-- A complete checked curve. -/
theorem regCtx (hd : d ≠ 0) (hr : r.Ok d) (h : c.Full) (hk : c.kind ≠ .fuzzy) (h0 : 0 < c.mult) (hc : c.check = some true) (hfill : c.FillsGrid)
    (hf : c.Realizes f) {D : ℝ} (hD : IsGreatest (c.ratios r f) D) {stash : Stash d} (hst : FCurve.StashOK f c.mult stash) :
    RegCtx c { c with kind := .curve } f r D stash where
  dim := hd
  ratio := hr
  est := FCurve.estimable_of_full h hk h0 hc hfill
  poss := (h.possible_eq hk).2 rfl
  uniq := fun _ he => (h.possible_eq hk).1 he
  real := ⟨hf.mem_cube, hf.eqn⟩
  great := hD
  stashOk := hst
  full := fun _ => h

theorem RegCtx.argmax_isSome {e : FCurve d} {D : ℝ} {stash : Stash d} (h : RegCtx c e f r D stash) {x : BoundedPair d} (hx : ItemOK c r stash x) (hs : stash.isSome) :
    x.argmax.isSome := by
  obtain ⟨b, _, hb, _, _, _, _, ha, _⟩ := hx.pair.bounds h.dim h.ratio (h.possible hx.pair) h.real h.stashOk (h.pairFull hx.pair)
  have := hx.bounds
  rw [show getBounds (m := Option) (pureB r) stash x.pair = some b from hb] at this
  cases this
  exact ha hs

end Dilation
end Peano
