import Verif.Lemmas.Search
import Verif.Props.Sequence
import Verif.Props.Gates
import Verif.Props.FacetGates

set_option autoImplicit false

/-
Properties C53, C64: the search script.
-/
namespace Peano
open FCurve (Possible HasExample)

namespace FCurve
variable {d : ℕ}

theorem cubeLimitLoop_with (c : FCurve d) (k : Kind d) (pn cnum : ℕ) (fuel : ℕ) : ∀ (seen : List (Spec d)) (cubes : List (Cube d)) (cur : Spec d),
    ({ c with kind := k, pnum := pn } : FCurve d).cubeLimitLoop cnum fuel seen cubes cur = c.cubeLimitLoop cnum fuel seen cubes cur := by
  induction fuel with
  | zero => intros; rfl
  | succ m ih =>
    intro seen cubes cur
    unfold cubeLimitLoop
    simp only [ih]
    rfl

theorem getCubeLimit_with (c : FCurve d) (k : Kind d) (pn p i : ℕ) :
    ({ c with kind := k, pnum := pn } : FCurve d).getCubeLimit p i = c.getCubeLimit p i := by
  unfold getCubeLimit
  show Option.bind (({ c with kind := k, pnum := pn } : FCurve d).cubeLimitLoop i c.fuel [] [] ⟨BaseMap.idMap d, p⟩) _ = _
  rw [cubeLimitLoop_with]
  rfl

theorem hasGates_with {c : FCurve d} (k : Kind d) (pn : ℕ) {G : GateTuple d} (h : HasGates { c with kind := k, pnum := pn } G) : c.HasGates G := by
  refine ⟨h.1, fun p l hl => ?_⟩
  have := h.2 p l hl
  unfold getEntrance getExit at this ⊢
  rw [getCubeLimit_with, getCubeLimit_with (i := _ - 1)] at this
  exact this

theorem isCandidate_with {c : FCurve d} (k : Kind d) (pn : ℕ) {N m : ℕ} {mc : Option ℤ} (h : IsCandidate N m mc { c with kind := k, pnum := pn }) :
    c.IsCandidate N m mc := by
  have hf := h.full
  have hf' : c.Full := ⟨⟨hf.two_le_div, hf.proto_length, hf.specs_length, hf.cube_range, hf.spec_range⟩, hf.cube_def, hf.spec_def⟩
  obtain ⟨f, hr⟩ := (C12_check_iff _ hf).2.1 h.checked
  exact ⟨hf', h.fills, (C12_check_iff _ hf').2.2 ⟨f, hr.mem_cube, hr.eqn⟩, h.div_eq, h.mult_eq, h.steps⟩

end FCurve

namespace Search
variable {n : ℕ} (r : Ratio) (hr : r.Ok (n + 1)) (Q : HeapQ (HNode (BoundedPair (n + 1))) HNode.lt)
  (H : HeapQ (Dilation.SeqItem (n + 1)) Dilation.SeqItem.lt) (S : SatSolver) (hash : Hashes n) (p : Params n)

/-- Parameters of the estimate. -/
def Params.seq (p : Params n) : Dilation.SeqParams := ⟨p.relTolInv.getD 1000, p.relTolInvMult.getD 4, p.upperBound, ⟨none, p.nextSat⟩⟩

/-- The estimate for one generator. -/
theorem estimate_generator (hr : r.Ok (n + 1)) (hdiv : 2 ≤ p.div) (hpos : 0 < p.mult) (htol : 0 < p.relTolInv.getD 1000)
    (hmult : 2 ≤ p.relTolInvMult.getD 4) {gl : List (GateTuple (n + 1))} (hgl : ∀ S ∈ gl, S.length = p.mult ∧ GateTuple.InCube S) :
    ∃ pcs, genPcurves hash p gl = some pcs ∧ ∃ fuel0, ∀ fuel, fuel0 ≤ fuel →
      (∃ lo up cs idxs, Dilation.estimateSequence (m := Option) Q (Dilation.keyBounds r) S H fuel pcs p.seq = some (.ok lo up cs idxs) ∧
        RightReport r p (FCurve.GatesIn gl) lo up cs) ∨
      (Dilation.estimateSequence (m := Option) Q (Dilation.keyBounds r) S H fuel pcs p.seq = some .absent ∧
        Absent r p (FCurve.GatesIn gl)) := by
  obtain ⟨pcs, h1, h2, h3⟩ := genPcurves_spec hash p hdiv hpos hgl
  refine ⟨pcs, h1, ?_⟩
  have hE : ∀ c ∈ pcs, c.Estimable := fun c hc => (h2 c hc).1
  obtain ⟨f0, hf0⟩ := Dilation.C62_terminates (by omega) r hr pcs hE Q H S p.seq htol hmult rfl
  refine ⟨f0, fun fuel hf => ?_⟩
  obtain ⟨res, g1, g2⟩ := hf0 fuel hf
  have hm0 : p.seq.relTolInvMult ≠ 0 := by
    show p.relTolInvMult.getD 4 ≠ 0
    omega
  obtain ⟨res', k1, k2, k3⟩ := Dilation.C50_sequence (by omega) r hr pcs hE Q H S p.seq htol.ne' hm0 fuel
  rw [g1] at k1
  cases k1
  cases res with
  | outOfFuel => exact absurd rfl g2
  | absent =>
    right
    refine ⟨g1, fun c D hc hg hD => ?_⟩
    obtain ⟨pc, a1, e, a2, a3⟩ := h3 c hc hg
    obtain ⟨u, hu, h⟩ := k3 rfl pc a1
    exact ⟨u, hu, h e D a2 (a3 r D hD)⟩
  | ok lo up cs idxs =>
    left
    obtain ⟨q1, q2, q0, q3, q4, q5, q6, q7, q8, q9⟩ := k2 lo up cs idxs rfl
    refine ⟨lo, up, cs, idxs, g1, ?_, ?_, q0, q3, ?_, q9⟩
    · intro c D hc hg hD
      obtain ⟨pc, a1, e, a2, a3⟩ := h3 c hc hg
      exact q1 pc a1 e D a2 (a3 r D hD)
    · refine q2.imp_left ?_
      rintro ⟨c, hc, e, D, a1, a2, a3⟩
      obtain ⟨b1, T, hT, b2⟩ := (h2 c hc).2 e a1
      exact ⟨e, D, b1, ⟨T, b2, T, hT, .refl T⟩, a2, a3⟩
    · intro e he
      obtain ⟨k, hk⟩ := List.mem_iff_getElem?.1 he
      have hk' : k < idxs.length := by rw [← q5]; exact (List.getElem?_eq_some_iff.1 hk).1
      obtain ⟨c, a1, a2, a3⟩ := q8 k _ e (List.getElem?_eq_getElem hk') hk
      obtain ⟨b1, T, hT, b2⟩ := (h2 c (List.mem_of_getElem? a1)).2 _ a2
      refine ⟨FCurve.isCandidate_with _ _ b1, ⟨T, FCurve.hasGates_with _ _ b2, T, hT, .refl T⟩, ?_⟩
      intro D hD
      refine a3 rfl ?_ D hD
      show 1 ≤ p.relTolInvMult.getD 4
      omega

/-- What happens with one generator. -/
def GenReport (gatesCount : ℕ) (gen : GenId n × List (GateTuple (n + 1))) (x : Printed n) : Prop :=
  ∃ lo up idxs cs, x = .found gen.1 lo up idxs gatesCount cs ∧ RightReport r p (FCurve.GatesIn gen.2) lo up cs

theorem loop_spec (hr : r.Ok (n + 1)) (hdiv : 2 ≤ p.div) (hpos : 0 < p.mult) (htol : 0 < p.relTolInv.getD 1000)
    (hmult : 2 ≤ p.relTolInvMult.getD 4) (cnt : ℕ) (gens : List (GenId n × List (GateTuple (n + 1))))
    (hg : ∀ gen ∈ gens, ∀ S ∈ gen.2, S.length = p.mult ∧ GateTuple.InCube S) :
    ∃ fuel0, ∀ fuel, fuel0 ≤ fuel → ∃ out e, loop (m := Option) Q (Dilation.keyBounds r) S H hash fuel p cnt gens = some (out, e) ∧
      ((e = .finished ∧ List.Forall₂ (GenReport r p cnt) gens out) ∨
        (e = .attributeError ∧ ∃ (k : ℕ) (gen : GenId n × List (GateTuple (n + 1))), gens[k]? = some gen ∧
          List.Forall₂ (GenReport r p cnt) (gens.take k) out ∧ Absent r p (FCurve.GatesIn gen.2))) := by
  induction gens with
  | nil => exact ⟨0, fun fuel _ => ⟨[], .finished, rfl, .inl ⟨rfl, .nil⟩⟩⟩
  | cons gen rest ih =>
    obtain ⟨f1, hf1⟩ := ih fun g hg' => hg g (List.mem_cons_of_mem _ hg')
    obtain ⟨pcs, h1, f2, hf2⟩ := estimate_generator r Q H S hash p hr hdiv hpos htol hmult (hg gen (List.mem_cons_self ..))
    refine ⟨max f1 f2, fun fuel hf => ?_⟩
    have hloop : loop (m := Option) Q (Dilation.keyBounds r) S H hash fuel p cnt (gen :: rest) =
        (Dilation.estimateSequence (m := Option) Q (Dilation.keyBounds r) S H fuel pcs p.seq).bind fun res => match res with
          | .outOfFuel => some ([], .outOfFuel)
          | .absent => some ([], .attributeError)
          | .ok lo up cs idxs => (loop (m := Option) Q (Dilation.keyBounds r) S H hash fuel p cnt rest).bind fun x =>
            some ((if resultKeys.isEmpty then Printed.notFound gen.1 else Printed.found gen.1 lo up idxs cnt cs) :: x.1, x.2) := by
      show Option.bind (genPcurves hash p gen.2) _ = _
      rw [h1, Option.bind_some]
      show Option.bind (Dilation.estimateSequence (m := Option) Q (Dilation.keyBounds r) S H fuel pcs p.seq) _ = _
      congr 1
    rcases hf2 fuel (le_trans (le_max_right _ _) hf) with ⟨lo, up, cs, idxs, e1, e2⟩ | ⟨e1, e2⟩
    · obtain ⟨out, e, k1, k2⟩ := hf1 fuel (le_trans (le_max_left _ _) hf)
      rw [hloop, e1, Option.bind_some]
      simp only [k1, Option.bind_some]
      have hkeys : resultKeys.isEmpty = false := by decide +kernel
      refine ⟨_, e, rfl, ?_⟩
      rw [hkeys]
      have hrep : GenReport r p cnt gen (Printed.found gen.1 lo up idxs cnt cs) := ⟨lo, up, idxs, cs, rfl, e2⟩
      rcases k2 with ⟨k2, k3⟩ | ⟨k2, k, gen', k3, k4, k5⟩
      · exact .inl ⟨k2, .cons hrep k3⟩
      · exact .inr ⟨k2, k + 1, gen', by simpa using k3, by simpa using List.Forall₂.cons hrep k4, k5⟩
    · rw [hloop, e1, Option.bind_some]
      exact ⟨_, _, rfl, .inr ⟨rfl, 0, gen, rfl, .nil, e2⟩⟩

/-! ### C64 -/

theorem runSearch_eq {gl : List (GateTuple (n + 1))} (hgl : gateList hash p = some gl) (ho : p.outputGates = false) (fuel : ℕ) :
    runSearch (m := Option) Q (Dilation.keyBounds r) S H hash fuel p = loop (m := Option) Q (Dilation.keyBounds r) S H hash fuel p gl.length
      (if p.groupByGates then gl.map fun gates => (GenId.gates gates, [gates]) else [(GenId.allGates, gl)]) := by
  unfold runSearch
  show Option.bind (gateList hash p) _ = _
  rw [hgl, Option.bind_some, ho]
  rfl

theorem gateList_given {gl : List (GateTuple (n + 1))} (hg : p.gateList = some gl) (hlen : ∀ S ∈ gl, S.length = p.mult) : gateList hash p = some gl := by
  unfold gateList
  rw [hg]
  simp only [List.all_eq_true, decide_eq_true_eq]
  rw [if_pos hlen]

/-- The run for a known list of gates. -/
theorem run_all {gl : List (GateTuple (n + 1))} (hr : r.Ok (n + 1)) (hdiv : 2 ≤ p.div) (hpos : 0 < p.mult) (htol : 0 < p.relTolInv.getD 1000)
    (hmult : 2 ≤ p.relTolInvMult.getD 4) (hgl : gateList hash p = some gl)
    (hgood : ∀ S ∈ gl, S.length = p.mult ∧ GateTuple.InCube S) (hgroup : p.groupByGates = false) (ho : p.outputGates = false) :
    ∃ fuel0, ∀ fuel, fuel0 ≤ fuel →
      (∃ lo up idxs cs, runSearch (m := Option) Q (Dilation.keyBounds r) S H hash fuel p = some ([.found .allGates lo up idxs gl.length cs], .finished) ∧
        RightReport r p (FCurve.GatesIn gl) lo up cs) ∨
      (runSearch (m := Option) Q (Dilation.keyBounds r) S H hash fuel p = some ([], .attributeError) ∧ Absent r p (FCurve.GatesIn gl)) := by
  obtain ⟨f0, hf0⟩ := loop_spec r Q H S hash p hr hdiv hpos htol hmult gl.length [(GenId.allGates, gl)] (by simpa using hgood)
  refine ⟨f0, fun fuel hf => ?_⟩
  rw [runSearch_eq r Q H S hash p hgl ho, hgroup]
  obtain ⟨out, e, h1, h2⟩ := hf0 fuel hf
  rcases h2 with ⟨rfl, h2⟩ | ⟨rfl, k, gen, h2, h3, h4⟩
  · rw [List.forall₂_cons_left_iff] at h2
    obtain ⟨x, u, ⟨lo, up, idxs, cs, rfl, h3⟩, hu, rfl⟩ := h2
    rw [List.forall₂_nil_left_iff] at hu
    subst hu
    exact .inl ⟨lo, up, idxs, cs, h1, h3⟩
  · obtain ⟨hk, rfl⟩ := List.getElem?_eq_some_iff.1 h2
    have : k = 0 := by simpa using hk
    subst this
    rw [List.take_zero, List.forall₂_nil_left_iff] at h3
    subst h3
    exact .inr ⟨h1, h4⟩

/-- The run for a known list of gates, for each tuple separately. -/
theorem run_grouped {gl : List (GateTuple (n + 1))} (hr : r.Ok (n + 1)) (hdiv : 2 ≤ p.div) (hpos : 0 < p.mult) (htol : 0 < p.relTolInv.getD 1000)
    (hmult : 2 ≤ p.relTolInvMult.getD 4) (hgl : gateList hash p = some gl)
    (hgood : ∀ S ∈ gl, S.length = p.mult ∧ GateTuple.InCube S) (hgroup : p.groupByGates = true) (ho : p.outputGates = false) :
    ∃ fuel0, ∀ fuel, fuel0 ≤ fuel → ∃ out e, runSearch (m := Option) Q (Dilation.keyBounds r) S H hash fuel p = some (out, e) ∧ ∃ k ≤ gl.length,
      List.Forall₂ (fun gates x => ∃ lo up idxs cs, x = .found (.gates gates) lo up idxs gl.length cs ∧
        RightReport r p (FCurve.GatesIn [gates]) lo up cs) (gl.take k) out ∧
      ((e = .finished ∧ k = gl.length) ∨ (e = .attributeError ∧ ∃ gates, gl[k]? = some gates ∧ Absent r p (FCurve.GatesIn [gates]))) := by
  obtain ⟨f0, hf0⟩ := loop_spec r Q H S hash p hr hdiv hpos htol hmult gl.length (gl.map fun gates => (GenId.gates gates, [gates])) (by
    intro gen hgen T hT
    obtain ⟨G, hG, rfl⟩ := List.mem_map.1 hgen
    rw [List.mem_singleton.1 hT]
    exact hgood G hG)
  refine ⟨f0, fun fuel hf => ?_⟩
  rw [runSearch_eq r Q H S hash p hgl ho, hgroup]
  obtain ⟨out, e, h1, h2⟩ := hf0 fuel hf
  refine ⟨out, e, h1, ?_⟩
  rcases h2 with ⟨rfl, h2⟩ | ⟨rfl, k, gen, h2, h3, h4⟩
  · rw [List.forall₂_map_left_iff] at h2
    exact ⟨gl.length, le_rfl, by rw [List.take_length]; exact h2, .inl ⟨rfl, rfl⟩⟩
  · rw [← List.map_take, List.forall₂_map_left_iff] at h3
    rw [List.getElem?_map, Option.map_eq_some_iff] at h2
    obtain ⟨G, hG, rfl⟩ := h2
    exact ⟨k, (List.getElem?_eq_some_iff.1 hG).1.le, h3, .inr ⟨rfl, G, hG, h4⟩⟩

/-- C64, the gates are given as an argument.  The run takes finite time.  Either it prints one report, which is right for all curves that have
one of these gates (up to the order of patterns and symmetries); or nothing is printed, the run ends with AttributeError, and no such curve
meets the upper bound. -/
theorem C64_given_gates (hr : r.Ok (n + 1)) (hdiv : 2 ≤ p.div) (hpos : 0 < p.mult) (htol : 0 < p.relTolInv.getD 1000)
    (hmult : 2 ≤ p.relTolInvMult.getD 4) (gl : List (GateTuple (n + 1))) (hgl : p.gateList = some gl)
    (hgood : ∀ S ∈ gl, S.length = p.mult ∧ GateTuple.InCube S) (hgroup : p.groupByGates = false) (ho : p.outputGates = false) :
    ∃ fuel0, ∀ fuel, fuel0 ≤ fuel →
      (∃ lo up idxs cs, runSearch (m := Option) Q (Dilation.keyBounds r) S H hash fuel p = some ([.found .allGates lo up idxs gl.length cs], .finished) ∧
        RightReport r p (FCurve.GatesIn gl) lo up cs) ∨
      (runSearch (m := Option) Q (Dilation.keyBounds r) S H hash fuel p = some ([], .attributeError) ∧ Absent r p (FCurve.GatesIn gl)) :=
  run_all r Q H S hash p hr hdiv hpos htol hmult (gateList_given hash p hgl fun S hS => (hgood S hS).1) hgood hgroup ho

/-- C64, the gates are given and the search is made for each tuple separately: the printed reports are right for the tuples of gates in their
order; if the run ends with AttributeError then no curve with the next tuple of gates meets the upper bound (and the rest is not processed). -/
theorem C64_grouped (hr : r.Ok (n + 1)) (hdiv : 2 ≤ p.div) (hpos : 0 < p.mult) (htol : 0 < p.relTolInv.getD 1000)
    (hmult : 2 ≤ p.relTolInvMult.getD 4) (gl : List (GateTuple (n + 1))) (hgl : p.gateList = some gl)
    (hgood : ∀ S ∈ gl, S.length = p.mult ∧ GateTuple.InCube S) (hgroup : p.groupByGates = true) (ho : p.outputGates = false) :
    ∃ fuel0, ∀ fuel, fuel0 ≤ fuel → ∃ out e, runSearch (m := Option) Q (Dilation.keyBounds r) S H hash fuel p = some (out, e) ∧ ∃ k ≤ gl.length,
      List.Forall₂ (fun gates x => ∃ lo up idxs cs, x = .found (.gates gates) lo up idxs gl.length cs ∧
        RightReport r p (FCurve.GatesIn [gates]) lo up cs) (gl.take k) out ∧
      ((e = .finished ∧ k = gl.length) ∨ (e = .attributeError ∧ ∃ gates, gl[k]? = some gates ∧ Absent r p (FCurve.GatesIn [gates]))) :=
  run_grouped r Q H S hash p hr hdiv hpos htol hmult (gateList_given hash p hgl fun S hS => (hgood S hS).1) hgood hgroup ho

/-! Generated gates. -/

/-- The curves the generated gates are intended for. -/
def Params.Wanted (p : Params n) (c : FCurve (n + 1)) : Prop := if p.facetGated then c.FacetGated else c.BoundaryGates

/-- A property of points of the unit cube that does not depend on symmetries: gates up to symmetry. -/
theorem gates_sameUpToSymmetry {P : Point (n + 1) → Prop} (hP : ∀ (b : BaseMap (n + 1)) (q : Point (n + 1)), (∀ j, 0 ≤ q j ∧ q j ≤ 1) → P (b.applyX 1 q) → P q)
    {c : FCurve (n + 1)} (hc : c.Full) {G T : GateTuple (n + 1)} (hG : c.HasGates G) (hT : GateTuple.SameUpToSymmetry G T)
    (hb : ∀ l ∈ T, P l.entrance ∧ P l.exit) : ∀ p < c.mult, ∃ e x, c.getEntrance p = some e ∧ c.getExit p = some x ∧ P e ∧ P x := by
  obtain ⟨Q, hQ1, hQ2, hQ3⟩ := hc.exists_rat_gates
  obtain ⟨W, hW1, hW2⟩ := hT
  intro p hp
  have hp' : p < G.length := by rw [hG.1]; exact hp
  obtain ⟨e1, e2⟩ := hG.2 p _ (List.getElem?_eq_getElem hp')
  refine ⟨_, _, e1, e2, ?_⟩
  rw [List.forall₂_iff_get] at hW2
  obtain ⟨b, hbm⟩ := hW2.2 p hp' (by rw [← hW2.1]; exact hp')
  simp only [List.get_eq_getElem] at hbm
  have hm := hb _ (hW1.mem_iff.1 (List.getElem_mem (show p < W.length by rw [← hW2.1]; exact hp')))
  rw [← hbm] at hm
  have hu : ∀ j, (0 ≤ G[p].entrance j ∧ G[p].entrance j ≤ 1) ∧ (0 ≤ G[p].exit j ∧ G[p].exit j ≤ 1) := by
    intro j
    rw [(hQ1 p hp).1] at e1
    rw [(hQ1 p hp).2] at e2
    rw [← Option.some.inj e1, ← Option.some.inj e2]
    exact ⟨hQ2 false p hp j, hQ2 true p hp j⟩
  rw [Link.act_def] at hm
  by_cases ht : b.timeRev = true
  · simp only [ht, if_true] at hm
    exact ⟨hP b _ (fun j => (hu j).1) hm.2, hP b _ (fun j => (hu j).2) hm.1⟩
  · simp only [ht] at hm
    exact ⟨hP b _ (fun j => (hu j).1) hm.1, hP b _ (fun j => (hu j).2) hm.2⟩

theorem onBoundary_of_act (b : BaseMap (n + 1)) (q : Point (n + 1)) (hq : ∀ j, 0 ≤ q j ∧ q j ≤ 1) (h : Point.OnBoundary (b.applyX 1 q)) : q.OnBoundary := by
  refine ⟨hq, ?_⟩
  obtain ⟨j, hj⟩ := h.2
  unfold BaseMap.applyX at hj
  by_cases hs : (b.coords j).2 = true
  · simp only [hs, if_true] at hj
    exact ⟨_, hj.elim (fun h => .inr (by linarith)) fun h => .inl (by linarith)⟩
  · simp only [hs] at hj
    exact ⟨_, hj⟩

theorem insideFacet_of_act (b : BaseMap (n + 1)) (q : Point (n + 1)) (hq : ∀ j, 0 ≤ q j ∧ q j ≤ 1) (h : Point.InsideFacet (b.applyX 1 q)) : q.InsideFacet := by
  rw [Point.insideFacet_iff hq]
  have := (Point.insideFacet_iff h.1).1 h
  rwa [Point.faceDim_act] at this

/-- The generated gates: the list is made without exceptions, its tuples have the right length, and it contains the gates (up to symmetries)
of exactly the curves it is intended for. -/
theorem gateList_generated (hdiv : 2 ≤ p.div) (hpos : 0 < p.mult) (hn : p.facetGated = true → 1 ≤ n) (hgl : p.gateList = none) :
    ∃ gl, gateList hash p = some gl ∧ gl.Nodup ∧ (∀ T ∈ gl, T.length = p.mult ∧ GateTuple.InCube T) ∧
      ∀ c : FCurve (n + 1), c.IsCandidate p.div p.mult p.maxCdist → (c.GatesIn gl ↔ p.Wanted c) := by
  obtain ⟨gl, k1, k0, k2⟩ := GatesGen.C51_gen_gates (⟨p.div, p.mult, p.facetGated⟩ : GatesGen (n + 1)) hash.facet hash.point hdiv fun h => ⟨hn h, hpos⟩
  have hlist : gateList hash p = some gl := by
    unfold gateList
    rw [hgl]
    exact k1
  refine ⟨gl, hlist, k0, fun T hT => ⟨(k2 T hT).length, fun l hl j => ⟨((k2 T hT).boundary l hl).1.1 j, ((k2 T hT).boundary l hl).2.1 j⟩⟩, ?_⟩
  intro c hc
  obtain ⟨Q, hQ1, hQ2, hQ3⟩ := hc.full.exists_rat_gates
  have hG : c.HasGates ((List.range c.mult).map (FCurve.gateLink Q)) := by
    refine ⟨by simp, fun p l hl => ?_⟩
    rw [List.getElem?_map, Option.map_eq_some_iff] at hl
    obtain ⟨p', hp', rfl⟩ := hl
    obtain ⟨h1, rfl⟩ := List.getElem?_eq_some_iff.1 hp'
    rw [List.length_range] at h1
    rw [List.getElem_range]
    exact hQ1 p h1
  have hget : ∀ {P : Point (n + 1) → Prop}, (∀ p < c.mult, ∃ e x, c.getEntrance p = some e ∧ c.getExit p = some x ∧ P e ∧ P x) →
      ∀ l ∈ (List.range c.mult).map (FCurve.gateLink Q), P l.entrance ∧ P l.exit := by
    intro P hb l hl
    obtain ⟨p, hp, rfl⟩ := List.mem_map.1 hl
    have hp := List.mem_range.1 hp
    obtain ⟨e, x, h1, h2, h3, h4⟩ := hb p hp
    rw [(hQ1 p hp).1] at h1
    rw [(hQ1 p hp).2] at h2
    cases h1
    cases h2
    exact ⟨h3, h4⟩
  unfold Params.Wanted
  by_cases hf : p.facetGated = true
  · simp only [hf, if_true]
    constructor
    · rintro ⟨G, hG, T, hT, hs⟩
      exact gates_sameUpToSymmetry insideFacet_of_act hc.full hG hs ((k2 T hT).facet hf)
    · intro hb
      obtain ⟨out, e1, T, ⟨e2, e3⟩, _⟩ := GatesGen.C66_facet_complete (⟨p.div, p.mult, p.facetGated⟩ : GatesGen (n + 1)) hash.facet hash.point (hn hf) hf c
        (by rw [hc.mult_eq]; exact hpos) hc.full hc.fills hc.checked hc.div_eq hc.mult_eq _ hG (hget hb)
      rw [k1] at e1
      cases e1
      exact ⟨_, hG, T, e2, e3⟩
  · have hf' : p.facetGated = false := by simpa using hf
    simp only [hf', Bool.false_eq_true, if_false]
    constructor
    · rintro ⟨G, hG, T, hT, hs⟩
      exact gates_sameUpToSymmetry onBoundary_of_act hc.full hG hs (k2 T hT).boundary
    · intro hb
      obtain ⟨out, e1, T, ⟨e2, e3⟩, _⟩ := GatesGen.C52_complete (⟨p.div, p.mult, p.facetGated⟩ : GatesGen (n + 1)) hash.point (by omega) hf' c
        (by rw [hc.mult_eq]; exact hpos) hc.full hc.fills hc.checked hc.div_eq hc.mult_eq _ hG (hget hb)
      unfold GatesGen.genGates at k1
      simp only [hf', Bool.false_eq_true, if_false] at k1 e1
      rw [k1] at e1
      cases e1
      exact ⟨_, hG, T, e2, e3⟩

/-- C64, the gates are generated.  The run takes finite time.  Either it prints one report, which is right for all curves of the intended kind;
or nothing is printed, the run ends with AttributeError, and no such curve meets the upper bound. -/
theorem generated_gates (hr : r.Ok (n + 1)) (hdiv : 2 ≤ p.div) (hpos : 0 < p.mult) (htol : 0 < p.relTolInv.getD 1000)
    (hmult : 2 ≤ p.relTolInvMult.getD 4) (hn : p.facetGated = true → 1 ≤ n) (hgl : p.gateList = none) (hgroup : p.groupByGates = false)
    (ho : p.outputGates = false) :
    ∃ fuel0, ∀ fuel, fuel0 ≤ fuel →
      (∃ lo up idxs cnt cs, runSearch (m := Option) Q (Dilation.keyBounds r) S H hash fuel p = some ([.found .allGates lo up idxs cnt cs], .finished) ∧
        RightReport r p p.Wanted lo up cs) ∨
      (runSearch (m := Option) Q (Dilation.keyBounds r) S H hash fuel p = some ([], .attributeError) ∧ Absent r p p.Wanted) := by
  obtain ⟨gl, hlist, _, hgood, hiff⟩ := gateList_generated hash p hdiv hpos hn hgl
  obtain ⟨f0, hf0⟩ := run_all r Q H S hash p hr hdiv hpos htol hmult hlist hgood hgroup ho
  refine ⟨f0, fun fuel hf => ?_⟩
  rcases hf0 fuel hf with ⟨lo, up, idxs, cs, h1, h2⟩ | ⟨h1, h2⟩
  · refine .inl ⟨lo, up, idxs, _, cs, h1, ?_, ?_, h2.bounded, h2.close, ?_, h2.present⟩
    · exact fun c D hc hb hD => h2.lower c D hc ((hiff c hc).2 hb) hD
    · refine h2.upper.imp_left ?_
      rintro ⟨c, D, a1, a2, a3⟩
      exact ⟨c, D, a1, (hiff c a1).1 a2, a3⟩
    · intro e he
      obtain ⟨a1, a2, a3⟩ := h2.printed e he
      exact ⟨a1, (hiff e a1).1 a2, a3⟩
  · exact .inr ⟨h1, fun c D hc hb hD => h2 c D hc ((hiff c hc).2 hb) hD⟩

/-- C64, the main mode of the search: the gates are generated.  The run takes finite time.  Either it prints one report, which is right for all
curves with entrances and exits on the boundary of the cube; or nothing is printed, the run ends with AttributeError, and no such curve meets
the upper bound. -/
theorem C64_boundary_gates (hr : r.Ok (n + 1)) (hdiv : 2 ≤ p.div) (hpos : 0 < p.mult) (htol : 0 < p.relTolInv.getD 1000)
    (hmult : 2 ≤ p.relTolInvMult.getD 4) (hgl : p.gateList = none) (hfacet : p.facetGated = false) (hgroup : p.groupByGates = false)
    (ho : p.outputGates = false) :
    ∃ fuel0, ∀ fuel, fuel0 ≤ fuel →
      (∃ lo up idxs cnt cs, runSearch (m := Option) Q (Dilation.keyBounds r) S H hash fuel p = some ([.found .allGates lo up idxs cnt cs], .finished) ∧
        RightReport r p FCurve.BoundaryGates lo up cs) ∨
      (runSearch (m := Option) Q (Dilation.keyBounds r) S H hash fuel p = some ([], .attributeError) ∧ Absent r p FCurve.BoundaryGates) := by
  have e : p.Wanted = FCurve.BoundaryGates := by funext c; simp [Params.Wanted, hfacet]
  rw [← e]
  exact generated_gates r Q H S hash p hr hdiv hpos htol hmult (by simp [hfacet]) hgl hgroup ho

/-- C64, the search with `facet_gated=True` in dimension at least 2: the same for curves with entrances and exits strictly inside facets. -/
theorem C64_facet_gates (hr : r.Ok (n + 1)) (hn : 1 ≤ n) (hdiv : 2 ≤ p.div) (hpos : 0 < p.mult) (htol : 0 < p.relTolInv.getD 1000)
    (hmult : 2 ≤ p.relTolInvMult.getD 4) (hgl : p.gateList = none) (hfacet : p.facetGated = true) (hgroup : p.groupByGates = false)
    (ho : p.outputGates = false) :
    ∃ fuel0, ∀ fuel, fuel0 ≤ fuel →
      (∃ lo up idxs cnt cs, runSearch (m := Option) Q (Dilation.keyBounds r) S H hash fuel p = some ([.found .allGates lo up idxs cnt cs], .finished) ∧
        RightReport r p FCurve.FacetGated lo up cs) ∨
      (runSearch (m := Option) Q (Dilation.keyBounds r) S H hash fuel p = some ([], .attributeError) ∧ Absent r p FCurve.FacetGated) := by
  have e : p.Wanted = FCurve.FacetGated := by funext c; simp [Params.Wanted, hfacet]
  rw [← e]
  exact generated_gates r Q H S hash p hr hdiv hpos htol hmult (fun _ => hn) hgl hgroup ho

/-- C64, generated gates with `group_by_gates=True`: there is a list of different tuples of gates such that every curve of the intended kind has
one of them, the printed reports are right for these tuples in their order, and if the run ends with AttributeError then no curve with the next
tuple of gates meets the upper bound (and the rest is not processed). -/
theorem C64_generated_grouped (hr : r.Ok (n + 1)) (hdiv : 2 ≤ p.div) (hpos : 0 < p.mult) (htol : 0 < p.relTolInv.getD 1000)
    (hmult : 2 ≤ p.relTolInvMult.getD 4) (hn : p.facetGated = true → 1 ≤ n) (hgl : p.gateList = none) (hgroup : p.groupByGates = true)
    (ho : p.outputGates = false) :
    ∃ gl : List (GateTuple (n + 1)), gl.Nodup ∧ (∀ c : FCurve (n + 1), c.IsCandidate p.div p.mult p.maxCdist →
        ((∃ gates ∈ gl, c.GatesIn [gates]) ↔ if p.facetGated then c.FacetGated else c.BoundaryGates)) ∧
      ∃ fuel0, ∀ fuel, fuel0 ≤ fuel → ∃ out e, runSearch (m := Option) Q (Dilation.keyBounds r) S H hash fuel p = some (out, e) ∧ ∃ k ≤ gl.length,
      List.Forall₂ (fun gates x => ∃ lo up idxs cs, x = .found (.gates gates) lo up idxs gl.length cs ∧
        RightReport r p (FCurve.GatesIn [gates]) lo up cs) (gl.take k) out ∧
      ((e = .finished ∧ k = gl.length) ∨ (e = .attributeError ∧ ∃ gates, gl[k]? = some gates ∧ Absent r p (FCurve.GatesIn [gates]))) := by
  obtain ⟨gl, hlist, hnd, hgood, hiff⟩ := gateList_generated hash p hdiv hpos hn hgl
  refine ⟨gl, hnd, fun c hc => ?_, run_grouped r Q H S hash p hr hdiv hpos htol hmult hlist hgood hgroup ho⟩
  refine Iff.trans ?_ (hiff c hc)
  unfold FCurve.GatesIn
  simp only [List.mem_singleton]
  constructor
  · rintro ⟨gates, hg, G, hG, S, rfl, hs⟩
    exact ⟨G, hG, _, hg, hs⟩
  · rintro ⟨G, hG, S, hS, hs⟩
    exact ⟨S, hS, G, hG, S, rfl, hs⟩

/-- C64, `output_gates=True` with generated gates: the tuples of gates are printed, no tuple is printed twice, and a curve is of the intended kind
if and only if one of the printed tuples is the tuple of its gates (up to order and symmetries). -/
theorem C64_output_gates (hdiv : 2 ≤ p.div) (hpos : 0 < p.mult) (hn : p.facetGated = true → 1 ≤ n) (hgl : p.gateList = none)
    (ho : p.outputGates = true) (B : Dilation.Key (n + 1) → Option (PairBounds (n + 1))) (fuel : ℕ) :
    ∃ gl : List (GateTuple (n + 1)), runSearch (m := Option) Q B S H hash fuel p = some (gl.map .gates, .finished) ∧ gl.Nodup ∧
      ∀ c : FCurve (n + 1), c.IsCandidate p.div p.mult p.maxCdist → (c.GatesIn gl ↔ if p.facetGated then c.FacetGated else c.BoundaryGates) := by
  obtain ⟨gl, hlist, hnd, hgood, hiff⟩ := gateList_generated hash p hdiv hpos hn hgl
  refine ⟨gl, ?_, hnd, hiff⟩
  unfold runSearch
  show Option.bind (gateList hash p) _ = _
  rw [hlist, Option.bind_some, ho]
  rfl

/-- The βΩ curve is one of the curves of the search with `div = 2` and `mult = 2`. -/
theorem betaOmega_candidate : Zoo.betaOmega.IsCandidate 2 2 none ∧ Zoo.betaOmega.BoundaryGates := by
  obtain ⟨h1, h2, h3, h4⟩ := Zoo.C57_zoo2 Zoo.betaOmega (by simp [Zoo.curves2])
  have hm : Zoo.betaOmega.mult = 2 := by decide +kernel
  refine ⟨⟨h2, h3, h4, by decide +kernel, hm, fun m hm => by cases hm⟩, fun q hq => ?_⟩
  obtain ⟨k1, k2⟩ := GatesGen.betaOmega_hasGates
  have hq' : q < GatesGen.betaOmegaGates.length := by rw [k1]; exact hq
  obtain ⟨e1, e2⟩ := k2 q _ (List.getElem?_eq_getElem hq')
  obtain ⟨⟨k1, j1, k2, _⟩, ⟨k3, j2, k4, _⟩⟩ := GatesGen.betaOmega_insideFacet _ (List.getElem_mem hq')
  exact ⟨_, _, e1, e2, ⟨k1, j1, k2⟩, ⟨k3, j2, k4⟩⟩

/-- A run where the hypotheses hold and a curve is found: all curves with `div = 2` and `mult = 2`.  (The βΩ curve is among them, so the run
cannot end with AttributeError.) -/
example (hash2 : Hashes 1) : ∃ fuel0, ∀ fuel, fuel0 ≤ fuel →
    ∃ lo up idxs cnt cs e, runSearch (m := Option) (n := 1) (sortedHeapQ _) (Dilation.keyBounds Ratio.l2) Sat.choiceSolver (Dilation.sortedSeqHeap 2) hash2 fuel
      { div := 2, mult := 2 } = some ([.found .allGates lo up idxs cnt cs], .finished) ∧
      some e ∈ cs ∧ e.IsCandidate 2 2 none ∧ e.BoundaryGates ∧ ∀ D, Zoo.betaOmega.IsDilation Ratio.l2 D → lo ≤ D := by
  obtain ⟨f0, hf0⟩ := C64_boundary_gates (n := 1) Ratio.l2 (sortedHeapQ _) (Dilation.sortedSeqHeap 2) Sat.choiceSolver hash2 { div := 2, mult := 2 }
    (by decide) (by decide) (by decide) (by decide) (by decide) rfl rfl rfl rfl
  refine ⟨f0, fun fuel hf => ?_⟩
  obtain ⟨b1, b2⟩ := betaOmega_candidate
  rcases hf0 fuel hf with ⟨lo, up, idxs, cnt, cs, h1, h2⟩ | ⟨h1, h2⟩
  · obtain ⟨k1, k2⟩ := h2.present (fun u hu => by cases hu)
    obtain ⟨x, hx⟩ := List.exists_mem_of_ne_nil _ k1
    cases x with
    | none => exact absurd hx k2
    | some e =>
      obtain ⟨a1, a2, _⟩ := h2.printed e hx
      exact ⟨lo, up, idxs, cnt, cs, e, h1, hx, a1, a2, fun D hD => h2.lower _ D b1 b2 hD⟩
  · obtain ⟨D, hD, _⟩ := (FCurve.C58_dilation (by decide) Ratio.l2 (by decide) Zoo.betaOmega b1.full (by rw [b1.mult_eq]; decide) b1.checked).1
    obtain ⟨u, hu, _⟩ := h2 _ D b1 b2 hD
    cases hu

/-- The same with `facet_gated=True`: the gates of the βΩ curve are strictly inside facets. -/
example (hash2 : Hashes 1) : ∃ fuel0, ∀ fuel, fuel0 ≤ fuel →
    ∃ lo up idxs cnt cs e, runSearch (m := Option) (n := 1) (sortedHeapQ _) (Dilation.keyBounds Ratio.l2) Sat.choiceSolver (Dilation.sortedSeqHeap 2) hash2 fuel
      { div := 2, mult := 2, facetGated := true } = some ([.found .allGates lo up idxs cnt cs], .finished) ∧
      some e ∈ cs ∧ e.IsCandidate 2 2 none ∧ e.FacetGated ∧ ∀ D, Zoo.betaOmega.IsDilation Ratio.l2 D → lo ≤ D := by
  obtain ⟨f0, hf0⟩ := C64_facet_gates (n := 1) Ratio.l2 (sortedHeapQ _) (Dilation.sortedSeqHeap 2) Sat.choiceSolver hash2
    { div := 2, mult := 2, facetGated := true } (by decide) (by decide) (by decide) (by decide) (by decide) (by decide) rfl rfl rfl rfl
  refine ⟨f0, fun fuel hf => ?_⟩
  obtain ⟨b1, _⟩ := betaOmega_candidate
  have b2 : Zoo.betaOmega.FacetGated := by
    intro q hq
    obtain ⟨k1, k2⟩ := GatesGen.betaOmega_hasGates
    have hq' : q < GatesGen.betaOmegaGates.length := by rw [k1]; exact hq
    obtain ⟨e1, e2⟩ := k2 q _ (List.getElem?_eq_getElem hq')
    exact ⟨_, _, e1, e2, GatesGen.betaOmega_insideFacet _ (List.getElem_mem hq')⟩
  rcases hf0 fuel hf with ⟨lo, up, idxs, cnt, cs, h1, h2⟩ | ⟨h1, h2⟩
  · obtain ⟨k1, k2⟩ := h2.present (fun u hu => by cases hu)
    obtain ⟨x, hx⟩ := List.exists_mem_of_ne_nil _ k1
    cases x with
    | none => exact absurd hx k2
    | some e =>
      obtain ⟨a1, a2, _⟩ := h2.printed e hx
      exact ⟨lo, up, idxs, cnt, cs, e, h1, hx, a1, a2, fun D hD => h2.lower _ D b1 b2 hD⟩
  · obtain ⟨D, hD, _⟩ := (FCurve.C58_dilation (by decide) Ratio.l2 (by decide) Zoo.betaOmega b1.full (by rw [b1.mult_eq]; decide) b1.checked).1
    obtain ⟨u, hu, _⟩ := h2 _ D b1 b2 hD
    cases hu

/-! ### C53 -/

/-- C53 does not hold: whatever the arguments are, NOT FOUND is never printed. -/
theorem C53_never_not_found (B : Dilation.Key (n + 1) → Option (PairBounds (n + 1))) (fuel : ℕ) (out : List (Printed n)) (e : Ending)
    (h : runSearch (m := Option) Q B S H hash fuel p = some (out, e)) (genId : GenId n) : .notFound genId ∉ out := by
  have hkeys : resultKeys.isEmpty = false := by decide +kernel
  have key : ∀ (cnt : ℕ) (gens : List (GenId n × List (GateTuple (n + 1)))) (out : List (Printed n)) (e : Ending),
      loop (m := Option) Q B S H hash fuel p cnt gens = some (out, e) → .notFound genId ∉ out := by
    intro cnt gens
    induction gens with
    | nil =>
      intro out e h
      cases h
      simp
    | cons gen rest ih =>
      intro out e h
      have h' : (genPcurves hash p gen.2).bind (fun curves => (Dilation.estimateSequence (m := Option) Q B S H fuel curves p.seq).bind fun res =>
        match res with
          | .outOfFuel => some ([], .outOfFuel)
          | .absent => some ([], .attributeError)
          | .ok lo up cs idxs => (loop (m := Option) Q B S H hash fuel p cnt rest).bind fun x =>
            some ((if resultKeys.isEmpty then Printed.notFound gen.1 else Printed.found gen.1 lo up idxs cnt cs) :: x.1, x.2)) = some (out, e) := h
      obtain ⟨curves, _, h'⟩ := Option.bind_eq_some_iff.1 h'
      obtain ⟨res, _, h'⟩ := Option.bind_eq_some_iff.1 h'
      cases res with
      | outOfFuel => cases h'; simp
      | absent => cases h'; simp
      | ok lo up cs idxs =>
        obtain ⟨x, hx, h'⟩ := Option.bind_eq_some_iff.1 h'
        rw [hkeys] at h'
        cases h'
        have := ih x.1 x.2 hx
        simpa using this
  unfold runSearch at h
  obtain ⟨gl, _, h⟩ := Option.bind_eq_some_iff.1 (show (gateList hash p).bind _ = some (out, e) from h)
  by_cases ho : p.outputGates = true
  · simp only [ho, if_true] at h
    cases h
    simp
  · simp only [ho] at h
    exact key _ _ _ _ h

/-- C53, what holds instead: if no curve with the given gates meets the upper bound, with the margin that the estimate may leave (there is no
margin if the upper bound is not given), then nothing is printed and the run ends with AttributeError. -/
theorem C53_absence_partial (hr : r.Ok (n + 1)) (hdiv : 2 ≤ p.div) (hpos : 0 < p.mult) (htol : 0 < p.relTolInv.getD 1000)
    (hmult : 2 ≤ p.relTolInvMult.getD 4) (gl : List (GateTuple (n + 1))) (hgl : p.gateList = some gl)
    (hgood : ∀ S ∈ gl, S.length = p.mult ∧ GateTuple.InCube S) (hgroup : p.groupByGates = false) (ho : p.outputGates = false)
    (hub : ∀ u, p.upperBound = some u → 0 < u)
    (habs : ∀ (c : FCurve (n + 1)) (D : ℝ), c.IsCandidate p.div p.mult p.maxCdist → c.GatesIn gl → c.IsDilation r D →
      ∃ u, p.upperBound = some u ∧ (u : ℝ) * (1 + 1 / ((p.relTolInvMult.getD 4 : ℤ) : ℝ)) < D) :
    ∃ fuel0, ∀ fuel, fuel0 ≤ fuel → runSearch (m := Option) Q (Dilation.keyBounds r) S H hash fuel p = some ([], .attributeError) := by
  obtain ⟨f0, hf0⟩ := C64_given_gates r Q H S hash p hr hdiv hpos htol hmult gl hgl hgood hgroup ho
  refine ⟨f0, fun fuel hf => ?_⟩
  rcases hf0 fuel hf with ⟨lo, up, idxs, cs, h1, h2⟩ | ⟨h1, h2⟩
  · exfalso
    obtain ⟨k1, k2⟩ := h2.present hub
    obtain ⟨x, hx⟩ := List.exists_mem_of_ne_nil _ k1
    cases x with
    | none => exact k2 hx
    | some e =>
      obtain ⟨a1, a2, a3⟩ := h2.printed e hx
      obtain ⟨D, hD, _⟩ := (FCurve.C58_dilation (by omega) r hr e a1.full (by rw [a1.mult_eq]; exact hpos) a1.checked).1
      obtain ⟨u, hu, hlt⟩ := habs e D a1 a2 hD
      have hle : (up : ℝ) ≤ u := by exact_mod_cast h2.bounded u hu
      have hm : (0 : ℝ) ≤ 1 + 1 / ((p.relTolInvMult.getD 4 : ℤ) : ℝ) := by
        have : (0 : ℝ) < ((p.relTolInvMult.getD 4 : ℤ) : ℝ) := by exact_mod_cast (by omega : 0 < p.relTolInvMult.getD 4)
        positivity
      exact absurd (a3 D hD) (not_le.2 (lt_of_le_of_lt (mul_le_mul_of_nonneg_right hle hm) hlt))
  · exact h1

/-- C53, a concrete run without any curve (an empty file with gates): it ends with AttributeError, nothing is printed. -/
theorem C53_attribute_error (hash2 : Hashes 1) : ∃ fuel0, ∀ fuel, fuel0 ≤ fuel →
    runSearch (m := Option) (n := 1) (sortedHeapQ _) (Dilation.keyBounds Ratio.l2) Sat.choiceSolver (Dilation.sortedSeqHeap 2) hash2 fuel
      { div := 2, mult := 1, gateList := some [] } = some ([], .attributeError) := by
  obtain ⟨f0, hf0⟩ := C64_given_gates (n := 1) Ratio.l2 (sortedHeapQ _) (Dilation.sortedSeqHeap 2) Sat.choiceSolver hash2 { div := 2, mult := 1, gateList := some [] }
    (by decide) (by decide) (by decide) (by decide) (by decide) [] rfl (by simp) rfl rfl
  refine ⟨f0, fun fuel hf => ?_⟩
  rcases hf0 fuel hf with ⟨lo, up, idxs, cs, h1, h2⟩ | ⟨h1, h2⟩
  · rcases h2.upper with ⟨c, D, _, ⟨G, _, T, hT, _⟩, _⟩ | h
    · cases hT
    · cases h
  · exact h1

end Search
end Peano
