import Verif.Lemmas.Interior
import Verif.Props.PlaneGates
import Verif.Props.Texts

set_option autoImplicit false

/-
C75: the comment of `GatesGenerator.gen_gates` (gates.py:40-42): "Only non-internal curves are considered, i.e., curves with all gates on cube
boundary.  Indeed, if curve is internal, then only internal curves can "use" it, and non-internal curves use each other and have lower ratio."
-/
namespace Peano
variable {d : ℕ}

namespace FCurve

/-- The entrance or the exit of the pattern is not on the boundary of the cube. -/
def InternalPattern (c : FCurve d) (p : ℕ) : Prop := ∃ e x, c.getEntrance p = some e ∧ c.getExit p = some x ∧ ¬ (e.OnBoundary ∧ x.OnBoundary)

theorem internalPattern_iff {c : FCurve d} {f : ℕ → ℝ → Fin d → ℝ} (h : c.Full) (hf : c.Realizes f) {p : ℕ} (hp : p < c.mult) :
    c.InternalPattern p ↔ Internal f p := by
  obtain ⟨⟨x, hx1, hx2⟩, y, hy1, hy2⟩ := C14_entrance_exit c h.gates f hf p hp
  have key : ∀ (x : Point d) (t : ℝ), 0 ≤ t → t ≤ 1 → (fun j => (x j : ℝ)) = f p t → (Inner (f p t) ↔ ¬ x.OnBoundary) := by
    intro x t t0 t1 e
    have hmem := hf.mem_cube p hp t t0 t1
    have hb : ∀ j, 0 ≤ x j ∧ x j ≤ 1 := by
      intro j
      have := hmem j
      rw [← e] at this
      dsimp only at this
      exact_mod_cast this
    rw [← e]
    constructor
    · rintro hin ⟨_, j, h0 | h1⟩
      · have := (hin j).1
        dsimp only at this
        rw [h0] at this
        simp at this
      · have := (hin j).2
        dsimp only at this
        rw [h1] at this
        simp at this
    · intro hno j
      have l1 : 0 < x j := lt_of_le_of_ne (hb j).1 (fun e => hno ⟨hb, j, .inl e.symm⟩)
      have l2 : x j < 1 := lt_of_le_of_ne (hb j).2 (fun e => hno ⟨hb, j, .inr e⟩)
      dsimp only
      exact ⟨by exact_mod_cast l1, by exact_mod_cast l2⟩
  unfold Internal InternalPattern
  rw [key x 0 le_rfl zero_le_one hx2, key y 1 zero_le_one le_rfl hy2, ← not_and_or]
  constructor
  · rintro ⟨e, x', h1, h2, h3⟩
    rw [hx1] at h1
    rw [hy1] at h2
    cases h1
    cases h2
    exact h3
  · intro h3
    exact ⟨x, y, hx1, hy1, h3⟩

end FCurve

/-- C75. If a pattern is internal, then only internal patterns use it, and only in the first or in the last fraction. -/
theorem C75_internal_users (c : FCurve d) (h : c.Full) (hfill : c.FillsGrid) (hc : c.check = some true) (p i : ℕ) (s : Spec d)
    (hp : p < c.mult) (hi : i < c.genus) (hs : c.spec? p i = some s) (hin : c.InternalPattern s.pnum) :
    c.InternalPattern p ∧ (i = 0 ∨ i + 1 = c.genus) := by
  obtain ⟨f, hf⟩ := h.realizes_of_check hc
  have es : c.specD p i = s := by
    have := h.spec_eq hp hi
    rw [hs] at this
    exact (Option.some.inj this).symm
  rw [FCurve.internalPattern_iff h hf (h.spec_range p i s hs)] at hin
  rw [FCurve.internalPattern_iff h hf hp]
  exact hf.internal_user h hfill hp hi (by rw [es]; exact hin)

/-- C75. In dimension at least 2, for every curve there is a curve with the same number of patterns, made of patterns of the given curve, with
all entrances and exits on the boundary, whose dilation is not greater (in any metric). -/
theorem C75_boundary_enough (hd : 2 ≤ d) {N m : ℕ} {mc : Option ℤ} (c : FCurve d) (h : c.IsCandidate N m mc) (hm : 0 < m) :
    ∃ c' : FCurve d, c'.IsCandidate N m mc ∧ c'.BoundaryGates ∧ (∀ q ∈ c'.patterns, q ∈ c.patterns) ∧
      ∀ r D, c.IsDilation r D → ∃ D', c'.IsDilation r D' ∧ D' ≤ D := by
  obtain ⟨g, hg, h1, h2, h3⟩ := h.without_internal hd hm
  refine ⟨c.reindex g, h1, h2, ?_, ?_⟩
  · intro q hq
    obtain ⟨p, hp, hpq⟩ := List.getElem_of_mem hq
    have hp' : p < c.mult := by rw [← FCurve.reindex_mult c g]; exact hp
    have e := FCurve.reindex_pattern hg hp'
    rw [List.getElem?_eq_getElem hp, hpq] at e
    exact List.mem_of_getElem? e.symm
  · rintro r D ⟨f, hf, hD⟩
    have hsub : (c.reindex g).ratios r (fun p => f (g p)) ⊆ c.ratios r f := by
      rintro x ⟨p, hp, s, t, a1, a2, a3, rfl⟩
      rw [FCurve.reindex_mult] at hp
      exact ⟨g p, hg p hp, s, t, a1, a2, a3, rfl⟩
    have hne : ((c.reindex g).ratios r fun p => f (g p)).Nonempty :=
      ⟨_, 0, by rw [FCurve.reindex_mult, h.mult_eq]; exact hm, 0, 1, le_rfl, zero_lt_one, le_rfl, rfl⟩
    have hbd : BddAbove ((c.reindex g).ratios r fun p => f (g p)) := ⟨D, fun x hx => hD.1 (hsub hx)⟩
    refine ⟨sSup _, ⟨_, h3 f hf, isLUB_csSup hne hbd⟩, csSup_le hne fun x hx => hD.1 (hsub hx)⟩

namespace Search
variable {n : ℕ} {r : Ratio} {p : Params n}

theorem RightReport.anyGates {lo up : ℚ} {cs : List (Option (FCurve (n + 1)))} (hn : 1 ≤ n) (hpos : 0 < p.mult)
    (h : RightReport r p FCurve.BoundaryGates lo up cs) : RightReport r p (fun _ => True) lo up cs ∧ ∀ e, some e ∈ cs → e.BoundaryGates := by
  refine ⟨⟨?_, ?_, h.bounded, h.close, ?_, h.present⟩, fun e he => (h.printed e he).2.1⟩
  · intro c D hc _ hD
    obtain ⟨c', a1, a2, _, a3⟩ := C75_boundary_enough (by omega) c hc hpos
    obtain ⟨D', b1, b2⟩ := a3 r D hD
    exact (h.lower c' D' a1 a2 b1).trans b2
  · rcases h.upper with ⟨c, D, a1, _, a2, a3⟩ | h
    · exact .inl ⟨c, D, a1, trivial, a2, a3⟩
    · exact .inr h
  · intro e he
    obtain ⟨a1, _, a2⟩ := h.printed e he
    exact ⟨a1, trivial, a2⟩

theorem Absent.anyGates (hn : 1 ≤ n) (hpos : 0 < p.mult) (h : Absent r p FCurve.BoundaryGates) : Absent r p (fun _ => True) := by
  intro c D hc _ hD
  obtain ⟨c', a1, a2, _, a3⟩ := C75_boundary_enough (by omega) c hc hpos
  obtain ⟨D', b1, b2⟩ := a3 r D hD
  obtain ⟨u, hu, hlt⟩ := h c' D' a1 a2 b1
  exact ⟨u, hu, hlt.trans_le b2⟩

variable (r : Ratio) (Q : HeapQ (HNode (BoundedPair (n + 1))) HNode.lt) (H : HeapQ (Dilation.SeqItem (n + 1)) Dilation.SeqItem.lt)
  (S : SatSolver) (hash : Hashes n)

/-- C75, the main mode of the search, any number of patterns, dimension at least 2: the bounds are right for all curves, wherever their
entrances and exits are.  Either one report is printed, the printed curves are curves with gates on the boundary, and the lower bound holds for
all curves; or nothing is printed, the run ends with AttributeError, and no curve at all meets the upper bound. -/
theorem C75_search (p : Params n) (hr : r.Ok (n + 1)) (hn : 1 ≤ n) (hdiv : 2 ≤ p.div) (hpos : 0 < p.mult)
    (htol : 0 < p.relTolInv.getD 1000) (hmult : 2 ≤ p.relTolInvMult.getD 4) (hgl : p.gateList = none) (hfacet : p.facetGated = false)
    (hgroup : p.groupByGates = false) (ho : p.outputGates = false) :
    ∃ fuel0, ∀ fuel, fuel0 ≤ fuel →
      (∃ lo up idxs cnt cs, runSearch (m := Option) Q (Dilation.keyBounds r) S H hash fuel p = some ([.found .allGates lo up idxs cnt cs], .finished) ∧
        RightReport r p (fun _ => True) lo up cs ∧ ∀ e, some e ∈ cs → e.BoundaryGates) ∨
      (runSearch (m := Option) Q (Dilation.keyBounds r) S H hash fuel p = some ([], .attributeError) ∧ Absent r p (fun _ => True)) := by
  obtain ⟨f0, hf0⟩ := C64_boundary_gates r Q H S hash p hr hdiv hpos htol hmult hgl hfacet hgroup ho
  refine ⟨f0, fun fuel hf => ?_⟩
  rcases hf0 fuel hf with ⟨lo, up, idxs, cnt, cs, h1, h2⟩ | ⟨h1, h2⟩
  · exact Or.inl ⟨lo, up, idxs, cnt, cs, h1, h2.anyGates hn hpos⟩
  · exact Or.inr ⟨h1, h2.anyGates hn hpos⟩

/-- C75, the same for the command line: neither `--gates`, `--gates-file` nor `--facet-gated` is given. -/
theorem C75_command_line (nextSat : ℕ → ℕ) (a : Args) (m : Metric)
    (hmr : (m, r) ∈ [(Metric.l1, Ratio.l1), (.l2, .l2), (.l2Squared, .l2sq), (.linf, .linf)])
    (hn : 1 ≤ n) (hdim : a.dim = n + 1) (ham : a.metric = some m) (heven : m = .l2 → Even (n + 1)) (u : Option ℚ) (hu : a.upperBound = u.map fractionText)
    (hdiv : 2 ≤ a.div) (hpos : 0 < a.mult) (htol : 0 < a.relTolInv.getD 1000) (hmult : 2 ≤ a.relTolInvMult.getD 4)
    (hf : a.facetGated = false) (hg : a.gates = none) (hgf : a.gatesFile = none) (hgroup : a.groupByGates = false) (ho : a.outputGates = false) :
    ∃ p : Params n, p.div = a.div ∧ p.mult = a.mult ∧ p.maxCdist = a.maxCdist ∧ p.upperBound = u ∧ p.relTolInv = a.relTolInv ∧
      p.relTolInvMult = a.relTolInvMult ∧ ∃ fuel0, ∀ fuel, fuel0 ≤ fuel →
      (∃ lo up idxs cnt cs, main Q S H hash nextSat fuel a = some ([.found .allGates lo up idxs cnt cs], .finished) ∧
        RightReport r p (fun _ => True) lo up cs ∧ ∀ e, some e ∈ cs → e.BoundaryGates) ∨
      (main Q S H hash nextSat fuel a = some ([], .attributeError) ∧ Absent r p fun _ => True) := by
  obtain ⟨p, p1, p2, p3, p4, p5, p6, f0, hf0⟩ := C68_search Q H S hash nextSat a m r hmr hdim ham heven u hu hdiv hpos htol hmult
    (fun h => by rw [hf] at h; cases h) hg hgf hgroup ho
  refine ⟨p, p1, p2, p3, p4, p5, p6, f0, fun fuel hfu => ?_⟩
  have e : (fun c : FCurve (n + 1) => if a.facetGated = true then c.FacetGated else c.BoundaryGates) = FCurve.BoundaryGates := by
    funext c; simp [hf]
  have hpos' : 0 < p.mult := by rw [p2]; exact hpos
  have h := hf0 fuel hfu
  rw [e] at h
  rcases h with ⟨lo, up, idxs, cnt, cs, h1, h2⟩ | ⟨h1, h2⟩
  · exact Or.inl ⟨lo, up, idxs, cnt, cs, h1, h2.anyGates hn hpos'⟩
  · exact Or.inr ⟨h1, h2.anyGates hn hpos'⟩

end Search

/-! ### The hypotheses are met: a curve with an internal pattern -/

/-- A curve with two patterns: the first one starts at the centre of the square, its first fraction is its own copy and the other ones are
copies of the second pattern (which is the curve of Bauman). -/
def innerCurve : FCurve 2 :=
  Zoo.mk 2 [("iJIIjjii", "0ij,1Ji,1Ji,1Ij,1jI,1jI,1jI,1iJ,1iJ"), ("ijIjiiJJ", "1ij,1ji,1Ji~,1iJ~,1ij,1ij,1Ij~,1jI~,1jI~")]

theorem innerCurve_candidate : innerCurve.IsCandidate 3 2 none := isCandidate_of (by decide +kernel)

theorem innerCurve_gates : innerCurve.getEntrance 0 = some ![1 / 2, 1 / 2] ∧ innerCurve.getExit 0 = some ![1, 1] := by decide +kernel

theorem innerCurve_internal : innerCurve.InternalPattern 0 := by
  refine ⟨_, _, innerCurve_gates.1, innerCurve_gates.2, fun h => ?_⟩
  obtain ⟨_, j, hj⟩ := h.1
  fin_cases j <;> norm_num at hj

/-- It is a continuous curve that fills the square, but `gen_gates` does not give its gates: "Generate all gates such that there is at least one
path with them" (gates.py:38) holds for gates on the boundary only. -/
theorem C75_internal_exists : ∃ c : FCurve 2, c.IsCandidate 3 2 none ∧ ¬ c.BoundaryGates := by
  refine ⟨innerCurve, innerCurve_candidate, fun h => ?_⟩
  obtain ⟨e, x, h1, h2, h3, _⟩ := h 0 (by decide +kernel)
  obtain ⟨e', x', g1, g2, g3⟩ := innerCurve_internal
  rw [h1] at g1
  rw [h2] at g2
  cases g1
  cases g2
  exact g3 ⟨h3, by assumption⟩

/-- the first fraction of the internal pattern uses an internal pattern -/
example : innerCurve.Full ∧ innerCurve.FillsGrid ∧ innerCurve.check = some true ∧ 0 < innerCurve.mult ∧ 0 < innerCurve.genus ∧
    ∃ s, innerCurve.spec? 0 0 = some s ∧ innerCurve.InternalPattern s.pnum := by
  refine ⟨innerCurve_candidate.full, innerCurve_candidate.fills, innerCurve_candidate.checked, by decide +kernel, by decide +kernel, ⟨1, 0⟩, by decide +kernel,
    innerCurve_internal⟩

/-- A run where the hypotheses hold: the lower bound holds for this curve, although its gates are not generated. -/
example (hash2 : Search.Hashes 1) : ∃ fuel0, ∀ fuel, fuel0 ≤ fuel →
    ∃ lo up idxs cnt cs, Search.runSearch (m := Option) (n := 1) (sortedHeapQ _) (Dilation.keyBounds Ratio.l2) Sat.choiceSolver (Dilation.sortedSeqHeap 2) hash2 fuel
      { div := 3, mult := 2 } = some ([.found .allGates lo up idxs cnt cs], .finished) ∧ ∀ D, innerCurve.IsDilation Ratio.l2 D → lo ≤ D := by
  obtain ⟨f0, hf0⟩ := Search.C75_search (n := 1) Ratio.l2 (sortedHeapQ _) (Dilation.sortedSeqHeap 2) Sat.choiceSolver hash2 { div := 3, mult := 2 }
    (by decide) (by decide) (by decide) (by decide) (by decide) (by decide) rfl rfl rfl rfl
  refine ⟨f0, fun fuel hf => ?_⟩
  rcases hf0 fuel hf with ⟨lo, up, idxs, cnt, cs, h1, h2, _⟩ | ⟨_, h2⟩
  · exact ⟨lo, up, idxs, cnt, cs, h1, fun D hD => h2.lower _ D innerCurve_candidate trivial hD⟩
  · have b := innerCurve_candidate
    obtain ⟨D, hD, _⟩ := (FCurve.C58_dilation (by decide) Ratio.l2 (by decide) innerCurve b.full (by rw [b.mult_eq]; decide) b.checked).1
    obtain ⟨u, hu, _⟩ := h2 _ D innerCurve_candidate trivial hD
    cases hu

end Peano
