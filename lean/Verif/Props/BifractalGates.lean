import Verif.Props.Bifractals
import Verif.Props.Gates
import Verif.Props.Interior
import Verif.MinCerts.BiGates

set_option autoImplicit false

/-
Property C78, continued: the table of plane curves with two patterns on the grid 2×2 has all rows.  The vocabulary is in `Spec/Bifractals.lean`; the gates
generator `GatesGen.genAllGates`, `BoundaryGates` and `RightReport` are those of C51, C52, C64 and C75.
-/
namespace Peano

namespace BiGates

theorem link_of {l : Link (Point 2)} {a u v : ℕ} (h1 : At l.entrance 0 a) (h2 : At l.exit u v) :
    l = ⟨![0, (a : ℚ) / 42840], ![(u : ℚ) / 42840, (v : ℚ) / 42840]⟩ := by
  obtain ⟨e, x⟩ := l
  obtain ⟨h1, h1'⟩ := h1
  obtain ⟨h2, h2'⟩ := h2
  simp only at h1 h1' h2 h2'
  simp only [Link.mk.injEq]
  refine ⟨funext fun j => ?_, funext fun j => ?_⟩
  · fin_cases j
    · simp at h1 ⊢; exact h1
    · simp; rw [← h1']; field_simp
  · fin_cases j
    · simp; rw [← h2]; field_simp
    · simp; rw [← h2']; field_simp

/-- The tuples of gates of the table. -/
def nine : List (GateTuple 2) := bifractalTable2.map BiRow.gates

def linkAt (a u v : ℕ) : Link (Point 2) := ⟨![0, (a : ℚ) / 42840], ![(u : ℚ) / 42840, (v : ℚ) / 42840]⟩

/-- The standard sorted ones among the tuples. -/
def fine (t : List ℕ) : Bool :=
  match t with
  | [a, u, v, c, z, w] => !(decide ((linkAt a u v).stdOf = linkAt a u v) && decide ((linkAt c z w).stdOf = linkAt c z w) &&
      (decide (a < c) || decide (a = c) && (decide (u < z) || decide (u = z) && decide (v ≤ w)))) || decide ([linkAt a u v, linkAt c z w] ∈ nine)
  | _ => false

theorem all_fine : surv.all fine = true := by decide +kernel

theorem emittable_nine {S : GateTuple 2} (h : GateTuple.Emittable 2 2 false S) : S ∈ nine := by
  obtain ⟨l, m, a, u, v, c, z, w, rfl, hs, h1, h2, h3, h4⟩ := emittable_mem check1 check2 h
  have hl : l = linkAt a u v := link_of h1 h2
  have hm : m = linkAt c z w := link_of h3 h4
  have hf := List.all_eq_true.1 all_fine _ hs
  have k1 := Link.standard_iff.1 (h.standard l (by simp))
  have k2 := Link.standard_iff.1 (h.standard m (by simp))
  have k3 := (List.pairwise_cons.1 h.sorted).1 m (by simp)
  rw [hl] at k1
  rw [hm] at k2
  have hc : ∀ {x y : ℕ}, ((x : ℚ) / 42840 < (y : ℚ) / 42840 ↔ x < y) ∧ ((x : ℚ) / 42840 = (y : ℚ) / 42840 ↔ x = y) ∧ ((x : ℚ) / 42840 ≤ (y : ℚ) / 42840 ↔ x ≤ y) := by
    intro x y
    have h1 : (x : ℚ) < y ↔ x < y := Nat.cast_lt
    have h2 : (x : ℚ) = y ↔ x = y := Nat.cast_inj
    have h3 : (x : ℚ) ≤ y ↔ x ≤ y := Nat.cast_le
    rw [div_lt_div_iff_of_pos_right (by norm_num), div_left_inj' (by norm_num), div_le_div_iff_of_pos_right (by norm_num), h1, h2, h3]
    simp
  have k3' : a < c ∨ a = c ∧ (u < z ∨ u = z ∧ v ≤ w) := by
    rw [before_iff, hl, hm] at k3
    simp only [linkAt, Matrix.cons_val_zero, Matrix.cons_val_one, lt_irrefl, false_or, true_and, hc.1, hc.2.1, hc.2.2] at k3
    exact k3
  rw [hl, hm]
  unfold fine at hf
  rw [Bool.or_eq_true, decide_eq_true_eq] at hf
  refine hf.resolve_left ?_
  simp only [k1, k2, decide_true, Bool.true_and, Bool.not_eq_true', Bool.or_eq_false_iff, Bool.and_eq_false_iff, decide_eq_false_iff_not, not_and, not_or]
  omega

theorem nine_sorted : ∀ S ∈ nine, S.Pairwise Link.Before ∧ ∀ l ∈ S, l.Standard := by
  have h : (nine.all fun S => match S with
      | [l, m] => decide (l.stdOf = l) && decide (m.stdOf = m) && (decide (l.entrance 0 < m.entrance 0) || decide (l.entrance 0 = m.entrance 0) &&
        (decide (l.entrance 1 < m.entrance 1) || decide (l.entrance 1 = m.entrance 1) && (decide (l.exit 0 < m.exit 0) || decide (l.exit 0 = m.exit 0) && decide (l.exit 1 ≤ m.exit 1))))
      | _ => false) = true := by decide +kernel
  intro S hS
  have h := List.all_eq_true.1 h S hS
  match S, h with
  | [l, m], h =>
    simp only [Bool.and_eq_true, Bool.or_eq_true, decide_eq_true_eq] at h
    refine ⟨?_, ?_⟩
    · rw [List.pairwise_pair, before_iff]
      exact h.2
    · intro x hx
      simp only [List.mem_cons, List.not_mem_nil, or_false] at hx
      rcases hx with rfl | rfl
      · exact Link.standard_iff.2 h.1.1
      · exact Link.standard_iff.2 h.1.2

theorem nine_nodup : nine.Nodup := by decide +kernel

/-- Each row has a curve. -/
theorem nine_curve : ∀ S ∈ nine, ∃ c : FCurve 2, c.IsCandidate 2 2 none ∧ c.GatesIn [S] := by
  intro S hS
  simp only [nine, List.mem_map] at hS
  obtain ⟨w, hw, rfl⟩ := hS
  obtain ⟨⟨v, ⟨⟨c, h1, h2, -⟩, -⟩, -⟩, -, -⟩ := C78_table w hw
  exact ⟨c, h1, h2⟩

theorem onBoundary_of_act {b : BaseMap 2} {x : Point 2} (h : (Point.act b x).OnBoundary) : x.OnBoundary := by
  have hs : Function.Surjective fun i => (b.coords i).1 := Finite.surjective_of_injective b.inj
  obtain ⟨h1, i, h2⟩ := h
  refine ⟨fun j => ?_, (b.coords i).1, ?_⟩
  · obtain ⟨i, rfl⟩ := hs j
    have := h1 i
    simp only [Point.act, BaseMap.applyX] at this
    split_ifs at this
    · constructor <;> linarith [this.1, this.2]
    · exact this
  · simp only [Point.act, BaseMap.applyX] at h2
    split_ifs at h2
    · rcases h2 with h2 | h2
      · right; linarith
      · left; linarith
    · exact h2

theorem onBoundary {S : GateTuple 2} (h : ∀ l ∈ S, l.entrance.OnBoundary ∧ l.exit.OnBoundary) {G : GateTuple 2} (hG : GateTuple.SameUpToSymmetry G S) :
    ∀ l ∈ G, l.entrance.OnBoundary ∧ l.exit.OnBoundary := by
  obtain ⟨W, h1, h2⟩ := hG
  have h : ∀ l ∈ W, l.entrance.OnBoundary ∧ l.exit.OnBoundary := fun l hl => h l (h1.mem_iff.1 hl)
  clear h1
  induction h2 with
  | nil => simp
  | @cons l m G W hlm _ ih =>
    intro x hx
    rw [List.mem_cons] at hx
    rcases hx with rfl | hx
    · obtain ⟨b, hb⟩ := hlm
      have hm := h m List.mem_cons_self
      rw [← hb, Link.act_def] at hm
      by_cases ht : b.timeRev = true
      · simp only [ht, if_true] at hm
        exact ⟨onBoundary_of_act hm.2, onBoundary_of_act hm.1⟩
      · simp only [ht] at hm
        exact ⟨onBoundary_of_act hm.1, onBoundary_of_act hm.2⟩
    · exact ih (fun l hl => h l (List.mem_cons_of_mem _ hl)) x hx

theorem nine_boundary : ∀ S ∈ nine, ∀ l ∈ S, l.entrance.OnBoundary ∧ l.exit.OnBoundary := by
  unfold Point.OnBoundary
  decide +kernel

/-- The generator and the table, for a curve. -/
theorem found (hash : GatesGen.Hash 2) {c : FCurve 2} (hc : c.IsCandidate 2 2 none) {G : GateTuple 2} (hG : c.HasGates G)
    (hb : ∀ l ∈ G, l.entrance.OnBoundary ∧ l.exit.OnBoundary) :
    ∃ out, (⟨2, 2, false⟩ : GatesGen 2).genAllGates hash = some out ∧ ∃! S, S ∈ out ∧ GateTuple.SameUpToSymmetry G S :=
  GatesGen.C52_complete (⟨2, 2, false⟩ : GatesGen 2) hash (by decide) rfl c (by rw [hc.mult_eq]; decide) hc.full hc.fills hc.checked hc.div_eq hc.mult_eq G hG hb

theorem same_unique {G S T : GateTuple 2} (hS : S ∈ nine) (hT : T ∈ nine) (h1 : GateTuple.SameUpToSymmetry G S) (h2 : GateTuple.SameUpToSymmetry G T) : S = T := by
  obtain ⟨a1, a2⟩ := nine_sorted S hS
  obtain ⟨b1, b2⟩ := nine_sorted T hT
  exact (GatesGen.eq_sortedStd h1 a1 a2).trans (GatesGen.eq_sortedStd h2 b1 b2).symm

end BiGates

open BiGates

/-- C78. `gen_all_gates` for two patterns on the grid 2×2 emits exactly the gates of the rows of the table. -/
theorem C78_gen_gates (hash : GatesGen.Hash 2) : ∃ out, (⟨2, 2, false⟩ : GatesGen 2).genAllGates hash = some out ∧ out.Perm (bifractalTable2.map BiRow.gates) := by
  obtain ⟨out, h1, h2, h3⟩ := GatesGen.C51_all_gates (⟨2, 2, false⟩ : GatesGen 2) hash (by decide) (by decide) rfl
  refine ⟨out, h1, (List.perm_ext_iff_of_nodup h2 nine_nodup).2 fun S => ⟨fun h => emittable_nine (h3 S h), fun hS => ?_⟩⟩
  obtain ⟨c, k1, G, k2, S', k3, k4⟩ := nine_curve S hS
  rw [List.mem_singleton] at k3
  subst k3
  obtain ⟨out', e, T, ⟨hT, hsame⟩, _⟩ := found hash k1 k2 (onBoundary (nine_boundary S' hS) k4)
  rw [h1] at e
  cases e
  exact same_unique (emittable_nine (h3 T hT)) hS hsame k4 ▸ hT

/-- C78. Every plane curve with two patterns on the grid 2×2 and with gates on the boundary belongs to exactly one row of the table. -/
theorem C78_rows (c : FCurve 2) (hc : c.IsCandidate 2 2 none) (hb : c.BoundaryGates) : ∃! w, w ∈ bifractalTable2 ∧ c.GatesIn [w.gates] := by
  obtain ⟨e0, x0, p1, p2, p3, p4⟩ := hb 0 (by rw [hc.mult_eq]; decide)
  obtain ⟨e1, x1, q1, q2, q3, q4⟩ := hb 1 (by rw [hc.mult_eq]; decide)
  have hG : c.HasGates [⟨e0, x0⟩, ⟨e1, x1⟩] := by
    refine ⟨by rw [hc.mult_eq]; rfl, ?_⟩
    rintro (_ | _ | p) l hl
    · cases hl; exact ⟨p1, p2⟩
    · cases hl; exact ⟨q1, q2⟩
    · simp at hl
  obtain ⟨out, h1, S, ⟨hS, hsame⟩, -⟩ := found (fun _ => 0) hc hG (by
    intro l hl
    simp only [List.mem_cons, List.not_mem_nil, or_false] at hl
    rcases hl with rfl | rfl
    · exact ⟨p3, p4⟩
    · exact ⟨q3, q4⟩)
  obtain ⟨out', k1, k2⟩ := C78_gen_gates (fun _ => 0)
  rw [h1] at k1
  cases k1
  have hS' := k2.mem_iff.1 hS
  rw [List.mem_map] at hS'
  obtain ⟨w, hw, rfl⟩ := hS'
  refine ⟨w, ⟨hw, _, hG, _, List.mem_singleton_self _, hsame⟩, ?_⟩
  rintro w' ⟨hw', G', hG', S', hS', hsame'⟩
  rw [List.mem_singleton] at hS'
  subst hS'
  have hGG : G' = [⟨e0, x0⟩, ⟨e1, x1⟩] := by
    have := hG'.1
    rw [hc.mult_eq] at this
    match G', this, hG' with
    | [l, m], _, hG' =>
      obtain ⟨a1, a2⟩ := hG'.2 0 l rfl
      obtain ⟨b1, b2⟩ := hG'.2 1 m rfl
      rw [p1] at a1
      rw [p2] at a2
      rw [q1] at b1
      rw [q2] at b2
      cases l
      cases m
      simp only [Option.some.injEq] at a1 a2 b1 b2
      subst a1 a2 b1 b2
      rfl
  rw [hGG] at hsame'
  have e := same_unique (List.mem_map_of_mem hw') (List.mem_map_of_mem hw) hsame' hsame
  exact List.inj_on_of_nodup_map nine_nodup hw' hw e

/-- C78. The least dilations of all plane curves with two patterns on the grid 2×2, wherever their entrances and exits are. -/
theorem C78_least : LeastDilationOf .l1 2 2 (fun _ => True) 9 ∧ LeastDilationOf .l2 2 2 (fun _ => True) 5 ∧ LeastDilationOf .linf 2 2 (fun _ => True) 5 := by
  have key : ∀ {r : Ratio} {v : ℝ}, (∃ w ∈ bifractalTable2, LeastDilationOf r 2 2 (FCurve.GatesIn [w.gates]) v) →
      (∀ w ∈ bifractalTable2, ∃ u, LeastDilationOf r 2 2 (FCurve.GatesIn [w.gates]) u ∧ v ≤ u) → LeastDilationOf r 2 2 (fun _ => True) v := by
    rintro r v ⟨w, hw, ⟨c, h1, _, h2⟩, _⟩ hall
    refine ⟨⟨c, h1, trivial, h2⟩, ?_⟩
    rintro D ⟨e, he, -, hD⟩
    obtain ⟨e', k1, k2, -, k3⟩ := C75_boundary_enough (by decide) e he (by decide)
    obtain ⟨D', hD', hle⟩ := k3 r D hD
    obtain ⟨w', ⟨hw', hg⟩, -⟩ := C78_rows e' k1 k2
    obtain ⟨u, hu, hvu⟩ := hall w' hw'
    exact hvu.trans ((hu.2 ⟨e', k1, hg, hD'⟩).trans hle)
  refine ⟨key ⟨_, List.mem_of_getElem? (i := 8) rfl, C78_row9.1⟩ ?_, key ⟨_, List.mem_of_getElem? (i := 8) rfl, C78_row9.2.1⟩ ?_,
    key ⟨_, List.mem_of_getElem? (i := 8) rfl, C78_row9.2.2⟩ ?_⟩ <;>
    simp only [bifractalTable2, List.forall_mem_cons, List.not_mem_nil, false_imp_iff, implies_true, and_true]
  · exact ⟨⟨_, C78_row1.1, by norm_num⟩, ⟨_, C78_row2.1, by norm_num⟩, ⟨_, C78_row3.1, by norm_num⟩, ⟨_, C78_row4.1, by norm_num⟩, ⟨_, C78_row5.1, by norm_num⟩,
      ⟨_, C78_row6.1, by norm_num⟩, ⟨_, C78_row7.1, by norm_num⟩, ⟨_, C78_row8.1, by norm_num⟩, ⟨_, C78_row9.1, by norm_num⟩⟩
  · exact ⟨⟨_, C78_row1.2.1, by norm_num⟩, ⟨_, C78_row2.2.1, by norm_num⟩, ⟨_, C78_row3.2.1, by norm_num⟩, ⟨_, C78_row4.2.1, by norm_num⟩, ⟨_, C78_row5.2.1, by norm_num⟩,
      ⟨_, C78_row6.2.1, by norm_num⟩, ⟨_, C78_row7.2.1, by norm_num⟩, ⟨_, C78_row8.2.1, by norm_num⟩, ⟨_, C78_row9.2.1, by norm_num⟩⟩
  · exact ⟨⟨_, C78_row1.2.2, by norm_num⟩, ⟨_, C78_row2.2.2, by norm_num⟩, ⟨_, C78_row3.2.2, by norm_num⟩, ⟨_, C78_row4.2.2, by norm_num⟩, ⟨_, C78_row5.2.2, by norm_num⟩,
      ⟨_, C78_row6.2.2, by norm_num⟩, ⟨_, C78_row7.2.2, by norm_num⟩, ⟨_, C78_row8.2.2, by norm_num⟩, ⟨_, C78_row9.2.2, by norm_num⟩⟩

/-- The reports are about the least dilation. -/
theorem LeastDilationOf.report {r : Ratio} {p : Search.Params 1} {P : FCurve 2 → Prop} {lo up : ℚ} {cs : List (Option (FCurve 2))} {v : ℝ}
    (h : LeastDilationOf r p.div p.mult P v) (hmc : p.maxCdist = none) (hr : Search.RightReport r p P lo up cs) : lo ≤ v ∧ (p.upperBound = none → v ≤ up) := by
  obtain ⟨⟨c, h1, h2, h3⟩, h4⟩ := h
  refine ⟨hr.lower c v (by rw [hmc]; exact h1) h2 h3, fun hu => ?_⟩
  rcases hr.upper with ⟨c', D, k1, k2, k3, k4⟩ | k
  · rw [hmc] at k1
    exact (h4 ⟨c', k1, k2, k3⟩).trans k4
  · rw [hu] at k
    cases k

section Search
variable (Q : HeapQ (HNode (BoundedPair 2)) HNode.lt) (H : HeapQ (Dilation.SeqItem 2) Dilation.SeqItem.lt) (S : SatSolver) (hash : Search.Hashes 1)
  (p : Search.Params 1) (hdiv : p.div = 2) (hm : p.mult = 2) (hmc : p.maxCdist = none) (hu : p.upperBound = none) (htol : 0 < p.relTolInv.getD 1000)
  (hmult : 2 ≤ p.relTolInvMult.getD 4) (hgroup : p.groupByGates = false) (ho : p.outputGates = false)
include hdiv hm hmc hu htol hmult hgroup ho

/-- C78. The search with the gates of a row takes finite time and prints one report; its bounds are on both sides of the least dilation and close to it. -/
theorem C78_search_row (r : Ratio) (hr : r.Ok 2) (w : BiRow) (hw : w ∈ bifractalTable2) (hgl : p.gateList = some [w.gates]) {v : ℝ}
    (h : LeastDilationOf r 2 2 (FCurve.GatesIn [w.gates]) v) :
    ∃ fuel0, ∀ fuel, fuel0 ≤ fuel → ∃ lo up idxs cs,
      Search.runSearch (m := Option) Q (Dilation.keyBounds r) S H hash fuel p = some ([.found .allGates lo up idxs 1 cs], .finished) ∧
        (lo : ℝ) ≤ v ∧ v ≤ up ∧ up ≤ lo * (1 + 1 / ((p.relTolInv.getD 1000 : ℤ) : ℚ)) := by
  have hcube : GateTuple.InCube w.gates := by
    intro l hl j
    obtain ⟨h1, h2⟩ := nine_boundary _ (List.mem_map_of_mem hw) l hl
    exact ⟨h1.1 j, h2.1 j⟩
  obtain ⟨f0, hf0⟩ := Search.C64_given_gates r Q H S hash p hr (by omega) (by omega) htol hmult [w.gates] hgl (by simpa [hm, BiRow.gates] using hcube) hgroup ho
  have h' : LeastDilationOf r p.div p.mult (FCurve.GatesIn [w.gates]) v := by rw [hdiv, hm]; exact h
  refine ⟨f0, fun fuel hf => ?_⟩
  rcases hf0 fuel hf with ⟨lo, up, idxs, cs, h1, h2⟩ | ⟨_, h2⟩
  · obtain ⟨k1, k2⟩ := h'.report hmc h2
    exact ⟨lo, up, idxs, cs, h1, k1, k2 hu, h2.close⟩
  · obtain ⟨⟨c, k1, k2, k3⟩, _⟩ := h'
    obtain ⟨u, k4, _⟩ := h2 c v (by rw [hmc]; exact k1) k2 k3
    rw [hu] at k4
    cases k4

/-- C78. The main mode of the search, for two patterns on the grid 2×2: it takes finite time and prints one report; its bounds are on both sides of the least
dilation of all such curves and close to it. -/
theorem C78_search (r : Ratio) (hr : r.Ok 2) (hgl : p.gateList = none) (hfacet : p.facetGated = false) {v : ℝ} (h : LeastDilationOf r 2 2 (fun _ => True) v) :
    ∃ fuel0, ∀ fuel, fuel0 ≤ fuel → ∃ lo up idxs cnt cs,
      Search.runSearch (m := Option) Q (Dilation.keyBounds r) S H hash fuel p = some ([.found .allGates lo up idxs cnt cs], .finished) ∧
        (lo : ℝ) ≤ v ∧ v ≤ up ∧ up ≤ lo * (1 + 1 / ((p.relTolInv.getD 1000 : ℤ) : ℚ)) := by
  obtain ⟨f0, hf0⟩ := Search.C75_search r Q H S hash p hr (by decide) (by omega) (by omega) htol hmult hgl hfacet hgroup ho
  have h' : LeastDilationOf r p.div p.mult (fun _ => True) v := by rw [hdiv, hm]; exact h
  refine ⟨f0, fun fuel hf => ?_⟩
  rcases hf0 fuel hf with ⟨lo, up, idxs, cnt, cs, h1, h2, -⟩ | ⟨_, h2⟩
  · obtain ⟨k1, k2⟩ := h'.report hmc h2
    exact ⟨lo, up, idxs, cnt, cs, h1, k1, k2 hu, h2.close⟩
  · obtain ⟨⟨c, k1, k2, k3⟩, _⟩ := h'
    obtain ⟨u, k4, _⟩ := h2 c v (by rw [hmc]; exact k1) k2 k3
    rw [hu] at k4
    cases k4

end Search

/-! ### The hypotheses are met -/

/-- A curve of the table, with gates on the boundary. -/
example : Best.bi9L1L2Linf.IsCandidate 2 2 none ∧ Best.bi9L1L2Linf.BoundaryGates := by
  refine ⟨isCandidate_of (by decide +kernel), ?_⟩
  have hg : Best.bi9L1L2Linf.GatesIn [[⟨![0, 1 / 3], ![1 / 3, 1]⟩, ⟨![0, 1 / 3], ![1, 1 / 3]⟩]] := hasGates_two (by decide +kernel)
  obtain ⟨G, hG, S, hS, hsame⟩ := hg
  rw [List.mem_singleton] at hS
  subst hS
  have hb := onBoundary (nine_boundary _ (List.mem_of_getElem? (i := 8) rfl)) hsame
  intro p hp
  have hp' : p < G.length := by rw [hG.1]; exact hp
  have h := hG.2 p G[p] (List.getElem?_eq_getElem hp')
  exact ⟨_, _, h.1, h.2, hb _ (List.getElem_mem hp')⟩

end Peano
