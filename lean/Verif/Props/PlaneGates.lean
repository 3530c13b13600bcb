import Verif.Lemmas.PlaneGates
import Verif.Props.Search
import Verif.Props.Zoo

set_option autoImplicit false

/-
Property C74: gates of curves with one pattern.  YE-proof.py prints that plane monofractal curves fall into three categories by their
gates, and that there are no curves of one of them with even side of the grid.
-/
namespace Peano
variable {d : ℕ}

/-- C74. In dimension at least two the entrance and the exit of every curve with one pattern are on the boundary of the cube.  (So the search
among boundary gates loses nothing.) -/
theorem C74_boundary (hd : 2 ≤ d) {N : ℕ} {mc : Option ℤ} (c : FCurve d) (h : c.IsCandidate N 1 mc) : c.BoundaryGates := by
  obtain ⟨g, path, h1, h2, h3⟩ := h.gate
  have hN : 2 ≤ N := by rw [← h.div_eq]; exact h.full.two_le_div
  obtain ⟨G, q, p, hr⟩ := h2.isRun (by omega) h3
  have hne : (⟨0, by omega⟩ : Fin d) ≠ ⟨1, by omega⟩ := by simp
  obtain ⟨b1, b2⟩ := hr.boundary (hr.three_le hne hN)
  intro p hp
  have hp0 : p = 0 := by rw [h.mult_eq] at hp; omega
  subst hp0
  obtain ⟨e1, e2⟩ := h1.2 0 g rfl
  exact ⟨_, _, e1, e2, b1, b2⟩

/-- The categories of plane curves with one pattern: the gates up to symmetry. -/
def FCurve.IsSide (c : FCurve 2) : Prop := c.GatesIn [[⟨![0, 0], ![1, 0]⟩]]
def FCurve.IsDiag (c : FCurve 2) : Prop := c.GatesIn [[⟨![0, 0], ![1, 1]⟩]]
def FCurve.IsMedian (c : FCurve 2) : Prop := c.GatesIn [[⟨![0, 0], ![1, 1 / 2]⟩]]

theorem gatesIn_single {c : FCurve 2} {g l : Link (Point 2)} (h : c.HasGates [g]) : c.GatesIn [[l]] ↔ ∃ b : BaseMap 2, Link.act b g = l := by
  constructor
  · rintro ⟨G, h1, S, hS, W, hW, hF⟩
    rw [List.mem_singleton.1 hS] at hW
    have hm : c.mult = 1 := h.1.symm
    have hG : G = [g] := by
      have hl := h1.1
      rw [hm, List.length_eq_one_iff] at hl
      obtain ⟨g', rfl⟩ := hl
      obtain ⟨a1, a2⟩ := h1.2 0 g' rfl
      obtain ⟨b1, b2⟩ := h.2 0 g rfl
      rw [a1] at b1
      rw [a2] at b2
      cases g; cases g'
      simp only [Option.some.injEq] at b1 b2
      rw [b1, b2]
    rw [List.perm_singleton.1 hW, hG] at hF
    simpa using hF
  · rintro ⟨b, hb⟩
    exact ⟨[g], h, [l], List.mem_singleton.2 rfl, [l], List.Perm.refl _, by simpa using ⟨b, hb⟩⟩

/-- C74. Every plane curve with one pattern, on a grid of any size, with diagonal steps or without, falls into exactly one of the three categories. -/
theorem C74_three_categories {N : ℕ} {mc : Option ℤ} (c : FCurve 2) (h : c.IsCandidate N 1 mc) :
    (c.IsSide ∧ ¬ c.IsDiag ∧ ¬ c.IsMedian) ∨ (¬ c.IsSide ∧ c.IsDiag ∧ ¬ c.IsMedian) ∨ (¬ c.IsSide ∧ ¬ c.IsDiag ∧ c.IsMedian) := by
  obtain ⟨g, path, h1, h2, h3⟩ := h.gate
  have hN : 2 ≤ N := by rw [← h.div_eq]; exact h.full.two_le_div
  have n1 : (⟨![0, 0], ![1, 0]⟩ : Link (Point 2)).stdOf ≠ (⟨![0, 0], ![1, 1]⟩ : Link (Point 2)).stdOf := by decide +kernel
  have n2 : (⟨![0, 0], ![1, 0]⟩ : Link (Point 2)).stdOf ≠ (⟨![0, 0], ![1, 1 / 2]⟩ : Link (Point 2)).stdOf := by decide +kernel
  have n3 : (⟨![0, 0], ![1, 1]⟩ : Link (Point 2)).stdOf ≠ (⟨![0, 0], ![1, 1 / 2]⟩ : Link (Point 2)).stdOf := by decide +kernel
  have hstd : ∀ l, (∃ b : BaseMap 2, Link.act b g = l) → g.stdOf = l.stdOf := by
    rintro l ⟨b, rfl⟩
    rw [Link.stdOf_act]
  unfold FCurve.IsSide FCurve.IsDiag FCurve.IsMedian
  rw [gatesIn_single h1, gatesIn_single h1, gatesIn_single h1]
  obtain ⟨a, ha | ha | ⟨ha, _⟩⟩ := h2.kind3 hN h3
  · exact Or.inl ⟨⟨a, ha⟩, fun hc => n1 ((hstd _ ⟨a, ha⟩).symm.trans (hstd _ hc)), fun hc => n2 ((hstd _ ⟨a, ha⟩).symm.trans (hstd _ hc))⟩
  · exact Or.inr (Or.inr ⟨fun hc => n2 ((hstd _ hc).symm.trans (hstd _ ⟨a, ha⟩)), fun hc => n3 ((hstd _ hc).symm.trans (hstd _ ⟨a, ha⟩)), ⟨a, ha⟩⟩)
  · exact Or.inr (Or.inl ⟨fun hc => n1 ((hstd _ hc).symm.trans (hstd _ ⟨a, ha⟩)), ⟨a, ha⟩, fun hc => n3 ((hstd _ ⟨a, ha⟩).symm.trans (hstd _ hc))⟩)

/-- C74. Plane curves with one pattern and gates in opposite vertices are on grids with odd side only. -/
theorem C74_diag_odd {N : ℕ} {mc : Option ℤ} (c : FCurve 2) (h : c.IsCandidate N 1 mc) (hc : c.IsDiag) : Odd N := by
  obtain ⟨g, path, h1, h2, h3⟩ := h.gate
  have hN : 2 ≤ N := by rw [← h.div_eq]; exact h.full.two_le_div
  unfold FCurve.IsDiag at hc
  rw [gatesIn_single h1] at hc
  obtain ⟨b, hb⟩ := hc
  have hg := h2.self_img b
  have hu := unit_act b h3
  rw [hb] at hg hu
  obtain ⟨G, q, p, hr⟩ := hg.isRun (by omega) hu
  exact Nat.odd_iff.2 (hr.diag_odd hN)

/-- C74. For the plane and one pattern the generator of gates emits nothing but these three (the middle of the side is written as `(1/2, 1)`),
and the diagonal one for odd sides only. -/
theorem C74_gen_gates (g : GatesGen 2) (hash : GatesGen.Hash 2) (hdiv : 2 ≤ g.div) (hm : g.mult = 1) (hf : g.onlyFacet = false) :
    ∃ out, g.genAllGates hash = some out ∧ out.Nodup ∧
      ∀ S ∈ out, S = [⟨![0, 0], ![0, 1]⟩] ∨ S = [⟨![0, 0], ![1 / 2, 1]⟩] ∨ (S = [⟨![0, 0], ![1, 1]⟩] ∧ Odd g.div) := by
  obtain ⟨out, h1, h2, h3⟩ := GatesGen.C51_all_gates g hash (by norm_num) hdiv hf
  refine ⟨out, h1, h2, fun S hS => ?_⟩
  have hE := h3 S hS
  have hl := hE.length
  rw [hm, List.length_eq_one_iff] at hl
  obtain ⟨l, rfl⟩ := hl
  obtain ⟨path, hp⟩ := hE.paths l (List.mem_singleton.2 rfl)
  have hb := hE.boundary l (List.mem_singleton.2 rfl)
  have hst := Link.standard_iff.1 (hE.standard l (List.mem_singleton.2 rfl))
  obtain ⟨a, ha⟩ := hp.kind3 hdiv (fun j => ⟨hb.1.1 j, hb.2.1 j⟩)
  have e0 : l = (Link.act a l).stdOf := by rw [Link.stdOf_act, hst]
  rcases ha with ha | ha | ⟨ha, hodd⟩
  · left
    rw [e0, ha]
    decide +kernel
  · right; left
    rw [e0, ha]
    decide +kernel
  · right; right
    refine ⟨?_, Nat.odd_iff.2 hodd⟩
    rw [e0, ha]
    decide +kernel

namespace Search

theorem RightReport.weaken {n : ℕ} {r : Ratio} {p : Params n} {P P' : FCurve (n + 1) → Prop} {lo up : ℚ} {cs : List (Option (FCurve (n + 1)))}
    (h : RightReport r p P lo up cs) (hP : ∀ c : FCurve (n + 1), c.IsCandidate p.div p.mult p.maxCdist → (P c ↔ P' c)) : RightReport r p P' lo up cs where
  lower := fun c D hc hg hD => h.lower c D hc ((hP c hc).2 hg) hD
  upper := h.upper.imp_left fun ⟨c, D, hc, hg, hD⟩ => ⟨c, D, hc, (hP c hc).1 hg, hD⟩
  bounded := h.bounded
  close := h.close
  printed := fun e he => ⟨(h.printed e he).1, (hP e (h.printed e he).1).1 (h.printed e he).2.1, (h.printed e he).2.2⟩
  present := h.present

/-- C74. The main mode of the search for curves with one pattern in dimension at least two: the report is right for all curves on the grid, whatever
their gates are. -/
theorem C74_search {n : ℕ} (r : Ratio) (Q : HeapQ (HNode (BoundedPair (n + 1))) HNode.lt) (H : HeapQ (Dilation.SeqItem (n + 1)) Dilation.SeqItem.lt)
    (S : SatSolver) (hash : Hashes n) (p : Params n) (hr : r.Ok (n + 1)) (hn : 1 ≤ n) (hdiv : 2 ≤ p.div) (hm : p.mult = 1)
    (htol : 0 < p.relTolInv.getD 1000) (hmult : 2 ≤ p.relTolInvMult.getD 4) (hgl : p.gateList = none) (hfacet : p.facetGated = false)
    (hgroup : p.groupByGates = false) (ho : p.outputGates = false) :
    ∃ fuel0, ∀ fuel, fuel0 ≤ fuel →
      (∃ lo up idxs cnt cs, runSearch (m := Option) Q (Dilation.keyBounds r) S H hash fuel p = some ([.found .allGates lo up idxs cnt cs], .finished) ∧
        RightReport r p (fun _ => True) lo up cs) ∨
      (runSearch (m := Option) Q (Dilation.keyBounds r) S H hash fuel p = some ([], .attributeError) ∧ Absent r p (fun _ => True)) := by
  obtain ⟨f0, hf0⟩ := C64_boundary_gates r Q H S hash p hr hdiv (by omega) htol hmult hgl hfacet hgroup ho
  refine ⟨f0, fun fuel hf => ?_⟩
  have hP : ∀ c : FCurve (n + 1), c.IsCandidate p.div p.mult p.maxCdist → (c.BoundaryGates ↔ True) := fun c hc =>
    iff_of_true (C74_boundary (by omega) c (hm ▸ hc)) trivial
  rcases hf0 fuel hf with ⟨lo, up, idxs, cnt, cs, h1, h2⟩ | ⟨h1, h2⟩
  · exact Or.inl ⟨lo, up, idxs, cnt, cs, h1, h2.weaken hP⟩
  · exact Or.inr ⟨h1, fun c D hc _ hD => h2 c D hc ((hP c hc).2 trivial) hD⟩

end Search

/-! ### The hypotheses are met: there are curves of all three categories -/

theorem isCandidate_of {d N m : ℕ} {c : FCurve d} (h : (decide (c.div = N) && decide (c.mult = m) && c.fullB && c.fillsB && (c.check == some true)) = true) :
    c.IsCandidate N m none := by
  simp only [Bool.and_eq_true, decide_eq_true_eq, beq_iff_eq] at h
  obtain ⟨⟨⟨⟨h0, h1⟩, h2⟩, h3⟩, h4⟩ := h
  have hf := FCurve.full_of_fullB h2
  exact ⟨hf, FCurve.fills_of_fillsB hf h3, h4, h0, h1, by simp⟩

theorem hasGates_of {c : FCurve 2} {l : Link (Point 2)} (h : (decide (c.mult = 1) && decide (c.getEntrance 0 = some l.entrance) && decide (c.getExit 0 = some l.exit)) = true) :
    c.GatesIn [[l]] := by
  simp only [Bool.and_eq_true, decide_eq_true_eq] at h
  have hg : c.HasGates [l] := by
    refine ⟨h.1.1.symm, fun p m hm => ?_⟩
    match p with
    | 0 => cases hm; exact ⟨h.1.2, h.2⟩
    | _ + 1 => cases hm
  exact (gatesIn_single hg).2 ⟨1, Link.act_one l⟩

/-- A curve on the grid 4×4 with the exit in the middle of a side. -/
def medianCurve : FCurve 2 := Zoo.mk 2 [("iiijIIIjjiJijiJ", "ij,Ij~,ij,IJ~,Ij,ij~,Ij,iJ~,ji,JI~,Ji,jI~,ji,JI~,Ji,jI~")]

example : Zoo.hilbert.IsCandidate 2 1 none ∧ Zoo.hilbert.IsSide := ⟨isCandidate_of (by decide +kernel), hasGates_of (by decide +kernel)⟩
example : Zoo.peano.IsCandidate 3 1 none ∧ Zoo.peano.IsDiag := ⟨isCandidate_of (by decide +kernel), hasGates_of (by decide +kernel)⟩
example : medianCurve.IsCandidate 4 1 none ∧ medianCurve.IsMedian := ⟨isCandidate_of (by decide +kernel), hasGates_of (by decide +kernel)⟩
example : Zoo.tokarev.IsCandidate 2 1 none := isCandidate_of (by decide +kernel)

end Peano
