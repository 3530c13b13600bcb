import Verif.Lemmas.GatesFinal
import Verif.Props.Zoo

set_option autoImplicit false

/-
Properties C51, C52: the generation of gates.
-/
namespace Peano
namespace GatesGen
variable {d : ℕ}

/-- C51 for `only_facet=False` (`C51_gen_gates` in `Props/FacetGates.lean` is for both modes).  For every configuration with `dim ≥ 1`, `div ≥ 2` the
generator finishes without an exception; it emits no tuple twice, and every emitted tuple is a sorted tuple of `mult` standard gates on the
boundary of the cube, such that for each of them there is a continuous path through all cubes built from images of these gates. -/
theorem C51_all_gates (g : GatesGen d) (hash : Hash d) (hd : 1 ≤ d) (hdiv : 2 ≤ g.div) (hf : g.onlyFacet = false) :
    ∃ out, g.genAllGates hash = some out ∧ out.Nodup ∧ ∀ S ∈ out, GateTuple.Emittable g.div g.mult false S := by
  obtain ⟨out, seen, h1, h2, _⟩ := genAllGates_spec hdiv hd hash
  exact ⟨out, h1, h2.nodup, fun S hS => hf ▸ h2.emittable hS⟩

/-- C52. The gates of every valid curve of the configuration, if they are on the boundary of the cube, are emitted: exactly one of the
emitted tuples is the tuple of these gates up to their order and symmetries. -/
theorem C52_complete (g : GatesGen d) (hash : Hash d) (hd : 1 ≤ d) (hf : g.onlyFacet = false) (c : FCurve d) (hpos : 0 < c.mult) (h : c.Full)
    (hfill : c.FillsGrid) (hc : c.check = some true) (hdiv : c.div = g.div) (hm : c.mult = g.mult) (gates : GateTuple d)
    (hgates : c.HasGates gates) (hb : ∀ l ∈ gates, l.entrance.OnBoundary ∧ l.exit.OnBoundary) :
    ∃ out, g.genAllGates hash = some out ∧ ∃! S, S ∈ out ∧ GateTuple.SameUpToSymmetry gates S := by
  obtain ⟨out, seen, h1, h2, h3⟩ := h.gates_found hd hash hc hfill hdiv hm (by omega) hgates (by
    intro l hl
    rw [rejects_false_iff, rejects_false_iff, hf]
    exact ⟨⟨(hb l hl).1.2, by simp⟩, ⟨(hb l hl).2.2, by simp⟩⟩)
  refine ⟨out, h1, sortedStd gates, ⟨h3, sameUpToSymmetry_sortedStd gates⟩, ?_⟩
  rintro S ⟨hS, hsame⟩
  have he := h2.emittable hS
  exact eq_sortedStd hsame he.sorted he.standard

/-- The emitted form of the gates: sorted standard forms computed by the methods of the library (`Link.std`, `sorted`). -/
theorem C52_emitted_form (g : GatesGen d) (hash : Hash d) (hd : 1 ≤ d) (hf : g.onlyFacet = false) (c : FCurve d) (hpos : 0 < c.mult) (h : c.Full)
    (hfill : c.FillsGrid) (hc : c.check = some true) (hdiv : c.div = g.div) (hm : c.mult = g.mult) (gates : GateTuple d)
    (hgates : c.HasGates gates) (hb : ∀ l ∈ gates, l.entrance.OnBoundary ∧ l.exit.OnBoundary) :
    ∃ out std, g.genAllGates hash = some out ∧ stdGates gates = some std ∧ std ∈ out := by
  obtain ⟨out, seen, h1, h2, h3⟩ := h.gates_found hd hash hc hfill hdiv hm (by omega) hgates (by
    intro l hl
    rw [rejects_false_iff, rejects_false_iff, hf]
    exact ⟨⟨(hb l hl).1.2, by simp⟩, ⟨(hb l hl).2.2, by simp⟩⟩)
  exact ⟨out, _, h1, stdGates_eq gates, h3⟩

end GatesGen

/-! ### The hypotheses are met -/

namespace GatesGen

/-- Gates of the curve beta-omega: two patterns, gates strictly inside edges of the square. -/
def betaOmegaGates : GateTuple 2 := [⟨![0, 1 / 3], ![1, 1 / 3]⟩, ⟨![0, 1 / 3], ![2 / 3, 0]⟩]

theorem betaOmega_hasGates : Zoo.betaOmega.HasGates betaOmegaGates := by
  refine ⟨by decide +kernel, ?_⟩
  have h : ∀ p : Fin 2, ∀ l, betaOmegaGates[(p : ℕ)]? = some l → Zoo.betaOmega.getEntrance p = some l.entrance ∧ Zoo.betaOmega.getExit p = some l.exit := by
    intro p l hl
    have : ∀ p : Fin 2, (betaOmegaGates[(p : ℕ)]?).all fun l =>
      decide (Zoo.betaOmega.getEntrance p = some l.entrance ∧ Zoo.betaOmega.getExit p = some l.exit) := by decide +kernel
    have := this p
    rw [hl] at this
    simpa using this
  intro p l hl
  have hp : p < 2 := (List.getElem?_eq_some_iff.1 hl).1
  exact h ⟨p, hp⟩ l hl

theorem betaOmega_insideFacet : ∀ l ∈ betaOmegaGates, l.entrance.InsideFacet ∧ l.exit.InsideFacet := by
  have hu : ∀ l ∈ betaOmegaGates, (∀ j, 0 ≤ l.entrance j ∧ l.entrance j ≤ 1) ∧ (∀ j, 0 ≤ l.exit j ∧ l.exit j ≤ 1) := by decide +kernel
  have hf : ∀ l ∈ betaOmegaGates, l.entrance.faceDim + 1 = 2 ∧ l.exit.faceDim + 1 = 2 := by decide +kernel
  exact fun l hl => ⟨(Point.insideFacet_iff (hu l hl).1).2 (hf l hl).1, (Point.insideFacet_iff (hu l hl).2).2 (hf l hl).2⟩

/-- The hypotheses of C52 (and so of C51, with a nonempty list of emitted tuples) hold for the bifractal curve beta-omega. -/
example (hash : Hash 2) : ∃ out, (⟨2, 2, false⟩ : GatesGen 2).genAllGates hash = some out ∧
    ∃! S, S ∈ out ∧ GateTuple.SameUpToSymmetry betaOmegaGates S := by
  obtain ⟨h1, h2, h3, h4⟩ := Zoo.C57_zoo2 Zoo.betaOmega (by simp [Zoo.curves2])
  refine C52_complete ⟨2, 2, false⟩ hash (by norm_num) rfl Zoo.betaOmega h1 h2 h3 h4 (by decide +kernel) (by decide +kernel) _ betaOmega_hasGates ?_
  intro l hl
  obtain ⟨⟨k1, j1, k2, _⟩, ⟨k3, j2, k4, _⟩⟩ := betaOmega_insideFacet l hl
  exact ⟨⟨k1, j1, k2⟩, ⟨k3, j2, k4⟩⟩

end GatesGen
end Peano
