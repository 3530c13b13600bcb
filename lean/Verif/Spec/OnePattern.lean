import Verif.Spec.Bifractals

set_option autoImplicit false

/-
Vocabulary for curves of which one pattern is a curve by itself.
-/
namespace Peano
variable {d : ℕ}

/-- The point is a vertex of the unit cube. -/
def Point.IsVertex (x : Point d) : Prop := ∀ j, x j = 0 ∨ x j = 1

/-- The entrance and the exit of the pattern `p` are vertices of the cube, and no entrance or exit of another pattern is a vertex. -/
structure FCurve.LoneVertex (c : FCurve d) (p : ℕ) : Prop where
  lt : p < c.mult
  own : ∀ x, c.getEntrance p = some x ∨ c.getExit p = some x → x.IsVertex
  other : ∀ q < c.mult, q ≠ p → ∀ x, c.getEntrance q = some x ∨ c.getExit q = some x → ¬ x.IsVertex

/-- The curve with the only pattern `p` of the given curve (which should use only itself). -/
def FCurve.only (c : FCurve d) (p : ℕ) : FCurve d :=
  { c with
    patterns := (c.patterns[p]?.map fun q => { q with specs := q.specs.map (Option.map fun s => ⟨s.baseMap, 0⟩) }).toList
    pnum := 0
    kind := .curve }

/-- Five of the rows of the table "2D bifractal curves, div=3", results.md:52-54, 58-59. -/
def bifractalTable3 : List BiRow := [
  ⟨⟨![0, 0], ![0, 1]⟩, ⟨![0, 1 / 3], ![0, 2 / 3]⟩, ⟨1, 98⟩, ⟨2, 566⟩, ⟨1, 45⟩⟩,
  ⟨⟨![0, 0], ![0, 1]⟩, ⟨![0, 1 / 3], ![1 / 3, 1]⟩, ⟨1, 98⟩, ⟨2, 566⟩, ⟨1, 45⟩⟩,
  ⟨⟨![0, 0], ![0, 1]⟩, ⟨![0, 1 / 3], ![1, 1 / 3]⟩, ⟨1, 98⟩, ⟨2, 566⟩, ⟨1, 45⟩⟩,
  ⟨⟨![0, 1 / 4], ![1 / 4, 1]⟩, ⟨![0, 1 / 4], ![1, 1 / 4]⟩, ⟨1, 106⟩, ⟨2, 566⟩, ⟨1, 45⟩⟩,
  ⟨⟨![0, 1 / 4], ![1 / 4, 1]⟩, ⟨![0, 1 / 4], ![1, 3 / 4]⟩, ⟨1, 98⟩, ⟨1, 50⟩, ⟨1, 45⟩⟩]

end Peano
