import Verif.Spec.Results

set_option autoImplicit false

/-
Vocabulary for the tables of least dilations of plane curves with two patterns ("bifractals"), as in `results.md`.
-/
namespace Peano

/-- `v` is the least dilation (for the ratio function `r`) of the plane curves with `m` patterns on the grid `N`×`N`, with the property `P`: it is the
dilation of such a curve, and no such curve has less dilation. -/
def LeastDilationOf (r : Ratio) (N m : ℕ) (P : FCurve 2 → Prop) (v : ℝ) : Prop :=
  IsLeast {D | ∃ c : FCurve 2, c.IsCandidate N m none ∧ P c ∧ c.IsDilation r D} v

/-- The decimal `shown / 10 ^ digits`. -/
structure Decimal where
  digits : ℕ
  shown : ℕ

/-- The table shows this decimal for the least dilation of the curves with two patterns, of which the gates up to symmetry are these. -/
def ShowsBi (r : Ratio) (N : ℕ) (gates : GateTuple 2) (x : Decimal) : Prop :=
  ∃ v, LeastDilationOf r N 2 (FCurve.GatesIn [gates]) v ∧ CutTo x.digits x.shown v

/-- A row of a table of bifractals (without the number of paths). -/
structure BiRow where
  gate1 : Link (Point 2)
  gate2 : Link (Point 2)
  l1 : Decimal
  l2 : Decimal
  linf : Decimal

def BiRow.gates (w : BiRow) : GateTuple 2 := [w.gate1, w.gate2]

/-- The entries of the row are right. -/
def BiRow.Right (N : ℕ) (w : BiRow) : Prop := ShowsBi .l1 N w.gates w.l1 ∧ ShowsBi .l2 N w.gates w.l2 ∧ ShowsBi .linf N w.gates w.linf

/-- The table "2D bifractal curves, div=2", results.md:31-41. -/
def bifractalTable2 : List BiRow := [
  ⟨⟨![0, 0], ![0, 1 / 2]⟩, ⟨![0, 0], ![1 / 2, 1]⟩, ⟨1, 133⟩, ⟨2, 666⟩, ⟨1, 50⟩⟩,
  ⟨⟨![0, 0], ![0, 1]⟩, ⟨![0, 0], ![0, 1]⟩, ⟨1, 90⟩, ⟨1, 60⟩, ⟨1, 60⟩⟩,
  ⟨⟨![0, 0], ![0, 1]⟩, ⟨![0, 0], ![1 / 2, 1]⟩, ⟨1, 120⟩, ⟨1, 60⟩, ⟨1, 50⟩⟩,
  ⟨⟨![0, 0], ![0, 1]⟩, ⟨![0, 0], ![2 / 3, 1]⟩, ⟨1, 120⟩, ⟨1, 60⟩, ⟨2, 566⟩⟩,
  ⟨⟨![0, 0], ![0, 1]⟩, ⟨![0, 0], ![1, 1]⟩, ⟨1, 120⟩, ⟨1, 60⟩, ⟨2, 514⟩⟩,
  ⟨⟨![0, 0], ![0, 1]⟩, ⟨![0, 1 / 2], ![0, 1 / 2]⟩, ⟨1, 90⟩, ⟨1, 60⟩, ⟨1, 60⟩⟩,
  ⟨⟨![0, 0], ![0, 1]⟩, ⟨![0, 1 / 2], ![1 / 2, 0]⟩, ⟨1, 90⟩, ⟨1, 60⟩, ⟨1, 60⟩⟩,
  ⟨⟨![0, 0], ![0, 1]⟩, ⟨![0, 1 / 2], ![1, 1 / 2]⟩, ⟨1, 90⟩, ⟨1, 60⟩, ⟨1, 60⟩⟩,
  ⟨⟨![0, 1 / 3], ![1 / 3, 1]⟩, ⟨![0, 1 / 3], ![1, 1 / 3]⟩, ⟨1, 90⟩, ⟨1, 50⟩, ⟨1, 50⟩⟩]

end Peano
