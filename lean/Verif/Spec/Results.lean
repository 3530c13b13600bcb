import Verif.Spec.Search

set_option autoImplicit false

/-
Vocabulary for tables of least dilations, as in `results.md`.
-/
namespace Peano

/-- `v` is the least dilation (for the ratio function `r`) of the plane curves with one pattern on the grid `N`×`N`, with the property `P`, such that the
`l1`-distance between successive cubes is at most `mc` (`none`: any): it is the dilation of such a curve, and no such curve has less dilation. -/
def LeastDilation (r : Ratio) (N : ℕ) (mc : Option ℤ) (P : FCurve 2 → Prop) (v : ℝ) : Prop :=
  IsLeast {D | ∃ c : FCurve 2, c.IsCandidate N 1 mc ∧ P c ∧ c.IsDilation r D} v

/-- The decimal `shown / 10 ^ digits` is `v` with the further digits cut off. -/
def CutTo (digits shown : ℕ) (v : ℝ) : Prop := (shown : ℝ) / 10 ^ digits ≤ v ∧ v < ((shown : ℝ) + 1) / 10 ^ digits

/-- The categories of gates (column "entr-exit"). -/
inductive GateKind
  /-- "side": from `(0,0)` to `(1,0)` -/
  | side
  /-- "diag": from `(0,0)` to `(1,1)` -/
  | diag
  /-- "(0,0)->(1/2,1)" -/
  | median

/-- The curve has gates of the category, up to symmetry. -/
def GateKind.Has : GateKind → FCurve 2 → Prop
  | .side => FCurve.GatesIn [[⟨![0, 0], ![1, 0]⟩]]
  | .diag => FCurve.GatesIn [[⟨![0, 0], ![1, 1]⟩]]
  | .median => FCurve.GatesIn [[⟨![0, 0], ![1, 1 / 2]⟩]]

/-- The table shows this decimal for the least dilation. -/
def Shows (r : Ratio) (N : ℕ) (mc : Option ℤ) (P : FCurve 2 → Prop) (digits shown : ℕ) : Prop :=
  ∃ v, LeastDilation r N mc P v ∧ CutTo digits shown v

/-- An entry of the table: the decimal `shown / 10 ^ digits` in the column of the ratio function. -/
structure Entry where
  div : ℕ
  gates : GateKind
  maxCdist : Option ℤ
  ratio : Ratio
  digits : ℕ
  shown : ℕ

/-- The table of 2D monofractals, results.md:13-25.  Left out: the rows "5 side *" and "5 diag *", where the only number stands in the column `l1`
(though it is the value of `l2` from the row above), and the entries 10.66 and 5.77 (`l1` and `linf`) of the row "5 diag 1". -/
def resultsTable : List Entry := [
  ⟨2, .side, none, .l1, 3, 9000⟩, ⟨2, .side, none, .l2, 3, 6000⟩, ⟨2, .side, none, .linf, 3, 6000⟩,
  ⟨3, .side, none, .l1, 3, 9800⟩, ⟨3, .side, none, .l2, 3, 5666⟩, ⟨3, .side, none, .linf, 3, 4500⟩,
  ⟨3, .diag, none, .l1, 2, 1000⟩, ⟨3, .diag, none, .l2, 3, 5666⟩, ⟨3, .diag, none, .linf, 3, 5333⟩,
  ⟨4, .side, some 1, .l1, 3, 9000⟩, ⟨4, .side, some 1, .l2, 3, 5909⟩, ⟨4, .side, some 1, .linf, 4, 54545⟩,
  ⟨4, .side, none, .l1, 3, 9000⟩, ⟨4, .side, none, .l2, 3, 5909⟩, ⟨4, .side, none, .linf, 3, 5294⟩,
  ⟨5, .side, some 1, .l1, 2, 1000⟩, ⟨5, .side, some 1, .l2, 3, 5589⟩, ⟨5, .side, some 1, .linf, 3, 5333⟩,
  ⟨5, .diag, some 1, .l2, 1, 60⟩,
  ⟨5, .median, none, .l1, 2, 1185⟩, ⟨5, .median, none, .l2, 3, 6535⟩, ⟨5, .median, none, .linf, 2, 625⟩,
  ⟨6, .side, some 1, .l1, 3, 9000⟩, ⟨6, .side, some 1, .l2, 2, 562⟩, ⟨6, .side, some 1, .linf, 3, 5294⟩,
  ⟨6, .median, some 1, .l2, 1, 65⟩]

end Peano
