import Verif.Lemmas.DilRow

set_option autoImplicit false

/-
The best side curves on the grid 5 after YE.  This file is generated.
-/
namespace Peano.YeNext
open DilFast

/-- The order of cubes is the one of YE. -/
def same : FCurve 2 := curve 5 [
  [⟨0, 0, 13, 0⟩, ⟨0, 1, 0, 0⟩, ⟨1, 1, 3, 0⟩, ⟨1, 0, 11, 0⟩, ⟨2, 0, 13, 0⟩, ⟨2, 1, 13, 0⟩, ⟨2, 2, 13, 0⟩, ⟨1, 2, 5, 0⟩, ⟨0, 2, 5, 0⟩, ⟨0, 3, 13, 0⟩, ⟨0, 4, 0, 0⟩, ⟨1, 4, 0, 0⟩, ⟨1, 3, 11, 0⟩, ⟨2, 3, 8, 0⟩, ⟨2, 4, 3, 0⟩, ⟨3, 4, 3, 0⟩, ⟨4, 4, 3, 0⟩, ⟨4, 3, 6, 0⟩, ⟨3, 3, 11, 0⟩, ⟨3, 2, 11, 0⟩, ⟨4, 2, 0, 0⟩, ⟨4, 1, 6, 0⟩, ⟨3, 1, 11, 0⟩, ⟨3, 0, 11, 0⟩, ⟨4, 0, 0, 0⟩]]

/-- Another order of cubes. -/
def other : FCurve 2 := curve 5 [
  [⟨0, 0, 8, 0⟩, ⟨0, 1, 0, 0⟩, ⟨1, 1, 3, 0⟩, ⟨1, 0, 14, 0⟩, ⟨2, 0, 8, 0⟩, ⟨2, 1, 8, 0⟩, ⟨2, 2, 8, 0⟩, ⟨2, 3, 13, 0⟩, ⟨1, 3, 14, 0⟩, ⟨1, 2, 6, 0⟩, ⟨0, 2, 5, 0⟩, ⟨0, 3, 13, 0⟩, ⟨0, 4, 3, 0⟩, ⟨1, 4, 3, 0⟩, ⟨2, 4, 0, 0⟩, ⟨3, 4, 0, 0⟩, ⟨4, 4, 0, 0⟩, ⟨4, 3, 6, 0⟩, ⟨3, 3, 14, 0⟩, ⟨3, 2, 11, 0⟩, ⟨4, 2, 0, 0⟩, ⟨4, 1, 6, 0⟩, ⟨3, 1, 14, 0⟩, ⟨3, 0, 11, 0⟩, ⟨4, 0, 3, 0⟩]]

end Peano.YeNext
