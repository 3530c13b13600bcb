import Verif.Spec.Gates

set_option autoImplicit false

/-
The gates of plane curves with one pattern.
-/
namespace Peano

/-- The gates `(0,0)->(0,1)`, `(0,0)->(1/2,1)` and `(0,0)->(1,1)`. -/
def sideTuple : GateTuple 2 := [⟨![0, 0], ![0, 1]⟩]
def medianTuple : GateTuple 2 := [⟨![0, 0], ![1 / 2, 1]⟩]
def diagTuple : GateTuple 2 := [⟨![0, 0], ![1, 1]⟩]

/-- The gates of curves with one pattern on the grids from 2×2 to 6×6. -/
def planeGates : ℕ → List (GateTuple 2)
  | 2 => [sideTuple]
  | 3 => [sideTuple, diagTuple]
  | 4 => [sideTuple, medianTuple]
  | 5 => [sideTuple, diagTuple, medianTuple]
  | 6 => [sideTuple, medianTuple]
  | _ => []

end Peano
