import Verif.Model.Curves
import Mathlib.Tactic.FinCases

set_option autoImplicit false

/-
Plane curves given by natural numbers.
-/
namespace Peano
namespace DilFast

/-- The base map of a code: bit 0 is time reversal, bits 1 and 2 are reflections, bit 3 is the exchange of the axes. -/
def decB (c : ℕ) : BaseMap 2 :=
  if c.testBit 3 then ⟨![(1, c.testBit 1), (0, c.testBit 2)], c.testBit 0, by intro i j h; fin_cases i <;> fin_cases j <;> simp_all⟩ else ⟨![(0, c.testBit 1), (1, c.testBit 2)], c.testBit 0, by intro i j h; fin_cases i <;> fin_cases j <;> simp_all⟩

/-- A fraction: the cube `(x, y)`, the code of the base map and the number of the pattern. -/
structure Row where
  x : ℕ
  y : ℕ
  c : ℕ
  p : ℕ

def Row.dec (r : Row) : List ℤ × Spec 2 := ([(r.x : ℤ), (r.y : ℤ)], ⟨decB r.c, r.p⟩)

/-- The curve with the given fractions of the patterns. -/
def curve (N : ℕ) (frow : List (List Row)) : FCurve 2 :=
  ⟨N, frow.map fun l => ⟨l.map fun r => some ![(r.x : ℤ), (r.y : ℤ)], l.map fun r => some ⟨decB r.c, r.p⟩⟩, 0, .curve⟩

end DilFast
end Peano
