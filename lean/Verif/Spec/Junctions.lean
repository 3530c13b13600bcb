import Verif.Model.Junctions

set_option autoImplicit false

/-
Vocabulary for statements about junctions: pairs of fractions, their images, adjacency in subdivisions.
-/
namespace Peano
variable {d : ℕ}

/-- A pair of fractions: `s1 * curve` in the unit cube, followed by `s2 * curve` in the cube shifted by `dx`. -/
structure FracPair (d : ℕ) where
  s1 : Spec d
  s2 : Spec d
  dx : Cube d

/-- The image of a pair under a base map, seen from the cube of its first fraction: the isometry is applied to both fractions and to
the shift; time reversal also exchanges the order of the fractions, hence the sign of the shift. -/
def FracPair.act (b : BaseMap d) (a : FracPair d) : FracPair d :=
  if b.timeRev then ⟨Spec.rmulBaseMap b a.s2, Spec.rmulBaseMap b a.s1, fun j => -b.applyVec a.dx j⟩
  else ⟨Spec.rmulBaseMap b a.s1, Spec.rmulBaseMap b a.s2, b.applyVec a.dx⟩

/-- The pairs are the same up to isometry and time reversal. -/
def FracPair.Same (a a' : FracPair d) : Prop := ∃ b : BaseMap d, a' = a.act b

/-- The pair of fractions recorded in a junction. -/
def Junction.pair (j : Junction d) : FracPair d := ⟨j.spec1, j.spec2, j.deltaX⟩

namespace FCurve

/-- Fractions number `m` and `m+1` of some pattern of the curve form the pair. -/
def Neighbours (c : FCurve d) (a : FracPair d) : Prop :=
  ∃ p m x1 x2, c.spec? p m = some a.s1 ∧ c.spec? p (m + 1) = some a.s2 ∧ c.cube? p m = some x1 ∧ c.cube? p (m + 1) = some x2 ∧
    a.dx = fun j => x2 j - x1 j

/-- The pair is a pair of neighbouring fractions of the subdivision of depth `k ≥ 1` (`get_subdivision(k-1)`). -/
def AdjacentAt (c : FCurve d) (k : ℕ) (a : FracPair d) : Prop :=
  1 ≤ k ∧ ∃ c', c.getSubdivision (k - 1) = some c' ∧ c'.Neighbours a

end FCurve
end Peano
