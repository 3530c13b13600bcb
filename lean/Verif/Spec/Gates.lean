import Verif.Model.Gates
import Verif.Spec.PathsGen

set_option autoImplicit false

/-
Vocabulary for tuples of gates.  A gate is a pair of points (entrance, exit) of the unit cube.
-/
namespace Peano
variable {d : ℕ}

/-- The point is on the boundary of the unit cube. -/
def Point.OnBoundary (p : Point d) : Prop := (∀ j, 0 ≤ p j ∧ p j ≤ 1) ∧ ∃ j, p j = 0 ∨ p j = 1

/-- The point is strictly inside some facet of the unit cube: exactly one of its coordinates is 0 or 1. -/
def Point.InsideFacet (p : Point d) : Prop := (∀ j, 0 ≤ p j ∧ p j ≤ 1) ∧ ∃! j, p j = 0 ∨ p j = 1

/-- Gates in the lexicographic order: by entrance, then by exit. -/
def Link.Before (l m : Link (Point d)) : Prop :=
  toLex (List.ofFn l.entrance, List.ofFn l.exit) ≤ (toLex (List.ofFn m.entrance, List.ofFn m.exit) : List ℚ ×ₗ List ℚ)

/-- The gate is the first one among all its images (symmetries of the cube, with time reversal or without). -/
def Link.Standard (l : Link (Point d)) : Prop := ∀ b : BaseMap d, l.Before (Link.act b l)

/-- The tuples of gates are the same up to order and up to a symmetry for each gate. -/
def GateTuple.SameUpToSymmetry (G S : GateTuple d) : Prop :=
  ∃ W : GateTuple d, W.Perm S ∧ List.Forall₂ (fun l m => ∃ b : BaseMap d, Link.act b l = m) G W

/-- A tuple of gates as it should be emitted. -/
structure GateTuple.Emittable (div mult : ℕ) (onlyFacet : Bool) (S : GateTuple d) : Prop where
  length : S.length = mult
  sorted : S.Pairwise Link.Before
  standard : ∀ l ∈ S, l.Standard
  boundary : ∀ l ∈ S, l.entrance.OnBoundary ∧ l.exit.OnBoundary
  facet : onlyFacet = true → ∀ l ∈ S, l.entrance.InsideFacet ∧ l.exit.InsideFacet
  /-- for each gate there is a continuous path through all cubes with this gate, whose fractions have images of the gates -/
  paths : ∀ l ∈ S, ∃ p, Generated div S none l p

/-- `gates[pnum]` is the pair of the entrance and the exit of the pattern. -/
def FCurve.HasGates (c : FCurve d) (gates : GateTuple d) : Prop :=
  gates.length = c.mult ∧ ∀ p l, gates[p]? = some l → c.getEntrance p = some l.entrance ∧ c.getExit p = some l.exit

end Peano
