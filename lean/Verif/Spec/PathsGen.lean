import Verif.Spec.Paths
import Verif.Spec.CubePathTree
import Mathlib.Algebra.BigOperators.Group.Finset.Basic
import Mathlib.Data.Fintype.Basic

set_option autoImplicit false

/-!
Specification of the generation of pointed paths: which paths should be found.
-/
namespace Peano
variable {d : ℕ}

/-- The link is the image, under an isometry of the cube, of one of the given links or of its reverse. -/
def ImageOf (links : List (Link (Point d))) (l : Link (Point d)) : Prop :=
  ∃ a : BaseMap d, ∃ m ∈ links, (l.entrance = a.applyX 1 m.entrance ∧ l.exit = a.applyX 1 m.exit) ∨
    (l.entrance = a.applyX 1 m.exit ∧ l.exit = a.applyX 1 m.entrance)

/-- Paths with the global link `link` that the generator should find. -/
structure Generated (div : ℕ) (links : List (Link (Point d))) (maxCdist : Option ℤ) (link : Link (Point d)) (p : Path (Point d) d) : Prop where
  wf : p.WF
  div_eq : p.div = div
  /-- every cube of the grid is visited, -/
  all : ∀ c : Cube d, some c ∈ p.proto ↔ CubeTree.InGrid div c
  /-- once -/
  once : p.proto.Nodup
  /-- the path is continuous -/
  joined : p.Joined
  /-- the links of the fractions are images of the given links -/
  links_image : ∀ l ∈ p.links, ImageOf links l
  /-- steps are not too long -/
  cdist_le : ∀ m, maxCdist = some m → ∀ (i : ℕ) (c c' : Cube d), p.proto[i]? = some (some c) → p.proto[i + 1]? = some (some c') →
    ∑ j, |c' j - c j| ≤ m
  /-- the global link is the requested one -/
  link_eq : p.link = link

end Peano
