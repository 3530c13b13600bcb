import Verif.Spec.Subsets
import Verif.Spec.CubePathTree
import Verif.Model.Paths
import Mathlib.Algebra.BigOperators.Group.Finset.Basic
import Mathlib.Data.Fintype.Basic

set_option autoImplicit false

/-!
Specification of the generation of paths whose links are pairs of facet subsets: which paths should be found.
-/
namespace Peano
variable {n : ℕ}

/-- The link is the image of one of the given links under a base map (an isometry of the cube, with reversal of the link or without). -/
def FacetImageOf (links : List (Link (FacetDivSubset n))) (l : Link (FacetDivSubset n)) : Prop :=
  ∃ a : BaseMap (n + 1), ∃ m ∈ links, l = Link.act a m

/-- The subsets have common points. -/
def FacetDivSubset.Meets (s t : FacetDivSubset n) : Prop := (s.toSet ∩ t.toSet).Nonempty

/-- Paths with links of the given kind: all cubes of the grid are visited once, and in each step the exit of the fraction and the entrance of
the next one have common points. -/
structure FacetPath (div : ℕ) (links : List (Link (FacetDivSubset n))) (maxCdist : Option ℤ) (p : Path (FacetDivSubset n) (n + 1)) : Prop where
  div_eq : p.div = div
  /-- the attributes are those set by the constructor (which does not raise) -/
  made : Path.make p.div p.proto p.links = some p
  length : p.links.length = p.proto.length
  /-- all cubes are defined -/
  cubes : ∀ c ∈ p.proto, c ≠ none
  /-- every cube of the grid is visited, -/
  all : ∀ c : Cube (n + 1), some c ∈ p.proto ↔ CubeTree.InGrid div c
  /-- once -/
  once : p.proto.Nodup
  /-- the path may be continuous -/
  joined : ∀ (i : ℕ) (c c' : Cube (n + 1)) (l l' : Link (FacetDivSubset n)), p.proto[i]? = some (some c) → p.proto[i + 1]? = some (some c') →
    p.links[i]? = some l → p.links[i + 1]? = some l' → (placed div c l.exit.toSet ∩ placed div c' l'.entrance.toSet).Nonempty
  /-- the links of the fractions are images of the given links -/
  links_image : ∀ l ∈ p.links, FacetImageOf links l
  /-- steps are not too long -/
  cdist_le : ∀ m, maxCdist = some m → ∀ (i : ℕ) (c c' : Cube (n + 1)), p.proto[i]? = some (some c) → p.proto[i + 1]? = some (some c') →
    ∑ j, |c' j - c j| ≤ m

/-- The path agrees with the requested global link: the entrances have common points, and the exits. -/
def FacetPath.Agrees (link : Link (FacetDivSubset n)) (p : Path (FacetDivSubset n) (n + 1)) : Prop :=
  p.link.entrance.Meets link.entrance ∧ p.link.exit.Meets link.exit

/-- The path refines the parent: the same cubes, and the link of each fraction agrees with that of the parent. -/
def FacetPath.Refines (parent p : Path (FacetDivSubset n) (n + 1)) : Prop :=
  p.proto = parent.proto ∧ ∀ (i : ℕ) (l l' : Link (FacetDivSubset n)), p.links[i]? = some l → parent.links[i]? = some l' →
    l.entrance.Meets l'.entrance ∧ l.exit.Meets l'.exit

end Peano
