import Verif.Model.Paths

set_option autoImplicit false

/-!
Specification of pointed paths: what it means, in terms of cubes and gates, that a path is continuous and full.
-/
namespace Peano
namespace Path
variable {d : ℕ}

/-- The path was built by the constructor from a positive number of actual cubes, one link for each. -/
structure WF (p : Path (Point d) d) : Prop where
  /-- all cubes are defined -/
  cubes : ∀ c ∈ p.proto, c ≠ none
  /-- one link per cube -/
  length : p.links.length = p.proto.length
  /-- the attributes are those set by the constructor (which does not raise) -/
  made : make p.div p.proto p.links = some p

/-- In each step the curve leaves the fraction at the point where it enters the next one: cube `c` with exit `e` is followed by cube `c'`
with entrance `e'` such that `c + e = c' + e'`. -/
def Joined (p : Path (Point d) d) : Prop :=
  ∀ (i : ℕ) (c c' : Cube d) (l l' : Link (Point d)), p.proto[i]? = some (some c) → p.proto[i + 1]? = some (some c') →
    p.links[i]? = some l → p.links[i + 1]? = some l' → ∀ j : Fin d, (c j : ℚ) + l.exit j = (c' j : ℚ) + l'.entrance j

end Path
end Peano
