import Verif.Model.FuzzyCurves
import Verif.Spec.Curves

set_option autoImplicit false

/-
Vocabulary for statements about fuzzy curves.
-/
namespace Peano
variable {d : ℕ}

/-- The list contains the identity and is closed under composition and inversion, without repetitions: a subgroup of base maps. -/
structure IsSubgroupList (g : List (BaseMap d)) : Prop where
  one : BaseMap.idMap d ∈ g
  mul : ∀ a ∈ g, ∀ b ∈ g, a * b ∈ g
  inv : ∀ a ∈ g, a⁻¹ ∈ g
  nodup : g.Nodup

/-- A pointed path on the grid `div^d`, complete: each fraction has a cube in the grid and a link with gates in the unit cube. -/
structure Path.Valid (div : ℕ) (p : Path (Point d) d) : Prop where
  div_eq : p.div = div
  proto_length : p.proto.length = div ^ d
  links_length : p.links.length = div ^ d
  cube_def : ∀ c ∈ p.proto, ∃ cube, c = some cube ∧ ∀ j, 0 ≤ cube j ∧ cube j < (div : ℤ)
  made : Path.make div p.proto p.links = some p

namespace FCurve

/-- The base map belongs to the group selected by the arguments of `init_from_paths`: the given group (all base maps if absent), without time
reversal if that is disabled. -/
def InGroup (group : Option (List (BaseMap d))) (disableTimeRev : Bool) (b : BaseMap d) : Prop :=
  (∀ g, group = some g → b ∈ g) ∧ (disableTimeRev = true → b.timeRev = false)

/-- `c'` is a fully specified curve with the prototypes of `c`, whose specs are allowed by `c` at each position. -/
structure Possible (c c' : FCurve d) : Prop where
  kind : c'.kind = .curve
  div : c'.div = c.div
  pnum : c'.pnum = c.pnum
  mult : c'.mult = c.mult
  pattern : ∀ (p : ℕ) (pat pat' : Pattern d), c.patterns[p]? = some pat → c'.patterns[p]? = some pat' →
    pat'.proto = pat.proto ∧ pat'.specs.length = c.genus
  allowed : ∀ p < c.mult, ∀ i < c.genus, ∃ l s, c.genAllowedSpecs p i = some l ∧ s ∈ l ∧ c'.spec? p i = some s

/-- Path-fuzzy curves a program can get from the paths: by `init_from_paths`, then any number of successful calls of `specify`. -/
inductive PathFuzzy (paths : List (Path (Point d) d)) (group : Option (List (BaseMap d))) (disableTimeRev : Bool) : FCurve d → Prop
  | init {c : FCurve d} : initFromPaths paths group disableTimeRev = some c → PathFuzzy paths group disableTimeRev c
  | specify {c c' : FCurve d} {p i : ℕ} {s : Spec d} : PathFuzzy paths group disableTimeRev c → p < c.mult → i < c.genus →
      c.specify p i s = .ok c' → PathFuzzy paths group disableTimeRev c'

end FCurve
end Peano
