import Verif.Model.Curves
import Verif.Spec.Geometry

set_option autoImplicit false

/-
Vocabulary for statements about curves.  The meaning of a (multifractal) curve is the tuple of maps that satisfies its
self-similarity equations; nothing here refers to algorithms of the model, only to the data stored in a curve.
-/
namespace Peano
variable {d : ℕ}

/-- The image `s * f` of a tuple of maps under a spec: component `s.pnum` run through the isometry (and backwards in time, if the
spec says so): `t ↦ B (f_p (T t))`. -/
noncomputable def actFn (s : Spec d) (f : ℕ → ℝ → Fin d → ℝ) (t : ℝ) : Fin d → ℝ :=
  s.baseMap.applyX 1 (f s.pnum (s.baseMap.applyT 1 t))

/-- The point lies on the face: `x_j = 1` where the face has 1, `x_j = 0` where it has 0. -/
def OnFace (face : Face d) (x : Fin d → ℝ) : Prop := ∀ j b, face j = some b → x j = if b then 1 else 0

namespace FCurve

/-- Sizes agree and the defined entries are in range (some entries may be undefined). -/
structure Shape (c : FCurve d) : Prop where
  two_le_div : 2 ≤ c.div
  proto_length : ∀ p ∈ c.patterns, p.proto.length = c.genus
  specs_length : ∀ p ∈ c.patterns, p.specs.length = c.genus
  cube_range : ∀ p i cube, c.cube? p i = some cube → ∀ j, 0 ≤ cube j ∧ cube j < (c.div : ℤ)
  spec_range : ∀ p i s, c.spec? p i = some s → s.pnum < c.mult

/-- All entries are defined. -/
structure Full (c : FCurve d) : Prop extends Shape c where
  cube_def : ∀ p < c.mult, ∀ i < c.genus, (c.cube? p i).isSome
  spec_def : ∀ p < c.mult, ∀ i < c.genus, (c.spec? p i).isSome

/-- The first and the last entry of each pattern are defined (all that is needed for entrances and exits). -/
structure GatesDefined (c : FCurve d) : Prop extends Shape c where
  cube_def : ∀ p < c.mult, (c.cube? p 0).isSome ∧ (c.cube? p (c.genus - 1)).isSome
  spec_def : ∀ p < c.mult, (c.spec? p 0).isSome ∧ (c.spec? p (c.genus - 1)).isSome

/-- Each prototype visits every cube of the grid. -/
def FillsGrid (c : FCurve d) : Prop :=
  ∀ p < c.mult, ∀ cube : Cube d, (∀ j, 0 ≤ cube j ∧ cube j < (c.div : ℤ)) → ∃ i < c.genus, c.cube? p i = some cube

/-- `f` is the tuple of maps described by the curve: for each pattern `p`, `f p : [0,1] → [0,1]^d`, and during the `i`-th of `G`
equal time intervals it is the copy `spec_i * f` put into the `i`-th cube of the prototype:
`f_p((i + t)/G) = (cube_i + (spec_i * f)(t)) / N`. -/
structure Realizes (c : FCurve d) (f : ℕ → ℝ → Fin d → ℝ) : Prop where
  mem_cube : ∀ p < c.mult, ∀ t : ℝ, 0 ≤ t → t ≤ 1 → f p t ∈ unitCube d
  eqn : ∀ p i cube s, c.cube? p i = some cube → c.spec? p i = some s → ∀ t : ℝ, 0 ≤ t → t ≤ 1 →
    f p ((i + t) / c.genus) = fun j => (cube j + actFn s f t j) / c.div

end FCurve
end Peano
