import Verif.Model.Dilation
import Verif.Spec.Junctions
import Verif.Spec.Fuzzy
import Mathlib.Data.Nat.Digits.Defs

set_option autoImplicit false

/-
Vocabulary for statements about the dilation (maximal ratio) of curves and about pairs of fractions.
-/
namespace Peano
variable {d : ℕ}

namespace FCurve

/-- Values of the ratio `||f_p(s) - f_p(t)||^d / (t - s)` (for the ratio function `r`: some norm, or its square) over all patterns and all pairs
of times. -/
def ratios (r : Ratio) (c : FCurve d) (f : ℕ → ℝ → Fin d → ℝ) : Set ℝ :=
  {x | ∃ p < c.mult, ∃ s t : ℝ, 0 ≤ s ∧ s < t ∧ t ≤ 1 ∧ x = r.val (fun j => f p s j - f p t j) (t - s)}

/-- `D` is the dilation of the (full) curve: the supremum of the ratios for the maps described by the curve. -/
def IsDilation (r : Ratio) (c : FCurve d) (D : ℝ) : Prop := ∃ f, c.Realizes f ∧ IsLUB (c.ratios r f) D

/-- `c'` is one of the possible curves of `c`, whatever its class and its selected pattern (attribute `pnum`) are. -/
def HasExample (c c' : FCurve d) : Prop := Possible c { c' with kind := .curve, pnum := c.pnum }

/-- Curves for the estimators: there are patterns, each position has a list of allowed specs, without repetitions and not empty, and every
possible curve is complete, passes `check()` and visits all cubes.  (Path-fuzzy curves made from valid continuous paths through all cubes
and checked full curves are such, see `Props/Dilation.lean`.) -/
structure Estimable (c : FCurve d) : Prop where
  mult_pos : 0 < c.mult
  specs_length : ∀ p ∈ c.patterns, p.specs.length = c.genus
  allowed : ∀ p < c.mult, ∀ i < c.genus, ∃ l, c.genAllowedSpecs p i = some l ∧ l.Nodup ∧ l ≠ []
  possible : ∀ c', Possible c c' → c'.Full ∧ c'.check = some true ∧ c'.FillsGrid

end FCurve

/-- The path visits every cube of the grid. -/
def Path.FillsGrid (N : ℕ) (p : Path (Point d) d) : Prop := ∀ cube : Cube d, (∀ j, 0 ≤ cube j ∧ cube j < (N : ℤ)) → some cube ∈ p.proto

/-- The ratio of a pair of points of a junction: the point of the first fraction (in the unit cube, run in the unit time) at time `u` and
the point of the second fraction (in the cube shifted by `delta_x`, run after `delta_t`) at its own time `v`. -/
noncomputable def Junction.ratio (r : Ratio) (f : ℕ → ℝ → Fin d → ℝ) (j : Junction d) (u v : ℝ) : ℝ :=
  r.val (fun i => actFn j.spec1 f u i - (j.deltaX i + actFn j.spec2 f v i)) (j.deltaT + v - u)

/-- The time interval of the pattern in which it passes the piece: the numbers of nested fractions are the digits of its start. -/
def PiecePos.Times (pos : PiecePos d) : Set ℝ :=
  {t | (Nat.ofDigits (pos.div ^ d) pos.cnums.reverse : ℕ) ≤ t * ((pos.div : ℝ) ^ d) ^ pos.cnums.length ∧
    t * ((pos.div : ℝ) ^ d) ^ pos.cnums.length ≤ (Nat.ofDigits (pos.div ^ d) pos.cnums.reverse : ℕ) + 1}

/-- Coordinate `j` of the corner of the cube of the piece, in units of `div^(-depth)`: the coordinates of the nested cubes are its digits. -/
def PiecePos.corner (pos : PiecePos d) (j : Fin d) : ℤ := pos.cubes.foldl (fun a cube => a * (pos.div : ℤ) + cube j) 0

namespace PiecePair

/-- Times of the first fraction of the junction at which it is in the first piece. -/
def Times1 (p : PiecePair d) : Set ℝ := {u | p.junc.spec1.baseMap.applyT 1 u ∈ p.pos1.Times}

/-- Times of the second fraction of the junction at which it is in the second piece. -/
def Times2 (p : PiecePair d) : Set ℝ := {v | p.junc.spec2.baseMap.applyT 1 v ∈ p.pos2.Times}

end PiecePair

/-- Pairs of pieces reached by the estimators for the curve `c`: the first-order pairs of `_create_tree` and all pairs that appear by
repeated division. -/
inductive PiecePair.Reached (c : FCurve d) : PiecePair d → Prop
  | first {data : List (Junction d × ℕ × ℕ)} {e : Junction d × ℕ × ℕ} {p : PiecePair d} : Dilation.pairData c = some data → e ∈ data →
      PiecePair.initFirstOrder c e.1 e.2.1 e.2.2 = some p → Reached c p
  | divide {p p' : PiecePair d} {subs : List (PiecePair d)} : Reached c p → p.divideBalanced = some subs → p' ∈ subs → Reached c p'

/-- The recorded points lie on the graphs of the two fractions of the recorded junction (the second one in the shifted cube and time). -/
structure Argmax.OnGraph (f : ℕ → ℝ → Fin d → ℝ) (a : Argmax d) : Prop where
  time1 : 0 ≤ (a.t1 : ℝ) ∧ (a.t1 : ℝ) ≤ 1
  time2 : (a.junc.deltaT : ℝ) ≤ a.t2 ∧ (a.t2 : ℝ) ≤ a.junc.deltaT + 1
  point1 : ∀ i, (a.x1 i : ℝ) = actFn a.junc.spec1 f a.t1 i
  point2 : ∀ i, (a.x2 i : ℝ) = a.junc.deltaX i + actFn a.junc.spec2 f (a.t2 - a.junc.deltaT) i

end Peano
