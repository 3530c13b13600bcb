import Verif.Model.Plots
import Mathlib.Algebra.BigOperators.Fin

set_option autoImplicit false

/-
Vocabulary for statements about pictures of curves.
-/
namespace Peano
namespace Plot
variable {d : ℕ}

/-- `x` is the centre of the `n`-th cube that pattern `p` of the curve visits. -/
def IsCentre (c : FCurve d) (p n : ℕ) (x : Pt d) : Prop := ∃ cube, c.cube? p n = some cube ∧ ∀ j, x j = ((cube j : ℚ) + 1 / 2) / (c.div : ℚ)

/-- The points `pts` draw an arrow head at `curr` on a line that comes from `prev`: the pen goes to one barb, to `curr`, to the other barb and
back to `curr`.  The barbs are behind `curr` by a fifth of the way from `prev` and on both sides of the line, symmetrically. -/
def IsArrow (prev curr : Pt d) (pts : List (Pt d)) : Prop :=
  ∃ w : Pt d, w ≠ 0 ∧ ∑ j, w j * (curr j - prev j) = 0 ∧
    pts = [fun j => curr j - (curr j - prev j) / 5 + w j, curr, fun j => curr j - (curr j - prev j) / 5 - w j, curr]

/-- The middle of a segment. -/
def mid (a b : Pt d) : Pt d := fun j => (a j + b j) / 2

/-- Lines among the items of an axis. -/
def linesOf (l : List (Item d)) : List (Line d) := l.filterMap fun x => match x with | .line y => some y | .text _ _ => none
/-- Lines of a style among the items of an axis. -/
def linesIn (s : Style) (l : List (Item d)) : List (Line d) := (linesOf l).filter fun x => x.style = s
/-- Texts among the items of an axis. -/
def textsOf (l : List (Item d)) : List (Pt d × String) := l.filterMap fun x => match x with | .text a s => some (a, s) | .line _ => none

/-- Number of the axis with the prototype of a pattern, and of the axis with its fractions. -/
def globAxis (separate : Bool) (p : ℕ) : ℕ := if separate then 2 * p else p
def detailAxis (separate : Bool) (p : ℕ) : ℕ := if separate then 2 * p + 1 else p

/-- The name and the color of a pattern. -/
def nameOf (p : ℕ) : String := ["a", "b", "c", "d"].getD p ""
def colorOf (p : ℕ) : String := ["tab:cyan", "orange", "green", "pink"].getD p ""

/-- The fractions of pattern `p` of the curve, drawn finer with the help of `sub`: `x n` is the centre of the `n`-th cube of `fine`, and each
fraction `i` of the curve is a line through the centres of its `G` cubes, in the color of the pattern that it is a copy of; the last one ends
with an arrow. -/
structure ShowsFractions (c : FCurve d) (G p : ℕ) (x : ℕ → Pt d) (lines connections : List (Line d)) : Prop where
  length : lines.length = c.genus
  line : ∀ i < c.genus, ∀ s, c.spec? p i = some s → ∃ arrow, lines[i]? = some ⟨.fraction, colorOf s.pnum, (List.range G).map (fun m => x (i * G + m)) ++ arrow⟩ ∧
    (i + 1 ≠ c.genus → arrow = []) ∧ (i + 1 = c.genus → IsArrow (x (c.genus * G - 2)) (x (c.genus * G - 1)) arrow)
  /-- the end of each fraction is connected with the beginning of the next one by two halves of a segment in the colors of both -/
  connections_length : connections.length = 2 * (c.genus - 1)
  connection : ∀ i, i + 1 < c.genus → ∀ s t, c.spec? p i = some s → c.spec? p (i + 1) = some t →
    connections[2 * i]? = some ⟨.connection, colorOf s.pnum, [x ((i + 1) * G - 1), mid (x ((i + 1) * G - 1)) (x ((i + 1) * G))]⟩ ∧
    connections[2 * i + 1]? = some ⟨.connection, colorOf t.pnum, [mid (x ((i + 1) * G - 1)) (x ((i + 1) * G)), x ((i + 1) * G)]⟩

end Plot
end Peano
