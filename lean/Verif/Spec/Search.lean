import Verif.Model.Search
import Verif.Spec.Gates
import Verif.Spec.Dilation
import Verif.Spec.Fuzzy

set_option autoImplicit false

/-
Vocabulary for the search of curves.
-/
namespace Peano
variable {d : ℕ}

/-- A curve that may be searched for: all cubes and specs are defined, each pattern visits all cubes of the grid, the curve passes `check`
(so it is a continuous curve that fills the cube), it has the given `div` and `mult`, and if `max_cdist` is given then the distance between
any consecutive cubes is at most `max_cdist`. -/
structure FCurve.IsCandidate (div mult : ℕ) (maxCdist : Option ℤ) (c : FCurve d) : Prop where
  full : c.Full
  fills : c.FillsGrid
  checked : c.check = some true
  div_eq : c.div = div
  mult_eq : c.mult = mult
  steps : ∀ m, maxCdist = some m → ∀ (p i : ℕ) (x y : Cube d), c.cube? p i = some x → c.cube? p (i + 1) = some y → ∑ j, |y j - x j| ≤ m

/-- All entrances and exits are on the boundary of the cube. -/
def FCurve.BoundaryGates (c : FCurve d) : Prop :=
  ∀ p < c.mult, ∃ e x, c.getEntrance p = some e ∧ c.getExit p = some x ∧ e.OnBoundary ∧ x.OnBoundary

/-- All entrances and exits are strictly inside facets of the cube. -/
def FCurve.FacetGated (c : FCurve d) : Prop :=
  ∀ p < c.mult, ∃ e x, c.getEntrance p = some e ∧ c.getExit p = some x ∧ e.InsideFacet ∧ x.InsideFacet

/-- The curve has, up to the order of patterns and up to symmetries for each pattern, one of the given tuples of gates. -/
def FCurve.GatesIn (gateList : List (GateTuple d)) (c : FCurve d) : Prop :=
  ∃ G, c.HasGates G ∧ ∃ S ∈ gateList, GateTuple.SameUpToSymmetry G S

/-- The report of the search among the candidates with the property `P` is right:
* `lo` is at most the dilation of every such curve;
* `up` is at least the dilation of some such curve, or it is the given upper bound; it is at most the given upper bound;
* the bounds are close enough;
* the printed curves are such curves, and their dilations are at most `up * (1 + 1 / rel_tol_inv_mult)`;
* if the upper bound (when given) is positive, then a curve is printed. -/
structure Search.RightReport {n : ℕ} (r : Ratio) (p : Search.Params n) (P : FCurve (n + 1) → Prop) (lo up : ℚ)
    (curves : List (Option (FCurve (n + 1)))) : Prop where
  lower : ∀ (c : FCurve (n + 1)) (D : ℝ), c.IsCandidate p.div p.mult p.maxCdist → P c → c.IsDilation r D → lo ≤ D
  upper : (∃ (c : FCurve (n + 1)) (D : ℝ), c.IsCandidate p.div p.mult p.maxCdist ∧ P c ∧ c.IsDilation r D ∧ D ≤ up) ∨ p.upperBound = some up
  bounded : ∀ u, p.upperBound = some u → up ≤ u
  close : up ≤ lo * (1 + 1 / ((p.relTolInv.getD 1000 : ℤ) : ℚ))
  printed : ∀ e, some e ∈ curves → e.IsCandidate p.div p.mult p.maxCdist ∧ P e ∧
    ∀ D, e.IsDilation r D → D ≤ up * (1 + 1 / ((p.relTolInvMult.getD 4 : ℤ) : ℝ))
  present : (∀ u, p.upperBound = some u → 0 < u) → curves ≠ [] ∧ none ∉ curves

/-- No candidate with the property `P` meets the upper bound (there are no candidates at all, if the bound is not given). -/
def Search.Absent {n : ℕ} (r : Ratio) (p : Search.Params n) (P : FCurve (n + 1) → Prop) : Prop :=
  ∀ (c : FCurve (n + 1)) (D : ℝ), c.IsCandidate p.div p.mult p.maxCdist → P c → c.IsDilation r D → ∃ u, p.upperBound = some u ∧ (u : ℝ) < D

/-- The gates are in the unit cube. -/
def GateTuple.InCube {d : ℕ} (S : GateTuple d) : Prop :=
  ∀ l ∈ S, ∀ j, (0 ≤ l.entrance j ∧ l.entrance j ≤ 1) ∧ (0 ≤ l.exit j ∧ l.exit j ≤ 1)

end Peano
