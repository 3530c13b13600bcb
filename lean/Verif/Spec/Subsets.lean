import Mathlib.Data.Real.Basic
import Mathlib.Data.Set.Basic
import Verif.Spec.Geometry
import Verif.Model.FacetSubset

set_option autoImplicit false

/- What facet subsets denote.  Only the data of a `FacetDivSubset` are used here, none of its functions. -/
namespace Peano

/-- The open cube of dimension `n` at the end of a nested sequence of cubes of the `div`-grid: without cubes the open unit cube;
otherwise the copy, in the first cube, of what the rest denotes. -/
def openNest {n : ℕ} (div : ℕ) : List (Cube n) → Set (Fin n → ℝ)
  | [] => {u | ∀ i, 0 < u i ∧ u i < 1}
  | c :: cs => {u | ∃ w ∈ openNest div cs, ∀ i, u i = ((c i : ℝ) + w i) / div}

namespace FacetDivSubset
variable {n : ℕ}

/-- The set denoted by a facet subset: points of the facet `x_coord = value` whose other coordinates, in order, form a point of the
nested open cube. -/
def toSet (s : FacetDivSubset n) : Set (Fin (n + 1) → ℝ) :=
  {x | x s.facetCoord = (if s.facetValue then 1 else 0) ∧ (fun i => x (s.facetCoord.succAbove i)) ∈ openNest s.div s.cubes}

/-- Well-formed: positive `div`, cubes inside the grid. -/
structure WF (s : FacetDivSubset n) : Prop where
  div_pos : 0 < s.div
  cubes : ∀ c ∈ s.cubes, ∀ i, 0 ≤ c i ∧ c i < s.div

end FacetDivSubset

/-- Copy of a set in the sub-cube `cube` of the `div`-grid. -/
def placed {d : ℕ} (div : ℕ) (cube : Cube d) (A : Set (Fin d → ℝ)) : Set (Fin d → ℝ) :=
  {y | ∃ x ∈ A, ∀ j, y j = ((cube j : ℝ) + x j) / div}

/-- Translate of a set. -/
def translated {d : ℕ} (v : Cube d) (A : Set (Fin d → ℝ)) : Set (Fin d → ℝ) := {y | ∃ x ∈ A, ∀ j, y j = x j + (v j : ℝ)}

/-- The part of the sub-cube `cube` of the `div`-grid that is open in all coordinates except `k`, where it is closed. -/
def cellOpenBut {d : ℕ} (k : Fin d) (div : ℕ) (cube : Cube d) : Set (Fin d → ℝ) :=
  {x | ∀ j, if j = k then (cube j : ℝ) / div ≤ x j ∧ x j ≤ ((cube j : ℝ) + 1) / div
    else (cube j : ℝ) / div < x j ∧ x j < ((cube j : ℝ) + 1) / div}

end Peano
