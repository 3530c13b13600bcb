import Mathlib.Data.Real.Basic
import Mathlib.Data.Fintype.Perm
import Verif.Model.BaseMap

set_option autoImplicit false

/- Independent vocabulary for statements about cubes: nothing here refers to functions of the model. -/
namespace Peano
variable {d : ℕ}

/-- Cube isometry: `y_i = x_{σ i}` or `y_i = 1 - x_{σ i}` for a permutation `σ` and a set of flipped coordinates. -/
def IsCubeIsometry (g : (Fin d → ℚ) → Fin d → ℚ) : Prop :=
  ∃ (σ : Equiv.Perm (Fin d)) (flip : Finset (Fin d)), ∀ x i, g x i = if i ∈ flip then 1 - x (σ i) else x (σ i)

/-- The closed sub-cube number `c` of the grid with `n` parts per side of the unit cube. -/
def subCube (n : ℤ) (c : Cube d) : Set (Fin d → ℝ) := {x | ∀ i, (c i : ℝ) / n ≤ x i ∧ x i ≤ ((c i : ℝ) + 1) / n}

/-- The closed cube with least vertex `s` and side `l`. -/
def boxAt (s : Cube d) (l : ℤ) : Set (Fin d → ℝ) := {x | ∀ i, (s i : ℝ) ≤ x i ∧ x i ≤ (s i : ℝ) + (l : ℝ)}

/-- The unit cube. -/
def unitCube (d : ℕ) : Set (Fin d → ℝ) := {x | ∀ i, 0 ≤ x i ∧ x i ≤ 1}

end Peano
