import Verif.Model.ZooData
import Verif.Spec.Curves
import Mathlib.Analysis.SpecialFunctions.Sqrt

set_option autoImplicit false

/-
What a declared dilation means: the supremum of `|f_p(s) - f_p(t)|^d / |s - t|` over pairs of times of the patterns, where the length of a vector
is that of the metric.
-/
namespace Peano.Zoo
variable {d : ℕ}

/-- The length of a vector. -/
noncomputable def Metric.length (m : Metric) (x : Fin d → ℝ) : ℝ :=
  match m with
  | .l1 => ∑ j, |x j|
  | .l2 | .l2Squared => Real.sqrt (∑ j, x j ^ 2)
  | .linf => ⨆ j, |x j|

/-- The ratio for a pair of points and the time between them; under the key `l2_squared` stands its square. -/
noncomputable def Metric.quotient (m : Metric) (x : Fin d → ℝ) (t : ℝ) : ℝ :=
  match m with
  | .l2Squared => (m.length x ^ d / t) ^ 2
  | m => m.length x ^ d / t

/-- `D` is the dilation of the curve in the metric. -/
def IsWD (m : Metric) (c : FCurve d) (D : ℝ) : Prop :=
  ∃ f, c.Realizes f ∧ IsLUB {q | ∃ p < c.mult, ∃ s t : ℝ, 0 ≤ s ∧ s < t ∧ t ≤ 1 ∧ q = m.quotient (fun j => f p s j - f p t j) (t - s)} D

/-- The declared value is right. -/
def DilationValue.RightFor (v : DilationValue) (m : Metric) (c : FCurve d) : Prop :=
  match v with
  | .eq v => IsWD m c v
  | .between lo up => ∃ D : ℝ, IsWD m c D ∧ lo ≤ D ∧ D ≤ up

end Peano.Zoo
