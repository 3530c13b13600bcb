import Verif.Spec.Search

set_option autoImplicit false

/-
Vocabulary for comparing curves up to symmetries (for curves with one pattern).
-/
namespace Peano
namespace FCurve
variable {d : ℕ}

/-- The curve visits the cubes in the same order as `c0`, up to an isometry of the cube and time reversal. -/
def SameProto (c c0 : FCurve d) : Prop :=
  ∃ b : BaseMap d, ∀ i < c.genus, c.cube? 0 i = (c0.cube? 0 (b.applyCnum c.genus i)).map (b.applyCube c.div)

/-- The curves are the same as functions of time, up to an isometry of the cube and time reversal. -/
def SameCurve (c c0 : FCurve d) : Prop :=
  ∃ b : BaseMap d, ∀ f g, c.Realizes f → c0.Realizes g → ∀ t : ℝ, 0 ≤ t → t ≤ 1 → g 0 t = b.applyX 1 (f 0 (b.applyT 1 t))

end FCurve
end Peano
