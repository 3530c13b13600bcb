import Verif.Lemmas.Valid
import Verif.Model.Zoo

set_option autoImplicit false

/-
Property C57: a finite table, checked entirely by the kernel.
-/
namespace Peano.Zoo

/-- What C57 requires of a curve: it has patterns, all entries are defined and in range, prototypes visit all cubes and `check()`
succeeds. -/
def Valid {d : ℕ} (c : FCurve d) : Prop := 0 < c.mult ∧ c.Full ∧ c.FillsGrid ∧ c.check = some true

theorem valid_of {d : ℕ} {c : FCurve d} (h : (decide (0 < c.mult) && c.fullB && c.fillsB && (c.check == some true)) = true) : Valid c := by
  simp only [Bool.and_eq_true, decide_eq_true_eq, beq_iff_eq] at h
  obtain ⟨⟨⟨h1, h2⟩, h3⟩, h4⟩ := h
  have hf := FCurve.full_of_fullB h2
  exact ⟨h1, hf, FCurve.fills_of_fillsB hf h3, h4⟩

/-- C57. Every plane curve of the zoo is valid. -/
theorem C57_zoo2 : ∀ c ∈ curves2, Valid c := by
  have : curves2.all (fun c => decide (0 < c.mult) && c.fullB && c.fillsB && (c.check == some true)) = true := by decide +kernel
  intro c hc
  exact valid_of (List.all_eq_true.1 this c hc)

/-- C57. Every three-dimensional curve of the zoo is valid. -/
theorem C57_zoo3 : ∀ c ∈ curves3, Valid c := by
  have : curves3.all (fun c => decide (0 < c.mult) && c.fullB && c.fillsB && (c.check == some true)) = true := by decide +kernel
  intro c hc
  exact valid_of (List.all_eq_true.1 this c hc)

/-- C57. The four-dimensional curve of the zoo is valid. -/
theorem C57_zoo4 : ∀ c ∈ curves4, Valid c := by
  have : curves4.all (fun c => decide (0 < c.mult) && c.fullB && c.fillsB && (c.check == some true)) = true := by decide +kernel
  intro c hc
  exact valid_of (List.all_eq_true.1 this c hc)

end Peano.Zoo
