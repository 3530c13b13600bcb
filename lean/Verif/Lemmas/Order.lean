import Verif.Model.Subsets
import Verif.Lemmas.BaseMap
import Mathlib.Data.Prod.Lex

/- Python's `min`, order of points and links. -/
namespace Peano

section
variable {α κ : Type*} [LinearOrder κ]

/-- `lt` is the strict order of the keys. -/
structure KeyOrder (lt : α → α → Bool) (key : α → κ) : Prop where
  lt_iff : ∀ a b, lt a b = true ↔ key a < key b
  inj : Function.Injective key

variable {lt : α → α → Bool} {key : α → κ}

theorem foldl_min_spec (h : ∀ a b, lt a b = true ↔ key a < key b) (l : List α) (a : α) :
    let m := l.foldl (fun m x => if lt x m then x else m) a
    (m = a ∨ m ∈ l) ∧ key m ≤ key a ∧ ∀ x ∈ l, key m ≤ key x := by
  induction l generalizing a with
  | nil => simp
  | cons b l ih =>
    simp only [List.foldl_cons]
    by_cases hb : lt b a = true
    · obtain ⟨h1, h2, h3⟩ := ih b
      rw [if_pos hb]
      have hlt := (h b a).1 hb
      refine ⟨?_, h2.trans hlt.le, ?_⟩
      · rcases h1 with h1 | h1
        · right; rw [h1]; exact List.mem_cons_self
        · right; exact List.mem_cons_of_mem _ h1
      · intro x hx
        rcases List.mem_cons.1 hx with rfl | hx
        · exact h2
        · exact h3 x hx
    · obtain ⟨h1, h2, h3⟩ := ih a
      rw [if_neg hb]
      have hle : key a ≤ key b := not_lt.1 fun hh => hb ((h b a).2 hh)
      refine ⟨?_, h2, ?_⟩
      · rcases h1 with h1 | h1
        · exact Or.inl h1
        · right; exact List.mem_cons_of_mem _ h1
      · intro x hx
        rcases List.mem_cons.1 hx with rfl | hx
        · exact h2.trans hle
        · exact h3 x hx

theorem pyMin_spec (h : KeyOrder lt key) {l : List α} {m : α} : pyMin lt l = some m ↔ m ∈ l ∧ ∀ x ∈ l, key m ≤ key x := by
  cases l with
  | nil => simp [pyMin]
  | cons a l =>
    obtain ⟨h1, h2, h3⟩ := foldl_min_spec h.lt_iff l a
    simp only [pyMin, Option.some.injEq]
    have hmem : l.foldl (fun m x => if lt x m then x else m) a ∈ a :: l := by
      rcases h1 with h1 | h1
      · rw [h1]; exact List.mem_cons_self
      · exact List.mem_cons_of_mem _ h1
    have hle : ∀ x ∈ a :: l, key (l.foldl (fun m x => if lt x m then x else m) a) ≤ key x := by
      intro x hx
      rcases List.mem_cons.1 hx with rfl | hx
      · exact h2
      · exact h3 x hx
    constructor
    · rintro rfl
      exact ⟨hmem, hle⟩
    · rintro ⟨hm, hml⟩
      exact h.inj (le_antisymm (hle m hm) (hml _ hmem))

theorem pyMin_le (h : ∀ a b, lt a b = true ↔ key a < key b) {l : List α} {m : α} (hm : pyMin lt l = some m) :
    m ∈ l ∧ ∀ x ∈ l, key m ≤ key x := by
  cases l with
  | nil => simp [pyMin] at hm
  | cons a l =>
    obtain ⟨h1, h2, h3⟩ := foldl_min_spec h l a
    simp only [pyMin, Option.some.injEq] at hm
    subst hm
    constructor
    · rcases h1 with h1 | h1
      · rw [h1]; exact List.mem_cons_self
      · exact List.mem_cons_of_mem _ h1
    · intro x hx
      rcases List.mem_cons.1 hx with rfl | hx
      · exact h2
      · exact h3 x hx

theorem pyMin_isSome {l : List α} (hl : l ≠ []) : ∃ m, pyMin lt l = some m := by
  cases l with
  | nil => exact absurd rfl hl
  | cons a l => exact ⟨_, rfl⟩

theorem pyMin_congr (h : KeyOrder lt key) {l l' : List α} (hll : ∀ x, x ∈ l ↔ x ∈ l') : pyMin lt l = pyMin lt l' := by
  cases l with
  | nil =>
    cases l' with
    | nil => rfl
    | cons a l' => exact absurd ((hll a).2 List.mem_cons_self) (by simp)
  | cons a l =>
    obtain ⟨m, hm⟩ := pyMin_isSome (lt := lt) (l := a :: l) (by simp)
    rw [hm, eq_comm, pyMin_spec h]
    have := (pyMin_spec h).1 hm
    exact ⟨(hll m).1 this.1, fun x hx => this.2 x ((hll x).2 hx)⟩

end

variable {d : ℕ}

theorem Point.keyOrder : KeyOrder (Point.lt : Point d → Point d → Bool) (fun p => List.ofFn p) where
  lt_iff a b := by simp [Point.lt]
  inj := List.ofFn_injective

/-- Key of a point link. -/
def Link.key (l : Link (Point d)) : List ℚ ×ₗ List ℚ := toLex (List.ofFn l.entrance, List.ofFn l.exit)

theorem Link.keyOrder : KeyOrder (Link.lt : Link (Point d) → Link (Point d) → Bool) Link.key where
  lt_iff a b := by
    unfold Link.lt Link.key
    rw [Prod.Lex.toLex_lt_toLex]
    show (if a.entrance = b.entrance then Point.lt a.exit b.exit else Point.lt a.entrance b.entrance) = true ↔ _
    by_cases h : a.entrance = b.entrance
    · rw [if_pos h, h, Point.keyOrder.lt_iff]; simp
    · rw [if_neg h, Point.keyOrder.lt_iff]
      constructor
      · exact Or.inl
      · rintro (h' | ⟨h', _⟩)
        · exact h'
        · exact absurd (List.ofFn_injective h') h
  inj := by
    intro a b h
    have h := toLex.injective h
    simp only [Prod.mk.injEq] at h
    cases a; cases b
    simp only [Link.mk.injEq]
    exact ⟨List.ofFn_injective h.1, List.ofFn_injective h.2⟩

theorem Link.act_def (b : BaseMap d) (l : Link (Point d)) :
    Link.act b l = if b.timeRev then ⟨Point.act b l.exit, Point.act b l.entrance⟩ else ⟨Point.act b l.entrance, Point.act b l.exit⟩ := rfl

@[simp] theorem Point.act_mul (a b : BaseMap d) (p : Point d) : Point.act (a * b) p = Point.act a (Point.act b p) := by
  simp [Point.act]

@[simp] theorem Point.act_one (p : Point d) : Point.act 1 p = p := by simp [Point.act]

theorem Link.act_mul (a b : BaseMap d) (l : Link (Point d)) : Link.act (a * b) l = Link.act a (Link.act b l) := by
  simp only [Link.act_def, BaseMap.mul_timeRev]
  by_cases ha : a.timeRev = true <;> by_cases hb : b.timeRev = true <;> simp [ha, hb]

@[simp] theorem Link.act_one (l : Link (Point d)) : Link.act 1 l = l := by simp [Link.act_def]

theorem Link.act_inv_eq {b : BaseMap d} {l m : Link (Point d)} : Link.act b l = m ↔ l = Link.act b⁻¹ m := by
  constructor
  · rintro rfl; rw [← Link.act_mul, inv_mul_cancel, Link.act_one]
  · rintro rfl; rw [← Link.act_mul, mul_inv_cancel, Link.act_one]

end Peano
