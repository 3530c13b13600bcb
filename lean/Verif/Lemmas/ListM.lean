import Mathlib.Data.List.Forall2
import Mathlib.Data.List.Basic

/- `mapM` and `foldlM` in `Option`. -/
namespace Peano

theorem mapM_eq_some {α β : Type} {f : α → Option β} {l : List α} {r : List β} :
    l.mapM f = some r ↔ List.Forall₂ (fun a b => f a = some b) l r := by
  induction l generalizing r with
  | nil => cases r <;> simp
  | cons a l ih =>
    rw [List.mapM_cons]
    constructor
    · intro h
      cases ha : f a with
      | none => simp [ha] at h
      | some b =>
        cases hl : l.mapM f with
        | none => simp [ha, hl] at h
        | some r' =>
          simp only [ha, hl, Option.bind_eq_bind, Option.bind_some, Option.pure_def, Option.some.injEq] at h
          subst h
          exact List.Forall₂.cons ha (ih.1 hl)
    · intro h
      cases h with
      | cons ha hl => rw [ha, ih.2 hl]; rfl

theorem mapM_eq_some_map {α β : Type} {f : α → Option β} {l : List α} {g : α → β} (h : ∀ a ∈ l, f a = some (g a)) :
    l.mapM f = some (l.map g) := by
  rw [mapM_eq_some, List.forall₂_map_right_iff, List.forall₂_same]
  exact h

theorem mapM_isSome_iff {α β : Type} {f : α → Option β} {l : List α} : (l.mapM f).isSome ↔ ∀ a ∈ l, (f a).isSome := by
  induction l with
  | nil => simp
  | cons a l ih =>
    rw [List.mapM_cons]
    cases ha : f a with
    | none => simp [ha]
    | some b =>
      cases hl : l.mapM f with
      | none => simp [hl] at ih ⊢; simp [ha]; exact ih
      | some r' => simp [hl] at ih ⊢; simp [ha]; exact ih

theorem forall₂_getElem? {α β : Type} {R : α → β → Prop} {l : List α} {r : List β} (h : List.Forall₂ R l r) :
    ∀ (i : ℕ) (b : β), r[i]? = some b → ∃ a, l[i]? = some a ∧ R a b := by
  induction h with
  | nil => intro i b h; simp at h
  | cons h1 _ ih =>
    intro i b h
    cases i with
    | zero => simp only [List.getElem?_cons_zero, Option.some.injEq] at h ⊢; subst h; exact ⟨_, rfl, h1⟩
    | succ i => simpa using ih i b (by simpa using h)

theorem forall₂_getElem?' {α β : Type} {R : α → β → Prop} {l : List α} {r : List β} (h : List.Forall₂ R l r) :
    ∀ (i : ℕ) (a : α), l[i]? = some a → ∃ b, r[i]? = some b ∧ R a b := by
  induction h with
  | nil => intro i b h; simp at h
  | cons h1 _ ih =>
    intro i b h
    cases i with
    | zero => simp only [List.getElem?_cons_zero, Option.some.injEq] at h ⊢; subst h; exact ⟨_, rfl, h1⟩
    | succ i => simpa using ih i b (by simpa using h)

end Peano
