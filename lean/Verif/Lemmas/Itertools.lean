import Mathlib.Data.List.Basic
import Mathlib.Data.List.Perm.Basic
import Mathlib.Data.List.Nodup
import Mathlib.Data.List.Sublists
import Mathlib.Data.List.Forall2
import Verif.Model.Itertools

/- Facts about the `itertools` model. -/
namespace Peano.Itertools

variable {α : Type*}

theorem mem_product {x : List α} {ls : List (List α)} : x ∈ product ls ↔ List.Forall₂ (· ∈ ·) x ls := by
  induction ls generalizing x with
  | nil => simp [product]
  | cons l ls ih =>
    simp only [product, List.mem_flatMap, List.mem_map]
    constructor
    · rintro ⟨a, ha, y, hy, rfl⟩
      exact List.Forall₂.cons ha (ih.1 hy)
    · intro h
      cases h with
      | cons ha hy => exact ⟨_, ha, _, ih.2 hy, rfl⟩

theorem nodup_product {ls : List (List α)} (h : ∀ l ∈ ls, l.Nodup) : (product ls).Nodup := by
  induction ls with
  | nil => simp [product]
  | cons l ls ih =>
    simp only [product]
    have ih' := ih fun l' hl' => h l' (List.mem_cons_of_mem _ hl')
    rw [List.nodup_flatMap]
    refine ⟨fun a _ => ih'.map fun x y h => (List.cons.inj h).2, ?_⟩
    refine (h l List.mem_cons_self).imp ?_
    intro a b hab
    simp only [Function.onFun, List.disjoint_left, List.mem_map, not_exists, not_and]
    rintro x ⟨y, _, rfl⟩ z _ h
    exact hab (List.cons.inj h).1.symm

theorem length_product (ls : List (List α)) : (product ls).length = (ls.map List.length).prod := by
  induction ls with
  | nil => rfl
  | cons l ls ih =>
    simp [product, List.length_flatMap, ih, List.map_const']

theorem mem_productRepeat {x l : List α} {n : ℕ} : x ∈ productRepeat l n ↔ x.length = n ∧ ∀ a ∈ x, a ∈ l := by
  unfold productRepeat
  rw [mem_product]
  induction n generalizing x with
  | zero => cases x <;> simp
  | succ n ih =>
    cases x with
    | nil => simp [List.replicate_succ]
    | cons a x =>
      simp only [List.replicate_succ, List.forall₂_cons, ih, List.length_cons, List.mem_cons, forall_eq_or_imp]
      constructor
      · rintro ⟨h1, h2, h3⟩; exact ⟨by omega, h1, h3⟩
      · rintro ⟨h1, h2, h3⟩; exact ⟨h2, by omega, h3⟩

theorem nodup_productRepeat {l : List α} (h : l.Nodup) (n : ℕ) : (productRepeat l n).Nodup :=
  nodup_product fun l' hl' => by rw [List.eq_of_mem_replicate hl']; exact h

theorem length_productRepeat (l : List α) (n : ℕ) : (productRepeat l n).length = l.length ^ n := by
  simp [productRepeat, length_product]

theorem picks_perm {l : List α} {p : α × List α} (h : p ∈ picks l) : (p.1 :: p.2).Perm l := by
  induction l generalizing p with
  | nil => simp [picks] at h
  | cons a l ih =>
    simp only [picks, List.mem_cons, List.mem_map] at h
    rcases h with rfl | ⟨q, hq, rfl⟩
    · exact List.Perm.refl _
    · exact (List.Perm.swap _ _ _).trans ((ih hq).cons a)

theorem exists_picks {l : List α} {a : α} (h : a ∈ l) : ∃ r, (a, r) ∈ picks l := by
  induction l with
  | nil => simp at h
  | cons b l ih =>
    rcases List.mem_cons.1 h with rfl | h
    · exact ⟨l, by simp [picks]⟩
    · obtain ⟨r, hr⟩ := ih h
      exact ⟨b :: r, by simp [picks]; exact Or.inr hr⟩

theorem length_picks (l : List α) : (picks l).length = l.length := by
  induction l with
  | nil => rfl
  | cons a l ih => simp [picks, ih]

theorem map_fst_picks (l : List α) : (picks l).map Prod.fst = l := by
  induction l with
  | nil => rfl
  | cons a l ih => simp [picks, Function.comp_def]; exact ih

theorem mem_permutationsAux {n : ℕ} {l x : List α} (hn : l.length = n) : x ∈ permutationsAux n l ↔ x.Perm l := by
  induction n generalizing l x with
  | zero =>
    have : l = [] := List.length_eq_zero_iff.1 hn
    subst this
    simp [permutationsAux]
  | succ n ih =>
    simp only [permutationsAux, List.mem_flatMap, List.mem_map]
    constructor
    · rintro ⟨p, hp, y, hy, rfl⟩
      have hpp := picks_perm hp
      have hl : p.2.length = n := by have := hpp.length_eq; simp at this; omega
      exact (((ih hl).1 hy).cons p.1).trans hpp
    · intro h
      cases x with
      | nil => have := h.length_eq; simp at this; omega
      | cons a x =>
        have ha : a ∈ l := h.subset List.mem_cons_self
        obtain ⟨r, hr⟩ := exists_picks ha
        have hpp := picks_perm hr
        have hl : r.length = n := by have := hpp.length_eq; simp at this; omega
        exact ⟨_, hr, x, (ih hl).2 (List.Perm.cons_inv (h.trans hpp.symm)), rfl⟩

theorem mem_permutations {l x : List α} : x ∈ permutations l ↔ x.Perm l := mem_permutationsAux rfl

theorem nodup_permutationsAux {n : ℕ} {l : List α} (hn : l.length = n) (hl : l.Nodup) : (permutationsAux n l).Nodup := by
  induction n generalizing l with
  | zero => simp [permutationsAux]
  | succ n ih =>
    simp only [permutationsAux]
    rw [List.nodup_flatMap]
    refine ⟨?_, ?_⟩
    · intro p hp
      have hpp := picks_perm hp
      have hlen : p.2.length = n := by have := hpp.length_eq; simp at this; omega
      have hnd : p.2.Nodup := ((hpp.nodup_iff).2 hl).of_cons
      exact (ih hlen hnd).map fun x y h => (List.cons.inj h).2
    · have h1 : ((picks l).map Prod.fst).Nodup := by rw [map_fst_picks]; exact hl
      have h2 := List.pairwise_map.1 h1
      refine h2.imp ?_
      intro a b hab
      simp only [Function.onFun, List.disjoint_left, List.mem_map, not_exists, not_and]
      rintro x ⟨y, _, rfl⟩ z _ h
      exact hab (List.cons.inj h).1.symm

theorem nodup_permutations {l : List α} (hl : l.Nodup) : (permutations l).Nodup := nodup_permutationsAux rfl hl

theorem length_permutationsAux {n : ℕ} {l : List α} (hn : l.length = n) : (permutationsAux n l).length = n.factorial := by
  induction n generalizing l with
  | zero => rfl
  | succ n ih =>
    simp only [permutationsAux, List.length_flatMap, List.length_map]
    have : (picks l).map (fun p => (permutationsAux n p.2).length) = (picks l).map fun _ => n.factorial := by
      apply List.map_congr_left
      intro p hp
      have hlen : p.2.length = n := by have := (picks_perm hp).length_eq; simp at this; omega
      exact ih hlen
    rw [this]
    simp [List.map_const', length_picks, hn, Nat.factorial_succ]

theorem length_permutations (l : List α) : (permutations l).length = l.length.factorial := length_permutationsAux rfl

theorem mem_combinations {l x : List α} {r : ℕ} : x ∈ combinations l r ↔ x.Sublist l ∧ x.length = r := by
  induction l generalizing x r with
  | nil => cases r <;> cases x <;> simp [combinations]
  | cons a l ih =>
    cases r with
    | zero => cases x <;> simp [combinations]
    | succ r =>
      simp only [combinations, List.mem_append, List.mem_map, ih]
      constructor
      · rintro (⟨y, ⟨h1, h2⟩, rfl⟩ | ⟨h1, h2⟩)
        · exact ⟨h1.cons_cons a, by simp [h2]⟩
        · exact ⟨h1.cons a, h2⟩
      · rintro ⟨h1, h2⟩
        cases h1 with
        | cons _ h => exact Or.inr ⟨h, h2⟩
        | cons_cons _ h => exact Or.inl ⟨_, ⟨h, by simpa using h2⟩, rfl⟩

theorem nodup_combinations {l : List α} (hl : l.Nodup) (r : ℕ) : (combinations l r).Nodup := by
  induction l generalizing r with
  | nil => cases r <;> simp [combinations]
  | cons a l ih =>
    cases r with
    | zero => simp [combinations]
    | succ r =>
      rw [List.nodup_cons] at hl
      simp only [combinations]
      refine List.Nodup.append ((ih hl.2 r).map fun x y h => (List.cons.inj h).2) (ih hl.2 _) ?_
      simp only [List.disjoint_left, List.mem_map]
      rintro x ⟨y, hy, rfl⟩ hx
      exact hl.1 ((mem_combinations.1 hx).1.subset List.mem_cons_self)

end Peano.Itertools
