import Verif.Model.Dict
import Mathlib.Data.List.Nodup
import Mathlib.Data.List.Pairwise

/-! Lemmas about dictionaries. -/
namespace Peano
namespace Dict
variable {α β : Type} [DecidableEq α]

theorem get?_append (k k' : α) (v : β) (l : List (α × List β)) :
    get? k' (append k v l) = if k = k' then some ((get? k l).getD [] ++ [v]) else get? k' l := by
  induction l with
  | nil => simp [append, get?]
  | cons e l ih =>
    obtain ⟨a, w⟩ := e
    unfold append
    by_cases h : a = k
    · subst h
      by_cases h' : a = k' <;> simp [get?, h']
    · simp only [h, if_false, get?, ih]
      by_cases h' : k = k'
      · subst h'; simp [h]
      · simp [h']

theorem keys_append (k : α) (v : β) (l : List (α × List β)) (x : α) :
    x ∈ (append k v l).map Prod.fst ↔ x = k ∨ x ∈ l.map Prod.fst := by
  induction l with
  | nil => simp [append]
  | cons e l ih =>
    obtain ⟨a, w⟩ := e
    unfold append
    split
    · rename_i h; subst h; simp
    · rw [List.map_cons, List.mem_cons, ih, List.map_cons, List.mem_cons]; tauto

theorem nodup_append (k : α) (v : β) (l : List (α × List β)) (h : (l.map Prod.fst).Nodup) :
    ((append k v l).map Prod.fst).Nodup := by
  induction l with
  | nil => simp [append]
  | cons e l ih =>
    obtain ⟨a, w⟩ := e
    rw [List.map_cons, List.nodup_cons] at h
    unfold append
    split
    · rw [List.map_cons, List.nodup_cons]; exact h
    · rename_i hne
      rw [List.map_cons, List.nodup_cons]
      refine ⟨?_, ih h.2⟩
      rw [keys_append]
      rintro (h' | h')
      · exact hne h'
      · exact h.1 h'

theorem mem_iff_get? {l : List (α × β)} (h : (l.map Prod.fst).Nodup) {k : α} {v : β} : (k, v) ∈ l ↔ get? k l = some v := by
  induction l with
  | nil => simp [get?]
  | cons e l ih =>
    obtain ⟨a, w⟩ := e
    rw [List.map_cons, List.nodup_cons] at h
    by_cases ha : a = k
    · subst ha
      simp only [List.mem_cons, Prod.mk.injEq, true_and, get?, if_true, Option.some.injEq]
      constructor
      · rintro (h1 | h1)
        · exact h1.symm
        · exact absurd (List.mem_map_of_mem (f := Prod.fst) h1) h.1
      · intro h1; exact Or.inl h1.symm
    · have : k ≠ a := fun e => ha e.symm
      simp [get?, ha, this, ih h.2]

theorem get?_eq_none {l : List (α × β)} {k : α} : get? k l = none ↔ k ∉ l.map Prod.fst := by
  induction l with
  | nil => simp [get?]
  | cons e l ih =>
    obtain ⟨a, w⟩ := e
    by_cases ha : a = k
    · subst ha; simp [get?]
    · have : k ≠ a := fun e => ha e.symm
      rw [get?, if_neg ha, ih, List.map_cons, List.mem_cons, not_or]
      exact ⟨fun h => ⟨this, h⟩, fun h => h.2⟩

theorem get?_set (k k' : α) (v : β) (l : List (α × β)) : get? k' (set k v l) = if k = k' then some v else get? k' l := by
  induction l with
  | nil => simp [set, get?]
  | cons e l ih =>
    obtain ⟨a, w⟩ := e
    unfold set
    by_cases h : a = k
    · subst h
      by_cases h' : a = k' <;> simp [get?, h']
    · simp only [h, if_false, get?, ih]
      by_cases h' : k = k'
      · subst h'; simp [h]
      · simp [h']

theorem keys_set (k : α) (v : β) (l : List (α × β)) (x : α) : x ∈ (set k v l).map Prod.fst ↔ x = k ∨ x ∈ l.map Prod.fst := by
  induction l with
  | nil => simp [set]
  | cons e l ih =>
    obtain ⟨a, w⟩ := e
    unfold set
    split
    · rename_i h; subst h; simp
    · rw [List.map_cons, List.mem_cons, ih, List.map_cons, List.mem_cons]; tauto

theorem nodup_set (k : α) (v : β) (l : List (α × β)) (h : (l.map Prod.fst).Nodup) : ((set k v l).map Prod.fst).Nodup := by
  induction l with
  | nil => simp [set]
  | cons e l ih =>
    obtain ⟨a, w⟩ := e
    rw [List.map_cons, List.nodup_cons] at h
    unfold set
    split
    · rw [List.map_cons, List.nodup_cons]; exact h
    · rename_i hne
      rw [List.map_cons, List.nodup_cons]
      refine ⟨?_, ih h.2⟩
      rw [keys_set]
      rintro (h' | h')
      · exact hne h'
      · exact h.1 h'

theorem groupBy_aux (key : β → α) (xs : List β) (acc : List (α × List β)) (hacc : (acc.map Prod.fst).Nodup) :
    ((xs.foldl (fun dict x => append (key x) x dict) acc).map Prod.fst).Nodup ∧
    ∀ k, get? k (xs.foldl (fun dict x => append (key x) x dict) acc) =
      if k ∈ acc.map Prod.fst ∨ (xs.filter fun x => key x = k) ≠ [] then some ((get? k acc).getD [] ++ xs.filter fun x => key x = k)
      else none := by
  induction xs generalizing acc with
  | nil =>
    refine ⟨hacc, fun k => ?_⟩
    simp only [List.foldl_nil, List.filter_nil, ne_eq, not_true_eq_false, or_false, List.append_nil]
    split
    · rename_i h
      cases hg : get? k acc with
      | none => exact absurd h (get?_eq_none.1 hg)
      | some v => rfl
    · rename_i h
      exact get?_eq_none.2 h
  | cons x xs ih =>
    obtain ⟨h1, h2⟩ := ih (append (key x) x acc) (nodup_append _ _ _ hacc)
    refine ⟨h1, fun k => ?_⟩
    rw [List.foldl_cons, h2, get?_append, List.filter_cons]
    by_cases hk : key x = k
    · subst hk
      have : key x ∈ (append (key x) x acc).map Prod.fst := (keys_append _ _ _ _).2 (Or.inl rfl)
      rw [if_pos (Or.inl this)]
      simp
    · have hk' : k ≠ key x := fun e => hk e.symm
      have : (k ∈ (append (key x) x acc).map Prod.fst) ↔ k ∈ acc.map Prod.fst := by
        rw [keys_append]
        exact ⟨fun h => h.resolve_left hk', Or.inr⟩
      simp only [this, hk, if_false, decide_false, Bool.false_eq_true]

theorem groupBy_nodup (key : β → α) (xs : List β) : ((groupBy key xs).map Prod.fst).Nodup := (groupBy_aux key xs [] (by simp)).1

theorem get?_groupBy (key : β → α) (xs : List β) (k : α) : (get? k (groupBy key xs)).getD [] = xs.filter fun x => key x = k := by
  have := (groupBy_aux key xs [] (by simp)).2 k
  unfold groupBy
  rw [this]
  simp only [List.map_nil, List.not_mem_nil, false_or, get?, Option.getD_none, List.nil_append]
  split
  · rfl
  · rename_i h
    simp only [ne_eq, not_not] at h
    rw [h]; rfl

theorem mem_groupBy (key : β → α) (xs : List β) (k : α) (v : List β) :
    (k, v) ∈ groupBy key xs ↔ v = (xs.filter fun x => key x = k) ∧ v ≠ [] := by
  rw [mem_iff_get? (groupBy_nodup key xs)]
  have := (groupBy_aux key xs [] (by simp)).2 k
  unfold groupBy
  rw [this]
  simp only [List.map_nil, List.not_mem_nil, false_or, get?, Option.getD_none, List.nil_append]
  split
  · rename_i h
    rw [Option.some.injEq]
    constructor
    · rintro rfl; exact ⟨rfl, h⟩
    · rintro ⟨rfl, _⟩; rfl
  · rename_i h
    simp only [ne_eq, not_not] at h
    simp only [reduceCtorEq, false_iff, not_and, ne_eq, not_not]
    rintro rfl
    exact h

/-- groups with different keys are disjoint -/
theorem groupBy_pairwise (key : β → α) (xs : List β) :
    (groupBy key xs).Pairwise fun e e' => ∀ x ∈ e.2, ∀ y ∈ e'.2, key x ≠ key y := by
  have h := groupBy_nodup key xs
  rw [List.Nodup, List.pairwise_map] at h
  refine List.Pairwise.imp_of_mem ?_ h
  rintro ⟨k, v⟩ ⟨k', v'⟩ h1 h2 hne x hx y hy
  rw [mem_groupBy] at h1 h2
  simp only [h1.1, h2.1, List.mem_filter, decide_eq_true_eq] at hx hy
  rw [hx.2, hy.2]
  exact hne

end Dict
end Peano
