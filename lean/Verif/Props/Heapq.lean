import Verif.Model.Heapq
import Verif.Props.Heap
import Verif.Props.Results

set_option autoImplicit false

/-
Property C83: `heapq` of CPython meets the contract of the heaps.
-/
namespace Peano.Heapq
variable {α : Type} {lt : α → α → Bool}

/-- `<` is a strict weak order. -/
structure Order (lt : α → α → Bool) : Prop where
  asymm : ∀ {a b}, lt a b = true → lt b a = false
  trans : ∀ {a b c}, lt b a = false → lt c b = false → lt c a = false

/-- The item at every position but the first is not smaller than the item at `(i - 1) >> 1`. -/
def IsHeap (lt : α → α → Bool) (h : List α) : Prop := ∀ i a b, 0 < i → h[i]? = some a → h[(i - 1) / 2]? = some b → lt a b = false

theorem set_perm {h : List α} {i j : ℕ} {x y : α} (hij : i ≠ j) (hi : i < h.length) (hj : h[j]? = some y) : ((h.set i y).set j x).Perm (h.set i x) := by
  obtain ⟨hj1, hj2⟩ := List.getElem?_eq_some_iff.1 hj
  have key := List.set_set_perm (as := h.set i x) (i := i) (j := j) (by simpa using hi) (by simpa using hj1)
  rw [List.getElem_set_ne hij (by simpa using hj1), List.getElem_set_self, List.set_set, hj2] at key
  exact key

theorem siftDown_perm (x : α) : ∀ (pos : ℕ) (h : List α), pos < h.length → (siftDown lt x h pos).Perm (h.set pos x) := by
  intro pos
  induction pos using Nat.strong_induction_on with
  | _ pos ih =>
    intro h hpos
    unfold siftDown
    split
    · exact List.Perm.refl _
    · split
      · exact List.Perm.refl _
      · rename_i p hp
        split
        · refine (ih _ (by omega) _ ?_).trans (set_perm (by omega) hpos hp)
          simp only [List.length_set]
          omega
        · exact List.Perm.refl _

theorem siftDown_heap (O : Order lt) (x : α) : ∀ (pos : ℕ) (h : List α), pos < h.length →
    (∀ i a b, 0 < i → i ≠ pos → (h.set pos x)[i]? = some a → (h.set pos x)[(i - 1) / 2]? = some b → lt a b = false) →
    (∀ i a b, 0 < pos → 0 < i → (i - 1) / 2 = pos → h[i]? = some a → h[(pos - 1) / 2]? = some b → lt a b = false) → IsHeap lt (siftDown lt x h pos) := by
  intro pos
  induction pos using Nat.strong_induction_on with
  | _ pos ih =>
    intro h hpos h1 h2
    unfold siftDown
    split
    · rename_i h0
      intro i a b hi
      exact h1 i a b hi (by omega)
    · rename_i h0
      have hpar : (pos - 1) / 2 < pos := by omega
      split
      · rename_i hn
        rw [List.getElem?_eq_none_iff] at hn
        omega
      · rename_i p hp
        split
        · rename_i hlt
          have hxp := O.asymm hlt
          refine ih _ hpar _ (by simp only [List.length_set]; omega) ?_ ?_
          · intro i a b hi hne ha hb
            have hs := h1 i
            simp only [List.getElem?_set, List.length_set] at ha hb hs
            rw [if_neg (Ne.symm hne)] at ha
            by_cases hip : i = pos
            · subst hip
              rw [if_pos rfl, if_pos hpos] at ha
              rw [if_pos rfl, if_pos (by omega)] at hb
              cases ha; cases hb
              exact hxp
            · rw [if_neg (Ne.symm hip)] at ha
              by_cases hc : (i - 1) / 2 = pos
              · rw [if_neg (by omega), if_pos hc.symm, if_pos hpos] at hb
                cases hb
                exact h2 i a p (by omega) hi hc ha hp
              · by_cases hc2 : (i - 1) / 2 = (pos - 1) / 2
                · rw [if_pos hc2.symm, if_pos (by omega)] at hb
                  cases hb
                  have := h1 i a p hi hip (by rw [List.getElem?_set_ne (Ne.symm hip)]; exact ha) (by rw [List.getElem?_set_ne (by omega), hc2]; exact hp)
                  exact O.trans hxp this
                · rw [if_neg (Ne.symm hc2), if_neg (Ne.symm hc)] at hb
                  exact h1 i a b hi hip (by rw [List.getElem?_set_ne (Ne.symm hip)]; exact ha) (by rw [List.getElem?_set_ne (Ne.symm hc)]; exact hb)
          · intro i a b hq hi hc ha hb
            rw [List.getElem?_set_ne (by omega)] at hb
            have hpb : lt p b = false :=
              h1 _ p b hq (by omega) (by rw [List.getElem?_set_ne (by omega)]; exact hp) (by rw [List.getElem?_set_ne (by omega)]; exact hb)
            by_cases hip : i = pos
            · subst hip
              rw [List.getElem?_set_self hpos] at ha
              cases ha
              exact hpb
            · rw [List.getElem?_set_ne (Ne.symm hip)] at ha
              have := h1 i a p hi hip (by rw [List.getElem?_set_ne (Ne.symm hip)]; exact ha) (by rw [List.getElem?_set_ne (by omega), hc]; exact hp)
              exact O.trans hpb this
        · rename_i hlt
          intro i a b hi ha hb
          by_cases hip : i = pos
          · subst hip
            rw [List.getElem?_set_self hpos] at ha
            rw [List.getElem?_set_ne (by omega), hp] at hb
            cases ha; cases hb
            simpa using hlt
          · exact h1 i a b hi hip ha hb

theorem siftUp_some {x y : α} {h : List α} {pos : ℕ} (hy : h[child lt h pos]? = some y) : siftUp lt x h pos = siftUp lt x (h.set pos y) (child lt h pos) := by
  rw [siftUp]
  split
  · rename_i z hz
    rw [hy] at hz
    cases hz
    rfl
  · rename_i hz
    rw [hy] at hz
    cases hz

theorem siftUp_none {x : α} {h : List α} {pos : ℕ} (hy : h[child lt h pos]? = none) : siftUp lt x h pos = siftDown lt x h pos := by
  rw [siftUp]
  split
  · rename_i z hz
    rw [hy] at hz
    cases hz
  · rfl

theorem siftUp_perm (x : α) : ∀ (n pos : ℕ) (h : List α), h.length - pos ≤ n → pos < h.length → (siftUp lt x h pos).Perm (h.set pos x) := by
  intro n
  induction n with
  | zero => intro pos h h1 h2; omega
  | succ n ih =>
    intro pos h h1 hpos
    have hg := child_gt lt h pos
    unfold siftUp
    split
    · rename_i y hy
      have hl := (List.getElem?_eq_some_iff.1 hy).1
      refine (ih _ _ (by simp only [List.length_set]; omega) (by simpa using hl)).trans (set_perm (by omega) hpos hy)
    · exact siftDown_perm x _ _ hpos

/-- The chosen child is the smaller one. -/
theorem child_spec (O : Order lt) {h : List α} {pos : ℕ} {y : α} (hy : h[child lt h pos]? = some y) :
    (child lt h pos - 1) / 2 = pos ∧ ∀ i a, 0 < i → (i - 1) / 2 = pos → h[i]? = some a → i ≠ child lt h pos → lt a y = false := by
  revert hy
  unfold child
  split
  · rename_i u v hu hv
    split
    · rename_i hlt
      intro hy
      rw [hu] at hy
      cases hy
      refine ⟨by omega, fun i a hi hc ha hne => ?_⟩
      obtain rfl : i = 2 * pos + 2 := by omega
      rw [hv] at ha
      cases ha
      exact O.asymm hlt
    · rename_i hlt
      intro hy
      rw [hv] at hy
      cases hy
      refine ⟨by omega, fun i a hi hc ha hne => ?_⟩
      obtain rfl : i = 2 * pos + 1 := by omega
      rw [hu] at ha
      cases ha
      simpa using hlt
  · rename_i hno
    intro hy
    refine ⟨by omega, fun i a hi hc ha hne => ?_⟩
    obtain rfl : i = 2 * pos + 2 := by omega
    exact absurd ha (hno y a hy)

theorem child_none {h : List α} {pos : ℕ} (hy : h[child lt h pos]? = none) : ∀ i, 0 < i → (i - 1) / 2 = pos → h[i]? = none := by
  intro i hi hc
  rw [List.getElem?_eq_none_iff] at hy ⊢
  have : child lt h pos = 2 * pos + 1 ∨ child lt h pos = 2 * pos + 2 ∧ 2 * pos + 2 < h.length := by
    unfold child
    split
    · rename_i u v hu hv
      have := (List.getElem?_eq_some_iff.1 hv).1
      split
      · exact .inl rfl
      · exact .inr ⟨rfl, this⟩
    · exact .inl rfl
  omega

theorem siftUp_heap (O : Order lt) (x : α) : ∀ (n pos : ℕ) (h : List α), h.length - pos ≤ n → pos < h.length →
    (∀ i a b, 0 < i → i ≠ pos → (i - 1) / 2 ≠ pos → h[i]? = some a → h[(i - 1) / 2]? = some b → lt a b = false) →
    (∀ i a b, 0 < pos → 0 < i → (i - 1) / 2 = pos → h[i]? = some a → h[(pos - 1) / 2]? = some b → lt a b = false) → IsHeap lt (siftUp lt x h pos) := by
  intro n
  induction n with
  | zero => intro pos h h1 h2; omega
  | succ n ih =>
    intro pos h hn hpos h1 h2
    have hg := child_gt lt h pos
    unfold siftUp
    split
    · rename_i y hy
      have hl := (List.getElem?_eq_some_iff.1 hy).1
      obtain ⟨e1, e2⟩ := child_spec O hy
      refine ih _ _ (by simp only [List.length_set]; omega) (by simpa using hl) ?_ ?_
      · intro i a b hi hne hcne ha hb
        by_cases hip : i = pos
        · subst hip
          rw [List.getElem?_set_self hpos] at ha
          rw [List.getElem?_set_ne (by omega)] at hb
          cases ha
          exact h2 _ y b hi (by omega) e1 hy hb
        · rw [List.getElem?_set_ne (Ne.symm hip)] at ha
          by_cases hc : (i - 1) / 2 = pos
          · rw [hc, List.getElem?_set_self hpos] at hb
            cases hb
            exact e2 i a hi hc ha hne
          · rw [List.getElem?_set_ne (Ne.symm hc)] at hb
            exact h1 i a b hi hip hc ha hb
      · intro i a b _ hi hc ha hb
        rw [e1, List.getElem?_set_self hpos] at hb
        cases hb
        rw [List.getElem?_set_ne (by omega)] at ha
        exact h1 i a y hi (by omega) (by omega) ha (by rw [hc]; exact hy)
    · rename_i hy
      have hno := child_none hy
      refine siftDown_heap O x _ _ hpos ?_ ?_
      · intro i a b hi hip ha hb
        rw [List.getElem?_set_ne (Ne.symm hip)] at ha
        by_cases hc : (i - 1) / 2 = pos
        · rw [hno i hi hc] at ha
          cases ha
        · rw [List.getElem?_set_ne (Ne.symm hc)] at hb
          exact h1 i a b hi hip hc ha hb
      · intro i a b _ hi hc ha
        rw [hno i hi hc] at ha
        cases ha

/-- C83. After `heappush` the list is a heap again, with the item added. -/
theorem C83_push (O : Order lt) (h : List α) (x : α) (hh : IsHeap lt h) : IsHeap lt (push lt h x) ∧ (push lt h x).Perm (x :: h) := by
  have hset : (h ++ [x]).set h.length x = h ++ [x] := by simp
  refine ⟨siftDown_heap O x _ _ (by simp) ?_ ?_, ?_⟩
  · rw [hset]
    intro i a b hi hne ha hb
    have hl := (List.getElem?_eq_some_iff.1 ha).1
    rw [List.length_append, List.length_singleton] at hl
    rw [List.getElem?_append_left (by omega)] at ha hb
    exact hh i a b hi ha hb
  · intro i a b hpos hi hc ha
    have hl := (List.getElem?_eq_some_iff.1 ha).1
    rw [List.length_append, List.length_singleton] at hl
    omega
  · refine (siftDown_perm x _ _ (by simp)).trans ?_
    rw [hset]
    exact List.perm_append_singleton x h

/-- C83. The first item of a heap is a least one. -/
theorem C83_first (O : Order lt) (x : α) (h : List α) (hh : IsHeap lt (x :: h)) : ∀ y ∈ h, lt y x = false := by
  have key : ∀ i a, (x :: h)[i]? = some a → 0 < i → lt a x = false := by
    intro i
    induction i using Nat.strong_induction_on with
    | _ i ih =>
      intro a ha hi
      have hl := (List.getElem?_eq_some_iff.1 ha).1
      have hb := List.getElem?_eq_getElem (l := x :: h) (i := (i - 1) / 2) (by omega)
      have h1 := hh i a _ hi ha hb
      by_cases h0 : (i - 1) / 2 = 0
      · have hx : (x :: h)[(i - 1) / 2]? = some x := by rw [h0]; rfl
        exact hh i a x hi ha hx
      · exact O.trans (ih _ (by omega) _ hb (by omega)) h1
  intro y hy
  obtain ⟨i, hi⟩ := List.mem_iff_getElem?.1 hy
  exact key (i + 1) y (by simpa using hi) (by omega)

/-- C83. `heappop` returns the first item and leaves a heap of the others. -/
theorem C83_pop (O : Order lt) (x : α) (h : List α) (hh : IsHeap lt (x :: h)) :
    ∃ h', pop lt (x :: h) = some (x, h') ∧ h'.Perm h ∧ IsHeap lt h' := by
  rcases List.eq_nil_or_concat h with rfl | ⟨t, last, rfl⟩
  · refine ⟨[], by simp [pop], List.Perm.refl _, fun i a b _ ha => by simp at ha⟩
  · rw [List.concat_eq_append] at hh ⊢
    have e : x :: (t ++ [last]) = (x :: t) ++ [last] := rfl
    refine ⟨siftUp lt last (last :: t) 0, ?_, ?_, ?_⟩
    · rw [e]
      simp only [pop, List.getLast?_concat, List.dropLast_concat]
    · refine (siftUp_perm last _ _ _ le_rfl (by simp)).trans ?_
      simp only [List.set_cons_zero]
      exact (List.perm_append_singleton last t).symm
    · refine siftUp_heap O last _ _ _ le_rfl (by simp) ?_ fun i a b h0 => by omega
      intro i a b hi _ hc ha hb
      have hl := (List.getElem?_eq_some_iff.1 ha).1
      simp only [List.length_cons] at hl
      have g : ∀ j, 0 < j → j < t.length + 1 → (x :: (t ++ [last]))[j]? = (last :: t)[j]? := by
        intro j hj hj2
        obtain ⟨k, rfl⟩ : ∃ k, j = k + 1 := ⟨j - 1, by omega⟩
        simp only [List.getElem?_cons_succ]
        rw [List.getElem?_append_left (by omega)]
      exact hh i a b hi (by rw [g i hi hl]; exact ha) (by rw [g _ (by omega) (by omega)]; exact hb)

/-- C83. `heapq` meets the contract. -/
def heapq (O : Order lt) : HeapQ α lt where
  Valid := IsHeap lt
  push := push lt
  pop := pop lt
  valid_nil := fun i a b _ ha => by simp at ha
  valid_push := fun h x hh => (C83_push O h x hh).1
  push_perm := fun h x hh => (C83_push O h x hh).2
  first_le := C83_first O
  pop_nil := rfl
  pop_cons := C83_pop O

/-- Nodes of `BoundedItemsHeap`, _bounded_items_heap.py:104. -/
theorem order_node (T : Type) : Order (HNode.lt (T := T)) := ⟨HNode.lt_asymm', HNode.lt_trans'⟩

/-- Items of `estimate_dilation_sequence`, dilation.py:688-693. -/
theorem order_seq (d : ℕ) : Order (Dilation.SeqItem.lt (d := d)) := by
  refine ⟨fun {a b} h => ?_, fun {a b c} h1 h2 => ?_⟩
  · rw [← Dilation.SeqItem.node_lt] at h ⊢
    exact HNode.lt_asymm' h
  · rw [← Dilation.SeqItem.node_lt] at h1 h2 ⊢
    exact HNode.lt_trans' h1 h2

/-- All items are pushed, then all are popped; `none` would be IndexError. -/
def pushAll (lt : α → α → Bool) (l : List α) : List α := l.foldl (push lt) []

def popAll (lt : α → α → Bool) : ℕ → List α → Option (List α)
  | 0, _ => some []
  | n + 1, h => do
    let (x, h') ← pop lt h
    let rest ← popAll lt n h'
    return x :: rest

/-- C83. Items leave the heap in order, each once: whatever is pushed, popping the same number of times succeeds and gives the items sorted. -/
theorem C83_sorted (O : Order lt) (l : List α) : ∃ out, popAll lt l.length (pushAll lt l) = some out ∧ out.Perm l ∧ out.Pairwise fun a b => lt b a = false := by
  have h1 : ∀ (l h : List α), IsHeap lt h → IsHeap lt (l.foldl (push lt) h) ∧ (l.foldl (push lt) h).Perm (l ++ h) := by
    intro l
    induction l with
    | nil => intro h hh; exact ⟨hh, List.Perm.refl _⟩
    | cons x l ih =>
      intro h hh
      obtain ⟨a, b⟩ := C83_push O h x hh
      obtain ⟨c, e⟩ := ih _ a
      exact ⟨c, e.trans ((b.append_left l).trans List.perm_middle)⟩
  have h2 : ∀ (n : ℕ) (h : List α), h.length = n → IsHeap lt h → ∃ out, popAll lt n h = some out ∧ out.Perm h ∧ out.Pairwise fun a b => lt b a = false := by
    intro n
    induction n with
    | zero => intro h hl _; exact ⟨[], rfl, by rw [List.eq_nil_of_length_eq_zero hl], List.Pairwise.nil⟩
    | succ n ih =>
      intro h hl hh
      match h, hl, hh with
      | x :: h, hl, hh =>
        obtain ⟨h', a, b, c⟩ := C83_pop O x h hh
        obtain ⟨out, e1, e2, e3⟩ := ih h' (by rw [b.length_eq]; simpa using hl) c
        refine ⟨x :: out, by simp [popAll, a, e1], (e2.trans b).cons x, List.pairwise_cons.2 ⟨fun y hy => ?_, e3⟩⟩
        exact C83_first O x h hh y ((e2.trans b).mem_iff.1 hy)
  obtain ⟨a, b⟩ := h1 l [] fun i a b _ ha => by simp at ha
  rw [List.append_nil] at b
  obtain ⟨out, e1, e2, e3⟩ := h2 l.length (pushAll lt l) b.length_eq a
  exact ⟨out, e1, e2.trans b, e3⟩

/-- C83. So the results about the estimators hold with `heapq`; for instance the script YE-proof.py with these heaps, whatever the solver and the hash functions are. -/
theorem C83_script (S : SatSolver) (hash : Search.Hashes 1) (nextSat : ℕ → ℕ) : ∃ fuel0, ∀ fuel, fuel0 ≤ fuel →
    ∀ lo, YeProof.Printed .l2 (heapq (order_node _)) (heapq (order_seq 2)) S hash nextSat fuel lo → 408 / 73 < lo := by
  obtain ⟨f0, h⟩ := C77_script (heapq (order_node _)) (heapq (order_seq 2)) S hash nextSat
  exact ⟨f0, fun fuel hf => (h fuel hf).2.2.2⟩

/-- `<` of natural numbers, and the lists that CPython makes. -/
example : Order (fun a b : ℕ => decide (a < b)) := ⟨fun h => by simp at h ⊢; omega, fun h1 h2 => by simp at h1 h2 ⊢; omega⟩

example : pushAll (fun a b : ℕ => decide (a < b)) [5, 3, 8, 1, 9, 2] = [1, 3, 2, 5, 9, 8] ∧
    pop (fun a b : ℕ => decide (a < b)) [1, 3, 2, 5, 9, 8] = some (1, [2, 3, 8, 5, 9]) := by
  refine ⟨by simp [pushAll, push, siftDown], ?_⟩
  have e : pop (fun a b : ℕ => decide (a < b)) [1, 3, 2, 5, 9, 8] = some (1, siftUp (fun a b : ℕ => decide (a < b)) 8 [8, 3, 2, 5, 9] 0) := rfl
  rw [e, siftUp_some (y := 2) rfl, siftUp_none rfl]
  simp [siftDown, child]

end Peano.Heapq
