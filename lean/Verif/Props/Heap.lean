import Verif.Lemmas.Heap
import Mathlib.Data.List.Sort

set_option autoImplicit false

/-
Property C41: the heap of bounded items.
-/
namespace Peano
namespace ItemsHeap
variable {T : Type} [BoundedItem T]

open BoundedItem (lo up)

theorem reach_inv {Q : HeapQ (HNode T) HNode.lt} {goodThr badThr : Option ℚ} {keepMax : Bool} {h : ItemsHeap T} {L : Ledger T}
    (hr : Reach Q goodThr badThr keepMax h L) :
    Inv Q h ∧ MaxInv h L.pushed ∧ h.badThr = badThr ∧ h.keepMax = keepMax ∧ (∀ thr, goodThr = some thr → ∃ thr', h.goodThr = some thr' ∧ thr ≤ thr') ∧
      (∀ x ∈ L.taken, ∃ thr, h.badThr = some thr ∧ thr ≤ lo x) ∧
      ∃ dropped : Multiset T, L.pushed = (h.items : Multiset T) + L.popped + ((h.badItems : Multiset T) + L.taken) + dropped ∧
        ∀ x ∈ dropped, ∃ thr, h.goodThr = some thr ∧ up x ≤ thr := by
  induction hr with
  | init =>
    refine ⟨inv_init _ _ _, fun _ => ⟨by simp, by simp [init]⟩, rfl, rfl, fun thr h => ⟨thr, h, le_refl _⟩, by simp, 0, by simp [init, items], by simp⟩
  | push x _ ih =>
    rename_i h L _
    obtain ⟨h1, h2, h3, h4, h5, h6, dropped, h7, h8⟩ := ih
    obtain ⟨k1, k2⟩ := inv_push h1 x
    obtain ⟨f1, f2, f3, _⟩ := push_fields (Q := Q) h x
    rw [f1, f2, f3]
    refine ⟨k1, maxInv_push h2 x, h3, h4, h5, h6, ?_⟩
    simp only
    rcases k2 with ⟨thr, a, b, c, e⟩ | ⟨thr, a, b, c, e, f⟩ | ⟨a, b, c, e⟩
    · refine ⟨x ::ₘ dropped, ?_, ?_⟩
      · rw [Multiset.coe_eq_coe.2 c, e, h7, Multiset.add_cons]
      · intro y hy
        rw [Multiset.mem_cons] at hy
        rcases hy with rfl | hy
        · exact ⟨thr, a, b⟩
        · exact h8 y hy
    · refine ⟨dropped, ?_, h8⟩
      rw [Multiset.coe_eq_coe.2 e, f, h7, ← Multiset.coe_add, Multiset.coe_singleton, Multiset.add_assoc _ {x}, Multiset.singleton_add,
        Multiset.add_cons, Multiset.add_cons, Multiset.cons_add]
    · refine ⟨dropped, ?_, h8⟩
      rw [Multiset.coe_eq_coe.2 c, e, h7, ← Multiset.cons_coe, Multiset.cons_add, Multiset.cons_add, Multiset.cons_add]
  | pop _ he ih =>
    rename_i h h' L x _
    obtain ⟨h1, h2, h3, h4, h5, h6, dropped, h7, h8⟩ := ih
    rcases inv_pop h1 with ⟨_, _, k⟩ | ⟨y, h'', k1, k2, k3, k4, k5, k6, k7, k8, k9, k10, k11⟩
    · rw [k] at he; exact absurd he (by simp)
    · rw [k2] at he
      have he := Option.some.inj he
      rw [Prod.mk.injEq] at he
      obtain ⟨rfl, rfl⟩ := he
      rw [k7, k8, k9, k10]
      refine ⟨k6, ?_, h3, h4, h5, h6, dropped, ?_, h8⟩
      · unfold MaxInv; rw [k9, k11]; exact h2
      · rw [h7, Multiset.coe_eq_coe.2 k5, ← Multiset.cons_coe, Multiset.cons_add]
        simp only [Multiset.add_cons]
  | raise _ he ih =>
    rename_i h h' L thr _
    obtain ⟨h1, h2, h3, h4, h5, h6, dropped, h7, h8⟩ := ih
    obtain ⟨k1, k2, k3, k4, k5, k6, k7⟩ := inv_update h1 he
    have hP : ∀ x ∈ h.items, x ∈ L.pushed := by
      intro x hx
      rw [h7]
      simp [hx]
    obtain ⟨m1, m2⟩ := update_maxLo h2 hP he
    rw [k2, k3, k4, k5]
    refine ⟨k1, m1, h3, h4, ?_, h6, dropped + ((h.items.filter fun x => !decide (up x > thr) : List T) : Multiset T), ?_, ?_⟩
    · intro t ht
      obtain ⟨t', ht', hle⟩ := h5 t ht
      exact ⟨thr, rfl, hle.trans (k6 t' ht')⟩
    · rw [h7, Multiset.coe_eq_coe.2 k7]
      have : (h.items : Multiset T) = ((h.items.filter fun x => decide (up x > thr) : List T) : Multiset T) +
          ((h.items.filter fun x => !decide (up x > thr) : List T) : Multiset T) := by
        rw [Multiset.coe_add]
        exact Multiset.coe_eq_coe.2 (List.filter_append_perm _ _).symm
      rw [this]
      simp only [Multiset.add_assoc]
      congr 1
      rw [Multiset.add_comm]
      simp only [Multiset.add_assoc]
    · intro x hx
      rw [Multiset.mem_add] at hx
      refine ⟨thr, rfl, ?_⟩
      rcases hx with hx | hx
      · obtain ⟨t, ht, hle⟩ := h8 x hx
        exact hle.trans (k6 t ht)
      · rw [Multiset.mem_coe, List.mem_filter] at hx
        simpa using hx.2
  | popBad _ ih =>
    rename_i h L _
    obtain ⟨h1, h2, h3, h4, h5, h6, dropped, h7, h8⟩ := ih
    refine ⟨inv_popBad h1, h2, h3, h4, h5, ?_, dropped, ?_, h8⟩
    · intro x hx
      simp only [Multiset.mem_add, Multiset.mem_coe] at hx
      rcases hx with hx | hx
      · exact h1.bad x hx
      · exact h6 x hx
    · simp only [popBadItems]
      rw [h7]
      simp [items]

/-- C41. After any history of operations, whatever implementation of `heapq`: every pushed item is, with multiplicity, either active, or was
returned by `pop`, or is bad (still stored or handed out by `pop_bad_items`), or was dropped as good; dropped items have
`up <= good threshold`, bad ones have `lo >= bad threshold`; active items have `up > good threshold` and `lo < bad threshold`; the bad
threshold never changes and the good one never decreases. -/
theorem C41_bookkeeping (Q : HeapQ (HNode T) HNode.lt) (goodThr badThr : Option ℚ) (keepMax : Bool) (h : ItemsHeap T) (L : Ledger T)
    (hr : Reach Q goodThr badThr keepMax h L) :
    (∃ dropped : Multiset T, L.pushed = (h.items : Multiset T) + L.popped + ((h.badItems : Multiset T) + L.taken) + dropped ∧
        ∀ x ∈ dropped, ∃ thr, h.goodThr = some thr ∧ up x ≤ thr) ∧
      (∀ x ∈ (h.badItems : Multiset T) + L.taken, ∃ thr, badThr = some thr ∧ thr ≤ lo x) ∧
      (∀ x ∈ h.items, (∀ thr, h.goodThr = some thr → thr < up x) ∧ ∀ thr, badThr = some thr → lo x < thr) ∧
      h.size = h.items.length ∧ h.badThr = badThr ∧ (∀ thr, goodThr = some thr → ∃ thr', h.goodThr = some thr' ∧ thr ≤ thr') := by
  obtain ⟨h1, h2, h3, h4, h5, h6, h7⟩ := reach_inv hr
  refine ⟨h7, ?_, ?_, by simp [size, items], h3, h5⟩
  · intro x hx
    rw [Multiset.mem_add, Multiset.mem_coe] at hx
    rw [← h3]
    rcases hx with hx | hx
    · exact h1.bad x hx
    · exact h6 x hx
  · intro x hx
    rw [← h3]
    exact ⟨h1.not_good x hx, h1.not_bad x hx⟩

/-- C41. What `push` does with an item: a good one is dropped, otherwise a bad one is stored, any other becomes active. -/
theorem C41_push (Q : HeapQ (HNode T) HNode.lt) (goodThr badThr : Option ℚ) (keepMax : Bool) (h : ItemsHeap T) (L : Ledger T)
    (hr : Reach Q goodThr badThr keepMax h L) (x : T) :
    ((∃ thr, h.goodThr = some thr ∧ up x ≤ thr) → (h.push Q x).items.Perm h.items ∧ (h.push Q x).badItems = h.badItems) ∧
      ((¬ ∃ thr, h.goodThr = some thr ∧ up x ≤ thr) → (∃ thr, h.badThr = some thr ∧ thr ≤ lo x) →
        (h.push Q x).items.Perm h.items ∧ (h.push Q x).badItems = h.badItems ++ [x]) ∧
      ((¬ ∃ thr, h.goodThr = some thr ∧ up x ≤ thr) → (¬ ∃ thr, h.badThr = some thr ∧ thr ≤ lo x) →
        (h.push Q x).items.Perm (x :: h.items) ∧ (h.push Q x).badItems = h.badItems) ∧
      (h.push Q x).goodThr = h.goodThr := by
  obtain ⟨h1, _⟩ := reach_inv hr
  obtain ⟨f1, _⟩ := push_fields (Q := Q) h x
  refine ⟨?_, ?_, ?_, f1⟩
  · rintro ⟨thr, ht, hu⟩
    rcases (inv_push h1 x).2 with ⟨thr', a, b, c, e⟩ | ⟨thr', a, b, c, e, f⟩ | ⟨a, b, c, e⟩
    · exact ⟨c, e⟩
    · have := c thr ht; linarith
    · have := a thr ht; linarith
  · rintro hg ⟨thr, ht, hu⟩
    rcases (inv_push h1 x).2 with ⟨thr', a, b, c, e⟩ | ⟨thr', a, b, c, e, f⟩ | ⟨a, b, c, e⟩
    · exact absurd ⟨thr', a, b⟩ hg
    · exact ⟨e, f⟩
    · have := b thr ht; linarith
  · intro hg hb
    rcases (inv_push h1 x).2 with ⟨thr', a, b, c, e⟩ | ⟨thr', a, b, c, e, f⟩ | ⟨a, b, c, e⟩
    · exact absurd ⟨thr', a, b⟩ hg
    · exact absurd ⟨thr', a, b⟩ hb
    · exact ⟨c, e⟩

/-- C41. `top` and `pop` fail exactly if there is no active item; otherwise both give the same active item with the greatest upper bound,
and `pop` removes exactly that one. -/
theorem C41_top_pop (Q : HeapQ (HNode T) HNode.lt) (goodThr badThr : Option ℚ) (keepMax : Bool) (h : ItemsHeap T) (L : Ledger T)
    (hr : Reach Q goodThr badThr keepMax h L) :
    (h.items = [] → h.top = none ∧ h.pop Q = none) ∧
      (h.items ≠ [] → ∃ x h', h.top = some x ∧ h.pop Q = some (x, h') ∧ x ∈ h.items ∧ (∀ y ∈ h.items, up y ≤ up x) ∧
        h.items.Perm (x :: h'.items) ∧ h'.badItems = h.badItems ∧ h'.goodThr = h.goodThr) := by
  obtain ⟨h1, _⟩ := reach_inv hr
  rcases inv_pop h1 with ⟨k, k', k''⟩ | ⟨y, h'', k1, k2, k3, k4, k5, k6, k7, k8, k9, k10, k11⟩
  · exact ⟨fun _ => ⟨k', k''⟩, fun h => absurd k h⟩
  · exact ⟨fun h => by rw [h] at k3; exact absurd k3 (by simp), fun _ => ⟨y, h'', k1, k2, k3, k4, k5, k10, k7⟩⟩

/-- C41. With `keep_max_lo_item`, as soon as an item was pushed, `max_lo_item` is a pushed item with the greatest `lo` among all the items
ever pushed (active or not). -/
theorem C41_max_lo_item (Q : HeapQ (HNode T) HNode.lt) (goodThr badThr : Option ℚ) (h : ItemsHeap T) (L : Ledger T)
    (hr : Reach Q goodThr badThr true h L) (hne : L.pushed ≠ 0) :
    ∃ m, h.maxLoItem = some m ∧ m ∈ L.pushed ∧ ∀ x ∈ L.pushed, lo x ≤ lo m := by
  obtain ⟨_, h2, _, h4, _⟩ := reach_inv hr
  obtain ⟨k1, k2⟩ := h2 h4
  obtain ⟨x, hx⟩ := Multiset.exists_mem_of_ne_zero hne
  obtain ⟨m, hm, _⟩ := k1 x hx
  refine ⟨m, hm, k2 m hm, ?_⟩
  intro y hy
  obtain ⟨m', hm', hle⟩ := k1 y hy
  rw [hm] at hm'
  rw [Option.some.inj hm']
  exact hle

/-- C41. `update_good_threshold` is rejected exactly if the threshold would be lowered; otherwise exactly the items that are not good for
the new threshold stay active. -/
theorem C41_update (Q : HeapQ (HNode T) HNode.lt) (goodThr badThr : Option ℚ) (keepMax : Bool) (h : ItemsHeap T) (L : Ledger T)
    (hr : Reach Q goodThr badThr keepMax h L) (thr : ℚ) :
    (h.updateGoodThreshold Q thr = none ↔ ∃ old, h.goodThr = some old ∧ thr < old) ∧
      ∀ h', h.updateGoodThreshold Q thr = some h' →
        h'.goodThr = some thr ∧ h'.items.Perm (h.items.filter fun x => decide (up x > thr)) ∧ h'.badItems = h.badItems := by
  obtain ⟨h1, _⟩ := reach_inv hr
  refine ⟨update_eq_none_iff h thr, ?_⟩
  intro h' he
  obtain ⟨k1, k2, k3, k4, k5, k6, k7⟩ := inv_update h1 he
  exact ⟨k2, k7, k5⟩

theorem reach_extend {Q : HeapQ (HNode T) HNode.lt} {goodThr badThr : Option ℚ} {keepMax : Bool} (xs : List T) :
    ∀ {h : ItemsHeap T} {L : Ledger T}, Reach Q goodThr badThr keepMax h L →
      Reach Q goodThr badThr keepMax (h.extend Q xs) ⟨(xs : Multiset T) + L.pushed, L.popped, L.taken⟩ := by
  induction xs with
  | nil => intro h L hr; simpa [extend] using hr
  | cons x xs ih =>
    intro h L hr
    have := ih (Reach.push x hr)
    simp only [Multiset.add_cons] at this
    rw [← Multiset.cons_coe, Multiset.cons_add]
    exact this

/-- C41. `copy_and_cleanup` is allowed exactly for heaps without thresholds that do not keep the maximal item; it has the effect of pushing
all the active items to a new heap with the given thresholds. -/
theorem C41_copy (Q : HeapQ (HNode T) HNode.lt) (h : ItemsHeap T) (goodThr badThr : Option ℚ) :
    (h.copyAndCleanup Q goodThr badThr = none ↔ h.goodThr ≠ none ∨ h.badThr ≠ none ∨ h.keepMax = true) ∧
      ∀ h', h.copyAndCleanup Q goodThr badThr = some h' → Reach Q goodThr badThr false h' ⟨h.items, 0, 0⟩ := by
  unfold copyAndCleanup
  constructor
  · split
    · rename_i hh
      simp [hh.1, hh.2.1, hh.2.2]
    · rename_i hh
      simp only [true_iff]
      by_contra hne
      push Not at hne
      exact hh ⟨hne.1, hne.2.1, by simpa using hne.2.2⟩
  · intro h' he
    split at he
    · have he := Option.some.inj he
      subst he
      have := reach_extend (Q := Q) h.items (Reach.init (Q := Q) (goodThr := goodThr) (badThr := badThr) (keepMax := false))
      simpa using this
    · exact absurd he (by simp)

/-- C41. Nodes of the heap have distinct second components, so that `heapq` never compares the items themselves. -/
theorem C41_distinct_counters (Q : HeapQ (HNode T) HNode.lt) (goodThr badThr : Option ℚ) (keepMax : Bool) (h : ItemsHeap T) (L : Ledger T)
    (hr : Reach Q goodThr badThr keepMax h L) : (h.heap.map HNode.inc).Nodup := (reach_inv hr).1.inc_nodup

end ItemsHeap

/-! The contract of `heapq` can be met: sorted lists. -/

theorem HNode.lt_trans' {T : Type} {a b c : HNode T} (h1 : HNode.lt b a = false) (h2 : HNode.lt c b = false) : HNode.lt c a = false := by
  unfold HNode.lt at *
  simp only [Bool.or_eq_false_iff, Bool.and_eq_false_iff, decide_eq_false_iff_not, not_lt] at *
  refine ⟨h1.1.trans h2.1, ?_⟩
  by_cases e : c.prio = a.prio
  · have e1 : b.prio = a.prio := le_antisymm (e ▸ h2.1) h1.1
    right
    rcases h1.2 with h | h
    · exact absurd e1 h
    · rcases h2.2 with h' | h'
      · exact absurd (e.trans e1.symm) h'
      · exact h.trans h'
  · exact Or.inl e

theorem HNode.lt_asymm' {T : Type} {a b : HNode T} (h : HNode.lt a b = true) : HNode.lt b a = false := by
  unfold HNode.lt at *
  simp only [Bool.or_eq_false_iff, Bool.and_eq_false_iff, Bool.or_eq_true, Bool.and_eq_true, decide_eq_true_eq, decide_eq_false_iff_not, not_lt] at *
  rcases h with h | ⟨h1, h2⟩
  · exact ⟨le_of_lt h, Or.inl (ne_of_gt h)⟩
  · exact ⟨le_of_eq h1, Or.inr (le_of_lt h2)⟩

/-- Insertion into a sorted list. -/
def sortedInsert {T : Type} (x : HNode T) : List (HNode T) → List (HNode T)
  | [] => [x]
  | y :: l => if HNode.lt x y then x :: y :: l else y :: sortedInsert x l

theorem sortedInsert_perm {T : Type} (x : HNode T) (l : List (HNode T)) : (sortedInsert x l).Perm (x :: l) := by
  induction l with
  | nil => exact List.Perm.refl _
  | cons y l ih =>
    unfold sortedInsert
    split
    · exact List.Perm.refl _
    · exact (ih.cons y).trans (List.Perm.swap _ _ _)

theorem sortedInsert_sorted {T : Type} (x : HNode T) (l : List (HNode T)) (h : l.Pairwise fun a b => HNode.lt b a = false) :
    (sortedInsert x l).Pairwise fun a b => HNode.lt b a = false := by
  induction l with
  | nil => simp [sortedInsert]
  | cons y l ih =>
    unfold sortedInsert
    rw [List.pairwise_cons] at h
    split
    · rename_i hlt
      rw [List.pairwise_cons, List.pairwise_cons]
      refine ⟨?_, h⟩
      intro z hz
      rw [List.mem_cons] at hz
      rcases hz with rfl | hz
      · exact HNode.lt_asymm' hlt
      · exact HNode.lt_trans' (HNode.lt_asymm' hlt) (h.1 z hz)
    · rename_i hlt
      rw [List.pairwise_cons]
      refine ⟨?_, ih h.2⟩
      intro z hz
      rw [(sortedInsert_perm x l).mem_iff, List.mem_cons] at hz
      rcases hz with rfl | hz
      · simpa using hlt
      · exact h.1 z hz

/-- Sorted lists satisfy the contract. -/
def sortedHeapQ (T : Type) : HeapQ (HNode T) HNode.lt where
  Valid := List.Pairwise fun a b => HNode.lt b a = false
  push h x := sortedInsert x h
  pop h := h.head?.map fun x => (x, h.tail)
  valid_nil := List.Pairwise.nil
  valid_push h x := sortedInsert_sorted x h
  push_perm h x _ := sortedInsert_perm x h
  first_le _ _ h := (List.pairwise_cons.1 h).1
  pop_nil := rfl
  pop_cons x h hv := ⟨h, rfl, List.Perm.refl _, (List.pairwise_cons.1 hv).2⟩

/-- Items for the example: just the bounds. -/
instance : BoundedItem (ℚ × ℚ) := ⟨Prod.fst, Prod.snd⟩

/-- A non-trivial history to which the theorems apply: four pushes (one good, one bad), a pop, a raised threshold. -/
example : ∃ h L, ItemsHeap.Reach (sortedHeapQ (ℚ × ℚ)) (some 2) (some 5) true h L ∧ h.items = [(3, 6)] ∧ h.badItems = [(5, 9)] ∧
    h.goodThr = some 4 ∧ h.maxLoItem = some (5, 9) ∧ L.pushed.card = 5 ∧ L.popped = {(4, 7)} := by
  refine ⟨_, _, .raise (thr := 4) (h' := ?_) (.pop (x := (4, 7)) (h' := ?_) (.push (3, 6) (.push (1, 3) (.push (5, 9) (.push (4, 7) (.push (1, 2) .init))))) ?_) ?_, ?_⟩
  rotate_left 2
  · exact rfl
  · exact rfl
  · decide +kernel

end Peano
