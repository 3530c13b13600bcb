import Verif.Spec.Heap
import Mathlib.Data.Multiset.AddSub
import Mathlib.Tactic.Linarith

set_option autoImplicit false

/-! Lemmas about the heap of bounded items. -/
namespace Peano
namespace ItemsHeap
variable {T : Type} [BoundedItem T] {Q : HeapQ (HNode T) HNode.lt}

open BoundedItem (lo up)

/-- Invariant of the heap. -/
structure Inv (Q : HeapQ (HNode T) HNode.lt) (h : ItemsHeap T) : Prop where
  valid : Q.Valid h.heap
  prio : ∀ n ∈ h.heap, n.prio = - up n.item
  inc_le : ∀ n ∈ h.heap, n.inc ≤ h.inc
  inc_nodup : (h.heap.map HNode.inc).Nodup
  not_good : ∀ x ∈ h.items, ∀ thr, h.goodThr = some thr → thr < up x
  not_bad : ∀ x ∈ h.items, ∀ thr, h.badThr = some thr → lo x < thr
  bad : ∀ x ∈ h.badItems, ∃ thr, h.badThr = some thr ∧ thr ≤ lo x

theorem inv_init (goodThr badThr : Option ℚ) (keepMax : Bool) : Inv Q (init goodThr badThr keepMax : ItemsHeap T) := by
  constructor <;> simp [init, items, Q.valid_nil]

theorem noteMax_fields (h : ItemsHeap T) (x : T) : (h.noteMax x).heap = h.heap ∧ (h.noteMax x).badItems = h.badItems ∧
    (h.noteMax x).goodThr = h.goodThr ∧ (h.noteMax x).badThr = h.badThr ∧ (h.noteMax x).keepMax = h.keepMax ∧ (h.noteMax x).inc = h.inc := by
  unfold noteMax
  split
  · split
    · simp
    · split <;> simp
  · simp

theorem inv_noteMax {h : ItemsHeap T} (hi : Inv Q h) (x : T) : Inv Q (h.noteMax x) := by
  obtain ⟨h1, h2, h3, h4, h5, h6⟩ := noteMax_fields h x
  have h7 : (h.noteMax x).items = h.items := by unfold items; rw [h1]
  constructor
  · rw [h1]; exact hi.valid
  · rw [h1]; exact hi.prio
  · rw [h1, h6]; exact hi.inc_le
  · rw [h1]; exact hi.inc_nodup
  · rw [h7, h3]; exact hi.not_good
  · rw [h7, h4]; exact hi.not_bad
  · rw [h2, h4]; exact hi.bad

/-- What `push` can do with an item. -/
inductive Placed (h : ItemsHeap T) (x : T) (h' : ItemsHeap T) : Prop
  | good (thr : ℚ) (ht : h.goodThr = some thr) (hu : up x ≤ thr) (hi : h'.items.Perm h.items) (hb : h'.badItems = h.badItems)
  | bad (thr : ℚ) (ht : h.badThr = some thr) (hu : thr ≤ lo x) (hg : ∀ thr, h.goodThr = some thr → thr < up x) (hi : h'.items.Perm h.items)
      (hb : h'.badItems = h.badItems ++ [x])
  | active (hg : ∀ thr, h.goodThr = some thr → thr < up x) (hu : ∀ thr, h.badThr = some thr → lo x < thr)
      (hi : h'.items.Perm (x :: h.items)) (hb : h'.badItems = h.badItems)

theorem place_fields (h : ItemsHeap T) (x : T) : (h.place Q x).goodThr = h.goodThr ∧ (h.place Q x).badThr = h.badThr ∧
    (h.place Q x).keepMax = h.keepMax ∧ (h.place Q x).maxLoItem = h.maxLoItem := by
  unfold place
  split
  · simp
  · split <;> simp

theorem inv_place {h : ItemsHeap T} (hi : Inv Q h) (x : T) : Inv Q (h.place Q x) ∧ Placed h x (h.place Q x) := by
  unfold place
  by_cases hg : h.goodThr.any (fun thr => decide (up x ≤ thr)) = true
  · rw [if_pos hg]
    refine ⟨hi, ?_⟩
    rw [Option.any_eq_true] at hg
    obtain ⟨thr, h1, h2⟩ := hg
    exact .good thr h1 (by simpa using h2) (List.Perm.refl _) rfl
  · rw [if_neg hg]
    have hg' : ∀ thr, h.goodThr = some thr → thr < up x := by
      intro thr ht
      rw [ht] at hg
      simpa using hg
    by_cases hb : h.badThr.any (fun thr => decide (lo x ≥ thr)) = true
    · rw [if_pos hb]
      rw [Option.any_eq_true] at hb
      obtain ⟨thr, h1, h2⟩ := hb
      have h2 : thr ≤ lo x := by simpa using h2
      refine ⟨⟨hi.valid, hi.prio, hi.inc_le, hi.inc_nodup, hi.not_good, hi.not_bad, ?_⟩, .bad thr h1 h2 hg' (List.Perm.refl _) rfl⟩
      intro y hy
      simp only [List.mem_append, List.mem_singleton] at hy
      rcases hy with hy | rfl
      · exact hi.bad y hy
      · exact ⟨thr, h1, h2⟩
    · rw [if_neg hb]
      have hb' : ∀ thr, h.badThr = some thr → lo x < thr := by
        intro thr ht
        rw [ht] at hb
        simpa using hb
      have hp := Q.push_perm h.heap ⟨- up x, h.inc + 1, x⟩ hi.valid
      have hpi : (Q.push h.heap ⟨- up x, h.inc + 1, x⟩).map HNode.item |>.Perm (x :: h.items) := by
        have := hp.map HNode.item
        simpa [items] using this
      refine ⟨⟨Q.valid_push _ _ hi.valid, ?_, ?_, ?_, ?_, ?_, hi.bad⟩, .active hg' hb' hpi rfl⟩
      · intro n hn
        rw [hp.mem_iff, List.mem_cons] at hn
        rcases hn with rfl | hn
        · rfl
        · exact hi.prio n hn
      · intro n hn
        simp only at hn ⊢
        rw [hp.mem_iff, List.mem_cons] at hn
        rcases hn with rfl | hn
        · exact le_refl _
        · exact Nat.le_succ_of_le (hi.inc_le n hn)
      · show ((Q.push h.heap ⟨- up x, h.inc + 1, x⟩).map HNode.inc).Nodup
        rw [(hp.map HNode.inc).nodup_iff, List.map_cons, List.nodup_cons]
        refine ⟨?_, hi.inc_nodup⟩
        intro hm
        rw [List.mem_map] at hm
        obtain ⟨n, hn, he⟩ := hm
        have := hi.inc_le n hn
        simp only at he
        omega
      · intro y hy
        rw [show (_ : ItemsHeap T).items = (Q.push h.heap ⟨- up x, h.inc + 1, x⟩).map HNode.item from rfl, hpi.mem_iff, List.mem_cons] at hy
        rcases hy with rfl | hy
        · exact hg'
        · exact hi.not_good y hy
      · intro y hy
        rw [show (_ : ItemsHeap T).items = (Q.push h.heap ⟨- up x, h.inc + 1, x⟩).map HNode.item from rfl, hpi.mem_iff, List.mem_cons] at hy
        rcases hy with rfl | hy
        · exact hb'
        · exact hi.not_bad y hy

theorem push_fields (h : ItemsHeap T) (x : T) : (h.push Q x).goodThr = h.goodThr ∧ (h.push Q x).badThr = h.badThr ∧
    (h.push Q x).keepMax = h.keepMax ∧ (h.push Q x).maxLoItem = (h.noteMax x).maxLoItem := by
  obtain ⟨h1, h2, h3, h4, h5, h6⟩ := noteMax_fields h x
  obtain ⟨k1, k2, k3, k4⟩ := place_fields (Q := Q) (h.noteMax x) x
  unfold push
  rw [k1, k2, k3, k4, h3, h4, h5]
  exact ⟨rfl, rfl, rfl, rfl⟩

theorem inv_push {h : ItemsHeap T} (hi : Inv Q h) (x : T) : Inv Q (h.push Q x) ∧ Placed h x (h.push Q x) := by
  obtain ⟨h1, h2, h3, h4, h5, h6⟩ := noteMax_fields h x
  have h7 : (h.noteMax x).items = h.items := by unfold items; rw [h1]
  obtain ⟨k1, k2⟩ := inv_place (inv_noteMax hi x) x
  refine ⟨k1, ?_⟩
  unfold push
  rcases k2 with ⟨thr, a, b, c, e⟩ | ⟨thr, a, b, c, e, f⟩ | ⟨a, b, c, e⟩
  · rw [h3] at a; rw [h7] at c; rw [h2] at e; exact .good thr a b c e
  · rw [h4] at a; rw [h3] at c; rw [h7] at e; rw [h2] at f; exact .bad thr a b c e f
  · rw [h3] at a; rw [h4] at b; rw [h7] at c; rw [h2] at e; exact .active a b c e

/-- Invariant about the item with the greatest `lo`, for the collection `P` of items pushed so far. -/
def MaxInv (h : ItemsHeap T) (P : Multiset T) : Prop :=
  h.keepMax = true → (∀ x ∈ P, ∃ m, h.maxLoItem = some m ∧ lo x ≤ lo m) ∧ ∀ m, h.maxLoItem = some m → m ∈ P

theorem maxInv_push {h : ItemsHeap T} {P : Multiset T} (hm : MaxInv h P) (x : T) : MaxInv (h.push Q x) (x ::ₘ P) := by
  intro hk
  obtain ⟨k1, k2, k3, k4⟩ := push_fields (Q := Q) h x
  rw [k3] at hk
  obtain ⟨h1, h2⟩ := hm hk
  rw [k4]
  unfold noteMax
  rw [if_pos hk]
  split
  · rename_i he
    constructor
    · intro y hy
      rw [Multiset.mem_cons] at hy
      rcases hy with rfl | hy
      · exact ⟨_, rfl, le_refl _⟩
      · obtain ⟨m, hm, _⟩ := h1 y hy
        rw [he] at hm
        exact absurd hm (by simp)
    · intro m hm
      have : x = m := by simpa using hm
      subst this
      exact Multiset.mem_cons_self _ _
  · rename_i m he
    split
    · rename_i hlt
      constructor
      · intro y hy
        rw [Multiset.mem_cons] at hy
        rcases hy with rfl | hy
        · exact ⟨_, rfl, le_refl _⟩
        · obtain ⟨m', hm', hle⟩ := h1 y hy
          rw [he, Option.some.injEq] at hm'
          subst hm'
          exact ⟨_, rfl, le_trans hle (le_of_lt hlt)⟩
      · intro m' hm'
        have : x = m' := by simpa using hm'
        subst this
        exact Multiset.mem_cons_self _ _
    · rename_i hlt
      constructor
      · intro y hy
        rw [Multiset.mem_cons] at hy
        rcases hy with rfl | hy
        · exact ⟨m, he, not_lt.1 hlt⟩
        · exact h1 y hy
      · intro m' hm'
        exact Multiset.mem_cons_of_mem (h2 m' hm')

/-- Pushing an item that was pushed before does not change the item with the greatest `lo`. -/
theorem maxInv_push_old {h : ItemsHeap T} {P : Multiset T} (hm : MaxInv h P) {x : T} (hx : x ∈ P) :
    MaxInv (h.push Q x) P ∧ (h.push Q x).maxLoItem = h.maxLoItem := by
  obtain ⟨k1, k2, k3, k4⟩ := push_fields (Q := Q) h x
  have e : (h.push Q x).maxLoItem = h.maxLoItem := by
    rw [k4]
    unfold noteMax
    by_cases hk : h.keepMax = true
    · obtain ⟨m, h1, h2⟩ := (hm hk).1 x hx
      simp [hk, h1, not_lt.2 h2]
    · simp [hk]
  refine ⟨?_, e⟩
  intro hk
  rw [k3] at hk
  rw [e]
  exact hm hk

/-- What `_extend` does. -/
theorem inv_extend (xs : List T) : ∀ {h : ItemsHeap T}, Inv Q h → Inv Q (h.extend Q xs) ∧ (h.extend Q xs).goodThr = h.goodThr ∧
    (h.extend Q xs).badThr = h.badThr ∧ (h.extend Q xs).keepMax = h.keepMax ∧
    ∃ act bad drop : List T, xs.Perm (act ++ bad ++ drop) ∧ (h.extend Q xs).items.Perm (act ++ h.items) ∧
      (h.extend Q xs).badItems = h.badItems ++ bad ∧ (∀ x ∈ drop, ∃ thr, h.goodThr = some thr ∧ up x ≤ thr) ∧
      (∀ x ∈ bad, (∃ thr, h.badThr = some thr ∧ thr ≤ lo x) ∧ ∀ thr, h.goodThr = some thr → thr < up x) := by
  induction xs with
  | nil =>
    intro h hi
    exact ⟨hi, rfl, rfl, rfl, [], [], [], by simp, by simp [extend], by simp [extend], by simp, by simp⟩
  | cons x xs ih =>
    intro h hi
    obtain ⟨k1, k2⟩ := inv_push hi x
    obtain ⟨f1, f2, f3, _⟩ := push_fields (Q := Q) h x
    obtain ⟨i1, i2, i3, i4, act, bad, drop, i5, i6, i7, i8, i9⟩ := ih k1
    have e : h.extend Q (x :: xs) = (h.push Q x).extend Q xs := rfl
    rw [e, i2, i3, i4, f1, f2, f3]
    rw [f1] at i8 i9
    rw [f2] at i9
    refine ⟨i1, rfl, rfl, rfl, ?_⟩
    rcases k2 with ⟨thr, a, b, c, e⟩ | ⟨thr, a, b, c, e, f⟩ | ⟨a, b, c, e⟩
    · refine ⟨act, bad, x :: drop, ?_, i6.trans (c.append_left _), by rw [i7, e], ?_, i9⟩
      · exact (i5.cons x).trans List.perm_middle.symm
      · intro y hy
        rw [List.mem_cons] at hy
        rcases hy with rfl | hy
        · exact ⟨thr, a, b⟩
        · exact i8 y hy
    · refine ⟨act, x :: bad, drop, ?_, i6.trans (e.append_left _), by rw [i7, f]; simp, i8, ?_⟩
      · refine (i5.cons x).trans ?_
        rw [List.append_assoc, List.append_assoc]
        exact List.perm_middle.symm
      · intro y hy
        rw [List.mem_cons] at hy
        rcases hy with rfl | hy
        · exact ⟨⟨thr, a, b⟩, c⟩
        · exact i9 y hy
    · refine ⟨x :: act, bad, drop, by simpa using i5, ?_, by rw [i7, e], i8, i9⟩
      exact i6.trans ((c.append_left _).trans List.perm_middle)

theorem maxInv_extend_old {P : Multiset T} (xs : List T) : ∀ {h : ItemsHeap T}, MaxInv h P → (∀ x ∈ xs, x ∈ P) →
    MaxInv (h.extend Q xs) P ∧ (h.extend Q xs).maxLoItem = h.maxLoItem := by
  induction xs with
  | nil => intro h hm _; exact ⟨hm, rfl⟩
  | cons x xs ih =>
    intro h hm hx
    obtain ⟨k1, k2⟩ := maxInv_push_old (Q := Q) hm (hx x (by simp))
    obtain ⟨i1, i2⟩ := ih k1 (fun y hy => hx y (List.mem_cons_of_mem _ hy))
    exact ⟨i1, i2.trans k2⟩

theorem maxInv_extend {P : Multiset T} (xs : List T) : ∀ {h : ItemsHeap T} {P : Multiset T}, MaxInv h P →
    MaxInv (h.extend Q xs) ((xs : Multiset T) + P) := by
  induction xs with
  | nil => intro h P hm; simpa [extend] using hm
  | cons x xs ih =>
    intro h P hm
    have := ih (maxInv_push (Q := Q) hm x)
    have e : ((xs : Multiset T) + x ::ₘ P) = ((x :: xs : List T) : Multiset T) + P := by
      rw [← Multiset.cons_coe, Multiset.add_cons, Multiset.cons_add]
    rw [e] at this
    exact this

/-- What raising the threshold does. -/
theorem inv_update {h h' : ItemsHeap T} (hi : Inv Q h) {thr : ℚ} (he : h.updateGoodThreshold Q thr = some h') :
    Inv Q h' ∧ h'.goodThr = some thr ∧ h'.badThr = h.badThr ∧ h'.keepMax = h.keepMax ∧ h'.badItems = h.badItems ∧
      (∀ old, h.goodThr = some old → old ≤ thr) ∧
      h'.items.Perm (h.items.filter fun x => decide (up x > thr)) := by
  unfold updateGoodThreshold at he
  by_cases hg : h.goodThr.any (fun t => decide (thr < t)) = true
  · rw [if_pos hg] at he; exact absurd he (by simp)
  · rw [if_neg hg] at he
    have hold : ∀ old, h.goodThr = some old → old ≤ thr := by
      intro old ho
      rw [ho] at hg
      simpa using hg
    simp only at he
    have hitems : ({ h with goodThr := some thr } : ItemsHeap T).items = h.items := rfl
    rw [hitems] at he
    split at he
    · have he := Option.some.inj he
      have hi0 : Inv Q ({ h with goodThr := some thr, heap := [] } : ItemsHeap T) := by
        refine ⟨Q.valid_nil, by simp, by simp, by simp, by simp [items], by simp [items], hi.bad⟩
      obtain ⟨i1, i2, i3, i4, act, bad, drop, i5, i6, i7, i8, i9⟩ := inv_extend (h.items.filter fun x => decide (up x > thr)) hi0
      rw [he] at i1 i2 i3 i4 i6 i7
      have hmem : ∀ x, x ∈ act ++ bad ++ drop → x ∈ h.items ∧ thr < up x := by
        intro x hx
        have := i5.mem_iff.2 hx
        simpa using this
      have hbad : bad = [] := by
        rw [List.eq_nil_iff_forall_not_mem]
        intro x hx
        obtain ⟨⟨t, ht, hl⟩, _⟩ := i9 x hx
        have := hi.not_bad x (hmem x (by simp [hx])).1 t ht
        linarith
      have hdrop : drop = [] := by
        rw [List.eq_nil_iff_forall_not_mem]
        intro x hx
        obtain ⟨t, ht, hl⟩ := i8 x hx
        have := (hmem x (by simp [hx])).2
        have ht : thr = t := Option.some.inj ht
        subst ht
        linarith
      subst hbad hdrop
      refine ⟨i1, i2, i3, i4, by simpa using i7, hold, ?_⟩
      have i6 : h'.items.Perm act := by simpa [items] using i6
      exact i6.trans (by simpa using i5.symm)
    · rename_i hlen
      have he := Option.some.inj he
      subst he
      have hall : h.items.filter (fun x => decide (up x > thr)) = h.items := by
        rw [List.filter_eq_self]
        have h1 := List.length_filter_le (fun x => decide (up x > thr)) h.items
        have h2 : h.items.length = h.heap.length := by simp [items]
        have h3 : (h.items.filter (fun x => decide (up x > thr))).length = h.items.length := by
          have : ¬ _ < h.heap.length := hlen
          omega
        intro x hx
        exact (List.length_filter_eq_length_iff.1 h3) x hx
      refine ⟨⟨hi.valid, hi.prio, hi.inc_le, hi.inc_nodup, ?_, hi.not_bad, hi.bad⟩, rfl, rfl, rfl, rfl, hold, ?_⟩
      · intro x hx t ht
        have ht : thr = t := Option.some.inj ht
        subst ht
        have := (List.filter_eq_self.1 hall) x hx
        simpa using this
      · show h.items.Perm _
        rw [hall]

theorem update_maxLo {h h' : ItemsHeap T} {P : Multiset T} (hm : MaxInv h P) (hP : ∀ x ∈ h.items, x ∈ P) {thr : ℚ}
    (he : h.updateGoodThreshold Q thr = some h') : MaxInv h' P ∧ h'.maxLoItem = h.maxLoItem := by
  unfold updateGoodThreshold at he
  split at he
  · exact absurd he (by simp)
  · simp only at he
    split at he
    · have he := Option.some.inj he
      rw [← he]
      have hm0 : MaxInv ({ h with goodThr := some thr, heap := [] } : ItemsHeap T) P := hm
      refine maxInv_extend_old (Q := Q) _ hm0 ?_
      intro x hx
      exact hP x (List.mem_of_mem_filter hx)
    · have he := Option.some.inj he
      rw [← he]
      exact ⟨hm, rfl⟩

/-- `update_good_threshold` fails only if the threshold is lowered. -/
theorem update_eq_none_iff (h : ItemsHeap T) (thr : ℚ) : h.updateGoodThreshold Q thr = none ↔ ∃ old, h.goodThr = some old ∧ thr < old := by
  unfold updateGoodThreshold
  by_cases hg : h.goodThr.any (fun t => decide (thr < t)) = true
  · rw [if_pos hg]
    rw [Option.any_eq_true] at hg
    simpa using hg
  · rw [if_neg hg]
    simp only
    constructor
    · intro h'
      split at h' <;> exact absurd h' (by simp)
    · rintro ⟨old, h1, h2⟩
      exact absurd ((Option.any_eq_true _ _).2 ⟨old, h1, by simpa using h2⟩) hg

/-- `top` and `pop`. -/
theorem inv_pop {h : ItemsHeap T} (hi : Inv Q h) :
    (h.items = [] ∧ h.top = none ∧ h.pop Q = none) ∨
      ∃ x h', h.top = some x ∧ h.pop Q = some (x, h') ∧ x ∈ h.items ∧ (∀ y ∈ h.items, up y ≤ up x) ∧ h.items.Perm (x :: h'.items) ∧ Inv Q h' ∧
        h'.goodThr = h.goodThr ∧ h'.badThr = h.badThr ∧ h'.keepMax = h.keepMax ∧ h'.badItems = h.badItems ∧ h'.maxLoItem = h.maxLoItem := by
  unfold top pop items
  cases hh : h.heap with
  | nil => left; simp [Q.pop_nil]
  | cons n l =>
    right
    have hv : Q.Valid (n :: l) := hh ▸ hi.valid
    obtain ⟨l', e, hp, hv'⟩ := Q.pop_cons n l hv
    refine ⟨n.item, { h with heap := l' }, rfl, by rw [e]; rfl, by simp, ?_, ?_, ?_, rfl, rfl, rfl, rfl, rfl⟩
    · intro y hy
      rw [List.map_cons, List.mem_cons, List.mem_map] at hy
      rcases hy with rfl | ⟨m, hm, rfl⟩
      · exact le_refl _
      · have hlt := Q.first_le n l hv m hm
        have h1 := hi.prio n (by rw [hh]; simp)
        have h2 := hi.prio m (by rw [hh]; simp [hm])
        unfold HNode.lt at hlt
        rw [Bool.or_eq_false_iff, decide_eq_false_iff_not] at hlt
        have := hlt.1
        rw [h1, h2] at this
        linarith
    · simpa using (hp.map HNode.item).symm
    · have hsub : ∀ m ∈ l', m ∈ h.heap := fun m hm => by rw [hh]; exact List.mem_cons_of_mem _ (hp.mem_iff.1 hm)
      have hsubi : ∀ x ∈ ({ h with heap := l' } : ItemsHeap T).items, x ∈ h.items := by
        intro x hx
        unfold items at hx ⊢
        rw [List.mem_map] at hx ⊢
        obtain ⟨m, hm, rfl⟩ := hx
        exact ⟨m, hsub m hm, rfl⟩
      refine ⟨hv', fun m hm => hi.prio m (hsub m hm), fun m hm => hi.inc_le m (hsub m hm), ?_, fun x hx => hi.not_good x (hsubi x hx),
        fun x hx => hi.not_bad x (hsubi x hx), hi.bad⟩
      have := hi.inc_nodup
      rw [hh, List.map_cons, List.nodup_cons] at this
      exact ((hp.map HNode.inc).nodup_iff).2 this.2

theorem inv_popBad {h : ItemsHeap T} (hi : Inv Q h) : Inv Q h.popBadItems.2 :=
  ⟨hi.valid, hi.prio, hi.inc_le, hi.inc_nodup, hi.not_good, hi.not_bad, by simp [popBadItems]⟩

end ItemsHeap
end Peano
