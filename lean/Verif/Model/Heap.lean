import Mathlib.Data.Rat.Defs
import Mathlib.Algebra.Order.Ring.Unbundled.Rat
import Mathlib.Data.List.Basic

set_option autoImplicit false

/-
Model of `peano/_bounded_items_heap.py`.  The standard library module `heapq` is not part of the repository: it enters by its documented
contract (structure `HeapQ`), so that everything is proved for every correct implementation.
-/
namespace Peano

/-- Documented contract of `heapq.heappush` and `heapq.heappop` for the order `lt`: lists with the heap invariant (`Valid`); the first
element is a smallest one; `heappop` returns it (IndexError, `none`, for the empty heap). -/
structure HeapQ (α : Type) (lt : α → α → Bool) where
  Valid : List α → Prop
  push : List α → α → List α
  pop : List α → Option (α × List α)
  valid_nil : Valid []
  valid_push : ∀ h x, Valid h → Valid (push h x)
  push_perm : ∀ h x, Valid h → (push h x).Perm (x :: h)
  first_le : ∀ x h, Valid (x :: h) → ∀ y ∈ h, lt y x = false
  pop_nil : pop [] = none
  pop_cons : ∀ x h, Valid (x :: h) → ∃ h', pop (x :: h) = some (x, h') ∧ h'.Perm h ∧ Valid h'

/-- `class BoundedItem`, _bounded_items_heap.py:20-23: the attributes `lo`, `up`. -/
class BoundedItem (T : Type) where
  lo : T → ℚ
  up : T → ℚ

/-- The node `(-item.up, self._inc, item)`, _bounded_items_heap.py:104. -/
structure HNode (T : Type) where
  prio : ℚ
  inc : ℕ
  item : T

/-- Comparison of nodes, tuples in Python.  Simplification: if the first two components are equal, Python would compare the items; it is
proved that the second components are distinct. -/
def HNode.lt {T : Type} (a b : HNode T) : Bool := decide (a.prio < b.prio) || (decide (a.prio = b.prio) && decide (a.inc < b.inc))

/-- `class BoundedItemsHeap`, _bounded_items_heap.py:26-58.  `max_lo_item` is `none` until something is pushed (`seen_items` is False).
Not modelled: `stats`; the `stash` is passed separately in `Model/Dilation.lean`. -/
structure ItemsHeap (T : Type) where
  heap : List (HNode T)
  badItems : List T
  goodThr : Option ℚ
  badThr : Option ℚ
  keepMax : Bool
  maxLoItem : Option T
  inc : ℕ

namespace ItemsHeap
variable {T : Type} [BoundedItem T] (Q : HeapQ (HNode T) HNode.lt)

open BoundedItem (lo up)

/-- `__init__`, _bounded_items_heap.py:43-58. -/
def init (goodThr badThr : Option ℚ) (keepMax : Bool) : ItemsHeap T :=
  { heap := [], badItems := [], goodThr, badThr, keepMax, maxLoItem := none, inc := 0 }

/-- The first part of `push`, _bounded_items_heap.py:87-90. -/
def noteMax (h : ItemsHeap T) (item : T) : ItemsHeap T :=
  if h.keepMax then
    match h.maxLoItem with
    | none => { h with maxLoItem := some item }
    | some m => if lo item > lo m then { h with maxLoItem := some item } else h
  else h

/-- The second part of `push`, _bounded_items_heap.py:92-105. -/
def place (h : ItemsHeap T) (item : T) : ItemsHeap T :=
  if h.goodThr.any (fun thr => decide (up item ≤ thr)) then h
  else if h.badThr.any (fun thr => decide (lo item ≥ thr)) then { h with badItems := h.badItems ++ [item] }
  else { h with inc := h.inc + 1, heap := Q.push h.heap ⟨- up item, h.inc + 1, item⟩ }

/-- `push`, _bounded_items_heap.py:82-105. -/
def push (h : ItemsHeap T) (item : T) : ItemsHeap T := place Q (h.noteMax item) item

/-- `_extend`, _bounded_items_heap.py:107-110. -/
def extend (h : ItemsHeap T) (items : List T) : ItemsHeap T := items.foldl (push Q) h

/-- `items`, _bounded_items_heap.py:78-80. -/
def items (h : ItemsHeap T) : List T := h.heap.map HNode.item

/-- `size`, _bounded_items_heap.py:75-76. -/
def size (h : ItemsHeap T) : ℕ := h.heap.length

/-- `update_good_threshold`, _bounded_items_heap.py:60-73; `none` is ValueError. -/
def updateGoodThreshold (h : ItemsHeap T) (threshold : ℚ) : Option (ItemsHeap T) :=
  if h.goodThr.any (fun thr => decide (threshold < thr)) then none
  else
    let h := { h with goodThr := some threshold }
    let active := h.items.filter fun item => decide (up item > threshold)
    if active.length < h.heap.length then some (extend Q { h with heap := [] } active) else some h

/-- `top`, _bounded_items_heap.py:112-114; `none` is IndexError. -/
def top (h : ItemsHeap T) : Option T := h.heap.head?.map HNode.item

/-- `pop`, _bounded_items_heap.py:116-118; `none` is IndexError. -/
def pop (h : ItemsHeap T) : Option (T × ItemsHeap T) :=
  (Q.pop h.heap).map fun r => (r.1.item, { h with heap := r.2 })

/-- `pop_bad_items`, _bounded_items_heap.py:120-124. -/
def popBadItems (h : ItemsHeap T) : List T × ItemsHeap T := (h.badItems, { h with badItems := [] })

/-- `copy_and_cleanup`, _bounded_items_heap.py:126-134; `none` is AssertionError. -/
def copyAndCleanup (h : ItemsHeap T) (goodThr badThr : Option ℚ) : Option (ItemsHeap T) :=
  if h.goodThr = none ∧ h.badThr = none ∧ h.keepMax = false then some (extend Q (init goodThr badThr false) h.items) else none

end ItemsHeap
end Peano
