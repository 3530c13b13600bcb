import Verif.Model.Heap

set_option autoImplicit false

/-
The functions `heappush` and `heappop` of the module `heapq` of the standard library of Python (CPython, Lib/heapq.py), imported in
_bounded_items_heap.py:4 and dilation.py:14.  They are not in /repo; everything else in this development is proved for every implementation that meets the contract
`HeapQ`, and `Props/Heapq.lean` shows that this one does.  A heap is a list; `lt` is the comparison `<` of the items.
-/
namespace Peano.Heapq
variable {α : Type}

/-- The loop of `_siftdown(heap, 0, pos)` with `newitem = x`: while the parent of the position is greater than `x`, the parent is moved down; then `x` is put there. -/
def siftDown (lt : α → α → Bool) (x : α) (h : List α) (pos : ℕ) : List α :=
  if _hp : pos = 0 then h.set pos x
  else
    match h[(pos - 1) / 2]? with
    | none => h.set pos x
    | some p => if lt x p then siftDown lt x (h.set pos p) ((pos - 1) / 2) else h.set pos x
termination_by pos
decreasing_by omega

/-- The child of the position `pos` that `_siftup` chooses: the right one, if there is one and the left one is not smaller. -/
def child (lt : α → α → Bool) (h : List α) (pos : ℕ) : ℕ :=
  match h[2 * pos + 1]?, h[2 * pos + 2]? with
  | some a, some b => if lt a b then 2 * pos + 1 else 2 * pos + 2
  | _, _ => 2 * pos + 1

theorem child_gt (lt : α → α → Bool) (h : List α) (pos : ℕ) : pos < child lt h pos := by
  unfold child
  split
  · split <;> omega
  · omega

/-- `_siftup(heap, pos)` with `newitem = x`: the smaller child is moved up until there are no children, then `_siftdown(heap, 0, pos)`. -/
def siftUp (lt : α → α → Bool) (x : α) (h : List α) (pos : ℕ) : List α :=
  match hc : h[child lt h pos]? with
  | some y => siftUp lt x (h.set pos y) (child lt h pos)
  | none => siftDown lt x h pos
termination_by h.length - pos
decreasing_by
  have h1 := child_gt lt h pos
  have h2 := (List.getElem?_eq_some_iff.1 hc).1
  simp only [List.length_set]
  omega

/-- `heappush(heap, item)`. -/
def push (lt : α → α → Bool) (h : List α) (x : α) : List α := siftDown lt x (h ++ [x]) h.length

/-- `heappop(heap)`; `none` is IndexError. -/
def pop (lt : α → α → Bool) (h : List α) : Option (α × List α) :=
  match h.getLast? with
  | none => none
  | some last =>
    match h.dropLast with
    | [] => some (last, [])
    | x :: t => some (x, siftUp lt last (last :: t) 0)

end Peano.Heapq
