import Verif.Model.Heap
import Mathlib.Data.Multiset.AddSub

set_option autoImplicit false

/-!
Vocabulary for statements about the heap of bounded items: histories of operations, with a ledger of what was put in and taken out.
-/
namespace Peano
namespace ItemsHeap
variable {T : Type} [BoundedItem T]

/-- What a user of the heap can know: the items pushed so far, those returned by `pop` and those returned by `pop_bad_items`. -/
structure Ledger (T : Type) where
  pushed : Multiset T
  popped : Multiset T
  taken : Multiset T

/-- States reached by a history of successful operations, together with the ledger. -/
inductive Reach (Q : HeapQ (HNode T) HNode.lt) (goodThr badThr : Option ℚ) (keepMax : Bool) : ItemsHeap T → Ledger T → Prop
  | init : Reach Q goodThr badThr keepMax (init goodThr badThr keepMax) ⟨0, 0, 0⟩
  | push {h : ItemsHeap T} {L : Ledger T} (x : T) : Reach Q goodThr badThr keepMax h L →
      Reach Q goodThr badThr keepMax (h.push Q x) ⟨x ::ₘ L.pushed, L.popped, L.taken⟩
  | pop {h h' : ItemsHeap T} {L : Ledger T} {x : T} : Reach Q goodThr badThr keepMax h L → h.pop Q = some (x, h') →
      Reach Q goodThr badThr keepMax h' ⟨L.pushed, x ::ₘ L.popped, L.taken⟩
  | raise {h h' : ItemsHeap T} {L : Ledger T} {thr : ℚ} : Reach Q goodThr badThr keepMax h L → h.updateGoodThreshold Q thr = some h' →
      Reach Q goodThr badThr keepMax h' L
  | popBad {h : ItemsHeap T} {L : Ledger T} : Reach Q goodThr badThr keepMax h L →
      Reach Q goodThr badThr keepMax h.popBadItems.2 ⟨L.pushed, L.popped, (h.popBadItems.1 : Multiset T) + L.taken⟩

end ItemsHeap
end Peano
