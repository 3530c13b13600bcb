import Mathlib.Data.List.Basic

set_option autoImplicit false

/-
Python dictionaries as association lists in insertion order with distinct keys.
-/
namespace Peano
namespace Dict
variable {α β : Type} [DecidableEq α]

/-- `d[key] = v`: the place of an existing key is kept. -/
def set (key : α) (v : β) : List (α × β) → List (α × β)
  | [] => [(key, v)]
  | (k, w) :: l => if k = key then (k, v) :: l else (k, w) :: set key v l

/-- `d[key].append(v)` for a `defaultdict(list)`. -/
def append (key : α) (v : β) : List (α × List β) → List (α × List β)
  | [] => [(key, [v])]
  | (k, ws) :: l => if k = key then (k, ws ++ [v]) :: l else (k, ws) :: append key v l

/-- `d.get(key)`. -/
def get? (key : α) : List (α × β) → Option β
  | [] => none
  | (k, w) :: l => if k = key then some w else get? key l

/-- `d = defaultdict(list); for x in xs: d[key(x)].append(x)`. -/
def groupBy (key : β → α) (xs : List β) : List (α × List β) := xs.foldl (fun dict x => append (key x) x dict) []

end Dict
end Peano
