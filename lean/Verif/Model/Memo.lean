
set_option autoImplicit false
/-
Model of `functools.lru_cache(maxsize=...)` (used in utils.py:35,47 and dilation.py:184).
-/
namespace Peano.Memo
variable {κ ν : Type} [DecidableEq κ]

/-- Cache state: entries, most recently used first. -/
abbrev State (κ ν : Type) := List (κ × ν)

/-- One call of an `lru_cache`d function `f`: on a hit the entry moves to the front and its stored value is returned, on a miss the
value is computed, stored in front, and the least recently used entry is dropped if the size exceeds `maxsize`. -/
def call (f : κ → ν) (maxsize : Nat) (st : State κ ν) (k : κ) : ν × State κ ν :=
  match st.lookup k with
  | some v => (v, (k, v) :: st.filter (fun e => e.1 ≠ k))
  | none => let v := f k; (v, ((k, v) :: st).take maxsize)

/-- A history of calls: the list of returned values and the final cache. -/
def run (f : κ → ν) (maxsize : Nat) : State κ ν → List κ → List ν × State κ ν
  | st, [] => ([], st)
  | st, k :: ks => let (v, st') := call f maxsize st k; let (vs, st'') := run f maxsize st' ks; (v :: vs, st'')

/-- The same for a function that may raise an exception (`none`): then nothing is stored. -/
def callPartial (f : κ → Option ν) (maxsize : Nat) (st : State κ ν) (k : κ) : Option ν × State κ ν :=
  match st.lookup k with
  | some v => (some v, (k, v) :: st.filter (fun e => e.1 ≠ k))
  | none =>
    match f k with
    | none => (none, st)
    | some v => (some v, ((k, v) :: st).take maxsize)

end Peano.Memo
