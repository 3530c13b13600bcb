import Verif.Model.BaseMap

set_option autoImplicit false

/- Model of `BaseMap.gen_constraint_fast`, base_maps.py:213-269. -/
namespace Peano.BaseMap
variable {d : ℕ}

/-- One step of the grouping loop, base_maps.py:228-234: `group_id` and `group_coords` as one list of `(value, coords)`, the group id
being the position; `k` is appended to the group of value `x`, a new group is opened if there is none. -/
def addToGroup (gs : List (ℚ × List (Fin d))) (x : ℚ) (k : Fin d) : List (ℚ × List (Fin d)) :=
  match gs with
  | [] => [(x, [k])]
  | (y, ks) :: gs => if y = x then (y, ks ++ [k]) :: gs else (y, ks) :: addToGroup gs x k

/-- The grouping loop over `enumerate(dst)`, base_maps.py:226-234. -/
def groups (dst : Fin d → ℚ) : List (ℚ × List (Fin d)) :=
  (List.finRange d).foldl (fun gs k => addToGroup gs (dst k) k) []

/-- `group_id.get(x)`: position of the group with value `x`. -/
def groupId (gs : List (ℚ × List (Fin d))) (x : ℚ) : Option ℕ := gs.findIdx? (fun g => g.1 = x)

/-- The variants `(b, group_id)` of one source coordinate, base_maps.py:240-246. -/
def flipVariants (gs : List (ℚ × List (Fin d))) (x : ℚ) : List (Bool × ℕ) :=
  ((groupId gs x).map fun g => (false, g)).toList ++ ((groupId gs (1 - x)).map fun g => (true, g)).toList

/-- The counting check, base_maps.py:250-258, with the counter `seen` (list of groups already counted). -/
def checkCounts (gs : List (ℚ × List (Fin d))) : List ℕ → List (Bool × ℕ) → Bool
  | _, [] => true
  | seen, (_, g) :: fl =>
    let seen := g :: seen
    if seen.count g > ((gs[g]?).map fun p => p.2.length).getD 0 then false else checkCounts gs seen fl

/-- The loop `new_k = perms_copy[g].pop(0)`, base_maps.py:264-268: the list of `new_k`; `none` is `IndexError`. -/
def popLoop : List (Bool × ℕ) → List (List (Fin d)) → Option (List (Fin d))
  | [], _ => some []
  | (_, g) :: fl, perms =>
    match perms[g]? with
    | some (x :: xs) => (popLoop fl (perms.set g xs)).map fun nk => x :: nk
    | _ => none

/-- The assignments `coords[new_k] = (k, b)`, base_maps.py:265-268: `coords` is a list of length `dim` with blanks. -/
def fillCoords (fl : List (Bool × ℕ)) (nk : List (Fin d)) : Fin d → Option (Fin d × Bool) :=
  ((List.finRange d).zip (fl.zip nk)).foldl (fun acc p => Function.update acc p.2.2 (some (p.1, p.2.1.1))) (fun _ => none)

/-- `cls(coords)`, base_maps.py:269: `none` if a blank is left or a source coordinate is repeated (not a valid base map). -/
def ofFilled (c : Fin d → Option (Fin d × Bool)) : Option (BaseMap d) :=
  if (List.ofFn c).all Option.isSome then ofList ((List.ofFn c).filterMap id) false else none

/-- `BaseMap.gen_constraint_fast`, base_maps.py:213-269.  Each yielded object is an `Option`: `none` would be an exception or
an object that is not a valid base map. -/
def genConstraintFast (src dst : Fin d → ℚ) : List (Option (BaseMap d)) :=
  let gs := groups dst
  let groupPermList := Itertools.product (gs.map fun g => Itertools.permutations g.2)
  ((Itertools.product ((List.finRange d).map fun k => flipVariants gs (src k))).filter fun fl => checkCounts gs [] fl).flatMap
    fun fl => groupPermList.map fun perms => (popLoop fl perms).bind fun nk => ofFilled (fillCoords fl nk)

end Peano.BaseMap
