import Mathlib.Algebra.Order.Field.Basic
import Mathlib.Algebra.Order.Ring.Abs
import Verif.Model.BaseMap

set_option autoImplicit false

/-
Model of `peano/utils.py`.
-/
namespace Peano

/-! ### Ratio functions -/

/-- The four ratio functions of utils.py:17-32. -/
inductive Ratio
  /-- `ratio_linf` -/
  | linf
  /-- `ratio_l1` -/
  | l1
  /-- `ratio_l2_squared` -/
  | l2sq
  /-- `ratio_l2` (even dimension only) -/
  | l2
deriving DecidableEq

section ratio
variable {K : Type*} [Field K] [LinearOrder K] [IsStrictOrderedRing K] {d : ℕ}

/-- `max(abs(x) for x in dv)`, utils.py:18.  The fold starts at 0, which changes nothing for a non-empty vector of absolute values;
the empty case (ValueError in the code) is treated in `ratioFn`. -/
def maxAbs (dv : Fin d → K) : K := ((List.finRange d).map fun i => |dv i|).foldr max 0

/-- `sum(abs(x) for x in dv)`, utils.py:22. -/
def sumAbs (dv : Fin d → K) : K := ((List.finRange d).map fun i => |dv i|).sum

/-- `sum(x ** 2 for x in dv)`, utils.py:26,32. -/
def sumSq (dv : Fin d → K) : K := ((List.finRange d).map fun i => dv i ^ 2).sum

/-- Numerators of the ratio functions, utils.py:18,22,26,31-32. -/
def Ratio.num (r : Ratio) (dv : Fin d → K) : K :=
  match r with
  | .linf => maxAbs dv ^ d
  | .l1 => sumAbs dv ^ d
  | .l2sq => sumSq dv ^ d
  | .l2 => sumSq dv ^ (d / 2)

/-- Denominators of the ratio functions, utils.py:18,22,26,32. -/
def Ratio.den (r : Ratio) (dt : K) : K :=
  match r with
  | .l2sq => dt ^ 2
  | _ => dt

/-- Value of the ratio when it is defined. -/
def Ratio.val (r : Ratio) (dv : Fin d → K) (dt : K) : K := r.num dv / r.den dt

/-- When the ratio function can be used in dimension `d`: `ratio_l2` asserts an even dimension (utils.py:30); `max()` of an empty
sequence is an error (utils.py:18). -/
def Ratio.Ok (r : Ratio) (d : ℕ) : Prop :=
  match r with
  | .l2 => d % 2 = 0
  | .linf => 0 < d
  | _ => True

instance (r : Ratio) (d : ℕ) : Decidable (r.Ok d) := by cases r <;> unfold Ratio.Ok <;> infer_instance

/-- The ratio functions with errors: `ratio_linf/l1/l2_squared/l2(d, dv, dt)`, utils.py:17-32.  `none` is ZeroDivisionError
(`dt = 0`), AssertionError (`ratio_l2` in odd dimension) or ValueError (`max` of nothing).  Simplification: the argument `d` and
the length of `dv` are the same number (all callers pass `dim` and a `dim`-vector). Polymorphic: `ℚ` is the code, `ℝ` is
used to speak about the curve. -/
def Ratio.fn (r : Ratio) (dv : Fin d → K) (dt : K) : Option K :=
  if r.Ok d then (if r.den dt = 0 then none else some (r.val dv dt)) else none

end ratio

/-! ### Integer coordinates -/

/-- Loop of `get_int_cube_with_cache`, utils.py:38-44: `for cube in reversed(cubes)` with state `(x, div_power)`. -/
def intCubeLoop {d : ℕ} (div : ℕ) (cubes : List (Cube d)) : Cube d × ℤ :=
  cubes.reverse.foldl (fun (s : Cube d × ℤ) cube => (fun j => s.1 j + cube j * s.2, s.2 * div)) (fun _ => 0, 1)

/-- `get_int_cube_with_cache`, utils.py:35-44; the `lru_cache` decorator is modelled in `Model/Memo.lean`. -/
def getIntCube {d : ℕ} (div : ℕ) (cubes : List (Cube d)) : Cube d := (intCubeLoop div cubes).1

/-- Loop of `get_int_time_with_cache`, utils.py:50-58: `for cnum in reversed(cnums)` with state `(t, Gpower)`, `G = div**dim`. -/
def intTimeLoop (dim div : ℕ) (cnums : List ℕ) : ℕ × ℕ :=
  cnums.reverse.foldl (fun (s : ℕ × ℕ) cnum => (s.1 + cnum * s.2, s.2 * div ^ dim)) (0, 1)

/-- `get_int_time_with_cache`, utils.py:47-58. -/
def getIntTime (dim div : ℕ) (cnums : List ℕ) : ℕ := (intTimeLoop dim div cnums).1

/-! ### Periodic sums -/

/-- The loops of `get_periodic_sum`, utils.py:69-73 and 76-80: `for x in reversed(digits): n += x * power; power *= d`. -/
def digitsLoop (d : ℕ) (digits : List ℤ) : ℤ × ℤ :=
  digits.reverse.foldl (fun (s : ℤ × ℤ) x => (s.1 + x * s.2, s.2 * d)) (0, 1)

/-- `get_periodic_sum`, utils.py:61-83.  `none` is ZeroDivisionError. -/
def getPeriodicSum (start period : List ℤ) (d : ℕ) : Option ℚ :=
  let (n0, dPower) := digitsLoop d start
  let (np, dpPower) := digitsLoop d period
  if dPower = 0 ∨ dPower * (dpPower - 1) = 0 then none
  else some ((n0 : ℚ) / dPower + (np : ℚ) / (dPower * (dpPower - 1)))

/-! ### LCM, faces -/

/-- `get_lcm`, utils.py:86-91, on naturals; `none` is ZeroDivisionError (both numbers 0). -/
def getLcm (xs : List ℕ) : Option ℕ :=
  xs.foldlM (fun lcm x => if Nat.gcd lcm x = 0 then none else some (lcm * x / Nat.gcd lcm x)) 1

/-- A face: tuple in `{0,1,None}^dim`; `some false` is 0, `some true` is 1. -/
abbrev Face (d : ℕ) := Fin d → Option Bool

/-- `gen_faces`, utils.py:94-101. `none` is ValueError (negative `r`). -/
def genFaces (dim faceDim : ℕ) : Option (List (Face dim)) :=
  if faceDim ≤ dim then
    some <| (Itertools.combinations (List.finRange dim) (dim - faceDim)).flatMap fun coords =>
      (Itertools.productRepeat [false, true] (dim - faceDim)).map fun values =>
        (values.zip coords).foldl (fun (face : Face dim) vc => Function.update face vc.2 (some vc.1)) (fun _ => none)
  else none

/-! ### Product of combinations -/

section combinations
variable {I T : Type} [DecidableEq I]

/-- `Counter` update for one key: items keep the order of first occurrence. -/
def counterBump (id : I) : List (I × ℕ) → List (I × ℕ)
  | [] => [(id, 1)]
  | (k, n) :: l => if k = id then (k, n + 1) :: l else (k, n) :: counterBump id l

/-- `Counter(iter_ids).items()`, utils.py:120. -/
def counterItems (ids : List I) : List (I × ℕ) := ids.foldl (fun c id => counterBump id c) []

/-- `groups_items_lists[id2idx[iter_id]].pop(0)`, utils.py:127: the groups are kept with their ids.  `none` is
KeyError/IndexError. -/
def popFirst (id : I) : List (I × List T) → Option (T × List (I × List T))
  | [] => none
  | (k, g) :: l =>
    if k = id then
      match g with
      | [] => none
      | x :: g' => some (x, (k, g') :: l)
    else (popFirst id l).map fun r => (r.1, (k, g) :: r.2)

/-- The inner loop `for iter_id in iter_ids`, utils.py:125-127. -/
def distribute : List I → List (I × List T) → Option (List T)
  | [], _ => some []
  | id :: ids, groups => do
    let (x, groups') ← popFirst id groups
    let rest ← distribute ids groups'
    return x :: rest

/-- `combinations_product`, utils.py:104-128.  `iter_dict` is a function (a missing id would be KeyError); `none` is an
exception raised while generating. -/
def combinationsProduct (iterIds : List I) (iterDict : I → List T) : Option (List (List T)) :=
  let items := counterItems iterIds
  let combs := items.map fun p => Itertools.combinationsWithReplacement (iterDict p.1) p.2
  (Itertools.product combs).mapM fun groupsItems => distribute iterIds ((items.map Prod.fst).zip groupsItems)

end combinations

end Peano
