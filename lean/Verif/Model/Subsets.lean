import Mathlib.Data.List.Lex
import Mathlib.Algebra.Order.Field.Rat
import Mathlib.Data.List.Sort
import Verif.Model.ConstraintFast

set_option autoImplicit false

/-
Model of `peano/subsets.py`: the `Subset` interface, `Point` and `Link`.  `FacetDivSubset` is in `Model/FacetSubset.lean`.
-/
namespace Peano

/-- Python's `min(iterable)`: first minimal element with respect to `<`; `none` is ValueError (empty). -/
def pyMin {α : Type*} (lt : α → α → Bool) : List α → Option α
  | [] => none
  | a :: l => some (l.foldl (fun m x => if lt x m then x else m) a)

/-- The `Subset` interface, subsets.py:10-65, in dimension `d`.  `none` is an exception (`AssertionError` for a wrong position,
`NotImplementedError` for `transform`). -/
class SubsetOps (S : Type) (d : outParam ℕ) where
  /-- `intersects`, subsets.py:19-20 -/
  intersects : S → S → Bool
  /-- `map_to_cube(div, cube)`, subsets.py:22-28 -/
  mapToCube : S → ℕ → Cube d → Option S
  /-- `gen_neighbours`, subsets.py:30-37 -/
  genNeighbours : S → List (Cube d × S)
  /-- `divide(div)`, subsets.py:39-46 -/
  divide : S → ℕ → Option (List (Cube d × S))
  /-- `__rmul__`: apply a base map, subsets.py:48-50 -/
  act : BaseMap d → S → S
  /-- `transform(shift=...)`, subsets.py:64-65 (only shifts by integer vectors are used through the interface) -/
  shift : S → Cube d → Option S
  /-- `std`, subsets.py:52-54 -/
  std : S → Option S
  /-- `__lt__` -/
  lt : S → S → Bool
  /-- `isinstance(subset, Point)`, used in paths.py:182, 200 -/
  isPoint : Bool

/-- `class Point`, subsets.py:68-76: tuple of `Fraction`s. -/
abbrev Point (d : ℕ) := Fin d → ℚ

namespace Point
variable {d : ℕ}

/-- `Point.transform(scale=...)`, subsets.py:78-89. -/
def scale (p : Point d) (s : ℚ) : Point d := fun j => p j * s

/-- `Point.transform(shift=...)`, subsets.py:78-89. -/
def shift (p : Point d) (v : Cube d) : Point d := fun j => p j + v j

/-- `Point.map_to_cube`, subsets.py:91-92.  `none` is ZeroDivisionError (`div = 0`). -/
def mapToCube (p : Point d) (div : ℕ) (cube : Cube d) : Option (Point d) :=
  if div = 0 then none else some (scale (shift p cube) (1 / div))

/-- `Point._gen_integer_cubes`, subsets.py:110-117.  Rationals are in lowest terms with positive denominator. -/
def genIntegerCubes (p : Point d) : List (Cube d) :=
  (Itertools.product ((List.finRange d).map fun j =>
    let r := (p j).num / ((p j).den : ℤ)
    if (p j).num % ((p j).den : ℤ) = 0 then [r - 1, r] else [r])).map fun l j => l.getD j 0

/-- `Point.gen_neighbours`, subsets.py:97-101. -/
def genNeighbours (p : Point d) : List (Cube d × Point d) :=
  ((genIntegerCubes p).filter fun cube => ! decide (∀ j, cube j = 0)).map fun cube => (cube, shift p fun j => -cube j)

/-- `Point.divide`, subsets.py:103-108. -/
def divide (p : Point d) (div : ℕ) : List (Cube d × Point d) :=
  let scaled := scale p div
  ((genIntegerCubes scaled).filter fun cube => ! decide (∃ j, cube j < 0 ∨ cube j ≥ (div : ℤ))).map fun cube =>
    (cube, shift scaled fun j => -cube j)

/-- `Point.__rmul__`, subsets.py:119-121 (`apply_x` with default `mx = 1`). -/
def act (bm : BaseMap d) (p : Point d) : Point d := bm.applyX 1 p

/-- Comparison of tuples of fractions. -/
def lt (p q : Point d) : Bool := decide (List.ofFn p < List.ofFn q)

/-- `Point.std`, subsets.py:132-137 (`list.sort` is an insertion sort here). -/
def std (p : Point d) : Point d :=
  let new := (List.finRange d).map fun j => if p j ≤ 1 / 2 then p j else 1 - p j
  fun i => (new.insertionSort (· ≤ ·)).getD i 0

/-- `Point.argstd`, subsets.py:139-140. -/
def argstd (p : Point d) : List (Option (BaseMap d)) := BaseMap.genConstraintFast p (std p)

/-- `Point.face_dim`, subsets.py:142-143. -/
def faceDim (p : Point d) : ℕ := (List.finRange d).countP fun j => p j ≠ 0 ∧ p j ≠ 1

/-- `Point` as a `Subset`, subsets.py:78-137. -/
instance : SubsetOps (Point d) d where
  intersects p q := decide (p = q)
  mapToCube := mapToCube
  genNeighbours := genNeighbours
  divide p div := some (divide p div)
  act := act
  shift p v := some (shift p v)
  std p := some (std p)
  lt := lt
  isPoint := true

end Point

/-- `class Link`, subsets.py:288-314. -/
structure Link (S : Type) where
  entrance : S
  exit : S

instance {S : Type} [DecidableEq S] : DecidableEq (Link S) := fun s t =>
  decidable_of_iff (s.entrance = t.entrance ∧ s.exit = t.exit) (by cases s; cases t; simp)

namespace Link
variable {S : Type} {d : ℕ} [SubsetOps S d]

/-- `Link.__rmul__`, subsets.py:316-320. -/
def act (bm : BaseMap d) (l : Link S) : Link S :=
  let ne := SubsetOps.act bm l.entrance
  let nx := SubsetOps.act bm l.exit
  if bm.timeRev then ⟨nx, ne⟩ else ⟨ne, nx⟩

/-- `Link.__invert__`, subsets.py:349-350. -/
def invert (l : Link S) : Link S := ⟨l.exit, l.entrance⟩

/-- `Link.__lt__`, subsets.py:307-308: comparison of pairs. -/
def lt [DecidableEq S] (l m : Link S) : Bool :=
  if l.entrance = m.entrance then SubsetOps.lt l.exit m.exit else SubsetOps.lt l.entrance m.entrance

/-- `Link.intersects`, subsets.py:355-356. -/
def intersects (l m : Link S) : Bool := SubsetOps.intersects l.entrance m.entrance && SubsetOps.intersects l.exit m.exit

/-- `min(bm * x for bm in bms)` for a list of possibly failing maps. -/
def minImage {T : Type} (lt : T → T → Bool) (f : BaseMap d → T) (bms : List (Option (BaseMap d))) : Option T :=
  (bms.mapM id).bind fun l => pyMin lt (l.map f)

/-- `Link.std` for point links, subsets.py:333-347. -/
def stdPoint (l : Link (Point d)) : Option (Link (Point d)) := do
  let entr := l.entrance
  let exit := l.exit
  let std1 := entr.std
  let std2 := exit.std
  if Point.lt std1 std2 then
    let other ← minImage Point.lt (fun bm => Point.act bm exit) entr.argstd
    return ⟨std1, other⟩
  else if Point.lt std2 std1 then
    let other ← minImage Point.lt (fun bm => Point.act bm entr) exit.argstd
    return ⟨std2, other⟩
  else
    let other1 ← minImage Point.lt (fun bm => Point.act bm exit) entr.argstd
    let other2 ← minImage Point.lt (fun bm => Point.act bm entr) exit.argstd
    let other ← pyMin Point.lt [other1, other2]
    return ⟨std1, other⟩

/-- `Link.std` for other subsets, subsets.py:330-331. -/
def stdGeneric [DecidableEq S] (l : Link S) : Option (Link S) :=
  pyMin lt ((BaseMap.genBaseMaps d none).map fun bm => act bm l)

/-- `argmul_intersect` of the `Subset` interface, subsets.py:56-62. -/
def argmulIntersectSet (s t : S) (bms : List (BaseMap d)) : List (BaseMap d) :=
  bms.filter fun bm => SubsetOps.intersects (SubsetOps.act bm s) t

/-- `Link.argmul_intersect`, subsets.py:358-364, with the generic `argmul_intersect` of the subsets. -/
def argmulIntersect (l m : Link S) : List (BaseMap d) :=
  let all := BaseMap.genBaseMaps d (some false)
  let bms1 := argmulIntersectSet l.entrance m.entrance all
  let bms2 := argmulIntersectSet l.entrance m.exit all
  argmulIntersectSet l.exit m.exit bms1 ++ (argmulIntersectSet l.exit m.entrance bms2).map BaseMap.invert

end Link

end Peano
