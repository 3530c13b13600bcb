import Mathlib.Algebra.Group.Defs
import Mathlib.Data.Fin.VecNotation
import Mathlib.Data.Fintype.Pi
import Mathlib.Data.List.FinRange
import Mathlib.Data.Rat.Defs
import Verif.Model.Itertools

set_option autoImplicit false

/-
Typed model of `peano/base_maps.py`.  A Python tuple of length `dim` is a function out of `Fin d`.
The list-level (literal) model, with invalid coords, text forms and caches, is in `Model/RawBaseMap.lean`.
-/
namespace Peano

/-- A sub-cube (or integer vector) of dimension `d`: `CubeType` of paths.py:19. -/
abbrev Cube (d : ℕ) := Fin d → ℤ

/-- `class BaseMap`, base_maps.py:12-64.  `coords` is the tuple of pairs `(k, b)`, `timeRev` the flag.  The constructor in the code
does not check that the `k`s are distinct; maps violating it are not isometries and are excluded here (they are covered by
the raw model).  The object cache of `__new__` is modelled separately (`Model/Caches.lean`). -/
structure BaseMap (d : ℕ) where
  /-- pair `(k_j, b_j)` for each coordinate: `y_j = 1 - x_{k_j}` if `b_j` else `x_{k_j}` -/
  coords : Fin d → Fin d × Bool
  /-- time reversal flag -/
  timeRev : Bool
  /-- the `k_j` are distinct -/
  inj : Function.Injective fun i => (coords i).1

namespace BaseMap

variable {d : ℕ}

/-- `__eq__` compares `_key = (coords, time_rev)`, base_maps.py:114-115. -/
@[ext] theorem ext {a b : BaseMap d} (h : ∀ i, a.coords i = b.coords i) (ht : a.timeRev = b.timeRev) : a = b := by
  cases a; cases b
  have : ‹Fin d → Fin d × Bool› = ‹Fin d → Fin d × Bool› := rfl
  simp only [mk.injEq]
  exact ⟨funext h, ht⟩

instance : DecidableEq (BaseMap d) := fun a b =>
  decidable_of_iff (a.coords = b.coords ∧ a.timeRev = b.timeRev)
    ⟨fun h => BaseMap.ext (fun i => congrFun h.1 i) h.2, fun h => h ▸ ⟨rfl, rfl⟩⟩

/-- `BaseMap.id_map`, base_maps.py:66-73 (cache omitted). -/
def idMap (d : ℕ) : BaseMap d where
  coords := fun k => (k, false)
  timeRev := false
  inj := fun _ _ h => h

/-- `BaseMap.cube_map`, base_maps.py:110-112: the isometry without time reversal. -/
def cubeMap (a : BaseMap d) : BaseMap d := { a with timeRev := false }

/-- `BaseMap.__mul__`, base_maps.py:127-142 (cache omitted): for each `i`, `(p, b1) = self.coords[i]`, `(k, b2) = other.coords[p]`,
`coords[i] = (k, b1 ^ b2)`. -/
def mul (a b : BaseMap d) : BaseMap d where
  coords := fun i => ((b.coords (a.coords i).1).1, xor (a.coords i).2 (b.coords (a.coords i).1).2)
  timeRev := xor a.timeRev b.timeRev
  inj := fun _ _ h => a.inj (b.inj h)

instance : Mul (BaseMap d) := ⟨mul⟩
instance : One (BaseMap d) := ⟨idMap d⟩

/-- The loop of `get_inverse`, base_maps.py:148-150: starting from a blank list, for each `i` with `coords[i] = (k, b)` set
`coords[k] = (i, b)`.  Blank entries (`None` in the code) are `(k, false)` here; they are all overwritten. -/
def inverseCoords (a : BaseMap d) : Fin d → Fin d × Bool :=
  (List.finRange d).foldl (fun acc i => Function.update acc (a.coords i).1 (i, (a.coords i).2)) (fun k => (k, false))

theorem inverseCoords_foldl (a : BaseMap d) (l : List (Fin d)) (hl : l.Nodup) (acc : Fin d → Fin d × Bool) (i : Fin d)
    (hi : i ∈ l) :
    l.foldl (fun acc i => Function.update acc (a.coords i).1 (i, (a.coords i).2)) acc (a.coords i).1
      = (i, (a.coords i).2) := by
  induction l generalizing acc with
  | nil => simp at hi
  | cons j l ih =>
    simp only [List.foldl_cons]
    rw [List.nodup_cons] at hl
    by_cases hil : i ∈ l
    · exact ih hl.2 _ hil
    · have hij : i = j := by simpa [hil] using hi
      subst hij
      clear ih hi
      have key : ∀ (l : List (Fin d)) (acc : Fin d → Fin d × Bool), i ∉ l →
          l.foldl (fun acc i => Function.update acc (a.coords i).1 (i, (a.coords i).2)) acc (a.coords i).1
            = acc (a.coords i).1 := by
        intro l
        induction l with
        | nil => intros; rfl
        | cons j l ih =>
          intro acc h
          simp only [List.mem_cons, not_or] at h
          rw [List.foldl_cons, ih _ h.2, Function.update_of_ne]
          intro h'
          exact h.1 (a.inj h')
      rw [key l _ hil]; simp

theorem inverseCoords_apply (a : BaseMap d) (i : Fin d) : a.inverseCoords (a.coords i).1 = (i, (a.coords i).2) :=
  inverseCoords_foldl a _ (List.nodup_finRange d) _ i (List.mem_finRange i)

theorem coords_surj (a : BaseMap d) : Function.Surjective fun i => (a.coords i).1 :=
  Finite.injective_iff_surjective.1 a.inj

/-- `BaseMap.get_inverse`, base_maps.py:144-152 (cache omitted). -/
def inverse (a : BaseMap d) : BaseMap d where
  coords := a.inverseCoords
  timeRev := a.timeRev
  inj := by
    intro x y h
    obtain ⟨i, rfl⟩ := a.coords_surj x
    obtain ⟨j, rfl⟩ := a.coords_surj y
    simp only [inverseCoords_apply] at h
    rw [h]

instance : Inv (BaseMap d) := ⟨inverse⟩

/-- `BaseMap.__pow__`, base_maps.py:154-166.  The fuel is the allowed recursion depth; `none` is `RecursionError`. -/
def powFuel : ℕ → BaseMap d → ℤ → Option (BaseMap d)
  | 0, _, _ => none
  | fuel + 1, a, power =>
    if power < 0 then powFuel fuel a⁻¹ (-power)
    else if power = 1 then some a
    else if power % 2 = 0 then do
      let t ← powFuel fuel a (power / 2)
      return t * t
    else do
      let t ← powFuel fuel a ((power - 1) / 2)
      return t * t * a

/-- `BaseMap.__invert__`, base_maps.py:168-170: time reversal `~B`. -/
def invert (a : BaseMap d) : BaseMap d := { a with timeRev := !a.timeRev }

/-- `BaseMap.conjugate_by`, base_maps.py:172-174: `other * self * other.get_inverse()`. -/
def conjugateBy (self other : BaseMap d) : BaseMap d := other * self * other⁻¹

section actions
variable {K : Type*} [Sub K] [Neg K]

/-- `BaseMap.apply_x`, base_maps.py:176-178, over any number type (the code uses `Fraction`; proofs also use `ℝ`). -/
def applyX (a : BaseMap d) (mx : K) (x : Fin d → K) : Fin d → K :=
  fun i => if (a.coords i).2 then mx - x (a.coords i).1 else x (a.coords i).1

/-- `BaseMap.apply_t`, base_maps.py:180-182. -/
def applyT (a : BaseMap d) (mt : K) (t : K) : K := if a.timeRev then mt - t else t

/-- `BaseMap.apply_vec`, base_maps.py:184-186. -/
def applyVec (a : BaseMap d) (v : Fin d → K) : Fin d → K :=
  fun i => if (a.coords i).2 then -v (a.coords i).1 else v (a.coords i).1

end actions

/-- `BaseMap.apply_cube`, base_maps.py:188-190. -/
def applyCube (a : BaseMap d) (div : ℤ) (cube : Cube d) : Cube d :=
  fun i => if (a.coords i).2 then div - cube (a.coords i).1 - 1 else cube (a.coords i).1

/-- `BaseMap.apply_cube_start`, base_maps.py:192-194. -/
def applyCubeStart (a : BaseMap d) (cubeStart : Cube d) (cubeLength : ℤ) : Cube d :=
  fun i => if (a.coords i).2 then 1 - cubeStart (a.coords i).1 - cubeLength else cubeStart (a.coords i).1

/-- `BaseMap.apply_cnum`, base_maps.py:196-197.  Cube numbers are natural numbers; all uses have `cnum < genus`
(integer times of `_get_pos_bounds` likewise), so the truncated subtraction is exact. -/
def applyCnum (a : BaseMap d) (genus cnum : ℕ) : ℕ := if a.timeRev then genus - 1 - cnum else cnum

/-- Construct a base map from a list of pairs, as `cls(coords, time_rev)` does for a list of length `d` with distinct
first components; otherwise `none`. -/
def ofList (l : List (Fin d × Bool)) (timeRev : Bool) : Option (BaseMap d) :=
  if h : l.length = d then
    if hn : (l.map Prod.fst).Nodup then
      some { coords := fun i => l[i.val]'(by omega), timeRev := timeRev, inj := by
              intro i j hij
              have hi : i.val < (l.map Prod.fst).length := by simp [h]
              have hj : j.val < (l.map Prod.fst).length := by simp [h]
              have := (hn.getElem_inj_iff (hi := hi) (hj := hj)).1 (by simpa using hij)
              exact Fin.ext this }
    else none
  else none

/-- `BaseMap.gen_base_maps`, base_maps.py:199-211: permutations × flips × time reversals.
`time_rev` is `none` (both, `True` first) or the requested value. -/
def genBaseMaps (d : ℕ) (timeRev : Option Bool) : List (BaseMap d) :=
  let timeRevVariants := match timeRev with
    | none => [true, false]
    | some b => [b]
  (Itertools.permutations (List.finRange d)).flatMap fun perm =>
    (Itertools.productRepeat [true, false] d).flatMap fun flip =>
      timeRevVariants.filterMap fun tr => ofList (perm.zip flip) tr

end BaseMap

/-- `class Spec`, base_maps.py:272-301 (object cache omitted): base map and pattern number. -/
structure Spec (d : ℕ) where
  baseMap : BaseMap d
  pnum : ℕ

instance {d : ℕ} : DecidableEq (Spec d) := fun s t =>
  decidable_of_iff (s.baseMap = t.baseMap ∧ s.pnum = t.pnum) (by cases s; cases t; simp)

namespace Spec
variable {d : ℕ}

/-- `Spec.__mul__` with a Spec, base_maps.py:323-336. -/
def mul (s t : Spec d) : Spec d := ⟨s.baseMap * t.baseMap, s.pnum⟩

/-- `Spec.__mul__` with a BaseMap on the right, base_maps.py:330-331,336. -/
def mulBaseMap (s : Spec d) (b : BaseMap d) : Spec d := ⟨s.baseMap * b, s.pnum⟩

/-- `Spec.__rmul__` with a BaseMap on the left (`bm * spec`), base_maps.py:338-341,347. -/
def rmulBaseMap (b : BaseMap d) (s : Spec d) : Spec d := ⟨b * s.baseMap, s.pnum⟩

/-- `Spec.__invert__`, base_maps.py:349-350. -/
def invert (s : Spec d) : Spec d := ⟨s.baseMap.invert, s.pnum⟩

/-- `Spec.conjugate_by`, base_maps.py:352-356. -/
def conjugateBy (s : Spec d) (b : BaseMap d) : Spec d := ⟨s.baseMap.conjugateBy b, s.pnum⟩

end Spec

end Peano
