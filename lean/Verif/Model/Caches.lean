import Verif.Model.RawBaseMap

set_option autoImplicit false

/-
State machine of the caches in `peano/base_maps.py`: `BaseMap._obj_cache`, `BaseMap._id_map_cache`, the per-object `_mul_cache` and
`_inv_cache`, and `Spec._obj_cache`.  Objects live in a heap (list); an object reference is its index.
-/
namespace Peano.Caches

/-- A `BaseMap` object, base_maps.py:54-61. -/
structure Obj where
  key : RawBaseMap
  mulCache : List (RawBaseMap × ℕ)
  invCache : Option ℕ

/-- A `Spec` object, base_maps.py:295-299: reference to the base map object and pattern number. -/
structure SpecObj where
  baseMap : ℕ
  pnum : ℕ

/-- Process-wide state. -/
structure State where
  objs : List Obj
  objCache : List (RawBaseMap × ℕ)
  idCache : List (ℕ × ℕ)
  specs : List SpecObj
  specCache : List ((RawBaseMap × ℕ) × ℕ)

/-- At import time everything is empty. -/
def init : State := ⟨[], [], [], [], []⟩

/-- `BaseMap.__new__`, base_maps.py:34-64. -/
def newBM (st : State) (key : RawBaseMap) : ℕ × State :=
  match st.objCache.lookup key with
  | some i => (i, st)
  | none => (st.objs.length, { st with objs := st.objs ++ [⟨key, [], none⟩], objCache := (key, st.objs.length) :: st.objCache })

/-- `BaseMap.id_map`, base_maps.py:66-73. -/
def idMap (st : State) (dim : ℕ) : ℕ × State :=
  match st.idCache.lookup dim with
  | some i => (i, st)
  | none =>
    let (i, st) := newBM st (RawBaseMap.idMap dim)
    (i, { st with idCache := (dim, i) :: st.idCache })

/-- Store a product in the cache of object `i` (`self._mul_cache[key] = val`). -/
def setMul (st : State) (i : ℕ) (key : RawBaseMap) (v : ℕ) : State :=
  { st with objs := st.objs.modify i fun o => { o with mulCache := (key, v) :: o.mulCache } }

/-- Store the inverse in object `i` (`self._inv_cache = val`). -/
def setInv (st : State) (i : ℕ) (v : ℕ) : State :=
  { st with objs := st.objs.modify i fun o => { o with invCache := some v } }

/-- `BaseMap.__mul__`, base_maps.py:127-142. `none`: exception (or dangling reference). -/
def mul (st : State) (i j : ℕ) : Option (ℕ × State) := do
  let self ← st.objs[i]?
  let other ← st.objs[j]?
  match self.mulCache.lookup other.key with
  | some v => return (v, st)
  | none =>
    let key ← self.key.mul other.key
    let (v, st) := newBM st key
    return (v, setMul st i other.key v)

/-- `BaseMap.get_inverse`, base_maps.py:144-152. -/
def inverse (st : State) (i : ℕ) : Option (ℕ × State) := do
  let self ← st.objs[i]?
  match self.invCache with
  | some v => return (v, st)
  | none =>
    let key ← self.key.inverse
    let (v, st) := newBM st key
    return (v, setInv st i v)

/-- `BaseMap.__invert__`, base_maps.py:168-170. -/
def invert (st : State) (i : ℕ) : Option (ℕ × State) := do
  let self ← st.objs[i]?
  return newBM st self.key.invert

/-- `BaseMap.cube_map`, base_maps.py:110-112. -/
def cubeMap (st : State) (i : ℕ) : Option (ℕ × State) := do
  let self ← st.objs[i]?
  return newBM st ⟨self.key.coords, false⟩

/-- `Spec.__new__`, base_maps.py:289-301. -/
def newSpec (st : State) (bm pnum : ℕ) : Option (ℕ × State) := do
  let o ← st.objs[bm]?
  match st.specCache.lookup (o.key, pnum) with
  | some s => return (s, st)
  | none =>
    return (st.specs.length,
      { st with specs := st.specs ++ [⟨bm, pnum⟩], specCache := ((o.key, pnum), st.specs.length) :: st.specCache })

/-- `Spec.__mul__` by a spec, base_maps.py:323-336. -/
def specMul (st : State) (s t : ℕ) : Option (ℕ × State) := do
  let a ← st.specs[s]?
  let b ← st.specs[t]?
  let (m, st) ← mul st a.baseMap b.baseMap
  newSpec st m a.pnum

/-- `base_map * spec`, base_maps.py:338-347. -/
def bmSpecMul (st : State) (i s : ℕ) : Option (ℕ × State) := do
  let b ← st.specs[s]?
  let (m, st) ← mul st i b.baseMap
  newSpec st m b.pnum

/-- An operation a program can perform; operands are references returned by earlier operations. -/
inductive Op
  | newBM (key : RawBaseMap)
  | idMap (dim : ℕ)
  | mul (i j : ℕ)
  | inverse (i : ℕ)
  | invert (i : ℕ)
  | cubeMap (i : ℕ)
  | newSpec (bm pnum : ℕ)
  | specMul (s t : ℕ)
  | bmSpecMul (i s : ℕ)

/-- Perform an operation: result reference and next state; `none` if it raises (the state of the caches is then unchanged: exceptions
happen before the first store). -/
def step (st : State) : Op → Option (ℕ × State)
  | .newBM key => some (newBM st key)
  | .idMap dim => some (idMap st dim)
  | .mul i j => mul st i j
  | .inverse i => inverse st i
  | .invert i => invert st i
  | .cubeMap i => cubeMap st i
  | .newSpec bm pnum => newSpec st bm pnum
  | .specMul s t => specMul st s t
  | .bmSpecMul i s => bmSpecMul st i s

/-- State after a history; raising operations leave it unchanged. -/
def run : List Op → State → State
  | [], st => st
  | op :: ops, st => run ops ((step st op).map Prod.snd |>.getD st)

end Peano.Caches
