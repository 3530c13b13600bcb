import Verif.Model.Heap
import Verif.Model.SAT
import Verif.Model.Memo
import Mathlib.Data.List.Dedup

set_option autoImplicit false

/-
Model of `peano/dilation.py`.

Conventions.
* Exceptions other than `_RunOutOfIterationsException` are `none`.
* The functions that use the memoized `_get_pos_bounds` are written in an arbitrary monad `m` (with exceptions) and take that method as an
  argument `B`: for `m = Option` the method is the pure function `posBounds r`, for `m = CacheM` it is the method with the cache.
* `while True` loops take a number `fuel` of allowed iterations; running out of it is a result of its own (`outOfFuel`).  Theorems say that
  results with enough fuel exist, or speak about the results of runs that end.
* Not modelled: statistics and logging.
-/
namespace Peano
variable {d : ℕ}

/-- `class _PiecePosition`, dilation.py:31-50.  `dim` is the parameter; `depth` is a function. -/
structure PiecePos (d : ℕ) where
  div : ℕ
  cnums : List ℕ
  cubes : List (Cube d)
deriving DecidableEq

namespace PiecePos

/-- `self.depth`, dilation.py:40. -/
def depth (pos : PiecePos d) : ℕ := pos.cnums.length

/-- `specify`, dilation.py:52-58. -/
def specify (pos : PiecePos d) (cnum : ℕ) (cube : Cube d) : PiecePos d :=
  { pos with cnums := pos.cnums ++ [cnum], cubes := pos.cubes ++ [cube] }

/-- `get_int_coords`, dilation.py:60-69 (the caches of the two functions are transparent, C25). -/
def intCoords (pos : PiecePos d) : Cube d × ℕ := (getIntCube pos.div pos.cubes, getIntTime d pos.div pos.cnums)

end PiecePos

/-- `class _CurvePiece`, dilation.py:72-79. -/
structure CurvePiece (d : ℕ) where
  curve : FCurve d
  pnum : ℕ
  pos : PiecePos d

namespace CurvePiece

/-- `get_last_spec`, dilation.py:81-85. -/
def getLastSpec (c : CurvePiece d) : Option (Spec d) := c.curve.getDeepSpec c.pnum c.pos.cnums

/-- The pieces for one allowed spec, dilation.py:98-102.  (An undefined cube is an exception; in the code it would be put into the
position.) -/
def divideWith (c : CurvePiece d) (prev : Spec d) (origCnum : ℕ) (origSpec : Spec d) : Option (List (CurvePiece d)) := do
  let specified ← match c.curve.specify prev.pnum origCnum origSpec with
    | .ok c' => some c'
    | _ => none
  let pattern ← c.curve.patterns[origSpec.pnum]?
  let proto := pattern.proto.act c.curve.div (prev.baseMap * origSpec.baseMap)
  proto.zipIdx.mapM fun e => e.1.map fun cube => ⟨specified, c.pnum, c.pos.specify e.2 cube⟩

/-- `divide`, dilation.py:87-102. -/
def divide (c : CurvePiece d) : Option (List (CurvePiece d)) := do
  let prev ← c.curve.getDeepSpec c.pnum c.pos.cnums.dropLast
  let lastCnum ← c.pos.cnums.getLast?
  let origCnum := prev.baseMap.applyCnum c.curve.genus lastCnum
  let allowed ← c.curve.genAllowedSpecs prev.pnum origCnum
  let res ← allowed.mapM fun origSpec => c.divideWith prev origCnum origSpec
  return res.flatten

end CurvePiece

/-- `class _CurvePiecePair`, dilation.py:105-111. -/
structure PiecePair (d : ℕ) where
  curve : FCurve d
  junc : Junction d
  pos1 : PiecePos d
  pos2 : PiecePos d

namespace PiecePair

/-- `_get_piece(1)`, dilation.py:113-116. -/
def piece1 (p : PiecePair d) : CurvePiece d := ⟨p.curve, p.junc.spec1.pnum, p.pos1⟩

/-- `_get_piece(2)`, dilation.py:113-116. -/
def piece2 (p : PiecePair d) : CurvePiece d := ⟨p.curve, p.junc.spec2.pnum, p.pos2⟩

/-- `get_pos` in `init_first_order`, dilation.py:122-124. -/
def firstPos (curve : FCurve d) (pnum cnum : ℕ) : Option (PiecePos d) := do
  let cube ← curve.cube? pnum cnum
  return ⟨curve.div, [cnum], [cube]⟩

/-- `init_first_order`, dilation.py:118-125. -/
def initFirstOrder (curve : FCurve d) (junc : Junction d) (cnum1 cnum2 : ℕ) : Option (PiecePair d) := do
  let pos1 ← firstPos curve junc.spec1.pnum cnum1
  let pos2 ← firstPos curve junc.spec2.pnum cnum2
  return ⟨curve, junc, pos1, pos2⟩

/-- `depth`, dilation.py:130-134. -/
def depth (p : PiecePair d) : ℕ := min p.pos1.depth p.pos2.depth

/-- `divide_balanced`, dilation.py:136-145. -/
def divideBalanced (p : PiecePair d) : Option (List (PiecePair d)) :=
  if p.pos1.depth > p.pos2.depth then
    p.piece2.divide.map fun l => l.map fun sub => ⟨sub.curve, p.junc, p.pos1, sub.pos⟩
  else
    p.piece1.divide.map fun l => l.map fun sub => ⟨sub.curve, p.junc, sub.pos, p.pos2⟩

end PiecePair

/-- The dictionary `argmax`, dilation.py:293. -/
structure Argmax (d : ℕ) where
  x1 : Point d
  t1 : ℚ
  x2 : Point d
  t2 : ℚ
  junc : Junction d
  pos1 : PiecePos d
  pos2 : PiecePos d

/-- `(lo, up, argmax)`. -/
structure PairBounds (d : ℕ) where
  lo : ℚ
  up : ℚ
  argmax : Option (Argmax d)

/-- `class _BoundedPair`, dilation.py:148-152. -/
structure BoundedPair (d : ℕ) where
  lo : ℚ
  up : ℚ
  pair : PiecePair d
  argmax : Option (Argmax d)

instance : BoundedItem (BoundedPair d) := ⟨BoundedPair.lo, BoundedPair.up⟩

namespace Dilation
open FCurve (CurvePoint)

/-- Integer coordinates of a pair, dilation.py:217-266: `x1`, `t1`, `x2`, `t2` in the scale of the first fraction, after base maps and
shifts; `mx2`, `mt2` sizes of the second fraction; `mx`, `mt` scales. -/
structure Coords (d : ℕ) where
  x1 : Cube d
  t1 : ℤ
  x2 : Cube d
  t2 : ℤ
  mx2 : ℤ
  mt2 : ℤ
  mx : ℤ
  mt : ℤ

/-- The common scale, dilation.py:238-248: `mx2`, `mt2`; `none` is ValueError("Unbalanced positions!"). -/
def commonScale (pos1 pos2 : PiecePos d) : Option (ℤ × ℤ) :=
  if pos1.depth = pos2.depth then some (1, 1)
  else if pos1.depth = pos2.depth + 1 then some ((pos1.div : ℤ), (pos1.div : ℤ) ^ d)
  else none

/-- dilation.py:214-261.  (In the case of equal depths the code does not multiply by `mx2 = mt2 = 1`.) -/
def coords (junc : Junction d) (pos1 pos2 : PiecePos d) : Option (Coords d) := do
  let n := pos1.div
  let (x1, t1) := pos1.intCoords
  let (x2, t2) := pos2.intCoords
  let div1 := n ^ pos1.depth
  let genus1 := div1 ^ d
  let div2 := n ^ pos2.depth
  let genus2 := div2 ^ d
  let jbm1 := junc.spec1.baseMap
  let jbm2 := junc.spec2.baseMap
  let x1 := jbm1.applyCube div1 x1
  let t1 := jbm1.applyCnum genus1 t1
  let x2 := jbm2.applyCube div2 x2
  let t2 := jbm2.applyCnum genus2 t2
  let (mx2, mt2) ← commonScale pos1 pos2
  return {
    x1 := x1, t1 := t1
    x2 := fun j => x2 j * mx2 + junc.deltaX j * div1
    t2 := t2 * mt2 + junc.deltaT * genus1
    mx2 := mx2, mt2 := mt2, mx := div1, mt := genus1 }

namespace Coords

/-- dilation.py:263. -/
def maxDx (k : Coords d) : Cube d := fun j => max |k.x1 j - k.x2 j + 1| |k.x1 j - k.x2 j - k.mx2|

/-- dilation.py:265. -/
def maxDt (k : Coords d) : ℤ := k.t2 + k.mt2 - k.t1

/-- dilation.py:266. -/
def minDt (k : Coords d) : ℤ := k.t2 - (k.t1 + 1)

end Coords

/-- One iteration of the loop over pairs of points, dilation.py:274-293; the state is `(lo, argmax)`. -/
def pointStep (r : Ratio) (junc : Junction d) (pos1 pos2 : PiecePos d) (k : Coords d) (st : ℚ × Option (Argmax d))
    (pts : CurvePoint d × CurvePoint d) : Option (ℚ × Option (Argmax d)) := do
  let x1 : Point d := fun j => k.x1 j + pts.1.x j
  let t1 : ℚ := k.t1 + pts.1.t
  let x2 : Point d := fun j => k.x2 j + pts.2.x j
  let t2 : ℚ := k.t2 + pts.2.t
  let lo ← r.fn (fun j => x1 j - x2 j) (t2 - t1)
  if lo > st.1 ∨ st.2.isNone then
    return (lo, some ⟨fun j => x1 j / k.mx, t1 / k.mt, fun j => x2 j / k.mx, t2 / k.mt, junc, pos1, pos2⟩)
  else return st

/-- `_get_pos_bounds`, dilation.py:206-295. -/
def posBounds (r : Ratio) (junc : Junction d) (pos1 pos2 : PiecePos d) (pts1 pts2 : List (CurvePoint d)) : Option (PairBounds d) := do
  let usePoints := !pts1.isEmpty && !pts2.isEmpty
  let k ← coords junc pos1 pos2
  let lo ← r.fn (fun j => (k.maxDx j : ℚ)) k.maxDt
  let up ← r.fn (fun j => (k.maxDx j : ℚ)) k.minDt
  if usePoints then
    let pts1 := pts1.map fun pt => pt.act junc.spec1.baseMap
    let pts2 := pts2.map fun pt => (pt.act junc.spec2.baseMap).scale k.mx2
    let (lo, argmax) ← (pts1.flatMap fun a => pts2.map fun b => (a, b)).foldlM (pointStep r junc pos1 pos2 k) (lo, none)
    return ⟨lo, up, argmax⟩
  else return ⟨lo, up, none⟩

/-- Arguments of `_get_pos_bounds`: the keys of its cache. -/
structure Key (d : ℕ) where
  junc : Junction d
  pos1 : PiecePos d
  pos2 : PiecePos d
  pts1 : List (CurvePoint d)
  pts2 : List (CurvePoint d)
deriving DecidableEq

/-- `_get_pos_bounds` as a function of the key. -/
def keyBounds (r : Ratio) (k : Key d) : Option (PairBounds d) := posBounds r k.junc k.pos1 k.pos2 k.pts1 k.pts2

/-- The contents of the cache. -/
abbrev Cache (d : ℕ) := Memo.State (Key d) (PairBounds d)

/-- Computations that use the cache and may raise an exception; the state of the cache is kept when an exception is raised. -/
abbrev CacheM (d : ℕ) := OptionT (StateM (Cache d))

instance : MonadLift Option (CacheM d) := ⟨fun x => OptionT.mk (pure x)⟩

/-- `self._get_pos_bounds = functools.lru_cache(cache_max_size)(self._get_pos_bounds)`, dilation.py:183-184.  Keys are compared by all data
of junctions (curves.py:775-779; not by `depth`, which is not modelled here), of positions (dilation.py:43-47) and of points. -/
def cachedBounds (r : Ratio) (maxsize : ℕ) (k : Key d) : CacheM d (PairBounds d) :=
  OptionT.mk fun cache => Memo.callPartial (keyBounds r) maxsize cache k

section estimator
variable {m : Type → Type} [Monad m] [MonadLiftT Option m]
variable (Q : HeapQ (HNode (BoundedPair d)) HNode.lt) (B : Key d → m (PairBounds d))

/-- `curve_points`: for each `pnum` a list of points; `none` if absent. -/
abbrev Stash (d : ℕ) := Option (List (List (CurvePoint d)))

/-- The points of the pieces, dilation.py:196-202. -/
def rotatedPoints (stash : Stash d) (pair : PiecePair d) : Option (List (CurvePoint d) × List (CurvePoint d)) :=
  match stash with
  | none => some ([], [])
  | some pts => do
    let sp1 ← pair.piece1.getLastSpec
    let sp2 ← pair.piece2.getLastSpec
    let l1 ← pts[sp1.pnum]?
    let l2 ← pts[sp2.pnum]?
    return (l1.map fun pt => pt.act sp1.baseMap, l2.map fun pt => pt.act sp2.baseMap)

/-- `_get_bounds`, dilation.py:186-204. -/
def getBounds (stash : Stash d) (pair : PiecePair d) : m (PairBounds d) := do
  let pts ← liftM (rotatedPoints stash pair)
  B ⟨pair.junc, pair.pos1, pair.pos2, pts.1, pts.2⟩

/-- `_push_tree`, dilation.py:336-339. -/
def pushTree (stash : Stash d) (tree : ItemsHeap (BoundedPair d)) (pair : PiecePair d) : m (ItemsHeap (BoundedPair d)) := do
  let b ← getBounds B stash pair
  return tree.push Q ⟨b.lo, b.up, pair, b.argmax⟩

/-- `curve.gen_regular_junctions()` for the class of the curve: `Curve` (curves.py:610-612) or other (curves.py:519-521). -/
def regularJunctions (curve : FCurve d) : Option (List (Junction d)) :=
  match curve.kind with
  | .curve => curve.genRegularJunctions.map fun l => l.map Prod.fst
  | _ => curve.genRegularJunctionsFuzzy

/-- First-order pairs of an auto junction, dilation.py:317-320. -/
def autoPairs (genus : ℕ) (junc : Junction d) : List (Junction d × ℕ × ℕ) :=
  (List.range genus).flatMap fun cnum1 => (List.range' (cnum1 + 2) (genus - (cnum1 + 2))).map fun cnum2 => (junc, cnum1, cnum2)

/-- First-order pairs of a regular junction, dilation.py:322-328. -/
def regularPairs (genus : ℕ) (junc : Junction d) : List (Junction d × ℕ × ℕ) :=
  let lastCnum1 := if junc.spec1.baseMap.timeRev then 0 else genus - 1
  let firstCnum2 := if junc.spec2.baseMap.timeRev then genus - 1 else 0
  (List.range genus).flatMap fun cnum1 => (List.range genus).filterMap fun cnum2 =>
    if (cnum1, cnum2) ≠ (lastCnum1, firstCnum2) then some (junc, cnum1, cnum2) else none

/-- `pair_data`, dilation.py:315-328. -/
def pairData (curve : FCurve d) : Option (List (Junction d × ℕ × ℕ)) := do
  let regular ← regularJunctions curve
  return curve.genAutoJunctions.flatMap (autoPairs curve.genus) ++ regular.flatMap (regularPairs curve.genus)

/-- `_create_tree`, dilation.py:304-334. -/
def createTree (curve : FCurve d) (goodThr badThr : Option ℚ) (keepMax : Bool) (stash : Stash d) : m (ItemsHeap (BoundedPair d)) := do
  let data ← liftM (pairData curve)
  data.foldlM (fun tree e => do
    let pair ← liftM (PiecePair.initFirstOrder curve e.1 e.2.1 e.2.2)
    pushTree Q B stash tree pair) (ItemsHeap.init goodThr badThr keepMax)

/-- `_divide_tree`, dilation.py:341-345. -/
def divideTree (stash : Stash d) (tree : ItemsHeap (BoundedPair d)) : m (ItemsHeap (BoundedPair d)) := do
  let worst ← liftM (tree.pop Q)
  let subs ← liftM worst.1.pair.divideBalanced
  subs.foldlM (pushTree Q B stash) worst.2

/-- `_forbid`, dilation.py:357-360. -/
def forbid (tree : ItemsHeap (BoundedPair d)) (adapter : Sat.Adapter d) : ItemsHeap (BoundedPair d) × Sat.Adapter d :=
  (tree.popBadItems.2, tree.popBadItems.1.foldl (fun st item => Sat.addForbidClause st item.pair.junc item.pair.curve) adapter)

/-- `Fraction(rel_tol_inv + 1, rel_tol_inv)`; `none` is ZeroDivisionError. -/
def tolerance (relTolInv : ℤ) : Option ℚ := if relTolInv = 0 then none else some ((relTolInv + 1 : ℤ) / (relTolInv : ℤ))

/-! ### `estimate_dilation_regular` -/

/-- Order of curve points, `dataclass(order=True)`, curves.py:828. -/
def pointLe (a b : CurvePoint d) : Bool := Point.lt a.x b.x || (decide (a.x = b.x) && decide (a.t ≤ b.t))

/-- Face moments of all patterns, dilation.py:391-399. -/
def facePoints (curve : FCurve d) (faceDim : ℕ) : Option (List (List (CurvePoint d))) :=
  (List.range curve.mult).mapM fun pnum => do
    let faces ← genFaces d faceDim
    let pts ← (faces.flatMap fun face => [(face, false), (face, true)]).mapM fun e => curve.getFacePoint e.1 pnum e.2
    return pts.dedup.insertionSort fun a b => pointLe a b = true

/-- Parameters of `estimate_dilation_regular`, dilation.py:362-368. -/
structure RegularParams where
  relTolInv : Option ℤ
  maxIter : Option ℤ
  /-- `face_dim` if `use_face_moments` -/
  faceDim : Option ℕ
  maxDepth : Option ℤ

/-- Variables of the loop, dilation.py:411-454. -/
structure RegularState (d : ℕ) where
  tree : ItemsHeap (BoundedPair d)
  lo : ℚ
  up : ℚ
  argmax : Option (Argmax d)

/-- Before the loop, dilation.py:411-421.  `none` also for AttributeError (`max_lo_item` is None). -/
def regularInit (curve : FCurve d) (stash : Stash d) : m (RegularState d) := do
  let tree ← createTree Q B curve none none true stash
  let item ← liftM tree.maxLoItem
  let tree ← liftM (tree.updateGoodThreshold Q item.lo)
  let top ← liftM tree.top
  return ⟨tree, item.lo, top.up, item.argmax⟩

/-- The `break` conditions, dilation.py:426-437, in iteration number `iterNo`. -/
def regularStop (p : RegularParams) (tol : Option ℚ) (iterNo : ℕ) (st : RegularState d) : Bool :=
  tol.any (fun tol => decide (st.up ≤ st.lo * tol)) || p.maxIter.any (fun k => decide ((iterNo : ℤ) > k)) ||
    p.maxDepth.any (fun k => st.tree.items.all fun item => decide ((item.pair.depth : ℤ) > k))

/-- The rest of the loop body, dilation.py:439-450. -/
def regularStep (stash : Stash d) (st : RegularState d) : m (RegularState d) := do
  let tree ← divideTree Q B stash st.tree
  let item ← liftM tree.maxLoItem
  let st' ← if item.lo > st.lo then do
      let tree ← liftM (tree.updateGoodThreshold Q item.lo)
      pure { st with tree := tree, lo := item.lo, argmax := item.argmax }
    else pure { st with tree := tree }
  let top ← liftM st'.tree.top
  return { st' with up := if top.up < st.up then top.up else st.up }

/-- Result: the dictionary with keys `lo`, `up` and (if it is not None) `argmax`. -/
inductive RegularResult (d : ℕ)
  | ok (lo up : ℚ) (argmax : Option (Argmax d))
  | outOfFuel

/-- The loop, dilation.py:423-450. -/
def regularLoop (p : RegularParams) (tol : Option ℚ) (stash : Stash d) : ℕ → ℕ → RegularState d → m (RegularResult d)
  | 0, _, _ => pure .outOfFuel
  | fuel + 1, iterNo, st =>
    if regularStop p tol (iterNo + 1) st then pure (.ok st.lo st.up st.argmax)
    else do
      let st ← regularStep Q B stash st
      regularLoop p tol stash fuel (iterNo + 1) st

/-- `estimate_dilation_regular`, dilation.py:362-457. -/
def estimateRegular (fuel : ℕ) (curve : FCurve d) (p : RegularParams) : m (RegularResult d) := do
  let stash : Stash d ← match p.faceDim with
    | none => pure none
    | some k => do
      let pts ← liftM (facePoints curve k)
      pure (some pts)
  let tol : Option ℚ ← match p.relTolInv with
    | none => pure none
    | some k => do
      let tol ← liftM (tolerance k)
      pure (some tol)
  let st ← regularInit Q B curve stash
  regularLoop Q B p tol stash fuel 0 st

/-! ### `bisect_dilation_fuzzy` -/

/-- Parameters passed down by `**kwargs`: `max_iter` and the schedule `sat_iter ↦ int(sat_iter * sat_iter_multiplier) + 1` (floating point in
the code; here an arbitrary function). -/
structure BisectParams where
  maxIter : Option ℤ
  nextSat : ℕ → ℕ

/-- How the loop ends: no active pairs left; the solver found no model; `_RunOutOfIterationsException`; out of fuel. -/
inductive BisectEnd (d : ℕ)
  | empty (adapter : Sat.Adapter d)
  | noModel
  | outOfIter
  | outOfFuel

/-- Result: the curve, None, or `_RunOutOfIterationsException`. -/
inductive BisectResult (d : ℕ)
  | found (c : FCurve d)
  | absent
  | outOfIter
  | outOfFuel

variable (S : SatSolver)

/-- The loop, dilation.py:522-543. -/
def bisectLoop (p : BisectParams) : ℕ → ℕ → ℕ → ItemsHeap (BoundedPair d) → Sat.Adapter d → m (BisectEnd d)
  | 0, _, _, tree, adapter => if tree.size > 0 then pure .outOfFuel else pure (.empty adapter)
  | fuel + 1, iterNo, satIter, tree, adapter =>
    if tree.size > 0 then
      let iterNo := iterNo + 1
      if p.maxIter.any (fun k => decide ((iterNo : ℤ) > k)) then pure .outOfIter
      else do
        let tree ← divideTree Q B none tree
        let (tree, adapter) := forbid tree adapter
        if iterNo < satIter then bisectLoop p fuel iterNo satIter tree adapter
        else if (S.solve adapter.intClauses).isNone then pure .noModel
        else bisectLoop p fuel iterNo (p.nextSat satIter) tree adapter
    else pure (.empty adapter)

/-- After the loop, dilation.py:545-551. -/
def bisectFinish (curve : FCurve d) : BisectEnd d → m (BisectResult d)
  | .noModel => pure .absent
  | .outOfIter => pure .outOfIter
  | .outOfFuel => pure .outOfFuel
  | .empty adapter =>
    match S.solve adapter.intClauses with
    | none => pure .absent
    | some model => do
      let c ← liftM (Sat.getModelCurve curve adapter model)
      pure (.found c)

/-- `bisect_dilation_fuzzy`, dilation.py:459-551.  `init`: `init_pairs_tree`; `initAdapter`: `init_sat_adapter` (copied by
`_copy_from`, _sat_adapters.py:68-73). -/
def bisectFuzzy (fuel : ℕ) (curve : FCurve d) (goodThr badThr : ℚ) (p : BisectParams) (initTree : Option (ItemsHeap (BoundedPair d)))
    (initAdapter : Option (Sat.Adapter d)) : m (BisectResult d) := do
  let tree ← match initTree with
    | none => createTree Q B curve (some goodThr) (some badThr) false none
    | some tree => liftM (tree.copyAndCleanup Q (some goodThr) (some badThr))
  let adapter ← match initAdapter with
    | none => liftM (Sat.loadCurve curve)
    | some adapter => pure adapter
  let (tree, adapter) := forbid tree adapter
  let e ← bisectLoop Q B S p fuel 0 1 tree adapter
  bisectFinish S curve e

/-! ### `estimate_dilation_fuzzy` -/

/-- Parameters of `estimate_dilation_fuzzy`, dilation.py:553-561. -/
structure FuzzyParams (d : ℕ) where
  relTolInv : ℤ
  stopUp : Option ℚ
  startLo : Option ℚ
  startUp : Option ℚ
  startCurve : Option (FCurve d)
  bisect : BisectParams

/-- Result: the dictionary with keys `curve` (possibly None), `lo`, `up`. -/
inductive FuzzyResult (d : ℕ)
  | ok (curve : Option (FCurve d)) (lo up : ℚ)
  | outOfFuel

/-- The test thresholds `(test_lo, test_up)`, dilation.py:616-622. -/
def testThresholds (lo up : ℚ) : ℚ × ℚ :=
  if lo = 0 then (1 / 2 * up, 2 / 3 * up) else (2 / 3 * lo + 1 / 3 * up, 1 / 3 * lo + 2 / 3 * up)

/-- The loop, dilation.py:613-649; `fuel` also bounds the loops inside. -/
def fuzzyLoop (fuel : ℕ) (curve : FCurve d) (p : FuzzyParams d) (tol : ℚ) (initTree : ItemsHeap (BoundedPair d)) (initAdapter : Sat.Adapter d) :
    ℕ → Option (FCurve d) → ℚ → ℚ → m (FuzzyResult d)
  | 0, curr, lo, up => if up > lo * tol then pure .outOfFuel else pure (.ok curr lo up)
  | n + 1, curr, lo, up =>
    if up > lo * tol then do
      let (testLo, testUp) := testThresholds lo up
      match ← bisectFuzzy Q B S fuel curve testUp testLo p.bisect (some initTree) (some initAdapter) with
      | .outOfFuel => pure .outOfFuel
      | .outOfIter => pure (.ok curr lo up)
      | .found c =>
        if p.stopUp.any (fun stop => decide (lo > stop)) then pure (.ok (some c) lo testUp)
        else fuzzyLoop fuel curve p tol initTree initAdapter n (some c) lo testUp
      | .absent =>
        if p.stopUp.any (fun stop => decide (testLo > stop)) then pure (.ok curr testLo up)
        else fuzzyLoop fuel curve p tol initTree initAdapter n curr testLo up
    else pure (.ok curr lo up)

/-- The start, dilation.py:588-602: the first curve and its upper bound. -/
def fuzzyStart (fuel : ℕ) (curve : FCurve d) (p : FuzzyParams d) : m (Option (Option (FCurve d) × ℚ)) :=
  match p.startUp with
  | some up => pure (some (p.startCurve, up))
  | none => do
    let curve0 ← liftM curve.getCurveExample
    match ← estimateRegular Q B fuel curve0 ⟨some p.relTolInv, none, none, none⟩ with
    | .ok _ up _ => pure (some (some curve0, up))
    | .outOfFuel => pure none

/-- `estimate_dilation_fuzzy`, dilation.py:553-655. -/
def estimateFuzzy (fuel : ℕ) (curve : FCurve d) (p : FuzzyParams d) : m (FuzzyResult d) := do
  let lo := p.startLo.getD 0
  match ← fuzzyStart Q B fuel curve p with
  | none => pure .outOfFuel
  | some (curr, up) => do
    let initTree ← createTree Q B curve none none false none
    let initAdapter ← liftM (Sat.loadCurve curve)
    let tol ← liftM (tolerance p.relTolInv)
    fuzzyLoop Q B S fuel curve p tol initTree initAdapter fuel curr lo up

/-! ### `estimate_dilation_sequence` -/

/-- `CurveItem`, dilation.py:688-693. -/
structure SeqItem (d : ℕ) where
  idx : ℕ
  lo : Option ℚ
  up : Option ℚ
  curve : FCurve d
  example_ : Option (FCurve d)

/-- Comparison of items in the heap: by priority `-lo`, then by index (indices are distinct, so that further fields are not compared; `lo` is
set for all items in the heap). -/
def SeqItem.lt (a b : SeqItem d) : Bool :=
  decide (b.lo.getD 0 < a.lo.getD 0) || (decide (a.lo.getD 0 = b.lo.getD 0) && decide (a.idx < b.idx))

variable (H : HeapQ (SeqItem d) SeqItem.lt)

/-- `while new_active and new_active[0].lo > curr_up: heappop(new_active)`, dilation.py:740-741; the first argument bounds the iterations (the
length of the list suffices). -/
def seqCleanup (up : ℚ) : ℕ → List (SeqItem d) → Option (List (SeqItem d))
  | 0, act => some act
  | n + 1, act =>
    match act with
    | [] => some []
    | x :: _ => if x.lo.getD 0 > up then (H.pop act).bind fun r => seqCleanup up n r.2 else some act

/-- Parameters of `estimate_dilation_sequence`, dilation.py:657-663. -/
structure SeqParams where
  relTolInv : ℤ
  relTolInvMult : ℤ
  upperBound : Option ℚ
  bisect : BisectParams

/-- The statistics of the first epoch, dilation.py:715-717; only its possible exception matters. -/
def seqStats (first : Bool) (curve : FCurve d) : Option ℕ := if first then curve.countPossibleCurves else some 0

/-- The loop over active items in one epoch, dilation.py:714-743.  State: `curr_up`, `new_active`.  The result `none` is out of fuel. -/
def seqEpoch (fuel : ℕ) (p : SeqParams) (relTol : ℤ) (first : Bool) :
    List (SeqItem d) → Option ℚ → List (SeqItem d) → m (Option (Option ℚ × List (SeqItem d)))
  | [], currUp, act => pure (some (currUp, act))
  | item :: rest, currUp, act => do
    let _ ← liftM (seqStats first item.curve)
    match ← estimateFuzzy Q B S fuel item.curve ⟨relTol, currUp, item.lo, item.up, item.example_, p.bisect⟩ with
    | .outOfFuel => pure none
    | .ok curve lo up => do
      let newUp := if currUp.all (fun u => decide (up < u)) then up else currUp.getD 0
      let act := if lo ≤ newUp then H.push act ⟨item.idx, some lo, some up, item.curve, curve⟩ else act
      let act ← liftM (seqCleanup H newUp act.length act)
      seqEpoch fuel p relTol first rest (some newUp) act

/-- Result: the dictionary (`lo`, `up`, `curves` with `idxs`), or None. -/
inductive SeqResult (d : ℕ)
  | ok (lo : ℚ) (up : ℚ) (curves : List (Option (FCurve d))) (idxs : List ℕ)
  | absent
  | outOfFuel

/-- `curr_up is None or curr_up > curr_lo * tolerance`, dilation.py:709. -/
def seqContinue (tol lo : ℚ) (currUp : Option ℚ) : Bool := currUp.all fun up => decide (up > lo * tol)

/-- The loop over epochs, dilation.py:709-757.  `none` also for TypeError (`curr_up` None). -/
def seqLoop (fuel : ℕ) (p : SeqParams) (tol : ℚ) : ℕ → Bool → ℤ → List (SeqItem d) → ℚ → Option ℚ → m (SeqResult d)
  | 0, _, _, active, lo, currUp =>
    if seqContinue tol lo currUp then pure .outOfFuel
    else do
      let up ← liftM currUp
      pure (.ok lo up (active.map SeqItem.example_) (active.map SeqItem.idx))
  | n + 1, first, relTol, active, lo, currUp =>
    if seqContinue tol lo currUp then do
      let relTol := relTol * p.relTolInvMult
      match ← seqEpoch Q B S H fuel p relTol first active currUp [] with
      | none => pure .outOfFuel
      | some (currUp, newActive) =>
        if newActive.isEmpty then pure .absent
        else do
          let active := newActive.mergeSort fun a b => decide (a.up.getD 0 ≤ b.up.getD 0)
          let lo ← liftM (active.map fun item => item.lo.getD 0).min?
          seqLoop fuel p tol n false relTol active lo currUp
    else do
      let up ← liftM currUp
      pure (.ok lo up (active.map SeqItem.example_) (active.map SeqItem.idx))

/-- `estimate_dilation_sequence`, dilation.py:657-757.  Simplification: `curves` is a list (the code also accepts an iterator, which it
reads once in the first epoch). -/
def estimateSequence (fuel : ℕ) (curves : List (FCurve d)) (p : SeqParams) : m (SeqResult d) := do
  let tol ← liftM (tolerance p.relTolInv)
  let active := curves.zipIdx.map fun e => (⟨e.2, none, none, e.1, none⟩ : SeqItem d)
  seqLoop Q B S H fuel p tol fuel true 1 active 0 p.upperBound

end estimator
end Dilation
end Peano
