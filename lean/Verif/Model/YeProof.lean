import Verif.Model.Search
import Verif.Model.Texts
import Verif.Model.Zoo

set_option autoImplicit false

/-
Model of `YE-proof.py`: its three checks, and the parameters with which it calls `run_search`.  (The script imports `tests.examples`, which does not
exist in the repository; the model is what it would do with `get_ye_curve` of `peano/zoo.py`.)  The results of the estimates are returned;
printing and logging are left out.
-/
namespace Peano
namespace YeProof

/-- `SIDE_LINK`, YE-proof.py:16. -/
def sideLink : Option (Link (Point 2)) := Link.parseGates 2 "(0,0)->(1,0)".toList
/-- `DIAG_LINK`, YE-proof.py:15. -/
def diagLink : Option (Link (Point 2)) := Link.parseGates 2 "(0,0)->(1,1)".toList
/-- `MEDIAN_LINK`, YE-proof.py:17. -/
def medianLink : Option (Link (Point 2)) := Link.parseGates 2 "(0,0)->(1,1/2)".toList

/-- `YE_protos` for the curve `c0`, YE-proof.py:21-22, 46-47; `none` is IndexError.  Prototypes are compared as tuples of cubes. -/
def protos (c0 : FCurve 2) : Option (List (Proto 2)) :=
  (c0.patterns[c0.pnum]?).map fun p => (BaseMap.genBaseMaps 2 none).map fun bm => p.proto.act c0.div bm

/-- `paths_list` before it is filtered, YE-proof.py:23-24, 48-49 (default limits of the tree search). -/
def sidePaths (hash : Search.Hashes 1) : Option (List (List (Path (Point 2) 2))) := do
  let link ← sideLink
  let pg : PathsGen 2 (Point 2) := { div := 5, links := [link], maxCdist := some 1 }
  pg.generatePaths hash.point none none true (some 100) (some 1000000)

/-- `paths[0].proto in YE_protos`, YE-proof.py:26, 51; `none` is IndexError. -/
def hasProto (l : List (Proto 2)) (paths : List (Path (Point 2) 2)) : Option Bool := paths[0]?.map fun p => decide (p.proto ∈ l)

/-- `[paths for paths in paths_list if (paths[0].proto in YE_protos) == v]`, YE-proof.py:26, 51. -/
def filterPaths (l : List (Proto 2)) (v : Bool) : List (List (Path (Point 2) 2)) → Option (List (List (Path (Point 2) 2)))
  | [] => some []
  | paths :: rest => do
    let b ← hasProto l paths
    let r ← filterPaths l v rest
    return if b = v then paths :: r else r

/-- The fuzzy curves of `check_genus5_non_ye`, YE-proof.py:20-32. -/
def otherProtoPcurves (c0 : FCurve 2) (hash : Search.Hashes 1) : Option (List (FCurve 2)) := do
  let l ← protos c0
  let pathsList ← sidePaths hash
  let pathsList ← filterPaths l false pathsList
  pathsList.mapM fun paths => FCurve.initFromPaths paths none false

/-- `ye_pcurve.specify(pnum=0, cnum=cnum, spec=sp)`, YE-proof.py:59; `none` is an exception. -/
def specified (pc : FCurve 2) (cnum : ℕ) (sp : Spec 2) : Option (FCurve 2) :=
  match pc.specify 0 cnum sp with
  | .ok c => some c
  | _ => none

/-- The curves with another spec in the given position, YE-proof.py:58-59. -/
def otherSpecAt (pc : FCurve 2) (e : Option (Spec 2) × ℕ) : Option (List (FCurve 2)) := do
  let allowed ← pc.genAllowedSpecs 0 e.2
  (allowed.filter fun sp => some sp ≠ e.1).mapM (specified pc e.2)

/-- `test_pcurves`, YE-proof.py:55-59. -/
def otherSpecsPcurves (c0 : FCurve 2) : Option (List (FCurve 2)) := do
  let pc ← c0.forget none false
  let pattern ← c0.patterns[c0.pnum]?
  let parts ← pattern.specs.zipIdx.mapM (otherSpecAt pc)
  return parts.flatten

/-- The fuzzy curves of `check_genus5_ye_proto`, YE-proof.py:44-59; `none` is an exception, in particular AssertionError at line 53. -/
def sameProtoPcurves (c0 : FCurve 2) (hash : Search.Hashes 1) : Option (List (FCurve 2)) := do
  let l ← protos c0
  let pathsList ← sidePaths hash
  let pathsList ← filterPaths l true pathsList
  if pathsList.length = 1 then otherSpecsPcurves c0 else none

section run
variable {m : Type → Type} [Monad m] [MonadLiftT Option m] (Q : HeapQ (HNode (BoundedPair 2)) HNode.lt)
  (B : Dilation.Key 2 → m (PairBounds 2)) (S : SatSolver) (H : HeapQ (Dilation.SeqItem 2) Dilation.SeqItem.lt) (hash : Search.Hashes 1)

/-- `check_genus5_non_ye`, YE-proof.py:20-40: the result of the estimate (`nextSat`: the schedule of calls of the solver, see `Search.Params`). -/
def checkNonYe (nextSat : ℕ → ℕ) (fuel : ℕ) : m (Dilation.SeqResult 2) := do
  let curves ← liftM (otherProtoPcurves Zoo.ye hash)
  Dilation.estimateSequence Q B S H fuel curves ⟨200, 4, none, ⟨none, nextSat⟩⟩

/-- `check_genus5_ye_proto`, YE-proof.py:43-70: the result of the estimate. -/
def checkYeProto (nextSat : ℕ → ℕ) (fuel : ℕ) : m (Dilation.SeqResult 2) := do
  let curves ← liftM (sameProtoPcurves Zoo.ye hash)
  Dilation.estimateSequence Q B S H fuel curves ⟨1000, 4, none, ⟨none, nextSat⟩⟩

/-- `check_ye`, YE-proof.py:73-84: the result of the estimate. -/
def checkYe (fuel : ℕ) : m (Dilation.RegularResult 2) :=
  Dilation.estimateRegular Q B fuel Zoo.ye { relTolInv := some 100000, maxIter := none, faceDim := some 0, maxDepth := some 5 }

end run
/-- The parameters of the calls of `run_search` in `main`, YE-proof.py:94-115, in their order, for the three links. -/
def searches (side diag median : Link (Point 2)) (nextSat : ℕ → ℕ) : List (Search.Params 1) := [
  { div := 2, mult := 1, relTolInv := some 1000, nextSat },
  { div := 3, mult := 1, relTolInv := some 1000, nextSat },
  { div := 4, mult := 1, relTolInv := some 1000, nextSat },
  { div := 6, mult := 1, gateList := some [[side]], maxCdist := some 1, relTolInv := some 200, nextSat },
  { div := 6, mult := 1, gateList := some [[median]], maxCdist := some 1, relTolInv := some 200, nextSat },
  { div := 5, mult := 1, gateList := some [[diag]], maxCdist := some 1, relTolInv := some 200, nextSat },
  { div := 5, mult := 1, gateList := some [[median]], maxCdist := some 1, relTolInv := some 200, nextSat }]

/-- The same with the links of the module, YE-proof.py:15-17; `none` is an exception in parsing of the links. -/
def mainSearches (nextSat : ℕ → ℕ) : Option (List (Search.Params 1)) := do
  let side ← sideLink
  let diag ← diagLink
  let median ← medianLink
  return searches side diag median nextSat

end YeProof
end Peano
