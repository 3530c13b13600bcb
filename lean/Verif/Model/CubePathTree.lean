import Verif.Model.BaseMap
import Verif.Model.Itertools
import Verif.Model.Dict
import Mathlib.Data.Finset.Basic
import Mathlib.Data.Finset.Image
import Mathlib.Data.Fintype.Pi

set_option autoImplicit false

/-
Model of `peano/_cube_path_trees.py`.  Generators are lists of what they yield, sets of cubes are finite sets.
-/
namespace Peano
namespace CubeTree
variable {d : ℕ} {S : Type}

/-- `class _CubeNode`, _cube_path_trees.py:14-21: cube and state, equality by fields. -/
abbrev Node (d : ℕ) (S : Type) := Cube d × S

/-- `class _CubePath`, _cube_path_trees.py:24-29: the head and the nodes of the linked tail paths, last added first.  Simplification:
the attribute `length` is computed from the chain (the constructor calls set it so, lines 97, 117). -/
structure CPath (d : ℕ) (S : Type) where
  head : Node d S
  tail : List (Node d S)
deriving DecidableEq

namespace CPath

/-- all nodes, from the head to the start -/
def nodes (p : CPath d S) : List (Node d S) := p.head :: p.tail

/-- attribute `length`, _cube_path_trees.py:28 -/
def length (p : CPath d S) : ℕ := p.nodes.length

/-- `_CubePath.flat`, _cube_path_trees.py:31-38. -/
def flat (p : CPath d S) : List (Node d S) := p.nodes.reverse

/-- `_CubePath.support`, _cube_path_trees.py:40-47. -/
def support (p : CPath d S) : Finset (Cube d) := (p.nodes.map Prod.fst).toFinset

/-- `_CubePath.tail_support`, _cube_path_trees.py:49-53. -/
def tailSupport (p : CPath d S) : Finset (Cube d) := p.support.erase p.head.1

/-- `_CubePath.future`, _cube_path_trees.py:55-57. -/
def future (p : CPath d S) : Finset (Cube d) × Node d S := (p.tailSupport, p.head)

/-- `_CubePath.future_hash`, _cube_path_trees.py:59-61; the hash function is a parameter. -/
def futureHash (hash : Finset (Cube d) × Node d S → ℤ) (p : CPath d S) : ℤ := hash p.future

/-- `_CubePath.complement_future_hash`, _cube_path_trees.py:63-67. -/
def complementFutureHash (hash : Finset (Cube d) × Node d S → ℤ) (allCubes : Finset (Cube d)) (p : CPath d S) : ℤ :=
  hash (allCubes \ p.support, p.head)

end CPath

/-- Type of `next_func`, `prev_func`, _cube_path_trees.py:81-83: node to list of (cube delta, new state). -/
abbrev NextFunc (d : ℕ) (S : Type) := Cube d → S → List (Cube d × S)

/-- `class CubePathTree`, _cube_path_trees.py:73-90. -/
structure Tree (d : ℕ) (S : Type) where
  div : ℕ
  nextFunc : NextFunc d S
  prevFunc : Option (NextFunc d S)

namespace Tree

/-- `self._all_cubes`, _cube_path_trees.py:90. -/
def allCubes (t : Tree d S) : Finset (Cube d) :=
  ((Itertools.product ((List.finRange d).map fun _ => (List.range t.div).map (fun x : ℕ => (x : ℤ)))).map
    (fun l (j : Fin d) => l.getD j 0)).toFinset

/-- `_init_path`, _cube_path_trees.py:92-96. -/
def initPath (n : Node d S) : CPath d S := ⟨n, []⟩

/-- `_continue_path`, _cube_path_trees.py:98-113; `func` is `next_func` or `prev_func`, `cubeset` is the support of the path. -/
def continuePath (t : Tree d S) (func : NextFunc d S) (p : CPath d S) (cubeset : Finset (Cube d)) : List (CPath d S) :=
  (func p.head.1 p.head.2).filterMap fun e =>
    let newCube : Cube d := fun j => p.head.1 j + e.1 j
    if (∃ j, newCube j < 0 ∨ newCube j ≥ (t.div : ℤ)) ∨ newCube ∈ cubeset then none
    else some ⟨(newCube, e.2), p.nodes⟩

/-- Number of nodes of the search tree of `_depth_search` below a path (itself included) when `k` more steps are to be pushed to the
stack; used only to show that the loop stops. -/
def treeSize (t : Tree d S) : ℕ → CPath d S → ℕ
  | 0, _ => 1
  | k + 1, p => 1 + ((t.continuePath t.nextFunc p p.support).map (treeSize t k)).sum

theorem treeSize_pos (t : Tree d S) (k : ℕ) (p : CPath d S) : 0 < treeSize t k p := by
  cases k
  · simp [treeSize]
  · rw [treeSize]; omega

/-- The number of levels of the search tree below a path in `_depth_search`. -/
def levels (length : ℕ) (p : CPath d S) : ℕ := length - 1 - p.length

theorem treeSize_drop (t : Tree d S) (length : ℕ) (p : CPath d S) (todo : List (CPath d S)) :
    (todo.map fun p => treeSize t (levels length p) p).sum < ((p :: todo).map fun p => treeSize t (levels length p) p).sum := by
  simp only [List.map_cons, List.sum_cons]
  have := treeSize_pos t (levels length p) p
  omega

theorem treeSize_push (t : Tree d S) (length : ℕ) (p : CPath d S) (todo : List (CPath d S)) (h2 : p.length < length - 1) :
    (((t.continuePath t.nextFunc p p.support).reverse ++ todo).map fun p => treeSize t (levels length p) p).sum <
      ((p :: todo).map fun p => treeSize t (levels length p) p).sum := by
  simp only [List.map_cons, List.sum_cons, List.map_append, List.sum_append, List.map_reverse, List.sum_reverse]
  obtain ⟨k, hk⟩ : ∃ k, levels length p = k + 1 := ⟨levels length p - 1, by unfold levels; omega⟩
  have e : ((t.continuePath t.nextFunc p p.support).map fun q => treeSize t (levels length q) q) =
      (t.continuePath t.nextFunc p p.support).map (treeSize t k) := by
    refine List.map_congr_left fun q hq => ?_
    unfold continuePath at hq
    rw [List.mem_filterMap] at hq
    obtain ⟨e, _, he⟩ := hq
    have hq' : q.tail = p.nodes := by
      dsimp only at he
      split at he
      · simp at he
      · simp only [Option.some.injEq] at he
        rw [← he]
    have : q.length = p.length + 1 := by
      unfold CPath.length
      rw [CPath.nodes, hq']
      simp
    have : levels length q = k := by unfold levels at hk ⊢; omega
    rw [this]
  rw [e, hk, treeSize]
  omega

/-- The loop of `_depth_search`, _cube_path_trees.py:120-128; the first element of the list is the top of the stack `todo`.
Simplification: the supports kept in the stack are computed from the paths (they are `cubeset` plus the new cube). -/
def depthLoop (t : Tree d S) (length : ℕ) : List (CPath d S) → List (CPath d S)
  | [] => []
  | p :: todo =>
    if p.length = length - 1 then t.continuePath t.nextFunc p p.support ++ depthLoop t length todo
    else if p.length < length - 1 then
      depthLoop t length ((t.continuePath t.nextFunc p p.support).reverse ++ todo)
    else depthLoop t length todo
termination_by todo => (todo.map fun p => treeSize t (levels length p) p).sum
decreasing_by
  · exact treeSize_drop t length p todo
  · rename_i h1 h2
    exact treeSize_push t length p todo h2
  · exact treeSize_drop t length p todo

/-- `_depth_search`, _cube_path_trees.py:115-128. -/
def depthSearch (t : Tree d S) (paths : List (CPath d S)) (length : ℕ) : List (CPath d S) := t.depthLoop length paths.reverse

/-- The inner loop of `_width_search`, _cube_path_trees.py:135-139: `none` if it stops due to `max_count`. -/
def widthInner (t : Tree d S) (func : NextFunc d S) (maxCount : Option ℤ) : List (CPath d S) → List (CPath d S) → Option (List (CPath d S))
  | new, [] => some new
  | new, p :: rest =>
    let new := new ++ t.continuePath func p p.support
    match maxCount with
    | none => widthInner t func maxCount new rest
    | some m => if (new.length : ℤ) > m then none else widthInner t func maxCount new rest

/-- `_width_search`, _cube_path_trees.py:130-142. -/
def widthSearch (t : Tree d S) (func : NextFunc d S) (maxCount : Option ℤ) : ℕ → List (CPath d S) → List (CPath d S)
  | 0, cur => cur
  | n + 1, cur =>
    match t.widthInner func maxCount [] cur with
    | none => cur
    | some new => widthSearch t func maxCount n new

variable [DecidableEq S]

/-- `_group_paths_by_future`, _cube_path_trees.py:198-208. -/
def groupPathsByFuture (hash : Finset (Cube d) × Node d S → ℤ) (paths : List (CPath d S)) : List (List (CPath d S)) :=
  (Dict.groupBy (CPath.futureHash hash) paths).flatMap fun e => (Dict.groupBy CPath.future e.2).map Prod.snd

/-- `_check_glue`, _cube_path_trees.py:210-213. -/
def checkGlue (b e : CPath d S) : Bool := decide (b.head = e.head) && decide (e.tailSupport ∩ b.tailSupport = ∅)

/-- `_glue_paths`, _cube_path_trees.py:215-220. -/
def gluePaths (start mid finish : CPath d S) : List (Node d S) :=
  start.flat ++ mid.flat.drop start.length ++ finish.flat.reverse.drop 1

/-- The finish paths, _cube_path_trees.py:167-171: `none` is the exception for a missing `prev_func`. -/
def finishPaths (t : Tree d S) (finish : List (Node d S)) (finishMaxCount : Option ℤ) (maxSteps : ℕ) : Option (List (CPath d S)) :=
  match finishMaxCount with
  | none => some (finish.map initPath)
  | some m => t.prevFunc.map fun prev => t.widthSearch prev (some m) maxSteps (finish.map initPath)

/-- `grow`, _cube_path_trees.py:144-196: the list of yielded paths; `none` is the exception of lines 169-170. -/
def grow (t : Tree d S) (hash : Finset (Cube d) × Node d S → ℤ) (start finish : List (Node d S)) (startMaxCount finishMaxCount : Option ℤ) :
    Option (List (List (Node d S))) :=
  let maxSteps := t.div ^ d / 2 - 1
  let startPaths := t.widthSearch t.nextFunc startMaxCount maxSteps (start.map initPath)
  match startPaths with
  | [] => some []
  | _ :: _ =>
    (t.finishPaths finish finishMaxCount maxSteps).map fun finishPaths =>
      match finishPaths with
      | [] => []
      | finishPath0 :: _ =>
        let finishByHash := Dict.groupBy (CPath.complementFutureHash hash t.allCubes) finishPaths
        let midLength := t.div ^ d - finishPath0.length + 1
        (groupPathsByFuture hash startPaths).flatMap fun paths =>
          (t.depthSearch (paths.take 1) midLength).flatMap fun mid =>
            ((((Dict.get? (mid.futureHash hash) finishByHash).getD []).filter fun path => checkGlue mid path)).flatMap fun fin =>
              paths.map fun s => gluePaths s mid fin

end Tree

/-! ### The same with functions that may raise

`next_func` and `prev_func` given by `PathsGenerator` look up dictionaries and tuples, so they may raise; an exception at any call leaves
`grow`.  The functions above are the case without exceptions. -/

/-- `next_func`, `prev_func`, _cube_path_trees.py:81-83: `none` is an exception. -/
abbrev NextFuncE (d : ℕ) (S : Type) := Cube d → S → Option (List (Cube d × S))

/-- `class CubePathTree`, _cube_path_trees.py:73-90. -/
structure TreeE (d : ℕ) (S : Type) where
  div : ℕ
  nextFunc : NextFuncE d S
  prevFunc : Option (NextFuncE d S)

namespace TreeE

/-- Exceptions replaced by empty lists; used only to show that loops stop, and for `self._all_cubes`. -/
def toTree (t : TreeE d S) : Tree d S :=
  ⟨t.div, fun c s => (t.nextFunc c s).getD [], t.prevFunc.map fun f c s => (f c s).getD []⟩

/-- `_continue_path`, _cube_path_trees.py:98-113. -/
def continuePath (t : TreeE d S) (func : NextFuncE d S) (p : CPath d S) (cubeset : Finset (Cube d)) : Option (List (CPath d S)) := do
  let next ← func p.head.1 p.head.2
  return next.filterMap fun e =>
    let newCube : Cube d := fun j => p.head.1 j + e.1 j
    if (∃ j, newCube j < 0 ∨ newCube j ≥ (t.div : ℤ)) ∨ newCube ∈ cubeset then none
    else some ⟨(newCube, e.2), p.nodes⟩

theorem continuePath_toTree {t : TreeE d S} {p : CPath d S} {cubeset : Finset (Cube d)} {l : List (CPath d S)}
    (h : t.continuePath t.nextFunc p cubeset = some l) : t.toTree.continuePath t.toTree.nextFunc p cubeset = l := by
  unfold continuePath at h
  unfold Tree.continuePath toTree
  dsimp only
  cases hn : t.nextFunc p.head.1 p.head.2 with
  | none => rw [hn] at h; simp at h
  | some next =>
    rw [hn] at h
    simpa using h

/-- The loop of `_depth_search`, _cube_path_trees.py:120-128. -/
def depthLoop (t : TreeE d S) (length : ℕ) : List (CPath d S) → Option (List (CPath d S))
  | [] => some []
  | p :: todo =>
    if p.length = length - 1 then do
      let l ← t.continuePath t.nextFunc p p.support
      let rest ← depthLoop t length todo
      return l ++ rest
    else if p.length < length - 1 then
      match h : t.continuePath t.nextFunc p p.support with
      | none => none
      | some l => depthLoop t length (l.reverse ++ todo)
    else depthLoop t length todo
termination_by todo => (todo.map fun p => Tree.treeSize t.toTree (Tree.levels length p) p).sum
decreasing_by
  · exact Tree.treeSize_drop _ length p todo
  · rename_i h1 h2
    rw [← continuePath_toTree h]
    exact Tree.treeSize_push _ length p todo h2
  · exact Tree.treeSize_drop _ length p todo

/-- `_depth_search`, _cube_path_trees.py:115-128. -/
def depthSearch (t : TreeE d S) (paths : List (CPath d S)) (length : ℕ) : Option (List (CPath d S)) := t.depthLoop length paths.reverse

/-- The inner loop of `_width_search`, _cube_path_trees.py:135-139: the inner `none` if it stops due to `max_count`. -/
def widthInner (t : TreeE d S) (func : NextFuncE d S) (maxCount : Option ℤ) :
    List (CPath d S) → List (CPath d S) → Option (Option (List (CPath d S)))
  | new, [] => some (some new)
  | new, p :: rest => do
    let l ← t.continuePath func p p.support
    let new := new ++ l
    match maxCount with
    | none => widthInner t func maxCount new rest
    | some m => if (new.length : ℤ) > m then return none else widthInner t func maxCount new rest

/-- `_width_search`, _cube_path_trees.py:130-142. -/
def widthSearch (t : TreeE d S) (func : NextFuncE d S) (maxCount : Option ℤ) : ℕ → List (CPath d S) → Option (List (CPath d S))
  | 0, cur => some cur
  | n + 1, cur => do
    match ← t.widthInner func maxCount [] cur with
    | none => return cur
    | some new => widthSearch t func maxCount n new

variable [DecidableEq S]

/-- The finish paths, _cube_path_trees.py:167-171. -/
def finishPaths (t : TreeE d S) (finish : List (Node d S)) (finishMaxCount : Option ℤ) (maxSteps : ℕ) : Option (List (CPath d S)) :=
  match finishMaxCount with
  | none => some (finish.map Tree.initPath)
  | some m => do
    let prev ← t.prevFunc
    t.widthSearch prev (some m) maxSteps (finish.map Tree.initPath)

/-- `grow`, _cube_path_trees.py:144-196. -/
def grow (t : TreeE d S) (hash : Finset (Cube d) × Node d S → ℤ) (start finish : List (Node d S)) (startMaxCount finishMaxCount : Option ℤ) :
    Option (List (List (Node d S))) := do
  let maxSteps := t.div ^ d / 2 - 1
  let startPaths ← t.widthSearch t.nextFunc startMaxCount maxSteps (start.map Tree.initPath)
  match startPaths with
  | [] => return []
  | _ :: _ =>
    let finishPaths ← t.finishPaths finish finishMaxCount maxSteps
    match finishPaths with
    | [] => return []
    | finishPath0 :: _ =>
      let finishByHash := Dict.groupBy (CPath.complementFutureHash hash t.toTree.allCubes) finishPaths
      let midLength := t.div ^ d - finishPath0.length + 1
      let parts ← (Tree.groupPathsByFuture hash startPaths).mapM fun paths => do
        let mids ← t.depthSearch (paths.take 1) midLength
        return mids.flatMap fun mid =>
          ((((Dict.get? (mid.futureHash hash) finishByHash).getD []).filter fun path => Tree.checkGlue mid path)).flatMap fun fin =>
            paths.map fun s => Tree.gluePaths s mid fin
      return parts.flatten

end TreeE
end CubeTree
end Peano
