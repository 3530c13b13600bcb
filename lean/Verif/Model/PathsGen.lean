import Verif.Model.Paths
import Verif.Model.CubePathTree
import Verif.Model.Dict

set_option autoImplicit false

/-
Model of `PathsGenerator`, `peano/paths.py:162-396`, for links of any kind of subsets.  Generators are lists of what they yield; `none` is
an exception.
-/
namespace Peano
variable {d : ℕ} {S : Type}

/-- Arguments of `PathsGenerator.__init__`, paths.py:165-183. -/
structure PathsGen (d : ℕ) (S : Type) where
  div : ℕ
  links : List (Link S)
  maxCdist : Option ℤ

namespace PathsGen
variable [SubsetOps S d] [DecidableEq S]

/-- `entr2exits[entr][exit] = 1` for a `defaultdict(dict)`, paths.py:186-192. -/
def addExit (entr exit : S) : List (S × List S) → List (S × List S)
  | [] => [(entr, [exit])]
  | (e, xs) :: l => if e = entr then (e, if exit ∈ xs then xs else xs ++ [exit]) :: l else (e, xs) :: addExit entr exit l

/-- `_init_entr2links`, paths.py:185-196. -/
def entr2links (g : PathsGen d S) : List (S × List (Link S)) :=
  let pairs := (BaseMap.genBaseMaps d (some false)).flatMap fun bm => g.links.flatMap fun link =>
    let bmEntr := SubsetOps.act bm link.entrance
    let bmExit := SubsetOps.act bm link.exit
    [(bmEntr, bmExit), (bmExit, bmEntr)]
  let entr2exits := pairs.foldl (fun dict e => addExit e.1 e.2 dict) []
  entr2exits.map fun e => (e.1, e.2.map fun exit => ⟨e.1, exit⟩)

/-- `_gen_intersected_entr`, paths.py:198-206.  (`self._is_pointed` is true if all keys are points; here all subsets are of one kind.) -/
def genIntersectedEntr (g : PathsGen d S) (subset : S) : List S :=
  let keys := g.entr2links.map Prod.fst
  if SubsetOps.isPoint S then (if subset ∈ keys then [subset] else [])
  else keys.filter fun entr => SubsetOps.intersects entr subset

/-- `_gen_intersected_links`, paths.py:208-211; `none` is KeyError. -/
def genIntersectedLinks (g : PathsGen d S) (subset : S) : Option (List (Link S)) :=
  ((g.genIntersectedEntr subset).mapM fun entr => Dict.get? entr g.entr2links).map List.flatten

/-- `sum(abs(cj) for cj in cube)`, paths.py:227. -/
def cdist (cube : Cube d) : ℤ := ((List.finRange d).map fun j => |cube j|).sum

/-- `std_next` for one standard exit, paths.py:225-230. -/
def stdNext (g : PathsGen d S) (stdExit : S) : List (Cube d × S) :=
  ((SubsetOps.genNeighbours stdExit).filter fun e => match g.maxCdist with
    | none => true
    | some m => ! decide (cdist e.1 > m)).flatMap fun e => (g.genIntersectedEntr e.2).map fun entr => (e.1, entr)

/-- `next_pos` for one exit, paths.py:238-242; `none` is KeyError. -/
def nextPos (g : PathsGen d S) (bm : BaseMap d) (stdNext : List (Cube d × S)) : Option (List (Cube d × Link S)) := do
  let parts ← stdNext.mapM fun e => do
    let nextLinks ← Dict.get? (SubsetOps.act bm e.2) g.entr2links
    return nextLinks.map fun l => (bm.applyCubeStart e.1 1, l)
  return parts.flatten

/-- The set of standard exits, paths.py:217-220; its iteration order is not specified by Python, here it is the order of insertion.
`none` is an exception of `std`. -/
def stdExits (g : PathsGen d S) : Option (List S) := do
  let l ← g.links.mapM fun link => do
    let x ← SubsetOps.std link.exit
    let e ← SubsetOps.std link.entrance
    return [x, e]
  return l.flatten.dedup

/-- The body of the loop over base maps, paths.py:232-243. -/
def addNext (g : PathsGen d S) (stdExit : S) (stdNext : List (Cube d × S)) (dict : List (S × List (Cube d × Link S))) (bm : BaseMap d) :
    Option (List (S × List (Cube d × Link S))) :=
  let exit := SubsetOps.act bm stdExit
  match Dict.get? exit dict with
  | some _ => some dict
  | none => (g.nextPos bm stdNext).map fun next => Dict.set exit next dict

/-- `_init_exit2next`, paths.py:213-243. -/
def exit2next (g : PathsGen d S) : Option (List (S × List (Cube d × Link S))) :=
  g.stdExits.bind fun stdExits => stdExits.foldlM (fun dict stdExit =>
    (BaseMap.genBaseMaps d (some false)).foldlM (g.addNext stdExit (g.stdNext stdExit)) dict) []

/-- `gen_next`, paths.py:340-344, without parent: `none` is KeyError. -/
def genNext (exit2next : List (S × List (Cube d × Link S))) : CubeTree.NextFuncE d (Link S) :=
  fun _ link => Dict.get? link.exit exit2next

/-- `gen_prev`, paths.py:346-351, without parent: `none` is KeyError. -/
def genPrev (exit2next : List (S × List (Cube d × Link S))) : CubeTree.NextFuncE d (Link S) :=
  fun _ link => (Dict.get? link.entrance exit2next).map fun l => l.map fun e => (e.1, e.2.invert)

/-- `start`, paths.py:362-368, without parent. -/
def startNodes (g : PathsGen d S) (link : Link S) : Option (List (CubeTree.Node d (Link S))) := do
  let sets ← SubsetOps.divide link.entrance g.div
  let parts ← sets.mapM fun e => do
    let links ← g.genIntersectedLinks e.2
    return links.map fun l => (e.1, l)
  return parts.flatten

/-- `finish`, paths.py:370-377, without parent. -/
def finishNodes (g : PathsGen d S) (link : Link S) : Option (List (CubeTree.Node d (Link S))) := do
  let sets ← SubsetOps.divide link.exit g.div
  let parts ← sets.mapM fun e => do
    let links ← g.genIntersectedLinks e.2
    return links.map fun l => (e.1, Link.invert l)
  return parts.flatten

/-- The paths found by the tree, paths.py:353-389, before the `std` filter, for a given global link. -/
def rawPaths (g : PathsGen d S) (hash : Finset (Cube d) × CubeTree.Node d (Link S) → ℤ) (link : Link S) (startMax finishMax : Option ℤ) :
    Option (List (Path S d)) := do
  let exit2next ← g.exit2next
  let tree : CubeTree.TreeE d (Link S) := { div := g.div, nextFunc := genNext exit2next, prevFunc := some (genPrev exit2next) }
  let start ← g.startNodes link
  let finish ← g.finishNodes link
  let found ← tree.grow hash start finish startMax finishMax
  found.mapM fun data => Path.make g.div (data.map fun n => some n.1) (data.map Prod.snd)

/-- The loop with `seen_paths`, paths.py:385-396. -/
def stdLoop (stdBms : List (BaseMap d)) : List (Path S d) → List (Path S d) → Option (List (Path S d))
  | _, [] => some []
  | seen, p :: rest => do
    let images ← stdBms.mapM fun bm => Path.act bm p
    let stdPath ← pyMin Path.lt images
    if stdPath ∈ seen then stdLoop stdBms seen rest
    else do
      let tail ← stdLoop stdBms (stdPath :: seen) rest
      return p :: tail

/-- `generate_paths_generic(link=link, std=std)`, paths.py:309-396. -/
def generatePathsGeneric (g : PathsGen d S) (hash : Finset (Cube d) × CubeTree.Node d (Link S) → ℤ) (link : Link S) (std : Bool)
    (startMax finishMax : Option ℤ) : Option (List (Path S d)) := do
  let paths ← g.rawPaths hash link startMax finishMax
  if std then
    let stdBms := (BaseMap.genBaseMaps d none).filter fun bm => decide (Link.act bm link = link)
    stdLoop stdBms [] paths
  else return paths

/-- `get_paths_example(**kwargs)` with the default restrictions, paths.py:257-273: the outer `none` is an exception, the inner one the
result `None`. -/
def getPathsExample (g : PathsGen d S) (hash : Finset (Cube d) × CubeTree.Node d (Link S) → ℤ) (startMax finishMax : Option ℤ) :
    List (Link S) → Option (Option (List (Path S d)))
  | [] => some (some [])
  | link :: rest => do
    let paths ← g.generatePathsGeneric hash link false startMax finishMax
    match paths.head? with
    | none => return none
    | some p =>
      let more ← getPathsExample g hash startMax finishMax rest
      return more.map (p :: ·)

end PathsGen
end Peano
