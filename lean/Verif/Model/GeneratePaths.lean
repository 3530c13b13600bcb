import Verif.Model.PathsGen
import Verif.Model.Utils

set_option autoImplicit false

/-
Model of the rest of `PathsGenerator`, `peano/paths.py:245-396`: paths consistent with a parent path, and tuples of paths.  Generators are
lists of what they yield; `none` is an exception.
-/
namespace Peano
variable {d : ℕ} {S : Type}

/-- `l[i]` in Python: negative indices count from the end; `none` is IndexError. -/
def pyIndex {α : Type} (l : List α) (i : ℤ) : Option α :=
  if 0 ≤ i then l[i.toNat]? else if -i ≤ (l.length : ℤ) then l[l.length - (-i).toNat]? else none

namespace PathsGen
variable [SubsetOps S d] [DecidableEq S]

/-! ### Paths consistent with a parent, `generate_paths_generic(parent=parent)`, paths.py:309-396 -/

/-- `cube2cnum`, paths.py:331. -/
def cube2cnum (parent : Path S d) : List (Option (Cube d) × ℕ) := parent.proto.zipIdx.foldl (fun dict e => Dict.set e.1 e.2 dict) []

/-- `check_parent`, paths.py:332-333. -/
def checkParent (parent : Path S d) (cnum : ℤ) (cube : Cube d) (link : Link S) : Option Bool := do
  let parentCube ← pyIndex parent.proto cnum
  if some cube = parentCube then
    let parentLink ← pyIndex parent.links cnum
    return Link.intersects link parentLink
  else return false

/-- `check_next`, paths.py:335-338. -/
def checkNext (parent : Path S d) (cube delta : Cube d) (nextLink : Link S) (reverse : Bool) : Option Bool := do
  let cnum ← Dict.get? (some cube) (cube2cnum parent)
  let nextCnum : ℤ := cnum + (if reverse then -1 else 1)
  let nextCube : Cube d := fun j => cube j + delta j
  checkParent parent nextCnum nextCube nextLink

/-- Filter with a test that may raise. -/
def filterCheck {α : Type} (f : α → Option Bool) : List α → Option (List α)
  | [] => some []
  | a :: l => do
    let b ← f a
    let rest ← filterCheck f l
    return if b then a :: rest else rest

/-- `gen_next`, paths.py:340-344, with a parent: `none` is KeyError or IndexError (all continuations of a node are checked before the first
one is used). -/
def genNextParent (parent : Path S d) (exit2next : List (S × List (Cube d × Link S))) : CubeTree.NextFuncE d (Link S) :=
  fun cube link => do
    let next ← Dict.get? link.exit exit2next
    filterCheck (fun e => checkNext parent cube e.1 e.2 false) next

/-- `gen_prev`, paths.py:346-351, with a parent. -/
def genPrevParent (parent : Path S d) (exit2next : List (S × List (Cube d × Link S))) : CubeTree.NextFuncE d (Link S) :=
  fun cube link => do
    let next ← Dict.get? link.entrance exit2next
    filterCheck (fun e => checkNext parent cube e.1 e.2 true) (next.map fun e => (e.1, e.2.invert))

/-- `start`, paths.py:358-368, with a parent (`start_cube_sets` has one element, line 359). -/
def startNodesParent (g : PathsGen d S) (parent : Path S d) : Option (List (CubeTree.Node d (Link S))) := do
  let cube ← (← parent.proto.head?)
  let first ← parent.links.head?
  let links ← g.genIntersectedLinks first.entrance
  let links ← filterCheck (fun l => checkParent parent 0 cube l) links
  return links.map fun l => (cube, l)

/-- `finish`, paths.py:358-377, with a parent (`finish_cube_sets` has one element, line 360). -/
def finishNodesParent (g : PathsGen d S) (parent : Path S d) : Option (List (CubeTree.Node d (Link S))) := do
  let cube ← (← parent.proto.getLast?)
  let last ← parent.links.getLast?
  let links ← g.genIntersectedLinks last.exit
  let links ← filterCheck (fun l => checkParent parent (-1) cube l) (links.map Link.invert)
  return links.map fun l => (cube, l)

/-- The paths found by the tree, paths.py:353-389, before the `std` filter, for a parent. -/
def rawPathsParent (g : PathsGen d S) (hash : Finset (Cube d) × CubeTree.Node d (Link S) → ℤ) (parent : Path S d)
    (startMax finishMax : Option ℤ) : Option (List (Path S d)) := do
  let exit2next ← g.exit2next
  let tree : CubeTree.TreeE d (Link S) :=
    { div := g.div, nextFunc := genNextParent parent exit2next, prevFunc := some (genPrevParent parent exit2next) }
  let start ← g.startNodesParent parent
  let finish ← g.finishNodesParent parent
  let found ← tree.grow hash start finish startMax finishMax
  found.mapM fun data => Path.make g.div (data.map fun n => some n.1) (data.map Prod.snd)

/-- `generate_paths_generic(parent=parent, std=std)`, paths.py:309-396. -/
def generatePathsParent (g : PathsGen d S) (hash : Finset (Cube d) × CubeTree.Node d (Link S) → ℤ) (parent : Path S d) (std : Bool)
    (startMax finishMax : Option ℤ) : Option (List (Path S d)) := do
  let paths ← g.rawPathsParent hash parent startMax finishMax
  if std then
    let stdBms ← filterCheck (fun bm => (Path.act bm parent).map fun p => decide (p = parent)) (BaseMap.genBaseMaps d none)
    stdLoop stdBms [] paths
  else return paths

/-! ### Tuples of paths -/

/-- One restriction: a global link or a parent (the pair with exactly one value different from `None`), paths.py:245-255, 325-326. -/
abbrev Restriction (S : Type) (d : ℕ) := Link S ⊕ Path S d

/-- `_get_restrictions`, paths.py:245-255: `none` is ValueError. -/
def getRestrictions (g : PathsGen d S) (links : Option (List (Link S))) (parents : Option (List (Path S d))) : Option (List (Restriction S d)) :=
  match links, parents with
  | none, none => some (g.links.map Sum.inl)
  | none, some ps => some (ps.map Sum.inr)
  | some ls, none => some (ls.map Sum.inl)
  | some _, some _ => none

/-- `generate_paths_generic(link=link, parent=parent, std=std)`, paths.py:309-396. -/
def generateGeneric (g : PathsGen d S) (hash : Finset (Cube d) × CubeTree.Node d (Link S) → ℤ) (std : Bool) (startMax finishMax : Option ℤ) :
    Restriction S d → Option (List (Path S d))
  | .inl link => g.generatePathsGeneric hash link std startMax finishMax
  | .inr parent => g.generatePathsParent hash parent std startMax finishMax

/-- The loop of `get_paths_example`, paths.py:267-273: the outer `none` is an exception, the inner one the result `None`. -/
def exampleLoop (g : PathsGen d S) (hash : Finset (Cube d) × CubeTree.Node d (Link S) → ℤ) (std : Bool) (startMax finishMax : Option ℤ) :
    List (Restriction S d) → Option (Option (List (Path S d)))
  | [] => some (some [])
  | r :: rest => do
    let paths ← g.generateGeneric hash std startMax finishMax r
    match paths.head? with
    | none => return none
    | some p =>
      let more ← exampleLoop g hash std startMax finishMax rest
      return more.map (p :: ·)

/-- `get_paths_example(links, parents, **kwargs)`, paths.py:257-273. -/
def getPathsExampleFor (g : PathsGen d S) (hash : Finset (Cube d) × CubeTree.Node d (Link S) → ℤ) (links : Option (List (Link S)))
    (parents : Option (List (Path S d))) (std : Bool) (startMax finishMax : Option ℤ) : Option (Option (List (Path S d))) := do
  let restrictions ← g.getRestrictions links parents
  g.exampleLoop hash std startMax finishMax restrictions

/-- `generate_paths(links, parents, std=std, **kwargs)`, paths.py:275-307.  The order in which `paths_dict` is filled does not matter;
all keys looked up in it are present. -/
def generatePaths (g : PathsGen d S) (hash : Finset (Cube d) × CubeTree.Node d (Link S) → ℤ) (links : Option (List (Link S)))
    (parents : Option (List (Path S d))) (std : Bool) (startMax finishMax : Option ℤ) : Option (List (List (Path S d))) := do
  let restrictions ← g.getRestrictions links parents
  match restrictions with
  | [r] =>
    let paths ← g.generateGeneric hash std startMax finishMax r
    return paths.map fun path => [path]
  | _ =>
    let pathsDict ← restrictions.dedup.mapM fun r => (g.generateGeneric hash std startMax finishMax r).map fun paths => (r, paths)
    let pool := fun r => (Dict.get? r pathsDict).getD []
    if std then combinationsProduct restrictions pool
    else return Itertools.product (restrictions.map pool)

end PathsGen
end Peano
