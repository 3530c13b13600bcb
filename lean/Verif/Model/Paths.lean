import Verif.Model.Subsets

set_option autoImplicit false

/-
Model of `peano/paths.py`: `Proto` and `Path`.  Text forms are in `Model/ChainCode.lean`, the generator in `Model/PathsGen.lean`.
-/
namespace Peano
variable {d : ℕ}

/-- `class Proto`, paths.py:22-38: tuple of cubes, some of them possibly `None`.  The attributes `dim`, `div` stored in the object are
passed as arguments (they always agree with those of the curve or path that holds the prototype). -/
abbrev Proto (d : ℕ) := List (Option (Cube d))

namespace Proto

/-- `Proto.__rmul__`, paths.py:40-46. -/
def act (div : ℕ) (bm : BaseMap d) (p : Proto d) : Proto d :=
  (if bm.timeRev then p.reverse else p).map fun c => c.map (bm.applyCube div)

/-- `Proto.__invert__`, paths.py:48-50. -/
def invert (p : Proto d) : Proto d := p.reverse

/-- `proto[i]` where the code needs an actual cube: `none` is IndexError (no such position) or TypeError/KeyError (`None` there). -/
def cube? (p : Proto d) (i : ℕ) : Option (Cube d) := (p[i]?).join

end Proto

/-- `class Path`, paths.py:103-119: prototype, links of fractions and the global link (computed by the constructor). -/
structure Path (S : Type) (d : ℕ) where
  div : ℕ
  proto : Proto d
  links : List (Link S)
  link : Link S

instance {S : Type} {d : ℕ} [DecidableEq S] : DecidableEq (Path S d) := fun s t =>
  decidable_of_iff (s.div = t.div ∧ s.proto = t.proto ∧ s.links = t.links ∧ s.link = t.link) (by cases s; cases t; simp)

namespace Path
variable {S : Type} [SubsetOps S d]

/-- `Path.__init__`, paths.py:111-119: `none` is an exception (no links, no cubes, impossible placement). -/
def make (div : ℕ) (proto : Proto d) (links : List (Link S)) : Option (Path S d) := do
  let first ← links.head?
  let last ← links.getLast?
  let c0 ← (← proto.head?)
  let c1 ← (← proto.getLast?)
  let entr ← SubsetOps.mapToCube first.entrance div c0
  let exit ← SubsetOps.mapToCube last.exit div c1
  return { div, proto, links, link := ⟨entr, exit⟩ }

/-- `Path.__rmul__`, paths.py:121-124. -/
def act (bm : BaseMap d) (p : Path S d) : Option (Path S d) :=
  make p.div (p.proto.act p.div bm) ((if bm.timeRev then p.links.reverse else p.links).map (Link.act bm))

/-- `Path.__invert__`, paths.py:126-127: `~BaseMap.id_map(dim) * self`. -/
def invert (p : Path S d) : Option (Path S d) := act (BaseMap.idMap d).invert p

/-- The loop of `Path.is_continuous`, paths.py:151-159, from the previous cube and link over the remaining (cube, link) pairs. -/
def continuousLoop : Cube d → Link S → List (Option (Cube d) × Link S) → Option Bool
  | _, _, [] => some true
  | prevCube, prevLink, (cube, link) :: rest => do
    let cube ← cube
    let moved ← SubsetOps.shift link.entrance (fun j => cube j - prevCube j)
    if SubsetOps.intersects prevLink.exit moved then continuousLoop cube link rest else return false

/-- `Path.is_continuous`, paths.py:142-159: `none` is an exception. -/
def isContinuous (p : Path S d) : Option Bool := do
  let prevCube ← (← p.proto.head?)
  let prevLink ← p.links.head?
  continuousLoop prevCube prevLink (p.proto.tail.zip p.links.tail)

/-- `Path.__lt__`, paths.py:129-134: comparison of `(link, proto, links)`.  Prototypes compare as tuples of integer tuples; `None`
cubes are not comparable in Python, here they come first. -/
def lt [DecidableEq S] (p q : Path S d) : Bool :=
  if p.link = q.link then
    let pp : List (List ℤ) := p.proto.map fun c => (c.map List.ofFn).getD []
    let qp : List (List ℤ) := q.proto.map fun c => (c.map List.ofFn).getD []
    if pp = qp then listLt p.links q.links else decide (pp < qp)
  else Link.lt p.link q.link
where
  /-- comparison of tuples of links -/
  listLt : List (Link S) → List (Link S) → Bool
    | [], [] => false
    | [], _ :: _ => true
    | _ :: _, [] => false
    | a :: as, b :: bs => if a = b then listLt as bs else Link.lt a b

end Path

end Peano
