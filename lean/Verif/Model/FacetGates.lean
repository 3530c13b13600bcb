import Verif.Model.Gates
import Verif.Model.GeneratePaths
import Verif.Model.FacetSubset

set_option autoImplicit false

/-
Model of the rest of `peano/gates.py`: candidates for `only_facet=True`, in dimension `n + 1`.  Generators are lists of what they yield;
`none` is an exception.  Logging and the counters `stats` are left out.
-/
namespace Peano
namespace GatesGen
variable {n : ℕ}

/-- Hash function of Python used by the path tree, for links of facet subsets. -/
abbrev FacetHash (n : ℕ) := Finset (Cube (n + 1)) × CubeTree.Node (n + 1) (Link (FacetDivSubset n)) → ℤ

/-- `FacetDivSubset(dim=dim, div=div, facet=(coord, value))`, gates.py:59-61. -/
def wholeFacet (g : GatesGen (n + 1)) (coord : Fin (n + 1)) (value : Bool) : FacetDivSubset n := ⟨g.div, coord, value, []⟩

/-- `link_variants`, gates.py:59-64.  In dimension 1 the third facet does not exist; the code creates it, and raises TypeError when it is
used: here `none` at once. -/
def linkVariants (g : GatesGen (n + 1)) : Option (List (Link (FacetDivSubset n))) :=
  if h : 1 < n + 1 then
    let facet0 := g.wholeFacet 0 false
    let facet1 := g.wholeFacet 0 true
    let facet2 := g.wholeFacet ⟨1, h⟩ false
    some [⟨facet0, facet0⟩, ⟨facet0, facet1⟩, ⟨facet0, facet2⟩]
  else none

/-- `_NarrowLinks`, gates.py:193: the link of a path and the links of its first and last fractions. -/
structure Narrow (n : ℕ) where
  link : Link (FacetDivSubset n)
  first : Link (FacetDivSubset n)
  last : Link (FacetDivSubset n)

instance : DecidableEq (Narrow n) := fun s t =>
  decidable_of_iff (s.link = t.link ∧ s.first = t.first ∧ s.last = t.last) (by cases s; cases t; simp)

/-- `key`, gates.py:217. -/
def narrowKey (p : Path (FacetDivSubset n) (n + 1)) : Option (Narrow n) := do
  let first ← p.links.head?
  let last ← p.links.getLast?
  return ⟨p.link, first, last⟩

/-- The loop with `seen`, gates.py:214-221: the keys without repetitions. -/
def narrowLoop : List (Narrow n) → List (Narrow n) → List (Narrow n)
  | _, [] => []
  | seen, key :: rest => if key ∈ seen then narrowLoop seen rest else key :: narrowLoop (key :: seen) rest

/-- `_gen_narrow_links`, gates.py:195-223. -/
def genNarrowLinks (hash : FacetHash n) (paths : List (Path (FacetDivSubset n) (n + 1))) : Option (List (List (Narrow n))) := do
  let path0 ← paths.head?
  let npg : PathsGen (n + 1) (FacetDivSubset n) := { div := path0.div, links := paths.map Path.link, maxCdist := none }
  let example? ← npg.getPathsExampleFor hash none (some paths) false (some 100) (some 1000000)
  match example? with
  | none | some [] => return []
  | some _ =>
    let narrows ← paths.mapM fun path => do
      let narrowPaths ← npg.generatePathsParent hash path false (some 100) (some 1000000)
      let keys ← narrowPaths.mapM narrowKey
      return narrowLoop [] keys
    return Itertools.product narrows

/-- `narrow[pnum].links[cnum]` for cnum 0 (`false`) or -1 (`true`). -/
def Narrow.endLink (k : Narrow n) (last : Bool) : Link (FacetDivSubset n) := if last then k.last else k.first

/-- `specs_dict[pnum, cnum]`, gates.py:78-83. -/
def narrowSpecs (g : GatesGen (n + 1)) (narrow : List (Narrow n)) (pnum : ℕ) (last : Bool) : Option (List (Spec (n + 1))) := do
  let parts ← (List.range g.mult).mapM fun pn => do
    let k ← narrow[pn]?
    let k' ← narrow[pnum]?
    return (Link.argmulIntersectFacet k.link (k'.endLink last)).map fun bm => (⟨bm, pn⟩ : Spec (n + 1))
  return parts.flatten

/-- The arguments of `_check_variants` for one tuple of paths and one tuple of narrow links, gates.py:76-84. -/
def narrowCandidate (g : GatesGen (n + 1)) (paths : List (Path (FacetDivSubset n) (n + 1))) (narrow : List (Narrow n)) :
    Option (List (Proto (n + 1)) × List (List (Spec (n + 1)))) := do
  let specsDict ← (boundary g.mult).mapM fun e => g.narrowSpecs narrow e.1 e.2
  return (paths.map Path.proto, specsDict)

/-- The arguments of `_check_variants` for one tuple of global links, gates.py:69-84. -/
def linksCandidates (g : GatesGen (n + 1)) (hash : FacetHash n) (links : List (Link (FacetDivSubset n))) :
    Option (List (List (Proto (n + 1)) × List (List (Spec (n + 1))))) := do
  let pg : PathsGen (n + 1) (FacetDivSubset n) := { div := g.div, links := links, maxCdist := none }
  let plist ← pg.generatePaths hash none none true (some 100) (some 1000000)
  let parts ← plist.mapM fun paths => do
    let narrows ← genNarrowLinks hash paths
    narrows.mapM (g.narrowCandidate paths)
  return parts.flatten

/-- `_gen_facet_gates`, gates.py:56-84, from the initial sets of `gen_gates`. -/
def genFacetGates (g : GatesGen (n + 1)) (hashF : FacetHash n) (hash : Hash (n + 1)) : Option (List (GateTuple (n + 1))) := do
  let variants ← g.linkVariants
  let parts ← (Itertools.combinationsWithReplacement variants g.mult).mapM (g.linksCandidates hashF)
  let r ← g.candidatesLoop hash ⟨[], []⟩ parts.flatten
  return r.2

/-- `gen_gates`, gates.py:36-54. -/
def genGates (g : GatesGen (n + 1)) (hashF : FacetHash n) (hash : Hash (n + 1)) : Option (List (GateTuple (n + 1))) :=
  if g.onlyFacet then g.genFacetGates hashF hash else g.genAllGates hash

end GatesGen
end Peano
