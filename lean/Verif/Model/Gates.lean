import Verif.Model.Curves
import Verif.Model.PathsGen
import Mathlib.Data.List.Sort
import Mathlib.Data.Prod.Lex

set_option autoImplicit false

/-
Model of `peano/gates.py`: `GatesGenerator`, up to the choice of candidates for `only_facet` (see `Model/FacetGates.lean`).  Generators are
lists of what they yield; `none` is an exception.  Logging and the counters `stats` are left out.
-/
namespace Peano
variable {d : ℕ}

/-- `type GateTuple`, gates.py:16-17. -/
abbrev GateTuple (d : ℕ) := List (Link (Point d))

/-- Arguments of `GatesGenerator.__init__`, gates.py:20-34. -/
structure GatesGen (d : ℕ) where
  div : ℕ
  mult : ℕ
  onlyFacet : Bool

namespace GatesGen

/-- The sets `_seen_gates` and `_seen_std_gates`, gates.py:49-50. -/
structure Seen (d : ℕ) where
  gates : List (GateTuple d)
  std : List (GateTuple d)

/-- Hash function of Python used by the path tree. -/
abbrev Hash (d : ℕ) := Finset (Cube d) × CubeTree.Node d (Link (Point d)) → ℤ

/-- `l[0]` or `l[-1]`: position in a list of given length. -/
def endPos (n : ℕ) (last : Bool) : ℕ := if last then n - 1 else 0

/-- `_boundary_pnum_cnums`, gates.py:34: pairs (pnum, cnum) with cnum 0 (`false`) or -1 (`true`). -/
def boundary (mult : ℕ) : List (ℕ × Bool) := (List.range mult).flatMap fun pnum => [(pnum, false), (pnum, true)]

/-- The assignment `pattern_specs[pnum][cnum] = spec`, gates.py:149; `none` is IndexError. -/
def setEnd (specs : List (List (Option (Spec d)))) (pnum : ℕ) (last : Bool) (s : Spec d) : Option (List (List (Option (Spec d)))) := do
  let row ← specs[pnum]?
  if row.isEmpty then none else return specs.set pnum (row.set (endPos row.length last) (some s))

/-- `pattern_specs`, gates.py:147-149. -/
def patternSpecs (g : GatesGen d) (specList : List (Spec d)) : Option (List (List (Option (Spec d)))) :=
  ((boundary g.mult).zip specList).foldlM (fun specs e => setEnd specs e.1.1 e.1.2 e.2)
    (List.replicate g.mult (List.replicate (g.div ^ d) none))

/-- The curve with only the first and the last entries of patterns, gates.py:147-152. -/
def boundaryCurve (g : GatesGen d) (protos : List (Proto d)) (specList : List (Spec d)) : Option (FCurve d) :=
  (g.patternSpecs specList).map fun specs =>
    { div := g.div, patterns := (protos.zip specs).map fun e => ⟨e.1, e.2⟩, pnum := 0, kind := .fuzzy }

/-- The test of an entrance or exit, gates.py:157, 161: true if it makes the function return `None`. -/
def rejects (g : GatesGen d) (p : Point d) : Bool := (g.onlyFacet && decide (p.faceDim + 1 ≠ d)) || decide (p.faceDim = d)

/-- The loop over patterns, gates.py:154-164.  The inner `none` is `return None`. -/
def gatesLoop (g : GatesGen d) (c : FCurve d) : List ℕ → Option (Option (GateTuple d))
  | [] => some (some [])
  | pnum :: rest => do
    let entr ← c.getEntrance pnum
    if g.rejects entr then return none
    else
      let exit ← c.getExit pnum
      if g.rejects exit then return none
      else
        let more ← g.gatesLoop c rest
        return more.map (⟨entr, exit⟩ :: ·)

/-- `tuple(sorted(gate.std() for gate in gates))`, gates.py:173 (`sorted` is an insertion sort here). -/
def stdGates (gates : GateTuple d) : Option (GateTuple d) :=
  (gates.mapM Link.stdPoint).map fun l => l.insertionSort fun a b => Link.lt b a = false

/-- The part of `_check_and_std` after the gates are found, gates.py:166-191. -/
def checkGates (g : GatesGen d) (hash : Hash d) (seen : Seen d) (gates : GateTuple d) : Option (Seen d × Option (GateTuple d)) :=
  if gates ∈ seen.gates then some (seen, none)
  else do
    let std ← stdGates gates
    if std ∈ seen.std then return (⟨gates :: seen.gates, seen.std⟩, none)
    else
      let pg : PathsGen d (Point d) := { div := g.div, links := std, maxCdist := none }
      let example? ← pg.getPathsExample hash (some 1000) (some 1000000) std
      -- `if not example`: also the empty tuple is falsy
      match example? with
      | none | some [] => return (⟨gates :: seen.gates, std :: seen.std⟩, none)
      | some _ => return (⟨gates :: seen.gates, std :: seen.std⟩, some std)

/-- `_check_and_std`, gates.py:144-191. -/
def checkAndStd (g : GatesGen d) (hash : Hash d) (seen : Seen d) (protos : List (Proto d)) (specList : List (Spec d)) :
    Option (Seen d × Option (GateTuple d)) := do
  let c ← g.boundaryCurve protos specList
  let gates ← g.gatesLoop c (List.range g.mult)
  match gates with
  | none => return (seen, none)
  | some gates => g.checkGates hash seen gates

/-- The loop of `_check_variants` over `itertools.product`, gates.py:137-142: the new sets and the tuples yielded. -/
def variantsLoop (g : GatesGen d) (hash : Hash d) (protos : List (Proto d)) : Seen d → List (List (Spec d)) → Option (Seen d × List (GateTuple d))
  | seen, [] => some (seen, [])
  | seen, specs :: rest => do
    let r ← g.checkAndStd hash seen protos specs
    let more ← g.variantsLoop hash protos r.1 rest
    return (more.1, r.2.toList ++ more.2)

/-- `_check_variants`, gates.py:130-142. -/
def checkVariants (g : GatesGen d) (hash : Hash d) (seen : Seen d) (protos : List (Proto d)) (specsDict : List (List (Spec d))) :
    Option (Seen d × List (GateTuple d)) := g.variantsLoop hash protos seen (Itertools.product specsDict)

/-- `yield from self._check_variants(protos, specs_dict)` for a sequence of arguments, gates.py:84, 128. -/
def candidatesLoop (g : GatesGen d) (hash : Hash d) : Seen d → List (List (Proto d) × List (List (Spec d))) → Option (Seen d × List (GateTuple d))
  | seen, [] => some (seen, [])
  | seen, e :: rest => do
    let r ← g.checkVariants hash seen e.1 e.2
    let more ← g.candidatesLoop hash r.1 rest
    return (more.1, r.2 ++ more.2)

/-! ### Candidates when all non-internal gates are wanted -/

/-- Comparison of pairs of cubes. -/
def pairLt (a b : Cube d × Cube d) : Bool :=
  decide (toLex (List.ofFn a.1, List.ofFn a.2) < (toLex (List.ofFn b.1, List.ofFn b.2) : List ℤ ×ₗ List ℤ))

/-- `facet_cubes`, gates.py:91-92. -/
def facetCubes (g : GatesGen d) : List (Cube d) :=
  ((Itertools.productRepeat ((List.range g.div).map fun i : ℕ => (i : ℤ)) d).map fun l (j : Fin d) => l.getD j 0).filter fun cube =>
    decide (∃ j, cube j = 0 ∨ cube j = (g.div : ℤ) - 1)

/-- `facet_pairs`, gates.py:93. -/
def facetPairs (g : GatesGen d) : List (Cube d × Cube d) :=
  (Itertools.combinations g.facetCubes 2).filterMap fun l => match l with
    | [a, b] => some (a, b)
    | _ => none

/-- `std_pair`, gates.py:95-101; `min` of three values. -/
def stdPair (g : GatesGen d) (pair : Cube d × Cube d) : Cube d × Cube d :=
  (BaseMap.genBaseMaps d (some false)).foldl (fun minPair bm =>
    let c1 := bm.applyCube g.div pair.1
    let c2 := bm.applyCube g.div pair.2
    (pyMin pairLt [minPair, (c1, c2), (c2, c1)]).getD minPair) pair

/-- `sorted(std_pairs)`, gates.py:104-105. -/
def stdPairs (g : GatesGen d) : List (Cube d × Cube d) :=
  (g.facetPairs.map g.stdPair).dedup.insertionSort fun a b => pairLt b a = false

/-- `touch_same_facet`, gates.py:111-112. -/
def touchSameFacet (g : GatesGen d) (cube1 cube2 : Cube d) : Bool :=
  decide (∃ j, (cube1 j = cube2 j ∧ cube2 j = 0) ∨ (cube1 j = cube2 j ∧ cube2 j = (g.div : ℤ) - 1))

/-- `proto` for a pair, gates.py:118-119; `none` is IndexError (empty list). -/
def pairProto (g : GatesGen d) (pair : Cube d × Cube d) : Option (Proto d) :=
  let proto : Proto d := List.replicate (g.div ^ d) none
  if proto.isEmpty then none
  else some ((proto.set (endPos proto.length false) (some pair.1)).set (endPos proto.length true) (some pair.2))

/-- `protos[pnum][cnum]`, gates.py:126, where an actual cube is needed. -/
def endCube (p : Proto d) (last : Bool) : Option (Cube d) := p.cube? (endPos p.length last)

/-- Filter with a test that may raise. -/
def filterOpt {α : Type} (f : α → Option Bool) : List α → Option (List α)
  | [] => some []
  | a :: l => do
    let b ← f a
    let rest ← filterOpt f l
    return if b then a :: rest else rest

/-- `specs_dict[pnum, cnum]`, gates.py:124-127. -/
def touchSpecs (g : GatesGen d) (protos : List (Proto d)) (pnum : ℕ) (last : Bool) : Option (List (Spec d)) := do
  let parts ← (List.range g.mult).mapM fun pn => do
    let bms ← filterOpt (fun bm => do
      let p ← protos[pnum]?
      let cube1 ← endCube p last
      let q ← protos[pn]?
      let cube2 ← endCube (q.act g.div bm) last
      return g.touchSameFacet cube1 cube2) (BaseMap.genBaseMaps d none)
    return bms.map fun bm => (⟨bm, pn⟩ : Spec d)
  return parts.flatten

/-- The arguments of `_check_variants` for a tuple of pairs of cubes, gates.py:116-128. -/
def pairsCandidate (g : GatesGen d) (pairs : List (Cube d × Cube d)) : Option (List (Proto d) × List (List (Spec d))) := do
  let protos ← pairs.mapM g.pairProto
  let specsDict ← (boundary g.mult).mapM fun e => g.touchSpecs protos e.1 e.2
  return (protos, specsDict)

/-- `_gen_all_gates`, gates.py:86-128, from the initial sets of `gen_gates`. -/
def genAllGates (g : GatesGen d) (hash : Hash d) : Option (List (GateTuple d)) := do
  let candidates ← (Itertools.combinationsWithReplacement g.stdPairs g.mult).mapM g.pairsCandidate
  let r ← g.candidatesLoop hash ⟨[], []⟩ candidates
  return r.2

end GatesGen
end Peano
