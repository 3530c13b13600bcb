import Verif.Model.Curves

set_option autoImplicit false

/-
Model of junctions, `peano/curves.py`: classes `Junction`, `RegularJunction`, `AutoJunction` and the generators.
-/
namespace Peano
variable {d : ℕ}

/-- `class Junction`, curves.py:753-779: the data that take part in comparison and hashing (`_data`).  The attribute `depth` is kept
beside the junction in the generators. -/
structure Junction (d : ℕ) where
  spec1 : Spec d
  spec2 : Spec d
  deltaX : Cube d
  deltaT : ℕ

instance : DecidableEq (Junction d) := fun s t =>
  decidable_of_iff (s.spec1 = t.spec1 ∧ s.spec2 = t.spec2 ∧ s.deltaX = t.deltaX ∧ s.deltaT = t.deltaT) (by cases s; cases t; simp)

namespace Junction

/-- Whether `RegularJunction.__init__` swaps the fractions, curves.py:799-800. -/
def needSwap (s1 s2 : Spec d) : Bool :=
  decide (s2.pnum < s1.pnum) || (decide (s1.pnum = s2.pnum) && s1.baseMap.timeRev && s2.baseMap.timeRev)

/-- The second part of `RegularJunction.__init__`, curves.py:805-812: normalize the first cube map.  `cube_map()**(-1)` is the
inverse (C03). -/
def normalize (s1 s2 : Spec d) (deltaX : Cube d) : Junction d :=
  let inv := s1.baseMap.cubeMap⁻¹
  { spec1 := Spec.rmulBaseMap inv s1
    spec2 := Spec.rmulBaseMap inv s2
    deltaX := inv.applyVec deltaX
    deltaT := 1 }

/-- `RegularJunction.__init__`, curves.py:798-812. -/
def regular (s1 s2 : Spec d) (deltaX : Cube d) : Junction d :=
  if needSwap s1 s2 then normalize s2.invert s1.invert (fun j => -deltaX j) else normalize s1 s2 deltaX

/-- `AutoJunction.__init__`, curves.py:823-825. -/
def auto (d pnum : ℕ) : Junction d := ⟨⟨BaseMap.idMap d, pnum⟩, ⟨BaseMap.idMap d, pnum⟩, fun _ => 0, 0⟩

end Junction

namespace FCurve

/-- `FuzzyCurve.gen_auto_junctions`, curves.py:407-409 (depth 0). -/
def genAutoJunctions (c : FCurve d) : List (Junction d) := (List.range c.mult).map fun pnum => Junction.auto d pnum

/-- `FuzzyCurve._get_base_junction`, curves.py:430-437.  `none` is an exception (undefined spec or cube, index out of range). -/
def getBaseJunction (c : FCurve d) (pnum cnum : ℕ) : Option (Junction d) := do
  let s1 ← c.spec? pnum cnum
  let s2 ← c.spec? pnum (cnum + 1)
  let c1 ← c.cube? pnum cnum
  let c2 ← c.cube? pnum (cnum + 1)
  return Junction.regular s1 s2 fun j => c2 j - c1 j

/-- First or last element of a list of optional entries: `seq[0]`, `seq[-1]`. -/
def endElem {α : Type} (l : List (Option α)) (last : Bool) : Option α := if last then l.getLast?.join else l.head?.join

/-- `FuzzyCurve._get_derived_junction`, curves.py:439-464 (the depth is treated by the callers).  `cnum1` is the last position unless
the first spec reverses time, `cnum2` the first position unless the second spec reverses time.  `none` is an exception. -/
def getDerivedJunction (c : FCurve d) (junc : Junction d) : Option (Junction d) := do
  let p1 ← c.patterns[junc.spec1.pnum]?
  let p2 ← c.patterns[junc.spec2.pnum]?
  let last1 := !junc.spec1.baseMap.timeRev
  let last2 := junc.spec2.baseMap.timeRev
  let sp1 ← endElem p1.specs last1
  let sp2 ← endElem p2.specs last2
  let pc1 ← endElem p1.proto last1
  let pc2 ← endElem p2.proto last2
  let cube1 := junc.spec1.baseMap.applyCube c.div pc1
  let cube2 := junc.spec2.baseMap.applyCube c.div pc2
  return Junction.regular (Spec.rmulBaseMap junc.spec1.baseMap sp1) (Spec.rmulBaseMap junc.spec2.baseMap sp2)
    fun j => cube2 j + junc.deltaX j * (c.div : ℤ) - cube1 j

/-- The loop of `_gen_junctions_from_base`, curves.py:421-428.  `toDerive` has the end of the Python list first, so that `pop()` takes
the head.  `seen` contains the yielded junctions, with depths (`none` if unknown).  `none`: out of fuel, or an exception. -/
def junctionsLoop (c : FCurve d) : ℕ → List (Junction d × Option ℕ) → List (Junction d × Option ℕ) → Option (List (Junction d × Option ℕ))
  | _, seen, [] => some seen
  | 0, _, _ :: _ => none
  | fuel + 1, seen, junc :: toDerive => do
    let dj ← c.getDerivedJunction junc.1
    if dj ∈ seen.map Prod.fst then junctionsLoop c fuel seen toDerive
    else
      let item := (dj, junc.2.map (· + 1))
      junctionsLoop c fuel (seen ++ [item]) (item :: toDerive)

/-- Bound for the loop: the number of pairs of specs times the number of vectors in `{-1,0,1}^d`, plus one.  Not in the code;
theorems show that it suffices for continuous curves. -/
def junctionFuel (c : FCurve d) : ℕ := (c.mult * (2 * (d.factorial * 2 ^ d))) ^ 2 * 3 ^ d + 1

/-- `FuzzyCurve._gen_junctions_from_base`, curves.py:411-428: yielded junctions with depths, in order of generation. -/
def genJunctionsFromBase (c : FCurve d) (base : List (Junction d × Option ℕ)) : Option (List (Junction d × Option ℕ)) :=
  c.junctionsLoop c.junctionFuel base base.reverse

/-- `Curve._gen_base_junctions`, curves.py:600-608. -/
def genBaseJunctions (c : FCurve d) : Option (List (Junction d)) := do
  let all ← ((List.range c.mult).flatMap fun pnum => (List.range (c.genus - 1)).map fun cnum => (pnum, cnum)).mapM
    fun pc => c.getBaseJunction pc.1 pc.2
  return all.foldl (fun seen junc => if junc ∈ seen then seen else seen ++ [junc]) []

/-- `Curve.gen_regular_junctions`, curves.py:610-612, with depths. -/
def genRegularJunctions (c : FCurve d) : Option (List (Junction d × Option ℕ)) := do
  let base ← c.genBaseJunctions
  c.genJunctionsFromBase (base.map fun j => (j, some 1))

/-- `Curve.get_depth`, curves.py:614-615.  `none` is an exception (for a curve without junctions, `max()` of nothing). -/
def getDepth (c : FCurve d) : Option ℕ := do
  let juncs ← c.genRegularJunctions
  (juncs.mapM fun (j : Junction d × Option ℕ) => j.2).bind List.max?

/-- Positions of the gates in the order of `variants`, curves.py:484-487. -/
def gatePositions (c : FCurve d) : List (ℕ × ℕ) := (List.range c.mult).flatMap fun pnum => [(pnum, 0), (pnum, c.genus - 1)]

/-- Assignment to a dictionary (association list, insertion order). -/
def dictSet {α β : Type} [DecidableEq α] (key : α) (v : β) : List (α × β) → List (α × β)
  | [] => [(key, v)]
  | (k, w) :: l => if k = key then (k, v) :: l else (k, w) :: dictSet key v l

/-- The dictionaries `gate_specs`, curves.py:489-494. -/
def gateSpecs (c : FCurve d) (variant : List (Spec d)) : List ((ℕ × ℕ) × Spec d) :=
  (c.gatePositions.zip variant).foldl (fun dict e => dictSet e.1 e.2 dict) []

/-- The templates, curves.py:481-505: triples (pnum, cnum, tmpl_specs). -/
def junctionTemplateSpecs (c : FCurve d) : Option (List ((ℕ × ℕ) × List ((ℕ × ℕ) × Spec d))) := do
  let variants ← c.gatePositions.mapM fun pc => c.genAllowedSpecs pc.1 pc.2
  let res ← (Itertools.product variants).mapM fun variant => do
    let gates := c.gateSpecs variant
    let inner ← ((List.range c.mult).flatMap fun pnum => (List.range (c.genus - 1)).map fun cnum => (pnum, cnum)).mapM fun pc1 => do
      let pc2 := (pc1.1, pc1.2 + 1)
      let allowed1 ← c.genAllowedSpecs pc1.1 pc1.2
      let allowed2 ← c.genAllowedSpecs pc2.1 pc2.2
      return allowed1.flatMap fun sp1 => allowed2.filterMap fun sp2 =>
        if (gates.lookup pc1).all (· == sp1) && (gates.lookup pc2).all (· == sp2) then
          some (pc1, dictSet pc2 sp2 (dictSet pc1 sp1 gates))
        else none
    return inner.flatten
  return res.flatten

/-- `junc_curves[junc].append(curve)` for a `defaultdict(list)`, curves.py:515. -/
def dictAppend {α β : Type} [DecidableEq α] (key : α) (v : β) : List (α × List β) → List (α × List β)
  | [] => [(key, [v])]
  | (k, ws) :: l => if k = key then (k, ws ++ [v]) :: l else (k, ws) :: dictAppend key v l

/-- `FuzzyCurve.get_junction_templates`, curves.py:466-517. -/
def getJunctionTemplates (c : FCurve d) : Option (List (Junction d × List (FCurve d))) := do
  let templates ← c.junctionTemplateSpecs
  templates.foldlM (fun dict t => do
    let curve ← c.specifyAllowed t.2
    let base ← curve.getBaseJunction t.1.1 t.1.2
    let juncs ← curve.genJunctionsFromBase [(base, none)]
    return juncs.foldl (fun dict junc => dictAppend junc.1 curve dict) dict) []

/-- `FuzzyCurve.gen_regular_junctions`, curves.py:519-521. -/
def genRegularJunctionsFuzzy (c : FCurve d) : Option (List (Junction d)) := (c.getJunctionTemplates).map fun l => l.map Prod.fst

end FCurve
end Peano
