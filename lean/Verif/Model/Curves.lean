import Verif.Model.Paths
import Verif.Model.Utils
import Mathlib.Data.Nat.Factorial.Basic

set_option autoImplicit false

/-
Model of `peano/curves.py`: patterns, fuzzy curves, curves and path-fuzzy curves (without junctions, see `Model/Junctions.lean`).
-/
namespace Peano
variable {d : ℕ}

/-- `class Pattern`, curves.py:24-30. -/
structure Pattern (d : ℕ) where
  proto : Proto d
  specs : List (Option (Spec d))

instance : DecidableEq (Pattern d) := fun s t =>
  decidable_of_iff (s.proto = t.proto ∧ s.specs = t.specs) (by cases s; cases t; simp)

/-- `Pattern.__invert__`, curves.py:56-62. -/
def Pattern.invert (p : Pattern d) : Pattern d := ⟨p.proto.invert, p.specs.reverse⟩

/-- Additional attributes of `PathFuzzyCurve`, curves.py:618-644.  Dictionaries are association lists in insertion order. -/
structure PathData (d : ℕ) where
  /-- `links_symmetries`: standard link ↦ base maps that keep it -/
  linksSymmetries : List (Link (Point d) × List (BaseMap d))
  /-- `links_std`: standard link ↦ {pnum ↦ map sending the global link of the pattern to the standard link} -/
  linksStd : List (Link (Point d) × List (ℕ × BaseMap d))
  /-- `pattern_links` -/
  patternLinks : List (List (Link (Point d)))
  /-- `pattern_reprs` -/
  patternReprs : List (List (BaseMap d))

instance : DecidableEq (PathData d) := fun s t =>
  decidable_of_iff (s.linksSymmetries = t.linksSymmetries ∧ s.linksStd = t.linksStd ∧ s.patternLinks = t.patternLinks ∧
    s.patternReprs = t.patternReprs) (by cases s; cases t; simp)

/-- The class of the object: `FuzzyCurve`, `Curve` or `PathFuzzyCurve`. -/
inductive Kind (d : ℕ)
  | fuzzy
  | curve
  | path (data : PathData d)
deriving DecidableEq

/-- `class FuzzyCurve` and its subclasses `Curve`, `PathFuzzyCurve`, curves.py:65-113, 524-529, 618-644.  `mult` and `genus` are
functions; `dim` is the parameter. -/
structure FCurve (d : ℕ) where
  div : ℕ
  patterns : List (Pattern d)
  pnum : ℕ
  kind : Kind d

instance : DecidableEq (FCurve d) := fun s t =>
  decidable_of_iff (s.div = t.div ∧ s.patterns = t.patterns ∧ s.pnum = t.pnum ∧ s.kind = t.kind) (by cases s; cases t; simp)

namespace FCurve

/-- `self.mult`, curves.py:103. -/
def mult (c : FCurve d) : ℕ := c.patterns.length

/-- `self.genus = div**dim`, curves.py:105. -/
def genus (c : FCurve d) : ℕ := c.div ^ d

/-- `self.patterns[pnum].specs[cnum]` where an actual spec is needed; `none` is IndexError or an undefined spec. -/
def spec? (c : FCurve d) (pnum cnum : ℕ) : Option (Spec d) := (c.patterns[pnum]?).bind fun p => (p.specs[cnum]?).join

/-- `self.patterns[pnum].proto[cnum]` where an actual cube is needed. -/
def cube? (c : FCurve d) (pnum cnum : ℕ) : Option (Cube d) := (c.patterns[pnum]?).bind fun p => p.proto.cube? cnum

/-! ### Action of base maps -/

/-- `PathFuzzyCurve.__invert__` on the additional attributes, curves.py:651-663. -/
def PathData.invert (x : PathData d) : PathData d where
  linksSymmetries := x.linksSymmetries
  linksStd := x.linksStd.map fun e => (e.1, e.2.map fun q => (q.1, q.2.invert))
  patternLinks := x.patternLinks.map List.reverse
  patternReprs := x.patternReprs.map fun reprs => reprs.reverse.map BaseMap.invert

/-- `FuzzyCurve.__invert__`, curves.py:127-129, and the override curves.py:651-663. -/
def invert (c : FCurve d) : FCurve d :=
  { c with
    patterns := c.patterns.map Pattern.invert
    kind := match c.kind with
      | .path data => .path (PathData.invert data)
      | k => k }

/-- `PathFuzzyCurve._apply_cube_map` on the additional attributes, curves.py:665-679.  `cube_map**(-1)` is the inverse (C03). -/
def PathData.applyCubeMap (bm : BaseMap d) (x : PathData d) : PathData d where
  linksSymmetries := x.linksSymmetries
  linksStd := x.linksStd.map fun e => (e.1, e.2.map fun q => (q.1, q.2 * bm⁻¹))
  patternLinks := x.patternLinks
  patternReprs := x.patternReprs.map fun reprs => reprs.map fun r => bm * r

/-- `FuzzyCurve._apply_cube_map`, curves.py:131-144, and the override curves.py:665-679. -/
def applyCubeMap (c : FCurve d) (bm : BaseMap d) : FCurve d :=
  { c with
    patterns := c.patterns.map fun p => ⟨p.proto.act c.div bm, p.specs.map fun s => s.map fun s => s.conjugateBy bm⟩
    kind := match c.kind with
      | .path data => .path (PathData.applyCubeMap bm data)
      | k => k }

/-- `FuzzyCurve.__rmul__` with a base map, curves.py:146-170. -/
def act (bm : BaseMap d) (c : FCurve d) : FCurve d :=
  (if bm.timeRev then c.invert else c).applyCubeMap bm.cubeMap

/-- `FuzzyCurve.__rmul__` with a spec, curves.py:146-170: also selects `spec.pnum`. -/
def actSpec (s : Spec d) (c : FCurve d) : FCurve d := { act s.baseMap c with pnum := s.pnum }

/-! ### Deep specs -/

/-- `FuzzyCurve._compose_specs`, curves.py:172-183. `none` is IndexError/KeyError. -/
def composeSpecs (c : FCurve d) (s : Spec d) (cnum : ℕ) : Option (Spec d) :=
  (c.spec? s.pnum (s.baseMap.applyCnum c.genus cnum)).map fun last => Spec.rmulBaseMap s.baseMap last

/-- `FuzzyCurve.get_deep_spec`, curves.py:185-194. -/
def getDeepSpec (c : FCurve d) (pnum : ℕ) (cnums : List ℕ) : Option (Spec d) :=
  cnums.foldlM (fun s cnum => c.composeSpecs s cnum) ⟨BaseMap.idMap d, pnum⟩

/-! ### Allowed specs, possible curves -/

/-- `gen_allowed_specs`: curves.py:196-198 (`FuzzyCurve`: NotImplementedError), 553-554 (`Curve`), 681-698 (`PathFuzzyCurve`).
`none` is an exception.  (A `Curve` with an undefined spec would yield `None`; here that is an exception.) -/
def genAllowedSpecs (c : FCurve d) (pnum cnum : ℕ) : Option (List (Spec d)) :=
  match c.kind with
  | .fuzzy => none
  | .curve => (c.spec? pnum cnum).map fun s => [s]
  | .path x => do
    let pattern ← c.patterns[pnum]?
    match ← pattern.specs[cnum]? with
    | some s => return [s]
    | none =>
      let link ← (← x.patternLinks[pnum]?)[cnum]?
      let repr ← (← x.patternReprs[pnum]?)[cnum]?
      let symmetries ← x.linksSymmetries.lookup link
      let std ← x.linksStd.lookup link
      return std.flatMap fun q => symmetries.map fun symm => (⟨repr * symm * q.2, q.1⟩ : Spec d)

/-- `new_specs[cnum] = spec`: `none` is IndexError. -/
def setSpec (specs : List (Option (Spec d))) (cnum : ℕ) (s : Spec d) : Option (List (Option (Spec d))) :=
  if cnum < specs.length then some (specs.set cnum (some s)) else none

/-- `FuzzyCurve._specify_allowed`, curves.py:273-282; the two-level dictionary is a list of ((pnum, cnum), spec). -/
def specifyAllowed (c : FCurve d) (specDict : List ((ℕ × ℕ) × Spec d)) : Option (FCurve d) := do
  let patterns ← specDict.foldlM (fun (ps : List (Pattern d)) e => do
    let p ← ps[e.1.1]?
    let specs ← setSpec p.specs e.1.2 e.2
    return ps.set e.1.1 ⟨p.proto, specs⟩) c.patterns
  return { c with patterns }

/-- The undefined positions, curves.py:210-213. -/
def undefinedPositions (c : FCurve d) : List (ℕ × ℕ) :=
  c.patterns.zipIdx.flatMap fun pp => pp.1.specs.zipIdx.filterMap fun sc => if sc.1.isNone then some (pp.2, sc.2) else none

/-- `FuzzyCurve.get_curve_example`, curves.py:200-214 (the class of the result stays the same). -/
def getCurveExample (c : FCurve d) : Option (FCurve d) := do
  let dict ← c.undefinedPositions.mapM fun pc => do
    let allowed ← c.genAllowedSpecs pc.1 pc.2
    let s ← allowed.head?
    return (pc, s)
  c.specifyAllowed dict

/-- All positions `(pnum, cnum)` in order, curves.py:223-225. -/
def positions (c : FCurve d) : List (ℕ × ℕ) :=
  (List.range c.mult).flatMap fun pnum => (List.range c.genus).map fun cnum => (pnum, cnum)

/-- `FuzzyCurve.gen_possible_curves`, curves.py:216-233. -/
def genPossibleCurves (c : FCurve d) : Option (List (FCurve d)) := do
  let gens ← c.positions.mapM fun pc => c.genAllowedSpecs pc.1 pc.2
  return (Itertools.product gens).map fun allSpecs =>
    { div := c.div
      patterns := c.patterns.zipIdx.map fun pp =>
        ⟨pp.1.proto, ((allSpecs.drop (c.genus * pp.2)).take c.genus).map some⟩
      pnum := c.pnum
      kind := .curve }

/-- `FuzzyCurve.count_possible_curves`, curves.py:235-241. -/
def countPossibleCurves (c : FCurve d) : Option ℕ :=
  c.positions.foldlM (fun r pc => (c.genAllowedSpecs pc.1 pc.2).map fun l => r * l.length) 1

/-- `FuzzyCurve.gen_defined_specs`, curves.py:243-248. -/
def genDefinedSpecs (c : FCurve d) : List (ℕ × ℕ × Spec d) :=
  c.patterns.zipIdx.flatMap fun pp => pp.1.specs.zipIdx.filterMap fun sc => sc.1.map fun s => (pp.2, sc.2, s)

/-- Outcome of `specify`: a curve, ValueError("Can't specify curve"), or another exception. -/
inductive SpecifyResult (d : ℕ)
  | ok (c : FCurve d)
  | valueError
  | error

/-- `FuzzyCurve.specify`, curves.py:250-271. -/
def specify (c : FCurve d) (pnum cnum : ℕ) (s : Spec d) : SpecifyResult d :=
  match c.genAllowedSpecs pnum cnum with
  | none => .error
  | some allowed =>
    if s ∈ allowed then
      match (c.patterns[pnum]?).bind fun p => p.specs[cnum]? with
      | none => .error
      | some (some _) => .ok c
      | some none =>
        match c.specifyAllowed [((pnum, cnum), s)] with
        | some c' => .ok c'
        | none => .error
    else .valueError

/-! ### Entrance, exit, moments -/

/-- Bound on the number of iterations of the loops over specs: one more than the number of specs with `pnum < mult`.  Not in the
code (Python loops until a spec repeats); theorems show that it suffices. -/
def fuel (c : FCurve d) : ℕ := c.mult * (2 * (d.factorial * 2 ^ d)) + 1

/-- `FuzzyCurve._get_limit_point`, curves.py:325-330. -/
def getLimitPoint (c : FCurve d) (cubesStart cubesPeriod : List (Cube d)) : Option (Point d) := do
  let xs ← (List.finRange d).mapM fun j =>
    getPeriodicSum (cubesStart.map fun cube => cube j) (cubesPeriod.map fun cube => cube j) c.div
  return fun j => xs.getD j 0

/-- The loop of `_get_cube_limit`, curves.py:314-320.  `index` (a dict from spec to position) is the list `seen` of specs met so
far, in order; `cubes` is in the same order. Result: cubes before and in the period.  `none`: out of fuel, or KeyError. -/
def cubeLimitLoop (c : FCurve d) (cnum : ℕ) : ℕ → List (Spec d) → List (Cube d) → Spec d → Option (List (Cube d) × List (Cube d))
  | 0, _, _, _ => none
  | fuel + 1, seen, cubes, cur =>
    if cur ∈ seen then some (cubes.take (seen.idxOf cur), cubes.drop (seen.idxOf cur))
    else do
      let pattern ← c.patterns[cur.pnum]?
      let cube ← (pattern.proto.act c.div cur.baseMap).cube? cnum
      let next ← c.composeSpecs cur cnum
      cubeLimitLoop c cnum fuel (seen ++ [cur]) (cubes ++ [cube]) next

/-- `FuzzyCurve._get_cube_limit`, curves.py:308-323. -/
def getCubeLimit (c : FCurve d) (pnum cnum : ℕ) : Option (Point d) := do
  let r ← c.cubeLimitLoop cnum c.fuel [] [] ⟨BaseMap.idMap d, pnum⟩
  c.getLimitPoint r.1 r.2

/-- `FuzzyCurve.get_entrance`, curves.py:288-300 (the default `pnum` is `self.pnum`). -/
def getEntrance (c : FCurve d) (pnum : ℕ) : Option (Point d) := c.getCubeLimit pnum 0

/-- `FuzzyCurve.get_exit`, curves.py:302-306. -/
def getExit (c : FCurve d) (pnum : ℕ) : Option (Point d) := c.getCubeLimit pnum (c.genus - 1)

/-- The test of one cube in `_get_face_cnum`, curves.py:393-398. -/
def touchesFace (div : ℕ) (cube : Cube d) (face : Face d) : Bool :=
  decide (∀ j, ¬ ((face j = some true ∧ cube j ≠ (div : ℤ) - 1) ∨ (face j = some false ∧ cube j ≠ 0)))

/-- The loop of `_get_face_cnum`, curves.py:393-400, over the (cnum, cube) pairs: `none` is ValueError("Could not touch face!") or
TypeError (an undefined cube met). -/
def faceLoop (div : ℕ) (face : Face d) : List (Option (Cube d) × ℕ) → Option ℕ
  | [] => none
  | (none, _) :: _ => none
  | (some cube, cnum) :: rest => if touchesFace div cube face then some cnum else faceLoop div face rest

/-- `FuzzyCurve._get_face_cnum`, curves.py:386-401. -/
def getFaceCnum (div : ℕ) (proto : Proto d) (face : Face d) (last : Bool) : Option ℕ :=
  faceLoop div face (if last then proto.zipIdx.reverse else proto.zipIdx)

/-- `class CurvePoint`, curves.py:828-832. -/
structure CurvePoint (d : ℕ) where
  x : Point d
  t : ℚ

instance : DecidableEq (CurvePoint d) := fun s t =>
  decidable_of_iff (s.x = t.x ∧ s.t = t.t) (by cases s; cases t; simp)

/-- `CurvePoint.__rmul__`, curves.py:834-835. -/
def CurvePoint.act (bm : BaseMap d) (p : CurvePoint d) : CurvePoint d := ⟨Point.act bm p.x, bm.applyT 1 p.t⟩

/-- `CurvePoint.scale`, curves.py:837-838. -/
def CurvePoint.scale (p : CurvePoint d) (factor : ℚ) : CurvePoint d := ⟨fun j => p.x j * factor, factor ^ d * p.t⟩

/-- The loop of `get_face_moment`, curves.py:369-377, collecting cnums and cubes (the cubes are needed with `find_point`). -/
def faceMomentLoop (c : FCurve d) (face : Face d) (last : Bool) :
    ℕ → List (Spec d) → List (ℕ × Cube d) → Spec d → Option (List (ℕ × Cube d) × List (ℕ × Cube d))
  | 0, _, _, _ => none
  | fuel + 1, seen, acc, cur =>
    if cur ∈ seen then some (acc.take (seen.idxOf cur), acc.drop (seen.idxOf cur))
    else do
      let pattern ← c.patterns[cur.pnum]?
      let curProto := pattern.proto.act c.div cur.baseMap
      let cnum ← getFaceCnum c.div curProto face last
      let cube ← curProto.cube? cnum
      let next ← c.composeSpecs cur cnum
      faceMomentLoop c face last fuel (seen ++ [cur]) (acc ++ [(cnum, cube)]) next

/-- `FuzzyCurve.get_face_moment` with `find_point=True`, curves.py:347-384. -/
def getFacePoint (c : FCurve d) (face : Face d) (pnum : ℕ) (last : Bool) : Option (CurvePoint d) := do
  let r ← c.faceMomentLoop face last c.fuel [] [] ⟨BaseMap.idMap d, pnum⟩
  let moment ← getPeriodicSum (r.1.map fun e => (e.1 : ℤ)) (r.2.map fun e => (e.1 : ℤ)) c.genus
  let point ← c.getLimitPoint (r.1.map Prod.snd) (r.2.map Prod.snd)
  return ⟨point, moment⟩

/-- `FuzzyCurve.get_face_moment` with `find_point=False`, curves.py:347-384. -/
def getFaceMoment (c : FCurve d) (face : Face d) (pnum : ℕ) (last : Bool) : Option ℚ := do
  let r ← c.faceMomentLoop face last c.fuel [] [] ⟨BaseMap.idMap d, pnum⟩
  getPeriodicSum (r.1.map fun e => (e.1 : ℤ)) (r.2.map fun e => (e.1 : ℤ)) c.genus

/-- `FuzzyCurve.get_vertex_moments`, curves.py:332-345: dict from vertices to moments. -/
def getVertexMoments (c : FCurve d) (pnum : ℕ) : Option (List ((Fin d → Bool) × ℚ)) :=
  (Itertools.productRepeat [false, true] d).mapM fun l => do
    let vertex : Fin d → Bool := fun j => l.getD j false
    let t ← c.getFaceMoment (fun j => some (vertex j)) pnum false
    return (vertex, t)

/-! ### Class `Curve` -/

/-- `Curve.get_paths`, curves.py:556-563. -/
def getPaths (c : FCurve d) : Option (List (Path (Point d) d)) := do
  let links ← (List.range c.mult).mapM fun pnum => do
    let entr ← c.getEntrance pnum
    let exit ← c.getExit pnum
    return (⟨entr, exit⟩ : Link (Point d))
  c.patterns.mapM fun pattern => do
    let patternLinks ← pattern.specs.mapM fun s => do
      let s ← s
      let l ← links[s.pnum]?
      return Link.act s.baseMap l
    Path.make c.div pattern.proto patternLinks

/-- `Curve.check`, curves.py:595-598.  `some true`: returns normally; `some false`: ValueError("Not contiuous!"); `none`: another
exception (malformed curve). -/
def check (c : FCurve d) : Option Bool := do
  let paths ← c.getPaths
  paths.foldlM (fun ok p => if ok then p.isContinuous else some false) true

/-- One refinement step of `get_subdivision`, curves.py:573-592: `current` refined with the patterns of the original curve. -/
def subdivideStep (orig current : FCurve d) : Option (FCurve d) := do
  let patterns ← current.patterns.mapM fun pattern => do
    let parts ← (pattern.proto.zip pattern.specs).mapM fun cs => do
      let cube ← cs.1
      let s ← cs.2
      let o ← orig.patterns[s.pnum]?
      let protoPart ← (o.proto.act orig.div s.baseMap).mapM fun c => c.map fun c => some fun j => cube j * (orig.div : ℤ) + c j
      let specsPart ← (if s.baseMap.timeRev then o.specs.reverse else o.specs).mapM fun sp =>
        sp.map fun sp => some (Spec.rmulBaseMap s.baseMap sp)
      return (protoPart, specsPart)
    return (⟨(parts.map Prod.fst).flatten, (parts.map Prod.snd).flatten⟩ : Pattern d)
  return { div := current.div * orig.div, patterns, pnum := orig.pnum, kind := .curve }

/-- `Curve.get_subdivision`, curves.py:569-593. -/
def getSubdivision (c : FCurve d) : ℕ → Option (FCurve d)
  | 0 => some c
  | k + 1 => do subdivideStep c (← c.getSubdivision k)

/-! ### Comparison -/

/-- Python objects that occur in the value of `Curve.__eq__`. -/
inductive PyObj (d : ℕ)
  | patterns (l : List (Pattern d))
  | bool (b : Bool)
  | int (n : ℕ)

/-- `Curve.__eq__`, curves.py:531-532: the expression `self.patterns, self.pnum == other.patterns, other.pnum` is a tuple of three
objects; the middle one compares an integer with a tuple, which is `False`. -/
def eqTuple (a b : FCurve d) : List (PyObj d) := [.patterns a.patterns, .bool false, .int b.pnum]

/-- Truth value of a tuple: it is true iff it is not empty. -/
def truthy (t : List (PyObj d)) : Bool := !t.isEmpty

/-- `if a == b`. -/
def pyEq (a b : FCurve d) : Bool := truthy (eqTuple a b)

/-- `a != b`: Python's default `__ne__` negates the truth value of `__eq__`. -/
def pyNe (a b : FCurve d) : Bool := !truthy (eqTuple a b)

end FCurve

end Peano
