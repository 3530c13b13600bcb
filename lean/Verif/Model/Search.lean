import Verif.Model.FacetGates
import Verif.Model.FuzzyCurves
import Verif.Model.Dilation

set_option autoImplicit false

/-
Model of `run_search` of `search.py`, in dimension `n + 1`.  Logging and the texts printed are left out (the data printed are kept).
For the command line (search.py:99-170) see `Model/Texts.lean`.
-/
namespace Peano
namespace Search
variable {n : ℕ}

/-- Arguments of `run_search`, search.py:18-27.  `ratio_func` and `cache_max_size` are in the function that bounds pairs; `nextSat` stands for
the schedule of calls of the solver, which the code gets from the default (float) value of `sat_iter_multiplier`. -/
structure Params (n : ℕ) where
  div : ℕ
  mult : ℕ
  finishMaxCount : Option ℤ := none
  relTolInv : Option ℤ := none
  relTolInvMult : Option ℤ := none
  gateList : Option (List (GateTuple (n + 1))) := none
  facetGated : Bool := false
  maxCdist : Option ℤ := none
  upperBound : Option ℚ := none
  groupByGates : Bool := false
  outputGates : Bool := false
  nextSat : ℕ → ℕ := fun n => n + 1

/-- `gen_id`, search.py:62-65. -/
inductive GenId (n : ℕ)
  | gates (g : GateTuple (n + 1))
  | allGates

/-- What is printed: a tuple of gates (search.py:38), NOT FOUND (85-86) or the bounds with the curves (87-94). -/
inductive Printed (n : ℕ)
  | gates (g : GateTuple (n + 1))
  | notFound (genId : GenId n)
  | found (genId : GenId n) (lo up : ℚ) (idxs : List ℕ) (gatesCount : ℕ) (curves : List (Option (FCurve (n + 1))))

/-- How the run ends: returns; AttributeError of `result.update` at `None` (search.py:79); out of fuel (only in the model). -/
inductive Ending
  | finished
  | attributeError
  | outOfFuel
  deriving DecidableEq

/-- Hash functions of Python used by path trees. -/
structure Hashes (n : ℕ) where
  facet : GatesGen.FacetHash n
  point : GatesGen.Hash (n + 1)

/-- `gate_list`, search.py:30-33; `none` is an exception (of the generator, or AssertionError). -/
def gateList (hash : Hashes n) (p : Params n) : Option (List (GateTuple (n + 1))) :=
  match p.gateList with
  | none => GatesGen.genGates ⟨p.div, p.mult, p.facetGated⟩ hash.facet hash.point
  | some l => if l.all fun gates => gates.length = p.mult then some l else none

/-- The curves for one tuple of gates, search.py:43-54 (defaults of `start_max_count` and `finish_max_count`: 100 and 10**6, _cube_path_trees.py:144-149). -/
def gatesPcurves (hash : Hashes n) (p : Params n) (gates : GateTuple (n + 1)) : Option (List (FCurve (n + 1))) := do
  let pg : PathsGen (n + 1) (Point (n + 1)) := { div := p.div, links := gates, maxCdist := p.maxCdist }
  let pathsList ← pg.generatePaths hash.point none none true (some 100) (some (p.finishMaxCount.getD 1000000))
  pathsList.mapM fun paths => FCurve.initFromPaths paths none false

/-- `gen_pcurves`, search.py:41-54. -/
def genPcurves (hash : Hashes n) (p : Params n) (gatesList : List (GateTuple (n + 1))) : Option (List (FCurve (n + 1))) := do
  let parts ← gatesList.mapM (gatesPcurves hash p)
  return parts.flatten

/-- Keys of the dictionary `result` when it is tested, search.py:74-81: those returned by `estimate_dilation_sequence` (dilation.py:752-756),
updated with `get_info` (dilation.py:297-302) and `gates_count`, without `curves`. -/
def resultKeys : List String :=
  (["lo", "up", "curves", "idxs"] ++ ["bounds_cache", "sum_stats", "max_stats"] ++ ["gates_count"]).erase "curves"

section run
variable {m : Type → Type} [Monad m] [MonadLiftT Option m] (Q : HeapQ (HNode (BoundedPair (n + 1))) HNode.lt)
  (B : Dilation.Key (n + 1) → m (PairBounds (n + 1))) (S : SatSolver) (H : HeapQ (Dilation.SeqItem (n + 1)) Dilation.SeqItem.lt) (hash : Hashes n)

/-- The loop over generators, search.py:73-96; each generator is given by the list of gates it takes.  Simplification: what was printed before
an exception is kept for AttributeError only. -/
def loop (fuel : ℕ) (p : Params n) (gatesCount : ℕ) : List (GenId n × List (GateTuple (n + 1))) → m (List (Printed n) × Ending)
  | [] => pure ([], .finished)
  | (genId, gatesList) :: rest => do
    let curves ← liftM (genPcurves hash p gatesList)
    match ← Dilation.estimateSequence Q B S H fuel curves
        ⟨p.relTolInv.getD 1000, p.relTolInvMult.getD 4, p.upperBound, ⟨none, p.nextSat⟩⟩ with
    | .outOfFuel => pure ([], .outOfFuel)
    | .absent => pure ([], .attributeError)
    | .ok lo up cs idxs => do
      let printed := if resultKeys.isEmpty then Printed.notFound genId else Printed.found genId lo up idxs gatesCount cs
      let r ← loop fuel p gatesCount rest
      pure (printed :: r.1, r.2)

/-- `run_search`, search.py:18-96. -/
def runSearch (fuel : ℕ) (p : Params n) : m (List (Printed n) × Ending) := do
  let gatesList ← liftM (gateList hash p)
  if p.outputGates then pure (gatesList.map Printed.gates, .finished)
  else
    let gens := if p.groupByGates then gatesList.map fun gates => (GenId.gates gates, [gates]) else [(GenId.allGates, gatesList)]
    loop Q B S H hash fuel p gatesList.length gens

end run
end Search
end Peano
