import Verif.Model.Junctions
import Verif.Model.Dict

set_option autoImplicit false

/-
Model of `peano/_sat_adapters.py`.  The SAT solver (`pysat.solvers.Glucose3`) is not part of the repository: it enters by its contract
(structure `SatSolver`), so that everything is proved for every correct solver.
-/
namespace Peano
variable {d : ℕ}

/-- Variables, _sat_adapters.py:75-88: `('spec', (pnum, cnum, sp))`, `('junc', (junc,))`, `('curve', defined specs)`. -/
inductive BoolVar (d : ℕ)
  | spec (pnum cnum : ℕ) (sp : Spec d)
  | junc (j : Junction d)
  | curve (specs : List (ℕ × ℕ × Spec d))
deriving DecidableEq

/-- Contract of the solver.  `solve` is `append_formula`, `solve` and, if there is a model, `get_model`.  A model is a list of literals
that makes all clauses true, without opposite literals, with variables up to the greatest one of the formula; without a model no
assignment satisfies the clauses. -/
structure SatSolver where
  solve : List (List ℤ) → Option (List ℤ)
  model_sat : ∀ cls m, solve cls = some m → ∀ cl ∈ cls, ∃ l ∈ cl, l ∈ m
  model_consistent : ∀ cls m, solve cls = some m → ∀ l ∈ m, -l ∉ m
  model_vars : ∀ cls m, solve cls = some m → ∀ l ∈ m, l ≠ 0 ∧ ∃ cl ∈ cls, ∃ k ∈ cl, l.natAbs ≤ k.natAbs
  no_model : ∀ cls, (∀ cl ∈ cls, ∀ l ∈ cl, l ≠ 0) → solve cls = none →
    ¬ ∃ a : ℕ → Bool, ∀ cl ∈ cls, ∃ l ∈ cl, a l.natAbs = decide (0 < l)

namespace Sat

/-- A clause, `Mapping[BoolVar, bool]`: dictionary in insertion order. -/
abbrev Clause (d : ℕ) := List (BoolVar d × Bool)

/-- State of `CurveSATAdapter`, _sat_adapters.py:37-41 (without `_solver`; `_curve` is passed separately). `_curve_vars` is a set. -/
structure Adapter (d : ℕ) where
  intClauses : List (List ℤ)
  curveVars : List (BoolVar d)
  varNo : List (BoolVar d × ℕ)

/-- The number of a variable, adding it if necessary, _sat_adapters.py:152-155. -/
def getVarNo (varNo : List (BoolVar d × ℕ)) (var : BoolVar d) : ℕ × List (BoolVar d × ℕ) :=
  match Dict.get? var varNo with
  | some n => (n, varNo)
  | none => (1 + varNo.length, Dict.set var (1 + varNo.length) varNo)

/-- The loop of `_append_clause`, _sat_adapters.py:151-157. -/
def encode : List (BoolVar d × ℕ) → Clause d → List ℤ × List (BoolVar d × ℕ)
  | varNo, [] => ([], varNo)
  | varNo, (var, value) :: rest =>
    let (n, varNo) := getVarNo varNo var
    let (toks, varNo) := encode varNo rest
    ((if value then (n : ℤ) else -(n : ℤ)) :: toks, varNo)

/-- `_append_clause`, _sat_adapters.py:148-158. -/
def appendClause (st : Adapter d) (clause : Clause d) : Adapter d :=
  let (toks, varNo) := encode st.varNo clause
  { st with intClauses := st.intClauses ++ [toks], varNo }

/-- A dictionary display or comprehension: later entries overwrite earlier ones. -/
def dictOf (entries : List (BoolVar d × Bool)) : Clause d := entries.foldl (fun dict e => Dict.set e.1 e.2 dict) []

/-- `_make_only`, _sat_adapters.py:90-96. -/
def makeOnly (st : Adapter d) (onlyVars : List (BoolVar d)) : Adapter d :=
  let st := appendClause st (dictOf (onlyVars.map fun var => (var, true)))
  (Itertools.combinations onlyVars 2).foldl (fun st pair => appendClause st (dictOf (pair.map fun var => (var, false)))) st

/-- `_get_curve_var`, _sat_adapters.py:85-88. -/
def curveVar (curve : FCurve d) : BoolVar d := .curve curve.genDefinedSpecs

/-- The variable of a defined spec. -/
def specVar (e : ℕ × ℕ × Spec d) : BoolVar d := .spec e.1 e.2.1 e.2.2

/-- `_make_curve_var`, _sat_adapters.py:98-118 (the returned variable is `curveVar curve`). -/
def makeCurveVar (st : Adapter d) (curve : FCurve d) : Adapter d :=
  let z := curveVar curve
  if z ∈ st.curveVars then st
  else
    let info := curve.genDefinedSpecs
    let st := info.foldl (fun st e => appendClause st (dictOf [(z, false), (specVar e, true)])) st
    let st := appendClause st (Dict.set z true (dictOf (info.map fun e => (specVar e, false))))
    { st with curveVars := z :: st.curveVars }

/-- `_make_junc_var`, _sat_adapters.py:120-138. -/
def makeJuncVar (st : Adapter d) (junc : Junction d) (curves : List (FCurve d)) : Adapter d :=
  let st := curves.foldl makeCurveVar st
  let curveVars := curves.map curveVar
  let st := appendClause st (Dict.set (.junc junc) false (dictOf (curveVars.map fun cv => (cv, true))))
  curveVars.foldl (fun st cv => appendClause st (dictOf [(cv, false), (.junc junc, true)])) st

/-- `add_forbid_clause`, _sat_adapters.py:140-146. -/
def addForbidClause (st : Adapter d) (junc : Junction d) (curve : FCurve d) : Adapter d :=
  appendClause st (Dict.set (.junc junc) false (dictOf (curve.genDefinedSpecs.map fun e => (specVar e, false))))

/-- `_load_curve`, _sat_adapters.py:50-66; `none` is an exception. -/
def loadCurve (curve : FCurve d) : Option (Adapter d) := do
  let st ← curve.positions.foldlM (fun st pc => do
    let specs ← curve.genAllowedSpecs pc.1 pc.2
    return makeOnly st (specs.map fun sp => .spec pc.1 pc.2 sp)) (⟨[], [], []⟩ : Adapter d)
  let st := curve.genAutoJunctions.foldl (fun st junc => appendClause st (dictOf [(.junc junc, true)])) st
  let templates ← curve.getJunctionTemplates
  return templates.foldl (fun st e => makeJuncVar st e.1 e.2) st

/-- `_get_model`, _sat_adapters.py:178-189; `none` is KeyError.  `no_var` inverts the dictionary `_var_no`. -/
def getModel (st : Adapter d) (intModel : List ℤ) : Option (List (BoolVar d × Bool)) :=
  let noVar : List (ℕ × BoolVar d) := st.varNo.foldl (fun dict e => Dict.set e.2 e.1 dict) []
  intModel.foldlM (fun model tok => (Dict.get? tok.natAbs noVar).map fun var => Dict.set var (decide (tok > 0)) model) []

/-- The spec chosen at a position, _sat_adapters.py:203-211; `none` is ValueError. -/
def goodSpec (model : List (BoolVar d × Bool)) (pnum cnum : ℕ) (specs : List (Spec d)) : Option (Spec d) :=
  specs.find? fun sp => match Dict.get? (BoolVar.spec pnum cnum sp) model with
    | none => true
    | some b => b

/-- `get_model_curve`, _sat_adapters.py:191-217; `none` is an exception. -/
def getModelCurve (curve : FCurve d) (st : Adapter d) (intModel : List ℤ) : Option (FCurve d) := do
  let model ← getModel st intModel
  let specs ← curve.positions.mapM fun pc => do
    let allowed ← curve.genAllowedSpecs pc.1 pc.2
    goodSpec model pc.1 pc.2 allowed
  return {
    div := curve.div
    patterns := curve.patterns.zipIdx.map fun pp =>
      ⟨pp.1.proto, ((specs.drop (pp.2 * curve.genus)).take curve.genus).map some⟩
    pnum := 0
    kind := .curve }

end Sat
end Peano
