import Verif.Model.SAT
import Verif.Spec.Fuzzy

set_option autoImplicit false

/-!
Vocabulary for statements about the encoding of fuzzy curves for SAT solvers.
-/
namespace Peano
variable {d : ℕ}

namespace FCurve

/-- The full curve has the junction, auto or regular. -/
def HasJunction (c : FCurve d) (j : Junction d) : Prop :=
  j ∈ c.genAutoJunctions ∨ ∃ l, c.genRegularJunctions = some l ∧ j ∈ l.map Prod.fst

/-- The full curve agrees with the sub-curve wherever the latter is specified. -/
def AgreesWith (c sub : FCurve d) : Prop := ∀ p i s, sub.spec? p i = some s → c.spec? p i = some s

/-- The full curve has the forbidden configuration. -/
def Violates (c : FCurve d) (e : Junction d × FCurve d) : Prop := c.HasJunction e.1 ∧ c.AgreesWith e.2

end FCurve

namespace Sat

/-- The assignment makes the clauses (lists of non-zero integers, negative ones for negated variables) true. -/
def Satisfies (a : ℕ → Bool) (cls : List (List ℤ)) : Prop := ∀ cl ∈ cls, ∃ l ∈ cl, a l.natAbs = decide (0 < l)

/-- Adapters made for a fuzzy curve, with the list of configurations forbidden so far. -/
inductive Built (c : FCurve d) : Adapter d → List (Junction d × FCurve d) → Prop
  | load {st : Adapter d} : loadCurve c = some st → Built c st []
  | forbid {st : Adapter d} {forb : List (Junction d × FCurve d)} (j : Junction d) (sub : FCurve d) : Built c st forb →
      Built c (addForbidClause st j sub) ((j, sub) :: forb)

/-- The assignment describes the full curve `c'`: the variable of each allowed spec of `c` is true iff `c'` has this spec at this position,
the variable of each junction that possible curves of `c` have is true iff `c'` has it. -/
def Describes (c : FCurve d) (st : Adapter d) (a : ℕ → Bool) (c' : FCurve d) : Prop :=
  (∀ p < c.mult, ∀ i < c.genus, ∀ l, c.genAllowedSpecs p i = some l → ∀ s ∈ l,
      ∃ n, Dict.get? (BoolVar.spec p i s) st.varNo = some n ∧ (a n = true ↔ c'.spec? p i = some s)) ∧
    ∀ j, (∃ c'', c.Possible c'' ∧ c''.HasJunction j) → ∃ n, Dict.get? (BoolVar.junc j) st.varNo = some n ∧ (a n = true ↔ c'.HasJunction j)

end Sat
end Peano
