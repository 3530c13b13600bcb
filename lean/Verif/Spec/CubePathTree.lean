import Verif.Model.CubePathTree

set_option autoImplicit false

/-!
Specification of the search of cube paths: which sequences of nodes should be found.
-/
namespace Peano
namespace CubeTree
variable {d : ℕ} {S : Type}

/-- The cube belongs to the grid `{0, …, N-1}^d`. -/
def InGrid (N : ℕ) (c : Cube d) : Prop := ∀ j, 0 ≤ c j ∧ c j < (N : ℤ)

/-- Node `b` is one of the continuations of node `a` given by the function. -/
def Follows (func : NextFunc d S) (a b : Node d S) : Prop := ((fun j => b.1 j - a.1 j), b.2) ∈ func a.1 a.2

/-- The sequence begins in `start`, ends in `finish`, follows `func`, and visits every cube of the grid exactly once. -/
structure Fills (N : ℕ) (func : NextFunc d S) (start finish : List (Node d S)) (l : List (Node d S)) : Prop where
  start : ∃ n ∈ start, l.head? = some n
  finish : ∃ n ∈ finish, l.getLast? = some n
  follows : ∀ (i : ℕ) (a b : Node d S), l[i]? = some a → l[i + 1]? = some b → Follows func a b
  once : (l.map Prod.fst).Nodup
  all : ∀ c : Cube d, c ∈ l.map Prod.fst ↔ InGrid N c

/-- The property `P` of nodes is preserved by the function. -/
def Closed (N : ℕ) (P : Node d S → Prop) (func : NextFunc d S) : Prop :=
  ∀ a b : Node d S, InGrid N a.1 → InGrid N b.1 → P a → Follows func a b → P b

/-- `prev` is the reverse of `next` on the nodes with property `P`: inside the grid, such a node may be continued to another one by `next`
iff that one may be continued back by `prev`. -/
def IsReverse (N : ℕ) (P : Node d S → Prop) (next prev : NextFunc d S) : Prop :=
  ∀ a b : Node d S, InGrid N a.1 → InGrid N b.1 → P a → P b → (Follows next a b ↔ Follows prev b a)

end CubeTree
end Peano
