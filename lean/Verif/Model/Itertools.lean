
set_option autoImplicit false
/-
Model of the parts of Python's `itertools` that the package uses.  They are standard-library functions; the
definitions follow the documented generation order.
-/
namespace Peano.Itertools

universe u

/-- `itertools.product(*ls)` (used in base_maps.py:209,237,249; curves.py:227,345,489,496,499; subsets.py:117,273;
paths.py:307; gates.py:91,137,223; utils.py:97,123): rightmost factor varies fastest. -/
def product {α : Type u} : List (List α) → List (List α)
  | [] => [[]]
  | l :: ls => l.flatMap fun a => (product ls).map (a :: ·)

/-- `itertools.product(l, repeat=n)`. -/
def productRepeat {α : Type u} (l : List α) (n : Nat) : List (List α) := product (List.replicate n l)

/-- All ways of picking one element, in index order, together with the remaining elements. -/
def picks {α : Type u} : List α → List (α × List α)
  | [] => []
  | a :: l => (a, l) :: (picks l).map fun p => (p.1, a :: p.2)

/-- Helper of `permutations`: sequences of `n` picks. -/
def permutationsAux {α : Type u} : Nat → List α → List (List α)
  | 0, _ => [[]]
  | n + 1, l => (picks l).flatMap fun p => (permutationsAux n p.2).map (p.1 :: ·)

/-- `itertools.permutations(l)` (base_maps.py:208,236), in lexicographic index order. -/
def permutations {α : Type u} (l : List α) : List (List α) := permutationsAux l.length l

/-- `itertools.combinations(l, r)` (utils.py:96; gates.py:93; _sat_adapters.py:95). -/
def combinations {α : Type u} : List α → Nat → List (List α)
  | _, 0 => [[]]
  | [], _ + 1 => []
  | a :: l, r + 1 => (combinations l r).map (a :: ·) ++ combinations l (r + 1)

/-- `itertools.combinations_with_replacement(l, r)` (utils.py:122; gates.py:65,105). -/
def combinationsWithReplacement {α : Type u} : List α → Nat → List (List α)
  | _, 0 => [[]]
  | [], _ + 1 => []
  | a :: l, r + 1 => (combinationsWithReplacement (a :: l) r).map (a :: ·) ++ combinationsWithReplacement l (r + 1)
termination_by l r => l.length + r

end Peano.Itertools
