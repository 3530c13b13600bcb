import Verif.Spec.PathsGen
import Verif.Model.GeneratePaths

set_option autoImplicit false

/-
Vocabulary for tuples of paths, one for each of the given links or parents.
-/
namespace Peano
variable {d : ℕ} {S : Type} [SubsetOps S d]

/-- The path `q` is the image of `p` under an isometry (with time reversal or without) that preserves the link. -/
def Path.SameUpToSymmetry (link : Link S) (p q : Path S d) : Prop := ∃ b : BaseMap d, Link.act b link = link ∧ Path.act b p = some q

/-- The path `q` is the image of `p` under an isometry (with time reversal or without) that preserves the parent path. -/
def Path.SameUpToParentSymmetry (parent : Path S d) (p q : Path S d) : Prop :=
  ∃ b : BaseMap d, Path.act b parent = some parent ∧ Path.act b p = some q

/-- The tuples of paths are the same up to symmetries of each path that preserve its link, and up to permutations of paths with the same
link. -/
def PathTuple.SameUpToSymmetry (links : List (Link S)) (ps qs : List (Path S d)) : Prop :=
  ps.length = links.length ∧ qs.length = links.length ∧ ∃ ws : List (Path S d),
    List.Forall₂ (fun e w => Path.SameUpToSymmetry e.1 e.2 w) (links.zip ps) ws ∧ (links.zip ws).Perm (links.zip qs)

/-- The tuples of paths are the same up to symmetries of each path that preserve its parent, and up to permutations of paths with the same
parent. -/
def PathTuple.SameUpToParentSymmetry (parents : List (Path S d)) (ps qs : List (Path S d)) : Prop :=
  ps.length = parents.length ∧ qs.length = parents.length ∧ ∃ ws : List (Path S d),
    List.Forall₂ (fun e w => Path.SameUpToParentSymmetry e.1 e.2 w) (parents.zip ps) ws ∧ (parents.zip ws).Perm (parents.zip qs)

end Peano
