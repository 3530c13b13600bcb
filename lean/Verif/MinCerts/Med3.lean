import Verif.Lemmas.MinFast

set_option autoImplicit false

/-
Median, grid 3: no curves.  This file is generated.
-/
namespace Peano
namespace MinCert

/-- Table of links and of their specs. -/
def med3Env : Env where
  N := 3
  G := 9
  m := 1
  S := 2
  W := 4
  B := 256
  L := 16
  links := [([0, 0], [1, 2]), ([0, 0], [2, 1]), ([0, 1], [2, 0]), ([0, 1], [2, 2]), ([0, 2], [1, 0]), ([0, 2], [2, 1]), ([1, 0], [0, 2]), ([1, 0], [2, 2]), ([1, 2], [0, 0]), ([1, 2], [2, 0]), ([2, 0], [0, 1]), ([2, 0], [1, 2]), ([2, 1], [0, 0]), ([2, 1], [0, 2]), ([2, 2], [0, 1]), ([2, 2], [1, 0])]
  doms := [
    [⟨[(1, false), (0, false)], false, 0⟩], [⟨[(0, false), (1, false)], false, 0⟩], [⟨[(0, true), (1, false)], true, 0⟩],
    [⟨[(0, true), (1, true)], true, 0⟩], [⟨[(1, false), (0, true)], false, 0⟩], [⟨[(0, false), (1, true)], false, 0⟩],
    [⟨[(1, false), (0, true)], true, 0⟩], [⟨[(1, true), (0, true)], true, 0⟩], [⟨[(1, false), (0, false)], true, 0⟩],
    [⟨[(1, true), (0, false)], true, 0⟩], [⟨[(0, true), (1, false)], false, 0⟩], [⟨[(1, true), (0, false)], false, 0⟩],
    [⟨[(0, false), (1, false)], true, 0⟩], [⟨[(0, false), (1, true)], true, 0⟩], [⟨[(0, true), (1, true)], false, 0⟩],
    [⟨[(1, true), (0, true)], false, 0⟩]]

/-- Data of the search of paths. -/
def med3Enum : Enum where
  L := 16
  B := 256
  ones := 5
  offs := [1, 3, 4, 5]
  trans := [
    [(6, 6), (6, 7)], [(9, 2), (9, 3)], [(4, 14), (4, 15), (8, 4), (8, 5), (9, 0), (9, 1)], [(6, 10), (6, 11), (9, 4), (9, 5), (10, 0), (10, 1)],
    [(4, 8), (4, 9)], [(9, 2), (9, 3)], [(1, 14), (1, 15), (2, 10), (2, 11), (6, 0), (6, 1)], [(6, 10), (6, 11), (9, 4), (9, 5), (10, 0), (10, 1)],
    [(0, 14), (0, 15), (1, 10), (1, 11), (4, 4), (4, 5)], [(4, 14), (4, 15), (8, 4), (8, 5), (9, 0), (9, 1)], [(1, 12), (1, 13)], [(6, 6), (6, 7)],
    [(0, 14), (0, 15), (1, 10), (1, 11), (4, 4), (4, 5)], [(1, 14), (1, 15), (2, 10), (2, 11), (6, 0), (6, 1)], [(1, 12), (1, 13)], [(4, 8), (4, 9)]]
  U := 61152
  F := 16384
  starts := [(5, 0), (5, 1)]
  finals := [(14, 1), (14, 5)]

def med3Tab : Tab := ⟨med3Env, [([0, 0], [2, 1])], [med3Enum]⟩

theorem med3_ok : med3Tab.Ok 2 3 1 2 := Fast.ok_sound (by decide +kernel)

theorem med3_paths : ∀ P ∈ med3Enum.all 9, P ∈ ([] : List ℕ) :=
  med3Enum.allF_sound 9 .nil (by decide +kernel)

theorem med3_l2 : med3Tab.Refuted .l2 2 1 1 9 :=
  Tab.refuted_one (T := med3Tab) rfl med3_paths (by simp)

end MinCert
end Peano
