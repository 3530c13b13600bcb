import Verif.Lemmas.MinFast

set_option autoImplicit false

/-
Median, grid 2: no curves.  This file is generated.
-/
namespace Peano
namespace MinCert

/-- Table of links and of their specs. -/
def med2Env : Env where
  N := 2
  G := 4
  m := 1
  S := 2
  W := 3
  B := 144
  L := 16
  links := [([0, 0], [1, 2]), ([0, 0], [2, 1]), ([0, 1], [2, 0]), ([0, 1], [2, 2]), ([0, 2], [1, 0]), ([0, 2], [2, 1]), ([1, 0], [0, 2]), ([1, 0], [2, 2]), ([1, 2], [0, 0]), ([1, 2], [2, 0]), ([2, 0], [0, 1]), ([2, 0], [1, 2]), ([2, 1], [0, 0]), ([2, 1], [0, 2]), ([2, 2], [0, 1]), ([2, 2], [1, 0])]
  doms := [
    [⟨[(1, false), (0, false)], false, 0⟩], [⟨[(0, false), (1, false)], false, 0⟩], [⟨[(0, true), (1, false)], true, 0⟩],
    [⟨[(0, true), (1, true)], true, 0⟩], [⟨[(1, false), (0, true)], false, 0⟩], [⟨[(0, false), (1, true)], false, 0⟩],
    [⟨[(1, false), (0, true)], true, 0⟩], [⟨[(1, true), (0, true)], true, 0⟩], [⟨[(1, false), (0, false)], true, 0⟩],
    [⟨[(1, true), (0, false)], true, 0⟩], [⟨[(0, true), (1, false)], false, 0⟩], [⟨[(1, true), (0, false)], false, 0⟩],
    [⟨[(0, false), (1, false)], true, 0⟩], [⟨[(0, false), (1, true)], true, 0⟩], [⟨[(0, true), (1, true)], false, 0⟩],
    [⟨[(1, true), (0, true)], false, 0⟩]]

/-- Data of the search of paths. -/
def med2Enum : Enum where
  L := 16
  B := 144
  ones := 4
  offs := [1, 2, 3, 4]
  trans := [
    [(5, 6), (5, 7)], [(7, 2), (7, 3)], [(3, 14), (3, 15), (6, 4), (6, 5), (7, 0), (7, 1)], [(5, 10), (5, 11), (7, 4), (7, 5), (8, 0), (8, 1)],
    [(3, 8), (3, 9)], [(7, 2), (7, 3)], [(1, 14), (1, 15), (2, 10), (2, 11), (5, 0), (5, 1)], [(5, 10), (5, 11), (7, 4), (7, 5), (8, 0), (8, 1)],
    [(0, 14), (0, 15), (1, 10), (1, 11), (3, 4), (3, 5)], [(3, 14), (3, 15), (6, 4), (6, 5), (7, 0), (7, 1)], [(1, 12), (1, 13)], [(5, 6), (5, 7)],
    [(0, 14), (0, 15), (1, 10), (1, 11), (3, 4), (3, 5)], [(1, 14), (1, 15), (2, 10), (2, 11), (5, 0), (5, 1)], [(1, 12), (1, 13)], [(3, 8), (3, 9)]]
  U := 432
  F := 384
  starts := [(4, 0), (4, 1)]
  finals := [(7, 3), (7, 7), (8, 2), (8, 9)]

def med2Tab : Tab := ⟨med2Env, [([0, 0], [2, 1])], [med2Enum]⟩

theorem med2_ok : med2Tab.Ok 2 2 1 2 := Fast.ok_sound (by decide +kernel)

theorem med2_paths : ∀ P ∈ med2Enum.all 4, P ∈ ([] : List ℕ) :=
  med2Enum.allF_sound 4 .nil (by decide +kernel)

theorem med2_l2 : med2Tab.Refuted .l2 2 1 1 4 :=
  Tab.refuted_one (T := med2Tab) rfl med2_paths (by simp)

end MinCert
end Peano
