import Verif.Lemmas.MinRun
import Verif.Lemmas.MinFast

set_option autoImplicit false

/-
Side, grid 2: no curve has less dilation.  This file is generated.
-/
namespace Peano
namespace MinCert

/-- Table of links and of their specs. -/
def side2Env : Env where
  N := 2
  G := 4
  m := 1
  S := 1
  W := 3
  B := 72
  L := 8
  links := [([0, 0], [0, 1]), ([0, 0], [1, 0]), ([0, 1], [0, 0]), ([0, 1], [1, 1]), ([1, 0], [0, 0]), ([1, 0], [1, 1]), ([1, 1], [0, 1]), ([1, 1], [1, 0])]
  doms := [
    [⟨[(1, false), (0, false)], false, 0⟩, ⟨[(1, false), (0, true)], true, 0⟩],
    [⟨[(0, false), (1, false)], false, 0⟩, ⟨[(0, true), (1, false)], true, 0⟩],
    [⟨[(1, false), (0, false)], true, 0⟩, ⟨[(1, false), (0, true)], false, 0⟩],
    [⟨[(0, false), (1, true)], false, 0⟩, ⟨[(0, true), (1, true)], true, 0⟩],
    [⟨[(0, false), (1, false)], true, 0⟩, ⟨[(0, true), (1, false)], false, 0⟩],
    [⟨[(1, true), (0, false)], false, 0⟩, ⟨[(1, true), (0, true)], true, 0⟩],
    [⟨[(0, false), (1, true)], true, 0⟩, ⟨[(0, true), (1, true)], false, 0⟩], [⟨[(1, true), (0, false)], true, 0⟩, ⟨[(1, true), (0, true)], false, 0⟩]]

/-- Data of the search of paths. -/
def side2Enum : Enum where
  L := 8
  B := 72
  ones := 4
  offs := [1, 2, 3, 4]
  trans := [
    [(1, 6), (1, 7), (2, 4), (2, 5), (5, 0), (5, 1)], [(3, 6), (3, 7), (6, 2), (6, 3), (7, 0), (7, 1)],
    [(0, 6), (0, 7), (1, 4), (1, 5), (3, 2), (3, 3)], [(5, 4), (5, 5), (7, 2), (7, 3), (8, 0), (8, 1)],
    [(0, 6), (0, 7), (1, 4), (1, 5), (3, 2), (3, 3)], [(5, 4), (5, 5), (7, 2), (7, 3), (8, 0), (8, 1)],
    [(1, 6), (1, 7), (2, 4), (2, 5), (5, 0), (5, 1)], [(3, 6), (3, 7), (6, 2), (6, 3), (7, 0), (7, 1)]]
  U := 432
  F := 128
  starts := [(4, 0), (4, 1)]
  finals := [(7, 1), (7, 7)]

def side2Tab : Tab := ⟨side2Env, [([0, 0], [1, 0])], [side2Enum]⟩

theorem side2_ok : side2Tab.Ok 2 2 1 2 := Fast.ok_sound (by decide +kernel)

def side2Paths0 : List ℕ := [
  12161223]

def side2Tree : CT :=
  .node .nil 12161223 .nil

theorem side2_paths : ∀ P ∈ side2Enum.all 4, P ∈ side2Paths0 := by
  have h : side2Tree.toList = side2Paths0 := by decide +kernel
  rw [← h]
  exact side2Enum.allF_sound 4 side2Tree (by decide +kernel)

def side2_l1_0 : List ℕ := [
  0, 4, 73791480171491098629, 8, 14167964175334104891913, 1813499986382597589762053, 8, 4, 73791480172564905989, 110687220119797694469, 4,
  9445309461950860624397, 1813499986382735037038597]

theorem side2_l1_run0 : run .l1 2 9 1 side2Env [] side2_l1_0 (side2Paths0.map fun P => ⟨[P], []⟩) = true := Run.run_one (by decide +kernel)

def side2_l2_0 : List ℕ := [
  4, 8, 0, 12, 1208999613364190534698001, 1208999613364327982040081, 12, 1813499416659652541154321, 1813499416659789988496401, 12,
  1208999613416967092831249, 19808249666225875560385611789, 0, 8, 29712374442551799739156922889, 12, 19808263722358881150750950405,
  29712383777185247794886083589, 8, 1813499416659789988496389, 12, 19808263722358898744002348037, 29712383777185265388137481221]

theorem side2_l2_run0 : run .l2 2 6 1 side2Env [] side2_l2_0 (side2Paths0.map fun P => ⟨[P], []⟩) = true := Run.run_one (by decide +kernel)

def side2_linf_0 : List ℕ := [
  4, 8, 0, 12, 1208999613364190534698001, 1208999613364327982040081, 12, 1813499416659652541154321, 1813499416659789988496401, 12,
  1208999613416967092831249, 19808249666225875560385611789, 0, 8, 29712374442551799739156922889, 12, 19808263722358881150750950405,
  29712383777185247794886083589, 8, 1813499416659789988496389, 12, 19808263722358898744002348037, 29712383777185265388137481221]

theorem side2_linf_run0 : run .linf 2 6 1 side2Env [] side2_linf_0 (side2Paths0.map fun P => ⟨[P], []⟩) = true := Run.run_one (by decide +kernel)

theorem side2_l1 : side2Tab.Refuted .l1 2 9 1 4 :=
  Tab.refuted_one (T := side2Tab) rfl side2_paths (part side2_l1_run0)

theorem side2_l2 : side2Tab.Refuted .l2 2 6 1 4 :=
  Tab.refuted_one (T := side2Tab) rfl side2_paths (part side2_l2_run0)

theorem side2_linf : side2Tab.Refuted .linf 2 6 1 4 :=
  Tab.refuted_one (T := side2Tab) rfl side2_paths (part side2_linf_run0)

end MinCert
end Peano
