import Verif.Lemmas.MinRun
import Verif.Lemmas.MinPairs

set_option autoImplicit false

/-
Two patterns, grid 2: no curve has less dilation.  This file is generated.
-/
namespace Peano
namespace MinCert

/-- Table of links and of their specs. -/
def b1Env : Env where
  N := 2
  G := 4
  m := 2
  S := 2
  W := 3
  B := 288
  L := 32
  links := [([0, 0], [0, 1]), ([0, 0], [1, 0]), ([0, 0], [1, 2]), ([0, 0], [2, 1]), ([0, 1], [0, 0]), ([0, 1], [0, 2]), ([0, 1], [2, 0]), ([0, 1], [2, 2]), ([0, 2], [0, 1]), ([0, 2], [1, 0]), ([0, 2], [1, 2]), ([0, 2], [2, 1]), ([1, 0], [0, 0]), ([1, 0], [0, 2]), ([1, 0], [2, 0]), ([1, 0], [2, 2]), ([1, 2], [0, 0]), ([1, 2], [0, 2]), ([1, 2], [2, 0]), ([1, 2], [2, 2]), ([2, 0], [0, 1]), ([2, 0], [1, 0]), ([2, 0], [1, 2]), ([2, 0], [2, 1]), ([2, 1], [0, 0]), ([2, 1], [0, 2]), ([2, 1], [2, 0]), ([2, 1], [2, 2]), ([2, 2], [0, 1]), ([2, 2], [1, 0]), ([2, 2], [1, 2]), ([2, 2], [2, 1])]
  doms := [
    [⟨[(0, false), (1, false)], false, 0⟩], [⟨[(1, false), (0, false)], false, 0⟩], [⟨[(0, false), (1, false)], false, 1⟩],
    [⟨[(1, false), (0, false)], false, 1⟩], [⟨[(0, false), (1, false)], true, 0⟩], [⟨[(0, false), (1, true)], true, 0⟩],
    [⟨[(1, true), (0, false)], true, 1⟩], [⟨[(1, true), (0, true)], true, 1⟩], [⟨[(0, false), (1, true)], false, 0⟩],
    [⟨[(0, false), (1, true)], false, 1⟩], [⟨[(1, false), (0, true)], false, 0⟩], [⟨[(1, false), (0, true)], false, 1⟩],
    [⟨[(1, false), (0, false)], true, 0⟩], [⟨[(0, false), (1, true)], true, 1⟩], [⟨[(1, true), (0, false)], true, 0⟩],
    [⟨[(0, true), (1, true)], true, 1⟩], [⟨[(0, false), (1, false)], true, 1⟩], [⟨[(1, false), (0, true)], true, 0⟩],
    [⟨[(0, true), (1, false)], true, 1⟩], [⟨[(1, true), (0, true)], true, 0⟩], [⟨[(1, true), (0, false)], false, 1⟩],
    [⟨[(1, true), (0, false)], false, 0⟩], [⟨[(0, true), (1, false)], false, 1⟩], [⟨[(0, true), (1, false)], false, 0⟩],
    [⟨[(1, false), (0, false)], true, 1⟩], [⟨[(1, false), (0, true)], true, 1⟩], [⟨[(0, true), (1, false)], true, 0⟩],
    [⟨[(0, true), (1, true)], true, 0⟩], [⟨[(1, true), (0, true)], false, 1⟩], [⟨[(0, true), (1, true)], false, 1⟩],
    [⟨[(1, true), (0, true)], false, 0⟩], [⟨[(0, true), (1, true)], false, 0⟩]]

/-- Data of the search of paths. -/
def b1Enum0 : Enum where
  L := 32
  B := 288
  ones := 4
  offs := [1, 2, 3, 4]
  trans := [
    [(1, 24), (1, 25), (1, 26), (1, 27)], [(3, 16), (3, 17), (3, 18), (3, 19)], [(5, 12), (5, 13), (5, 14), (5, 15)],
    [(7, 4), (7, 5), (7, 6), (7, 7)], [(0, 28), (0, 29), (0, 30), (0, 31), (1, 20), (1, 21), (1, 22), (1, 23), (3, 8), (3, 9), (3, 10), (3, 11)],
    [(1, 28), (1, 29), (1, 30), (1, 31), (2, 20), (2, 21), (2, 22), (2, 23), (5, 0), (5, 1), (5, 2), (5, 3)],
    [(3, 28), (3, 29), (3, 30), (3, 31), (6, 8), (6, 9), (6, 10), (6, 11), (7, 0), (7, 1), (7, 2), (7, 3)],
    [(5, 20), (5, 21), (5, 22), (5, 23), (7, 8), (7, 9), (7, 10), (7, 11), (8, 0), (8, 1), (8, 2), (8, 3)], [(1, 24), (1, 25), (1, 26), (1, 27)],
    [(3, 16), (3, 17), (3, 18), (3, 19)], [(5, 12), (5, 13), (5, 14), (5, 15)], [(7, 4), (7, 5), (7, 6), (7, 7)],
    [(0, 28), (0, 29), (0, 30), (0, 31), (1, 20), (1, 21), (1, 22), (1, 23), (3, 8), (3, 9), (3, 10), (3, 11)],
    [(1, 28), (1, 29), (1, 30), (1, 31), (2, 20), (2, 21), (2, 22), (2, 23), (5, 0), (5, 1), (5, 2), (5, 3)],
    [(3, 28), (3, 29), (3, 30), (3, 31), (6, 8), (6, 9), (6, 10), (6, 11), (7, 0), (7, 1), (7, 2), (7, 3)],
    [(5, 20), (5, 21), (5, 22), (5, 23), (7, 8), (7, 9), (7, 10), (7, 11), (8, 0), (8, 1), (8, 2), (8, 3)],
    [(0, 28), (0, 29), (0, 30), (0, 31), (1, 20), (1, 21), (1, 22), (1, 23), (3, 8), (3, 9), (3, 10), (3, 11)],
    [(1, 28), (1, 29), (1, 30), (1, 31), (2, 20), (2, 21), (2, 22), (2, 23), (5, 0), (5, 1), (5, 2), (5, 3)],
    [(3, 28), (3, 29), (3, 30), (3, 31), (6, 8), (6, 9), (6, 10), (6, 11), (7, 0), (7, 1), (7, 2), (7, 3)],
    [(5, 20), (5, 21), (5, 22), (5, 23), (7, 8), (7, 9), (7, 10), (7, 11), (8, 0), (8, 1), (8, 2), (8, 3)], [(1, 24), (1, 25), (1, 26), (1, 27)],
    [(3, 16), (3, 17), (3, 18), (3, 19)], [(5, 12), (5, 13), (5, 14), (5, 15)], [(7, 4), (7, 5), (7, 6), (7, 7)],
    [(0, 28), (0, 29), (0, 30), (0, 31), (1, 20), (1, 21), (1, 22), (1, 23), (3, 8), (3, 9), (3, 10), (3, 11)],
    [(1, 28), (1, 29), (1, 30), (1, 31), (2, 20), (2, 21), (2, 22), (2, 23), (5, 0), (5, 1), (5, 2), (5, 3)],
    [(3, 28), (3, 29), (3, 30), (3, 31), (6, 8), (6, 9), (6, 10), (6, 11), (7, 0), (7, 1), (7, 2), (7, 3)],
    [(5, 20), (5, 21), (5, 22), (5, 23), (7, 8), (7, 9), (7, 10), (7, 11), (8, 0), (8, 1), (8, 2), (8, 3)], [(1, 24), (1, 25), (1, 26), (1, 27)],
    [(3, 16), (3, 17), (3, 18), (3, 19)], [(5, 12), (5, 13), (5, 14), (5, 15)], [(7, 4), (7, 5), (7, 6), (7, 7)]]
  U := 432
  F := 48
  starts := [(4, 0), (4, 1), (4, 2), (4, 3)]
  finals := [(4, 5), (4, 13), (4, 17), (4, 25), (5, 4), (5, 12), (5, 16), (5, 24)]

/-- Data of the search of paths. -/
def b1Enum1 : Enum where
  L := 32
  B := 288
  ones := 4
  offs := [1, 2, 3, 4]
  trans := [
    [(1, 24), (1, 25), (1, 26), (1, 27)], [(3, 16), (3, 17), (3, 18), (3, 19)], [(5, 12), (5, 13), (5, 14), (5, 15)],
    [(7, 4), (7, 5), (7, 6), (7, 7)], [(0, 28), (0, 29), (0, 30), (0, 31), (1, 20), (1, 21), (1, 22), (1, 23), (3, 8), (3, 9), (3, 10), (3, 11)],
    [(1, 28), (1, 29), (1, 30), (1, 31), (2, 20), (2, 21), (2, 22), (2, 23), (5, 0), (5, 1), (5, 2), (5, 3)],
    [(3, 28), (3, 29), (3, 30), (3, 31), (6, 8), (6, 9), (6, 10), (6, 11), (7, 0), (7, 1), (7, 2), (7, 3)],
    [(5, 20), (5, 21), (5, 22), (5, 23), (7, 8), (7, 9), (7, 10), (7, 11), (8, 0), (8, 1), (8, 2), (8, 3)], [(1, 24), (1, 25), (1, 26), (1, 27)],
    [(3, 16), (3, 17), (3, 18), (3, 19)], [(5, 12), (5, 13), (5, 14), (5, 15)], [(7, 4), (7, 5), (7, 6), (7, 7)],
    [(0, 28), (0, 29), (0, 30), (0, 31), (1, 20), (1, 21), (1, 22), (1, 23), (3, 8), (3, 9), (3, 10), (3, 11)],
    [(1, 28), (1, 29), (1, 30), (1, 31), (2, 20), (2, 21), (2, 22), (2, 23), (5, 0), (5, 1), (5, 2), (5, 3)],
    [(3, 28), (3, 29), (3, 30), (3, 31), (6, 8), (6, 9), (6, 10), (6, 11), (7, 0), (7, 1), (7, 2), (7, 3)],
    [(5, 20), (5, 21), (5, 22), (5, 23), (7, 8), (7, 9), (7, 10), (7, 11), (8, 0), (8, 1), (8, 2), (8, 3)],
    [(0, 28), (0, 29), (0, 30), (0, 31), (1, 20), (1, 21), (1, 22), (1, 23), (3, 8), (3, 9), (3, 10), (3, 11)],
    [(1, 28), (1, 29), (1, 30), (1, 31), (2, 20), (2, 21), (2, 22), (2, 23), (5, 0), (5, 1), (5, 2), (5, 3)],
    [(3, 28), (3, 29), (3, 30), (3, 31), (6, 8), (6, 9), (6, 10), (6, 11), (7, 0), (7, 1), (7, 2), (7, 3)],
    [(5, 20), (5, 21), (5, 22), (5, 23), (7, 8), (7, 9), (7, 10), (7, 11), (8, 0), (8, 1), (8, 2), (8, 3)], [(1, 24), (1, 25), (1, 26), (1, 27)],
    [(3, 16), (3, 17), (3, 18), (3, 19)], [(5, 12), (5, 13), (5, 14), (5, 15)], [(7, 4), (7, 5), (7, 6), (7, 7)],
    [(0, 28), (0, 29), (0, 30), (0, 31), (1, 20), (1, 21), (1, 22), (1, 23), (3, 8), (3, 9), (3, 10), (3, 11)],
    [(1, 28), (1, 29), (1, 30), (1, 31), (2, 20), (2, 21), (2, 22), (2, 23), (5, 0), (5, 1), (5, 2), (5, 3)],
    [(3, 28), (3, 29), (3, 30), (3, 31), (6, 8), (6, 9), (6, 10), (6, 11), (7, 0), (7, 1), (7, 2), (7, 3)],
    [(5, 20), (5, 21), (5, 22), (5, 23), (7, 8), (7, 9), (7, 10), (7, 11), (8, 0), (8, 1), (8, 2), (8, 3)], [(1, 24), (1, 25), (1, 26), (1, 27)],
    [(3, 16), (3, 17), (3, 18), (3, 19)], [(5, 12), (5, 13), (5, 14), (5, 15)], [(7, 4), (7, 5), (7, 6), (7, 7)]]
  U := 432
  F := 288
  starts := [(4, 0), (4, 1), (4, 2), (4, 3)]
  finals := [(5, 7), (5, 15), (5, 19), (5, 27), (8, 5), (8, 13), (8, 17), (8, 25)]

def b1Tab : Tab := ⟨b1Env, [([0, 0], [0, 1]), ([0, 0], [1, 2])], [b1Enum0, b1Enum1]⟩

theorem b1_ok : b1Tab.Ok 2 2 2 2 := Fast.ok_sound (by decide +kernel)

def b1Tree0 : CT :=
  .node (.node .nil 3148379320 .nil) 3148550968 .nil

def b1Tree1 : CT :=
  .node (.node (.node .nil 3119923277 .nil) 3148358373 .nil) 3148379323 (.node .nil 3148550971 .nil)

def b1Pairs0 : List (List ℕ) := [
  [3148379320, 3119923277], [3148379320, 3148358373], [3148379320, 3148379323], [3148379320, 3148550971], [3148550968, 3119923277],
  [3148550968, 3148358373], [3148550968, 3148379323], [3148550968, 3148550971]]

theorem b1_pairs : (b1Tree0.toList.all fun P => b1Tree1.toList.all fun Q => (b1Pairs0).contains [P, Q]) = true := Fast.pairs_sound (by decide +kernel)

theorem b1_paths0 : ∀ P ∈ b1Enum0.all 4, P ∈ b1Tree0.toList :=
  b1Enum0.allF_sound 4 b1Tree0 (by decide +kernel)

theorem b1_paths1 : ∀ P ∈ b1Enum1.all 4, P ∈ b1Tree1.toList :=
  b1Enum1.allF_sound 4 b1Tree1 (by decide +kernel)

def b1_l1_0 : List ℕ := [
  0, 4, 8, 24, 14167964175334104891933, 8, 24, 28, 110687220944431415325, 8, 24, 28, 110687220944431415325, 0, 16, 20, 24, 28,
  162318701615694365705022825038365, 0, 4, 8, 24, 604722028950796846170117, 8, 20, 24, 1813501139392200574369817, 0, 4, 8, 20, 28,
  29712402666371973689854919201, 8, 16, 20, 28, 9907147315415430978515308557]

theorem b1_l1_run0 : run .l1 2 40 3 b1Env [] b1_l1_0 (b1Pairs0.map fun ps => ⟨ps, []⟩) = true := Run.run_many (by decide +kernel)

def b1_l2_0 : List ℕ := [
  0, 4, 8, 24, 14167964175334104891933, 8, 24, 28, 110687220944431415325, 8, 24, 28, 110687220944431415325, 0, 16, 20, 24, 28,
  162318701615694365705022825038365, 0, 4, 8, 24, 604722028950796846170117, 8, 20, 24, 1813501139392200574369817, 0, 4, 8, 20, 28,
  29712402666371973689854919201, 8, 16, 20, 28, 9907147315415430978515308557]

theorem b1_l2_run0 : run .l2 2 20 3 b1Env [] b1_l2_0 (b1Pairs0.map fun ps => ⟨ps, []⟩) = true := Run.run_many (by decide +kernel)

def b1_linf_0 : List ℕ := [
  8, 12, 24, 14167964211071429050381, 8, 24, 28, 110687220944431415325, 8, 24, 28, 110687220944431415325, 20, 24, 36906999909448024089, 8, 12, 24,
  604722028985981218258957, 4, 8, 20, 604685135480241604722697, 4, 8, 20, 604685135480241604722697, 20, 24, 36906999909448024089]

theorem b1_linf_run0 : run .linf 2 5 1 b1Env [] b1_linf_0 (b1Pairs0.map fun ps => ⟨ps, []⟩) = true := Run.run_many (by decide +kernel)

theorem b1_l1 : b1Tab.Refuted .l1 2 40 3 4 :=
  Tab.refuted_two (T := b1Tab) rfl b1_paths0 b1_paths1 b1_pairs (part2 b1_l1_run0)

theorem b1_l2 : b1Tab.Refuted .l2 2 20 3 4 :=
  Tab.refuted_two (T := b1Tab) rfl b1_paths0 b1_paths1 b1_pairs (part2 b1_l2_run0)

theorem b1_linf : b1Tab.Refuted .linf 2 5 1 4 :=
  Tab.refuted_two (T := b1Tab) rfl b1_paths0 b1_paths1 b1_pairs (part2 b1_linf_run0)

/-- Table of links and of their specs. -/
def b3Env : Env where
  N := 2
  G := 4
  m := 2
  S := 2
  W := 3
  B := 216
  L := 24
  links := [([0, 0], [0, 2]), ([0, 0], [1, 2]), ([0, 0], [2, 0]), ([0, 0], [2, 1]), ([0, 1], [2, 0]), ([0, 1], [2, 2]), ([0, 2], [0, 0]), ([0, 2], [1, 0]), ([0, 2], [2, 1]), ([0, 2], [2, 2]), ([1, 0], [0, 2]), ([1, 0], [2, 2]), ([1, 2], [0, 0]), ([1, 2], [2, 0]), ([2, 0], [0, 0]), ([2, 0], [0, 1]), ([2, 0], [1, 2]), ([2, 0], [2, 2]), ([2, 1], [0, 0]), ([2, 1], [0, 2]), ([2, 2], [0, 1]), ([2, 2], [0, 2]), ([2, 2], [1, 0]), ([2, 2], [2, 0])]
  doms := [
    [⟨[(0, false), (1, false)], false, 0⟩, ⟨[(0, false), (1, true)], true, 0⟩], [⟨[(0, false), (1, false)], false, 1⟩],
    [⟨[(1, false), (0, false)], false, 0⟩, ⟨[(1, true), (0, false)], true, 0⟩], [⟨[(1, false), (0, false)], false, 1⟩],
    [⟨[(1, true), (0, false)], true, 1⟩], [⟨[(1, true), (0, true)], true, 1⟩],
    [⟨[(0, false), (1, false)], true, 0⟩, ⟨[(0, false), (1, true)], false, 0⟩], [⟨[(0, false), (1, true)], false, 1⟩],
    [⟨[(1, false), (0, true)], false, 1⟩], [⟨[(1, false), (0, true)], false, 0⟩, ⟨[(1, true), (0, true)], true, 0⟩],
    [⟨[(0, false), (1, true)], true, 1⟩], [⟨[(0, true), (1, true)], true, 1⟩], [⟨[(0, false), (1, false)], true, 1⟩],
    [⟨[(0, true), (1, false)], true, 1⟩], [⟨[(1, false), (0, false)], true, 0⟩, ⟨[(1, true), (0, false)], false, 0⟩],
    [⟨[(1, true), (0, false)], false, 1⟩], [⟨[(0, true), (1, false)], false, 1⟩],
    [⟨[(0, true), (1, false)], false, 0⟩, ⟨[(0, true), (1, true)], true, 0⟩], [⟨[(1, false), (0, false)], true, 1⟩],
    [⟨[(1, false), (0, true)], true, 1⟩], [⟨[(1, true), (0, true)], false, 1⟩],
    [⟨[(1, false), (0, true)], true, 0⟩, ⟨[(1, true), (0, true)], false, 0⟩], [⟨[(0, true), (1, true)], false, 1⟩],
    [⟨[(0, true), (1, false)], true, 0⟩, ⟨[(0, true), (1, true)], false, 0⟩]]

/-- Data of the search of paths. -/
def b3Enum0 : Enum where
  L := 24
  B := 216
  ones := 4
  offs := [1, 2, 3, 4]
  trans := [
    [(1, 20), (1, 21), (1, 22), (1, 23), (2, 14), (2, 15), (2, 16), (2, 17), (5, 0), (5, 1), (5, 2), (5, 3)], [(5, 10), (5, 11)],
    [(3, 20), (3, 21), (3, 22), (3, 23), (6, 6), (6, 7), (6, 8), (6, 9), (7, 0), (7, 1), (7, 2), (7, 3)], [(7, 4), (7, 5)],
    [(3, 20), (3, 21), (3, 22), (3, 23), (6, 6), (6, 7), (6, 8), (6, 9), (7, 0), (7, 1), (7, 2), (7, 3)],
    [(5, 14), (5, 15), (5, 16), (5, 17), (7, 6), (7, 7), (7, 8), (7, 9), (8, 0), (8, 1), (8, 2), (8, 3)],
    [(0, 20), (0, 21), (0, 22), (0, 23), (1, 14), (1, 15), (1, 16), (1, 17), (3, 6), (3, 7), (3, 8), (3, 9)], [(3, 12), (3, 13)], [(7, 4), (7, 5)],
    [(5, 14), (5, 15), (5, 16), (5, 17), (7, 6), (7, 7), (7, 8), (7, 9), (8, 0), (8, 1), (8, 2), (8, 3)],
    [(1, 20), (1, 21), (1, 22), (1, 23), (2, 14), (2, 15), (2, 16), (2, 17), (5, 0), (5, 1), (5, 2), (5, 3)],
    [(5, 14), (5, 15), (5, 16), (5, 17), (7, 6), (7, 7), (7, 8), (7, 9), (8, 0), (8, 1), (8, 2), (8, 3)],
    [(0, 20), (0, 21), (0, 22), (0, 23), (1, 14), (1, 15), (1, 16), (1, 17), (3, 6), (3, 7), (3, 8), (3, 9)],
    [(3, 20), (3, 21), (3, 22), (3, 23), (6, 6), (6, 7), (6, 8), (6, 9), (7, 0), (7, 1), (7, 2), (7, 3)],
    [(0, 20), (0, 21), (0, 22), (0, 23), (1, 14), (1, 15), (1, 16), (1, 17), (3, 6), (3, 7), (3, 8), (3, 9)], [(1, 18), (1, 19)], [(5, 10), (5, 11)],
    [(5, 14), (5, 15), (5, 16), (5, 17), (7, 6), (7, 7), (7, 8), (7, 9), (8, 0), (8, 1), (8, 2), (8, 3)],
    [(0, 20), (0, 21), (0, 22), (0, 23), (1, 14), (1, 15), (1, 16), (1, 17), (3, 6), (3, 7), (3, 8), (3, 9)],
    [(1, 20), (1, 21), (1, 22), (1, 23), (2, 14), (2, 15), (2, 16), (2, 17), (5, 0), (5, 1), (5, 2), (5, 3)], [(1, 18), (1, 19)],
    [(1, 20), (1, 21), (1, 22), (1, 23), (2, 14), (2, 15), (2, 16), (2, 17), (5, 0), (5, 1), (5, 2), (5, 3)], [(3, 12), (3, 13)],
    [(3, 20), (3, 21), (3, 22), (3, 23), (6, 6), (6, 7), (6, 8), (6, 9), (7, 0), (7, 1), (7, 2), (7, 3)]]
  U := 432
  F := 32
  starts := [(4, 0), (4, 1), (4, 2), (4, 3)]
  finals := [(5, 0), (5, 10), (5, 19), (5, 21)]

/-- Data of the search of paths. -/
def b3Enum1 : Enum where
  L := 24
  B := 216
  ones := 4
  offs := [1, 2, 3, 4]
  trans := [
    [(1, 20), (1, 21), (1, 22), (1, 23), (2, 14), (2, 15), (2, 16), (2, 17), (5, 0), (5, 1), (5, 2), (5, 3)], [(5, 10), (5, 11)],
    [(3, 20), (3, 21), (3, 22), (3, 23), (6, 6), (6, 7), (6, 8), (6, 9), (7, 0), (7, 1), (7, 2), (7, 3)], [(7, 4), (7, 5)],
    [(3, 20), (3, 21), (3, 22), (3, 23), (6, 6), (6, 7), (6, 8), (6, 9), (7, 0), (7, 1), (7, 2), (7, 3)],
    [(5, 14), (5, 15), (5, 16), (5, 17), (7, 6), (7, 7), (7, 8), (7, 9), (8, 0), (8, 1), (8, 2), (8, 3)],
    [(0, 20), (0, 21), (0, 22), (0, 23), (1, 14), (1, 15), (1, 16), (1, 17), (3, 6), (3, 7), (3, 8), (3, 9)], [(3, 12), (3, 13)], [(7, 4), (7, 5)],
    [(5, 14), (5, 15), (5, 16), (5, 17), (7, 6), (7, 7), (7, 8), (7, 9), (8, 0), (8, 1), (8, 2), (8, 3)],
    [(1, 20), (1, 21), (1, 22), (1, 23), (2, 14), (2, 15), (2, 16), (2, 17), (5, 0), (5, 1), (5, 2), (5, 3)],
    [(5, 14), (5, 15), (5, 16), (5, 17), (7, 6), (7, 7), (7, 8), (7, 9), (8, 0), (8, 1), (8, 2), (8, 3)],
    [(0, 20), (0, 21), (0, 22), (0, 23), (1, 14), (1, 15), (1, 16), (1, 17), (3, 6), (3, 7), (3, 8), (3, 9)],
    [(3, 20), (3, 21), (3, 22), (3, 23), (6, 6), (6, 7), (6, 8), (6, 9), (7, 0), (7, 1), (7, 2), (7, 3)],
    [(0, 20), (0, 21), (0, 22), (0, 23), (1, 14), (1, 15), (1, 16), (1, 17), (3, 6), (3, 7), (3, 8), (3, 9)], [(1, 18), (1, 19)], [(5, 10), (5, 11)],
    [(5, 14), (5, 15), (5, 16), (5, 17), (7, 6), (7, 7), (7, 8), (7, 9), (8, 0), (8, 1), (8, 2), (8, 3)],
    [(0, 20), (0, 21), (0, 22), (0, 23), (1, 14), (1, 15), (1, 16), (1, 17), (3, 6), (3, 7), (3, 8), (3, 9)],
    [(1, 20), (1, 21), (1, 22), (1, 23), (2, 14), (2, 15), (2, 16), (2, 17), (5, 0), (5, 1), (5, 2), (5, 3)], [(1, 18), (1, 19)],
    [(1, 20), (1, 21), (1, 22), (1, 23), (2, 14), (2, 15), (2, 16), (2, 17), (5, 0), (5, 1), (5, 2), (5, 3)], [(3, 12), (3, 13)],
    [(3, 20), (3, 21), (3, 22), (3, 23), (6, 6), (6, 7), (6, 8), (6, 9), (7, 0), (7, 1), (7, 2), (7, 3)]]
  U := 432
  F := 288
  starts := [(4, 0), (4, 1), (4, 2), (4, 3)]
  finals := [(5, 5), (5, 9), (5, 11), (5, 17), (8, 0), (8, 10), (8, 19), (8, 21)]

def b3Tab : Tab := ⟨b3Env, [([0, 0], [0, 2]), ([0, 0], [1, 2])], [b3Enum0, b3Enum1]⟩

theorem b3_ok : b3Tab.Ok 2 2 2 2 := Fast.ok_sound (by decide +kernel)

def b3Tree0 : CT :=
  .node (.node .nil 995494029 .nil) 995542845 (.node .nil 1005808243 .nil)

def b3Tree1 : CT :=
  .node .nil 1005808025 .nil

def b3Pairs0 : List (List ℕ) := [
  [995494029, 1005808025], [995542845, 1005808025], [1005808243, 1005808025]]

theorem b3_pairs : (b3Tree0.toList.all fun P => b3Tree1.toList.all fun Q => (b3Pairs0).contains [P, Q]) = true := Fast.pairs_sound (by decide +kernel)

theorem b3_paths0 : ∀ P ∈ b3Enum0.all 4, P ∈ b3Tree0.toList :=
  b3Enum0.allF_sound 4 b3Tree0 (by decide +kernel)

theorem b3_paths1 : ∀ P ∈ b3Enum1.all 4, P ∈ b3Tree1.toList :=
  b3Enum1.allF_sound 4 b3Tree1 (by decide +kernel)

def b3_l1_0 : List ℕ := [
  16, 20, 28, 4, 604536710435283251759649, 8, 29712374555249876814476414985, 9904743408949519687081789985, 8, 1813499423538334731864609, 4,
  9904729463776201715870928909, 29712383778058963715847359009, 16, 20, 28, 4, 9907147315413179178701623305, 8, 9907147315415430978515308557, 20, 28,
  0, 4, 9907147167839226589024948233, 8, 12, 9907147241628454683676971021]

theorem b3_l1_run0 : run .l1 2 12 1 b3Env [] b3_l1_0 (b3Pairs0.map fun ps => ⟨ps, []⟩) = true := Run.run_many (by decide +kernel)

def b3_l2_0 : List ℕ := [
  4, 8, 16, 20, 28, 1813499423538334731864609, 604536710435283251759649, 12, 604536703609515066524689, 9904729351942815769006573581, 8, 0,
  29712374442551799739156922889, 1813499416659789988496389, 0, 12, 9904743408075821359371912197, 29712383777185230202700039173, 12,
  9904743408075856544809354245, 29712383777185265388137481221, 16, 20, 28, 4, 9907147315413179178701623305, 8, 9907147315415430978515308557, 20, 28,
  0, 4, 9907147167839226589024948233, 8, 12, 9907147241628454683676971021]

theorem b3_l2_run0 : run .l2 2 6 1 b3Env [] b3_l2_0 (b3Pairs0.map fun ps => ⟨ps, []⟩) = true := Run.run_many (by decide +kernel)

def b3_linf_0 : List ℕ := [
  4, 8, 20, 24, 110687220804845174809, 36897992710193283097, 12, 604536703609515066524689, 9904729351942815769006573581, 8, 0,
  29712374442551799739156922889, 1813499416659789988496389, 0, 12, 9904743408364086920961066505, 29712383777185230202700039173,
  9904743407785374368843956741, 20, 24, 8, 4724095988685248790553, 4, 4724095988547809837081, 4, 8, 20, 36906999359692210185]

theorem b3_linf_run0 : run .linf 2 5 1 b3Env [] b3_linf_0 (b3Pairs0.map fun ps => ⟨ps, []⟩) = true := Run.run_many (by decide +kernel)

theorem b3_l1 : b3Tab.Refuted .l1 2 12 1 4 :=
  Tab.refuted_two (T := b3Tab) rfl b3_paths0 b3_paths1 b3_pairs (part2 b3_l1_run0)

theorem b3_l2 : b3Tab.Refuted .l2 2 6 1 4 :=
  Tab.refuted_two (T := b3Tab) rfl b3_paths0 b3_paths1 b3_pairs (part2 b3_l2_run0)

theorem b3_linf : b3Tab.Refuted .linf 2 5 1 4 :=
  Tab.refuted_two (T := b3Tab) rfl b3_paths0 b3_paths1 b3_pairs (part2 b3_linf_run0)

/-- Table of links and of their specs. -/
def b4Env : Env where
  N := 2
  G := 4
  m := 2
  S := 3
  W := 3
  B := 216
  L := 24
  links := [([0, 0], [0, 3]), ([0, 0], [2, 3]), ([0, 0], [3, 0]), ([0, 0], [3, 2]), ([0, 1], [3, 3]), ([0, 2], [3, 0]), ([0, 3], [0, 0]), ([0, 3], [2, 0]), ([0, 3], [3, 1]), ([0, 3], [3, 3]), ([1, 0], [3, 3]), ([1, 3], [3, 0]), ([2, 0], [0, 3]), ([2, 3], [0, 0]), ([3, 0], [0, 0]), ([3, 0], [0, 2]), ([3, 0], [1, 3]), ([3, 0], [3, 3]), ([3, 1], [0, 3]), ([3, 2], [0, 0]), ([3, 3], [0, 1]), ([3, 3], [0, 3]), ([3, 3], [1, 0]), ([3, 3], [3, 0])]
  doms := [
    [⟨[(0, false), (1, false)], false, 0⟩, ⟨[(0, false), (1, true)], true, 0⟩], [⟨[(0, false), (1, false)], false, 1⟩],
    [⟨[(1, false), (0, false)], false, 0⟩, ⟨[(1, true), (0, false)], true, 0⟩], [⟨[(1, false), (0, false)], false, 1⟩],
    [⟨[(1, true), (0, true)], true, 1⟩], [⟨[(1, true), (0, false)], true, 1⟩],
    [⟨[(0, false), (1, false)], true, 0⟩, ⟨[(0, false), (1, true)], false, 0⟩], [⟨[(0, false), (1, true)], false, 1⟩],
    [⟨[(1, false), (0, true)], false, 1⟩], [⟨[(1, false), (0, true)], false, 0⟩, ⟨[(1, true), (0, true)], true, 0⟩],
    [⟨[(0, true), (1, true)], true, 1⟩], [⟨[(0, true), (1, false)], true, 1⟩], [⟨[(0, false), (1, true)], true, 1⟩],
    [⟨[(0, false), (1, false)], true, 1⟩], [⟨[(1, false), (0, false)], true, 0⟩, ⟨[(1, true), (0, false)], false, 0⟩],
    [⟨[(1, true), (0, false)], false, 1⟩], [⟨[(0, true), (1, false)], false, 1⟩],
    [⟨[(0, true), (1, false)], false, 0⟩, ⟨[(0, true), (1, true)], true, 0⟩], [⟨[(1, false), (0, true)], true, 1⟩],
    [⟨[(1, false), (0, false)], true, 1⟩], [⟨[(1, true), (0, true)], false, 1⟩],
    [⟨[(1, false), (0, true)], true, 0⟩, ⟨[(1, true), (0, true)], false, 0⟩], [⟨[(0, true), (1, true)], false, 1⟩],
    [⟨[(0, true), (1, false)], true, 0⟩, ⟨[(0, true), (1, true)], false, 0⟩]]

/-- Data of the search of paths. -/
def b4Enum0 : Enum where
  L := 24
  B := 216
  ones := 4
  offs := [1, 2, 3, 4]
  trans := [
    [(1, 20), (1, 21), (1, 22), (1, 23), (2, 14), (2, 15), (2, 16), (2, 17), (5, 0), (5, 1), (5, 2), (5, 3)], [(5, 12)],
    [(3, 20), (3, 21), (3, 22), (3, 23), (6, 6), (6, 7), (6, 8), (6, 9), (7, 0), (7, 1), (7, 2), (7, 3)], [(7, 5)],
    [(5, 14), (5, 15), (5, 16), (5, 17), (7, 6), (7, 7), (7, 8), (7, 9), (8, 0), (8, 1), (8, 2), (8, 3)],
    [(3, 20), (3, 21), (3, 22), (3, 23), (6, 6), (6, 7), (6, 8), (6, 9), (7, 0), (7, 1), (7, 2), (7, 3)],
    [(0, 20), (0, 21), (0, 22), (0, 23), (1, 14), (1, 15), (1, 16), (1, 17), (3, 6), (3, 7), (3, 8), (3, 9)], [(3, 13)], [(7, 4)],
    [(5, 14), (5, 15), (5, 16), (5, 17), (7, 6), (7, 7), (7, 8), (7, 9), (8, 0), (8, 1), (8, 2), (8, 3)],
    [(5, 14), (5, 15), (5, 16), (5, 17), (7, 6), (7, 7), (7, 8), (7, 9), (8, 0), (8, 1), (8, 2), (8, 3)],
    [(3, 20), (3, 21), (3, 22), (3, 23), (6, 6), (6, 7), (6, 8), (6, 9), (7, 0), (7, 1), (7, 2), (7, 3)],
    [(1, 20), (1, 21), (1, 22), (1, 23), (2, 14), (2, 15), (2, 16), (2, 17), (5, 0), (5, 1), (5, 2), (5, 3)],
    [(0, 20), (0, 21), (0, 22), (0, 23), (1, 14), (1, 15), (1, 16), (1, 17), (3, 6), (3, 7), (3, 8), (3, 9)],
    [(0, 20), (0, 21), (0, 22), (0, 23), (1, 14), (1, 15), (1, 16), (1, 17), (3, 6), (3, 7), (3, 8), (3, 9)], [(1, 19)], [(5, 10)],
    [(5, 14), (5, 15), (5, 16), (5, 17), (7, 6), (7, 7), (7, 8), (7, 9), (8, 0), (8, 1), (8, 2), (8, 3)],
    [(1, 20), (1, 21), (1, 22), (1, 23), (2, 14), (2, 15), (2, 16), (2, 17), (5, 0), (5, 1), (5, 2), (5, 3)],
    [(0, 20), (0, 21), (0, 22), (0, 23), (1, 14), (1, 15), (1, 16), (1, 17), (3, 6), (3, 7), (3, 8), (3, 9)], [(1, 18)],
    [(1, 20), (1, 21), (1, 22), (1, 23), (2, 14), (2, 15), (2, 16), (2, 17), (5, 0), (5, 1), (5, 2), (5, 3)], [(3, 11)],
    [(3, 20), (3, 21), (3, 22), (3, 23), (6, 6), (6, 7), (6, 8), (6, 9), (7, 0), (7, 1), (7, 2), (7, 3)]]
  U := 432
  F := 32
  starts := [(4, 0), (4, 1), (4, 2), (4, 3)]
  finals := [(5, 0), (5, 12), (5, 18), (5, 21)]

/-- Data of the search of paths. -/
def b4Enum1 : Enum where
  L := 24
  B := 216
  ones := 4
  offs := [1, 2, 3, 4]
  trans := [
    [(1, 20), (1, 21), (1, 22), (1, 23), (2, 14), (2, 15), (2, 16), (2, 17), (5, 0), (5, 1), (5, 2), (5, 3)], [(5, 12)],
    [(3, 20), (3, 21), (3, 22), (3, 23), (6, 6), (6, 7), (6, 8), (6, 9), (7, 0), (7, 1), (7, 2), (7, 3)], [(7, 5)],
    [(5, 14), (5, 15), (5, 16), (5, 17), (7, 6), (7, 7), (7, 8), (7, 9), (8, 0), (8, 1), (8, 2), (8, 3)],
    [(3, 20), (3, 21), (3, 22), (3, 23), (6, 6), (6, 7), (6, 8), (6, 9), (7, 0), (7, 1), (7, 2), (7, 3)],
    [(0, 20), (0, 21), (0, 22), (0, 23), (1, 14), (1, 15), (1, 16), (1, 17), (3, 6), (3, 7), (3, 8), (3, 9)], [(3, 13)], [(7, 4)],
    [(5, 14), (5, 15), (5, 16), (5, 17), (7, 6), (7, 7), (7, 8), (7, 9), (8, 0), (8, 1), (8, 2), (8, 3)],
    [(5, 14), (5, 15), (5, 16), (5, 17), (7, 6), (7, 7), (7, 8), (7, 9), (8, 0), (8, 1), (8, 2), (8, 3)],
    [(3, 20), (3, 21), (3, 22), (3, 23), (6, 6), (6, 7), (6, 8), (6, 9), (7, 0), (7, 1), (7, 2), (7, 3)],
    [(1, 20), (1, 21), (1, 22), (1, 23), (2, 14), (2, 15), (2, 16), (2, 17), (5, 0), (5, 1), (5, 2), (5, 3)],
    [(0, 20), (0, 21), (0, 22), (0, 23), (1, 14), (1, 15), (1, 16), (1, 17), (3, 6), (3, 7), (3, 8), (3, 9)],
    [(0, 20), (0, 21), (0, 22), (0, 23), (1, 14), (1, 15), (1, 16), (1, 17), (3, 6), (3, 7), (3, 8), (3, 9)], [(1, 19)], [(5, 10)],
    [(5, 14), (5, 15), (5, 16), (5, 17), (7, 6), (7, 7), (7, 8), (7, 9), (8, 0), (8, 1), (8, 2), (8, 3)],
    [(1, 20), (1, 21), (1, 22), (1, 23), (2, 14), (2, 15), (2, 16), (2, 17), (5, 0), (5, 1), (5, 2), (5, 3)],
    [(0, 20), (0, 21), (0, 22), (0, 23), (1, 14), (1, 15), (1, 16), (1, 17), (3, 6), (3, 7), (3, 8), (3, 9)], [(1, 18)],
    [(1, 20), (1, 21), (1, 22), (1, 23), (2, 14), (2, 15), (2, 16), (2, 17), (5, 0), (5, 1), (5, 2), (5, 3)], [(3, 11)],
    [(3, 20), (3, 21), (3, 22), (3, 23), (6, 6), (6, 7), (6, 8), (6, 9), (7, 0), (7, 1), (7, 2), (7, 3)]]
  U := 432
  F := 256
  starts := [(4, 0), (4, 1), (4, 2), (4, 3)]
  finals := [(8, 16)]

def b4Tab : Tab := ⟨b4Env, [([0, 0], [0, 3]), ([0, 0], [2, 3])], [b4Enum0, b4Enum1]⟩

theorem b4_ok : b4Tab.Ok 2 2 2 2 := Fast.ok_sound (by decide +kernel)

def b4Tree0 : CT :=
  .node (.node .nil 995494029 .nil) 995543277 .nil

def b4Tree1 : CT :=
  .node .nil 973189288 .nil

def b4Pairs0 : List (List ℕ) := [
  [995494029, 973189288], [995543277, 973189288]]

theorem b4_pairs : (b4Tree0.toList.all fun P => b4Tree1.toList.all fun Q => (b4Pairs0).contains [P, Q]) = true := Fast.pairs_sound (by decide +kernel)

theorem b4_paths0 : ∀ P ∈ b4Enum0.all 4, P ∈ b4Tree0.toList :=
  b4Enum0.allF_sound 4 b4Tree0 (by decide +kernel)

theorem b4_paths1 : ∀ P ∈ b4Enum1.all 4, P ∈ b4Tree1.toList :=
  b4Enum1.allF_sound 4 b4Tree1 (by decide +kernel)

def b4_l1_0 : List ℕ := [
  20, 4, 24, 8, 110687220804844912665, 4722943067180641681433, 36897992710193020953, 8, 24, 14167964263295035116553, 1813499425684581429283849, 24,
  1813499986470421081030681, 604537561598020638933017, 8, 24, 110687220806992461849, 4, 36897992712340570137, 14167964263160792416281, 4, 24,
  604536712599122135223309, 4722943066904706681869, 24, 1813499986470695967260697, 604537561598295525163033, 20, 4, 24, 8,
  232128182735654640836152329, 604538714519525246042137, 8, 24, 1813501427622576726147097, 4, 77380955458499236820159501]

theorem b4_l1_run0 : run .l1 2 12 1 b4Env [] b4_l1_0 (b4Pairs0.map fun ps => ⟨ps, []⟩) = true := Run.run_many (by decide +kernel)

def b4_l2_0 : List ℕ := [
  4, 8, 20, 24, 110687220804844912665, 36897992710193020953, 24, 36897992710193020953, 110687220804844912665, 12, 604536703609515066524689,
  9904729351942815769006573581, 8, 0, 29712374442551799739156922889, 1813499416659789988496389, 20, 24, 1813499986470421081030681,
  604537561598020638933017, 24, 604537561598020638933017, 1813499986470421081030681, 20, 4, 24, 8, 232128182735654640836152329,
  604538714519525246042137, 8, 24, 1813501427622576726147097, 4, 77380955458499236820159501]

theorem b4_l2_run0 : run .l2 2 6 1 b4Env [] b4_l2_0 (b4Pairs0.map fun ps => ⟨ps, []⟩) = true := Run.run_many (by decide +kernel)

def b4_linf_0 : List ℕ := [
  4, 8, 20, 24, 36897992712340570137, 110687220806992461849, 24, 36897992710193020953, 110687220804844912665, 12, 604536703609515066524689,
  9904729351942815769006573581, 8, 0, 29712374442551799739156922889, 1813499416659789988496389, 20, 24, 604537561598295525163033,
  1813499986470695967260697, 24, 604537561598020638933017, 1813499986470421081030681, 4, 8, 24, 604722028968389032214537, 604721740738012880437257]

theorem b4_linf_run0 : run .linf 2 17 3 b4Env [] b4_linf_0 (b4Pairs0.map fun ps => ⟨ps, []⟩) = true := Run.run_many (by decide +kernel)

theorem b4_l1 : b4Tab.Refuted .l1 2 12 1 4 :=
  Tab.refuted_two (T := b4Tab) rfl b4_paths0 b4_paths1 b4_pairs (part2 b4_l1_run0)

theorem b4_l2 : b4Tab.Refuted .l2 2 6 1 4 :=
  Tab.refuted_two (T := b4Tab) rfl b4_paths0 b4_paths1 b4_pairs (part2 b4_l2_run0)

theorem b4_linf : b4Tab.Refuted .linf 2 17 3 4 :=
  Tab.refuted_two (T := b4Tab) rfl b4_paths0 b4_paths1 b4_pairs (part2 b4_linf_run0)

/-- Table of links and of their specs. -/
def b6Env : Env where
  N := 2
  G := 4
  m := 2
  S := 2
  W := 3
  B := 108
  L := 12
  links := [([0, 0], [0, 2]), ([0, 0], [2, 0]), ([0, 1], [0, 1]), ([0, 2], [0, 0]), ([0, 2], [2, 2]), ([1, 0], [1, 0]), ([1, 2], [1, 2]), ([2, 0], [0, 0]), ([2, 0], [2, 2]), ([2, 1], [2, 1]), ([2, 2], [0, 2]), ([2, 2], [2, 0])]
  doms := [
    [⟨[(0, false), (1, false)], false, 0⟩, ⟨[(0, false), (1, true)], true, 0⟩],
    [⟨[(1, false), (0, false)], false, 0⟩, ⟨[(1, true), (0, false)], true, 0⟩],
    [⟨[(0, false), (1, false)], false, 1⟩, ⟨[(0, false), (1, false)], true, 1⟩, ⟨[(0, false), (1, true)], false, 1⟩, ⟨[(0, false), (1, true)], true, 1⟩],
    [⟨[(0, false), (1, false)], true, 0⟩, ⟨[(0, false), (1, true)], false, 0⟩],
    [⟨[(1, false), (0, true)], false, 0⟩, ⟨[(1, true), (0, true)], true, 0⟩],
    [⟨[(1, false), (0, false)], false, 1⟩, ⟨[(1, false), (0, false)], true, 1⟩, ⟨[(1, true), (0, false)], false, 1⟩, ⟨[(1, true), (0, false)], true, 1⟩],
    [⟨[(1, false), (0, true)], false, 1⟩, ⟨[(1, false), (0, true)], true, 1⟩, ⟨[(1, true), (0, true)], false, 1⟩, ⟨[(1, true), (0, true)], true, 1⟩],
    [⟨[(1, false), (0, false)], true, 0⟩, ⟨[(1, true), (0, false)], false, 0⟩],
    [⟨[(0, true), (1, false)], false, 0⟩, ⟨[(0, true), (1, true)], true, 0⟩],
    [⟨[(0, true), (1, false)], false, 1⟩, ⟨[(0, true), (1, false)], true, 1⟩, ⟨[(0, true), (1, true)], false, 1⟩, ⟨[(0, true), (1, true)], true, 1⟩],
    [⟨[(1, false), (0, true)], true, 0⟩, ⟨[(1, true), (0, true)], false, 0⟩], [⟨[(0, true), (1, false)], true, 0⟩, ⟨[(0, true), (1, true)], false, 0⟩]]

/-- Data of the search of paths. -/
def b6Enum0 : Enum where
  L := 12
  B := 108
  ones := 4
  offs := [1, 2, 3, 4]
  trans := [
    [(1, 10), (1, 11), (2, 7), (2, 8), (5, 0), (5, 1)], [(3, 10), (3, 11), (6, 3), (6, 4), (7, 0), (7, 1)], [(1, 9)],
    [(0, 10), (0, 11), (1, 7), (1, 8), (3, 3), (3, 4)], [(5, 7), (5, 8), (7, 3), (7, 4), (8, 0), (8, 1)], [(3, 6)], [(5, 5)],
    [(0, 10), (0, 11), (1, 7), (1, 8), (3, 3), (3, 4)], [(5, 7), (5, 8), (7, 3), (7, 4), (8, 0), (8, 1)], [(7, 2)],
    [(1, 10), (1, 11), (2, 7), (2, 8), (5, 0), (5, 1)], [(3, 10), (3, 11), (6, 3), (6, 4), (7, 0), (7, 1)]]
  U := 432
  F := 32
  starts := [(4, 0), (4, 1)]
  finals := [(5, 0), (5, 10)]

/-- Data of the search of paths. -/
def b6Enum1 : Enum where
  L := 12
  B := 108
  ones := 4
  offs := [1, 2, 3, 4]
  trans := [
    [(1, 10), (1, 11), (2, 7), (2, 8), (5, 0), (5, 1)], [(3, 10), (3, 11), (6, 3), (6, 4), (7, 0), (7, 1)], [(1, 9)],
    [(0, 10), (0, 11), (1, 7), (1, 8), (3, 3), (3, 4)], [(5, 7), (5, 8), (7, 3), (7, 4), (8, 0), (8, 1)], [(3, 6)], [(5, 5)],
    [(0, 10), (0, 11), (1, 7), (1, 8), (3, 3), (3, 4)], [(5, 7), (5, 8), (7, 3), (7, 4), (8, 0), (8, 1)], [(7, 2)],
    [(1, 10), (1, 11), (2, 7), (2, 8), (5, 0), (5, 1)], [(3, 10), (3, 11), (6, 3), (6, 4), (7, 0), (7, 1)]]
  U := 432
  F := 48
  starts := [(4, 3), (4, 4), (5, 0), (5, 1)]
  finals := [(4, 0), (4, 10), (5, 3), (5, 7)]

def b6Tab : Tab := ⟨b6Env, [([0, 0], [0, 2]), ([0, 1], [0, 1])], [b6Enum0, b6Enum1]⟩

theorem b6_ok : b6Tab.Ok 2 2 2 2 := Fast.ok_sound (by decide +kernel)

def b6Tree0 : CT :=
  .node .nil 62716102 .nil

def b6Tree1 : CT :=
  .node (.node (.node .nil 66542647 .nil) 66646651 .nil) 77880046 (.node .nil 77984050 .nil)

def b6Pairs0 : List (List ℕ) := [
  [62716102, 66542647], [62716102, 66646651], [62716102, 77880046], [62716102, 77984050]]

theorem b6_pairs : (b6Tree0.toList.all fun P => b6Tree1.toList.all fun Q => (b6Pairs0).contains [P, Q]) = true := Fast.pairs_sound (by decide +kernel)

theorem b6_paths0 : ∀ P ∈ b6Enum0.all 4, P ∈ b6Tree0.toList :=
  b6Enum0.allF_sound 4 b6Tree0 (by decide +kernel)

theorem b6_paths1 : ∀ P ∈ b6Enum1.all 4, P ∈ b6Tree1.toList :=
  b6Enum1.allF_sound 4 b6Tree1 (by decide +kernel)

def b6_l1_0 : List ℕ := [
  0, 4, 36897992022998253573, 8, 14167964175334104891913, 1813499986382460150808581, 4, 8, 36897992025145802757, 4722942978943776457229, 8,
  110687220119797694469, 1813499986382735037038597, 4, 0, 36897992022998253573, 8, 36897992025145802757, 4722942978943776457229, 8, 0,
  14167964175334104891913, 110687220119797694469, 0, 1813499986382460150808581, 1813499986382735037038597, 4, 0, 36897992022998253573, 8,
  36897992025145802757, 4722942978943776457229, 8, 0, 14167964175334104891913, 110687220119797694469, 0, 1813499986382460150808581,
  1813499986382735037038597, 0, 4, 36897992022998253573, 8, 14167964175334104891913, 1813499986382460150808581, 4, 8, 36897992025145802757,
  4722942978943776457229, 8, 110687220119797694469, 1813499986382735037038597]

theorem b6_l1_run0 : run .l1 2 9 1 b6Env [] b6_l1_0 (b6Pairs0.map fun ps => ⟨ps, []⟩) = true := Run.run_many (by decide +kernel)

def b6_l2_0 : List ℕ := [
  4, 8, 20, 24, 110687220806992461849, 36897992712340570137, 24, 110687220804844912665, 36897992710193020953, 12, 604536703609515066524689,
  9904729351942815769006573581, 8, 0, 29712374442551799739156922889, 1813499416659789988496389, 20, 24, 1813499986470695967260697,
  604537561598295525163033, 24, 1813499986470421081030681, 604537561598020638933017, 4, 8, 20, 16, 110687220667405959189, 36897992572754067477, 16,
  110687220669553508373, 110687220667405959189, 12, 604536703609515066524689, 9904729351942815769006573581, 8, 0, 29712374442551799739156922889,
  1813499416659789988496389, 16, 20, 1813499986452828894986261, 604537561580428452888597, 20, 604537561580428452888597, 1813499986452828894986261, 4,
  20, 8, 16, 110687220667405959189, 36897992572754067477, 12, 604536703609515066524689, 9904729351942815769006573581, 8, 16, 36897992572754067477,
  110687220667405959189, 12, 604536703609515066524689, 9904729351942815769006573581, 8, 0, 29712374442551799739156922889, 1813499416659789988496389,
  16, 20, 1813499986452828894986261, 604537561580428452888597, 20, 604537561580428452888597, 1813499986452828894986261, 4, 8, 20, 24,
  110687220806992461849, 36897992712340570137, 24, 110687220804844912665, 36897992710193020953, 12, 604536703609515066524689,
  9904729351942815769006573581, 8, 0, 29712374442551799739156922889, 1813499416659789988496389, 20, 24, 1813499986470695967260697,
  604537561598295525163033, 24, 1813499986470421081030681, 604537561598020638933017]

theorem b6_l2_run0 : run .l2 2 6 1 b6Env [] b6_l2_0 (b6Pairs0.map fun ps => ⟨ps, []⟩) = true := Run.run_many (by decide +kernel)

def b6_linf_0 : List ℕ := [
  4, 8, 20, 24, 110687220806992461849, 36897992712340570137, 24, 110687220804844912665, 36897992710193020953, 12, 604536703609515066524689,
  9904729351942815769006573581, 8, 0, 29712374442551799739156922889, 1813499416659789988496389, 20, 24, 1813499986470695967260697,
  604537561598295525163033, 24, 1813499986470421081030681, 604537561598020638933017, 8, 4, 20, 16, 36897992574901616661, 36897992572754067477, 16,
  110687220669553508373, 110687220667405959189, 0, 29712374442551799739156922889, 1813499416659789988496389, 4, 12, 604536703609515066524689,
  9904729351942815769006573581, 16, 20, 604537561580703339118613, 1813499986453103781216277, 20, 604537561580428452888597, 1813499986452828894986261,
  8, 4, 20, 16, 36897992574901616661, 36897992572754067477, 16, 110687220669553508373, 110687220667405959189, 0, 29712374442551799739156922889,
  1813499416659789988496389, 4, 12, 604536703609515066524689, 9904729351942815769006573581, 16, 20, 604537561580703339118613,
  1813499986453103781216277, 20, 604537561580428452888597, 1813499986452828894986261, 4, 8, 20, 24, 110687220806992461849, 36897992712340570137, 24,
  110687220804844912665, 36897992710193020953, 12, 604536703609515066524689, 9904729351942815769006573581, 8, 0, 29712374442551799739156922889,
  1813499416659789988496389, 20, 24, 1813499986470695967260697, 604537561598295525163033, 24, 1813499986470421081030681, 604537561598020638933017]

theorem b6_linf_run0 : run .linf 2 6 1 b6Env [] b6_linf_0 (b6Pairs0.map fun ps => ⟨ps, []⟩) = true := Run.run_many (by decide +kernel)

theorem b6_l1 : b6Tab.Refuted .l1 2 9 1 4 :=
  Tab.refuted_two (T := b6Tab) rfl b6_paths0 b6_paths1 b6_pairs (part2 b6_l1_run0)

theorem b6_l2 : b6Tab.Refuted .l2 2 6 1 4 :=
  Tab.refuted_two (T := b6Tab) rfl b6_paths0 b6_paths1 b6_pairs (part2 b6_l2_run0)

theorem b6_linf : b6Tab.Refuted .linf 2 6 1 4 :=
  Tab.refuted_two (T := b6Tab) rfl b6_paths0 b6_paths1 b6_pairs (part2 b6_linf_run0)

/-- Table of links and of their specs. -/
def b7Env : Env where
  N := 2
  G := 4
  m := 2
  S := 2
  W := 3
  B := 144
  L := 16
  links := [([0, 0], [0, 2]), ([0, 0], [2, 0]), ([0, 1], [1, 0]), ([0, 1], [1, 2]), ([0, 2], [0, 0]), ([0, 2], [2, 2]), ([1, 0], [0, 1]), ([1, 0], [2, 1]), ([1, 2], [0, 1]), ([1, 2], [2, 1]), ([2, 0], [0, 0]), ([2, 0], [2, 2]), ([2, 1], [1, 0]), ([2, 1], [1, 2]), ([2, 2], [0, 2]), ([2, 2], [2, 0])]
  doms := [
    [⟨[(0, false), (1, false)], false, 0⟩, ⟨[(0, false), (1, true)], true, 0⟩],
    [⟨[(1, false), (0, false)], false, 0⟩, ⟨[(1, true), (0, false)], true, 0⟩],
    [⟨[(0, false), (1, false)], false, 1⟩, ⟨[(1, false), (0, false)], true, 1⟩],
    [⟨[(0, false), (1, true)], false, 1⟩, ⟨[(1, false), (0, true)], true, 1⟩],
    [⟨[(0, false), (1, false)], true, 0⟩, ⟨[(0, false), (1, true)], false, 0⟩],
    [⟨[(1, false), (0, true)], false, 0⟩, ⟨[(1, true), (0, true)], true, 0⟩],
    [⟨[(0, false), (1, false)], true, 1⟩, ⟨[(1, false), (0, false)], false, 1⟩],
    [⟨[(0, true), (1, false)], true, 1⟩, ⟨[(1, true), (0, false)], false, 1⟩],
    [⟨[(0, false), (1, true)], true, 1⟩, ⟨[(1, false), (0, true)], false, 1⟩],
    [⟨[(0, true), (1, true)], true, 1⟩, ⟨[(1, true), (0, true)], false, 1⟩],
    [⟨[(1, false), (0, false)], true, 0⟩, ⟨[(1, true), (0, false)], false, 0⟩],
    [⟨[(0, true), (1, false)], false, 0⟩, ⟨[(0, true), (1, true)], true, 0⟩],
    [⟨[(0, true), (1, false)], false, 1⟩, ⟨[(1, true), (0, false)], true, 1⟩],
    [⟨[(0, true), (1, true)], false, 1⟩, ⟨[(1, true), (0, true)], true, 1⟩],
    [⟨[(1, false), (0, true)], true, 0⟩, ⟨[(1, true), (0, true)], false, 0⟩], [⟨[(0, true), (1, false)], true, 0⟩, ⟨[(0, true), (1, true)], false, 0⟩]]

/-- Data of the search of paths. -/
def b7Enum0 : Enum where
  L := 16
  B := 144
  ones := 4
  offs := [1, 2, 3, 4]
  trans := [
    [(1, 14), (1, 15), (2, 10), (2, 11), (5, 0), (5, 1)], [(3, 14), (3, 15), (6, 4), (6, 5), (7, 0), (7, 1)], [(3, 8), (3, 9)], [(5, 6), (5, 7)],
    [(0, 14), (0, 15), (1, 10), (1, 11), (3, 4), (3, 5)], [(5, 10), (5, 11), (7, 4), (7, 5), (8, 0), (8, 1)], [(1, 12), (1, 13)], [(7, 2), (7, 3)],
    [(1, 12), (1, 13)], [(7, 2), (7, 3)], [(0, 14), (0, 15), (1, 10), (1, 11), (3, 4), (3, 5)], [(5, 10), (5, 11), (7, 4), (7, 5), (8, 0), (8, 1)],
    [(3, 8), (3, 9)], [(5, 6), (5, 7)], [(1, 14), (1, 15), (2, 10), (2, 11), (5, 0), (5, 1)], [(3, 14), (3, 15), (6, 4), (6, 5), (7, 0), (7, 1)]]
  U := 432
  F := 32
  starts := [(4, 0), (4, 1)]
  finals := [(5, 0), (5, 14)]

/-- Data of the search of paths. -/
def b7Enum1 : Enum where
  L := 16
  B := 144
  ones := 4
  offs := [1, 2, 3, 4]
  trans := [
    [(1, 14), (1, 15), (2, 10), (2, 11), (5, 0), (5, 1)], [(3, 14), (3, 15), (6, 4), (6, 5), (7, 0), (7, 1)], [(3, 8), (3, 9)], [(5, 6), (5, 7)],
    [(0, 14), (0, 15), (1, 10), (1, 11), (3, 4), (3, 5)], [(5, 10), (5, 11), (7, 4), (7, 5), (8, 0), (8, 1)], [(1, 12), (1, 13)], [(7, 2), (7, 3)],
    [(1, 12), (1, 13)], [(7, 2), (7, 3)], [(0, 14), (0, 15), (1, 10), (1, 11), (3, 4), (3, 5)], [(5, 10), (5, 11), (7, 4), (7, 5), (8, 0), (8, 1)],
    [(3, 8), (3, 9)], [(5, 6), (5, 7)], [(1, 14), (1, 15), (2, 10), (2, 11), (5, 0), (5, 1)], [(3, 14), (3, 15), (6, 4), (6, 5), (7, 0), (7, 1)]]
  U := 432
  F := 144
  starts := [(4, 4), (4, 5), (5, 0), (5, 1)]
  finals := [(4, 1), (4, 15), (7, 4), (7, 10)]

def b7Tab : Tab := ⟨b7Env, [([0, 0], [0, 2]), ([0, 1], [1, 0])], [b7Enum0, b7Enum1]⟩

theorem b7_ok : b7Tab.Ok 2 2 2 2 := Fast.ok_sound (by decide +kernel)

def b7Tree0 : CT :=
  .node .nil 196429918 .nil

def b7Tree1 : CT :=
  .node (.node (.node .nil 207938996 .nil) 208700900 .nil) 244310767 (.node .nil 244557871 .nil)

def b7Pairs0 : List (List ℕ) := [
  [196429918, 207938996], [196429918, 208700900], [196429918, 244310767], [196429918, 244557871]]

theorem b7_pairs : (b7Tree0.toList.all fun P => b7Tree1.toList.all fun Q => (b7Pairs0).contains [P, Q]) = true := Fast.pairs_sound (by decide +kernel)

theorem b7_paths0 : ∀ P ∈ b7Enum0.all 4, P ∈ b7Tree0.toList :=
  b7Enum0.allF_sound 4 b7Tree0 (by decide +kernel)

theorem b7_paths1 : ∀ P ∈ b7Enum1.all 4, P ∈ b7Tree1.toList :=
  b7Enum1.allF_sound 4 b7Tree1 (by decide +kernel)

def b7_l1_0 : List ℕ := [
  0, 4, 36897992022998253573, 8, 14167964175334104891913, 1813499986382460150808581, 4, 8, 36897992025145802757, 4722942978943776457229, 8,
  110687220119797694469, 1813499986382735037038597, 4, 0, 36897992022998253573, 8, 36897992025145802757, 4722942978943776457229, 8, 0,
  14167964175334104891913, 110687220119797694469, 0, 1813499986382460150808581, 1813499986382735037038597, 4, 0, 36897992022998253573, 8,
  36897992025145802757, 4722942978943776457229, 8, 0, 14167964175334104891913, 110687220119797694469, 0, 1813499986382460150808581,
  1813499986382735037038597, 0, 4, 36897992022998253573, 8, 14167964175334104891913, 1813499986382460150808581, 4, 8, 36897992025145802757,
  4722942978943776457229, 8, 110687220119797694469, 1813499986382735037038597]

theorem b7_l1_run0 : run .l1 2 9 1 b7Env [] b7_l1_0 (b7Pairs0.map fun ps => ⟨ps, []⟩) = true := Run.run_many (by decide +kernel)

def b7_l2_0 : List ℕ := [
  4, 8, 20, 24, 110687220806992461849, 36897992712340570137, 24, 110687220804844912665, 36897992710193020953, 12, 604536703609515066524689,
  9904729351942815769006573581, 8, 0, 29712374442551799739156922889, 1813499416659789988496389, 20, 24, 1813499986470695967260697,
  604537561598295525163033, 24, 1813499986470421081030681, 604537561598020638933017, 4, 8, 20, 16, 110687220667405959189, 110687220669553508373, 16,
  36897992572754067477, 36897992574901616661, 12, 604536703609515066524689, 9904729351942815769006573581, 8, 0, 29712374442551799739156922889,
  1813499416659789988496389, 16, 20, 1813499986452828894986261, 604537561580428452888597, 20, 1813499986453103781216277, 604537561580703339118613, 4,
  20, 8, 16, 110687220667405959189, 36897992572754067477, 12, 604536703609515066524689, 9904729351942815769006573581, 8, 16, 36897992572754067477,
  110687220667405959189, 12, 604536703609515066524689, 9904729351942815769006573581, 8, 0, 29712374442551799739156922889, 1813499416659789988496389,
  16, 20, 1813499986452828894986261, 604537561580428452888597, 20, 604537561580428452888597, 1813499986452828894986261, 4, 8, 20, 24,
  110687220806992461849, 36897992712340570137, 24, 110687220804844912665, 36897992710193020953, 12, 604536703609515066524689,
  9904729351942815769006573581, 8, 0, 29712374442551799739156922889, 1813499416659789988496389, 20, 24, 1813499986470695967260697,
  604537561598295525163033, 24, 1813499986470421081030681, 604537561598020638933017]

theorem b7_l2_run0 : run .l2 2 6 1 b7Env [] b7_l2_0 (b7Pairs0.map fun ps => ⟨ps, []⟩) = true := Run.run_many (by decide +kernel)

def b7_linf_0 : List ℕ := [
  4, 8, 20, 24, 110687220806992461849, 36897992712340570137, 24, 110687220804844912665, 36897992710193020953, 12, 604536703609515066524689,
  9904729351942815769006573581, 8, 0, 29712374442551799739156922889, 1813499416659789988496389, 20, 24, 1813499986470695967260697,
  604537561598295525163033, 24, 1813499986470421081030681, 604537561598020638933017, 4, 8, 24, 20, 110687220806992461849, 110687220804844912665, 20,
  36897992712340570137, 36897992710193020953, 12, 604536703609515066524689, 9904729351942815769006573581, 8, 0, 29712374442551799739156922889,
  1813499416659789988496389, 20, 24, 1813499986470695967260697, 604537561598295525163033, 24, 1813499986470421081030681, 604537561598020638933017, 8,
  4, 20, 16, 36897992574901616661, 36897992572754067477, 16, 110687220669553508373, 110687220667405959189, 0, 29712374442551799739156922889,
  1813499416659789988496389, 4, 12, 604536703609515066524689, 9904729351942815769006573581, 16, 20, 604537561580703339118613,
  1813499986453103781216277, 20, 604537561580428452888597, 1813499986452828894986261, 4, 8, 20, 24, 110687220806992461849, 36897992712340570137, 24,
  110687220804844912665, 36897992710193020953, 12, 604536703609515066524689, 9904729351942815769006573581, 8, 0, 29712374442551799739156922889,
  1813499416659789988496389, 20, 24, 1813499986470695967260697, 604537561598295525163033, 24, 1813499986470421081030681, 604537561598020638933017]

theorem b7_linf_run0 : run .linf 2 6 1 b7Env [] b7_linf_0 (b7Pairs0.map fun ps => ⟨ps, []⟩) = true := Run.run_many (by decide +kernel)

theorem b7_l1 : b7Tab.Refuted .l1 2 9 1 4 :=
  Tab.refuted_two (T := b7Tab) rfl b7_paths0 b7_paths1 b7_pairs (part2 b7_l1_run0)

theorem b7_l2 : b7Tab.Refuted .l2 2 6 1 4 :=
  Tab.refuted_two (T := b7Tab) rfl b7_paths0 b7_paths1 b7_pairs (part2 b7_l2_run0)

theorem b7_linf : b7Tab.Refuted .linf 2 6 1 4 :=
  Tab.refuted_two (T := b7Tab) rfl b7_paths0 b7_paths1 b7_pairs (part2 b7_linf_run0)

/-- Table of links and of their specs. -/
def b8Env : Env where
  N := 2
  G := 4
  m := 2
  S := 2
  W := 3
  B := 108
  L := 12
  links := [([0, 0], [0, 2]), ([0, 0], [2, 0]), ([0, 1], [2, 1]), ([0, 2], [0, 0]), ([0, 2], [2, 2]), ([1, 0], [1, 2]), ([1, 2], [1, 0]), ([2, 0], [0, 0]), ([2, 0], [2, 2]), ([2, 1], [0, 1]), ([2, 2], [0, 2]), ([2, 2], [2, 0])]
  doms := [
    [⟨[(0, false), (1, false)], false, 0⟩, ⟨[(0, false), (1, true)], true, 0⟩],
    [⟨[(1, false), (0, false)], false, 0⟩, ⟨[(1, true), (0, false)], true, 0⟩],
    [⟨[(0, false), (1, false)], false, 1⟩, ⟨[(0, true), (1, false)], true, 1⟩, ⟨[(0, false), (1, true)], false, 1⟩, ⟨[(0, true), (1, true)], true, 1⟩],
    [⟨[(0, false), (1, false)], true, 0⟩, ⟨[(0, false), (1, true)], false, 0⟩],
    [⟨[(1, false), (0, true)], false, 0⟩, ⟨[(1, true), (0, true)], true, 0⟩],
    [⟨[(1, false), (0, false)], false, 1⟩, ⟨[(1, true), (0, false)], false, 1⟩, ⟨[(1, false), (0, true)], true, 1⟩, ⟨[(1, true), (0, true)], true, 1⟩],
    [⟨[(1, false), (0, false)], true, 1⟩, ⟨[(1, true), (0, false)], true, 1⟩, ⟨[(1, false), (0, true)], false, 1⟩, ⟨[(1, true), (0, true)], false, 1⟩],
    [⟨[(1, false), (0, false)], true, 0⟩, ⟨[(1, true), (0, false)], false, 0⟩],
    [⟨[(0, true), (1, false)], false, 0⟩, ⟨[(0, true), (1, true)], true, 0⟩],
    [⟨[(0, false), (1, false)], true, 1⟩, ⟨[(0, true), (1, false)], false, 1⟩, ⟨[(0, false), (1, true)], true, 1⟩, ⟨[(0, true), (1, true)], false, 1⟩],
    [⟨[(1, false), (0, true)], true, 0⟩, ⟨[(1, true), (0, true)], false, 0⟩], [⟨[(0, true), (1, false)], true, 0⟩, ⟨[(0, true), (1, true)], false, 0⟩]]

/-- Data of the search of paths. -/
def b8Enum0 : Enum where
  L := 12
  B := 108
  ones := 4
  offs := [1, 2, 3, 4]
  trans := [
    [(1, 10), (1, 11), (2, 7), (2, 8), (5, 0), (5, 1)], [(3, 10), (3, 11), (6, 3), (6, 4), (7, 0), (7, 1)], [(7, 2)],
    [(0, 10), (0, 11), (1, 7), (1, 8), (3, 3), (3, 4)], [(5, 7), (5, 8), (7, 3), (7, 4), (8, 0), (8, 1)], [(5, 5)], [(3, 6)],
    [(0, 10), (0, 11), (1, 7), (1, 8), (3, 3), (3, 4)], [(5, 7), (5, 8), (7, 3), (7, 4), (8, 0), (8, 1)], [(1, 9)],
    [(1, 10), (1, 11), (2, 7), (2, 8), (5, 0), (5, 1)], [(3, 10), (3, 11), (6, 3), (6, 4), (7, 0), (7, 1)]]
  U := 432
  F := 32
  starts := [(4, 0), (4, 1)]
  finals := [(5, 0), (5, 10)]

/-- Data of the search of paths. -/
def b8Enum1 : Enum where
  L := 12
  B := 108
  ones := 4
  offs := [1, 2, 3, 4]
  trans := [
    [(1, 10), (1, 11), (2, 7), (2, 8), (5, 0), (5, 1)], [(3, 10), (3, 11), (6, 3), (6, 4), (7, 0), (7, 1)], [(7, 2)],
    [(0, 10), (0, 11), (1, 7), (1, 8), (3, 3), (3, 4)], [(5, 7), (5, 8), (7, 3), (7, 4), (8, 0), (8, 1)], [(5, 5)], [(3, 6)],
    [(0, 10), (0, 11), (1, 7), (1, 8), (3, 3), (3, 4)], [(5, 7), (5, 8), (7, 3), (7, 4), (8, 0), (8, 1)], [(1, 9)],
    [(1, 10), (1, 11), (2, 7), (2, 8), (5, 0), (5, 1)], [(3, 10), (3, 11), (6, 3), (6, 4), (7, 0), (7, 1)]]
  U := 432
  F := 384
  starts := [(4, 3), (4, 4), (5, 0), (5, 1)]
  finals := [(7, 4), (7, 8), (8, 1), (8, 11)]

def b8Tab : Tab := ⟨b8Env, [([0, 0], [0, 2]), ([0, 1], [2, 1])], [b8Enum0, b8Enum1]⟩

theorem b8_ok : b8Tab.Ok 2 2 2 2 := Fast.ok_sound (by decide +kernel)

def b8Tree0 : CT :=
  .node .nil 62716102 .nil

def b8Tree1 : CT :=
  .node (.node (.node .nil 66308956 .nil) 66632524 .nil) 77539777 (.node .nil 77863345 .nil)

def b8Pairs0 : List (List ℕ) := [
  [62716102, 66308956], [62716102, 66632524], [62716102, 77539777], [62716102, 77863345]]

theorem b8_pairs : (b8Tree0.toList.all fun P => b8Tree1.toList.all fun Q => (b8Pairs0).contains [P, Q]) = true := Fast.pairs_sound (by decide +kernel)

theorem b8_paths0 : ∀ P ∈ b8Enum0.all 4, P ∈ b8Tree0.toList :=
  b8Enum0.allF_sound 4 b8Tree0 (by decide +kernel)

theorem b8_paths1 : ∀ P ∈ b8Enum1.all 4, P ∈ b8Tree1.toList :=
  b8Enum1.allF_sound 4 b8Tree1 (by decide +kernel)

def b8_l1_0 : List ℕ := [
  0, 4, 36897992022998253573, 8, 14167964175334104891913, 1813499986382460150808581, 4, 8, 36897992025145802757, 4722942978943776457229, 8,
  110687220119797694469, 1813499986382735037038597, 8, 4, 0, 36897992022998253573, 36897992025145802757, 0, 14167964175334104891913,
  110687220119797694469, 4, 0, 36897992022998253573, 4722942978943776457229, 0, 1813499986382460150808581, 1813499986382735037038597, 0, 4,
  36897992022998253573, 8, 14167964175334104891913, 1813499986382460150808581, 8, 4, 36897992025145802757, 110687220119797694469, 4,
  4722942978943776457229, 1813499986382735037038597, 4, 0, 36897992022998253573, 8, 36897992025145802757, 4722942978943776457229, 8, 0,
  14167964175334104891913, 110687220119797694469, 0, 1813499986382460150808581, 1813499986382735037038597]

theorem b8_l1_run0 : run .l1 2 9 1 b8Env [] b8_l1_0 (b8Pairs0.map fun ps => ⟨ps, []⟩) = true := Run.run_many (by decide +kernel)

def b8_l2_0 : List ℕ := [
  4, 8, 20, 24, 110687220806992461849, 36897992712340570137, 24, 110687220804844912665, 36897992710193020953, 12, 604536703609515066524689,
  9904729351942815769006573581, 8, 0, 29712374442551799739156922889, 1813499416659789988496389, 20, 24, 1813499986470695967260697,
  604537561598295525163033, 24, 1813499986470421081030681, 604537561598020638933017, 4, 8, 20, 16, 110687220667405959189, 110687220669553508373, 16,
  36897992572754067477, 36897992574901616661, 12, 604536703609515066524689, 9904729351942815769006573581, 8, 0, 29712374442551799739156922889,
  1813499416659789988496389, 16, 20, 1813499986452828894986261, 604537561580428452888597, 20, 1813499986453103781216277, 604537561580703339118613, 4,
  8, 20, 24, 36897992710193020953, 110687220804844912665, 24, 36897992712340570137, 110687220806992461849, 12, 604536703609515066524689,
  9904729351942815769006573581, 8, 0, 29712374442551799739156922889, 1813499416659789988496389, 20, 24, 604537561598020638933017,
  1813499986470421081030681, 24, 604537561598295525163033, 1813499986470695967260697, 4, 8, 20, 16, 36897992572754067477, 36897992574901616661, 16,
  110687220667405959189, 110687220669553508373, 12, 604536703609515066524689, 9904729351942815769006573581, 8, 0, 29712374442551799739156922889,
  1813499416659789988496389, 16, 20, 604537561580428452888597, 1813499986452828894986261, 20, 604537561580703339118613, 1813499986453103781216277]

theorem b8_l2_run0 : run .l2 2 6 1 b8Env [] b8_l2_0 (b8Pairs0.map fun ps => ⟨ps, []⟩) = true := Run.run_many (by decide +kernel)

def b8_linf_0 : List ℕ := [
  4, 8, 20, 24, 110687220806992461849, 36897992712340570137, 24, 110687220804844912665, 36897992710193020953, 12, 604536703609515066524689,
  9904729351942815769006573581, 8, 0, 29712374442551799739156922889, 1813499416659789988496389, 20, 24, 1813499986470695967260697,
  604537561598295525163033, 24, 1813499986470421081030681, 604537561598020638933017, 4, 8, 20, 24, 110687220806992461849, 36897992712340570137, 24,
  110687220804844912665, 36897992710193020953, 12, 604536703609515066524689, 9904729351942815769006573581, 8, 0, 29712374442551799739156922889,
  1813499416659789988496389, 20, 24, 1813499986470695967260697, 604537561598295525163033, 24, 1813499986470421081030681, 604537561598020638933017, 4,
  8, 20, 24, 36897992710193020953, 110687220804844912665, 24, 36897992712340570137, 110687220806992461849, 12, 604536703609515066524689,
  9904729351942815769006573581, 8, 0, 29712374442551799739156922889, 1813499416659789988496389, 20, 24, 604537561598020638933017,
  1813499986470421081030681, 24, 604537561598295525163033, 1813499986470695967260697, 4, 8, 20, 24, 36897992710193020953, 110687220804844912665, 24,
  36897992712340570137, 110687220806992461849, 12, 604536703609515066524689, 9904729351942815769006573581, 8, 0, 29712374442551799739156922889,
  1813499416659789988496389, 20, 24, 604537561598020638933017, 1813499986470421081030681, 24, 604537561598295525163033, 1813499986470695967260697]

theorem b8_linf_run0 : run .linf 2 6 1 b8Env [] b8_linf_0 (b8Pairs0.map fun ps => ⟨ps, []⟩) = true := Run.run_many (by decide +kernel)

theorem b8_l1 : b8Tab.Refuted .l1 2 9 1 4 :=
  Tab.refuted_two (T := b8Tab) rfl b8_paths0 b8_paths1 b8_pairs (part2 b8_l1_run0)

theorem b8_l2 : b8Tab.Refuted .l2 2 6 1 4 :=
  Tab.refuted_two (T := b8Tab) rfl b8_paths0 b8_paths1 b8_pairs (part2 b8_l2_run0)

theorem b8_linf : b8Tab.Refuted .linf 2 6 1 4 :=
  Tab.refuted_two (T := b8Tab) rfl b8_paths0 b8_paths1 b8_pairs (part2 b8_linf_run0)

/-- Table of links and of their specs. -/
def b9Env : Env where
  N := 2
  G := 4
  m := 2
  S := 3
  W := 3
  B := 216
  L := 24
  links := [([0, 1], [1, 3]), ([0, 1], [2, 0]), ([0, 1], [3, 1]), ([0, 2], [1, 0]), ([0, 2], [2, 3]), ([0, 2], [3, 2]), ([1, 0], [0, 2]), ([1, 0], [1, 3]), ([1, 0], [3, 1]), ([1, 3], [0, 1]), ([1, 3], [1, 0]), ([1, 3], [3, 2]), ([2, 0], [0, 1]), ([2, 0], [2, 3]), ([2, 0], [3, 2]), ([2, 3], [0, 2]), ([2, 3], [2, 0]), ([2, 3], [3, 1]), ([3, 1], [0, 1]), ([3, 1], [1, 0]), ([3, 1], [2, 3]), ([3, 2], [0, 2]), ([3, 2], [1, 3]), ([3, 2], [2, 0])]
  doms := [
    [⟨[(0, false), (1, false)], false, 0⟩], [⟨[(1, true), (0, false)], true, 0⟩],
    [⟨[(0, false), (1, false)], false, 1⟩, ⟨[(0, true), (1, false)], true, 1⟩], [⟨[(0, false), (1, true)], false, 0⟩],
    [⟨[(1, true), (0, true)], true, 0⟩], [⟨[(0, false), (1, true)], false, 1⟩, ⟨[(0, true), (1, true)], true, 1⟩],
    [⟨[(0, false), (1, true)], true, 0⟩], [⟨[(1, false), (0, false)], false, 1⟩, ⟨[(1, false), (0, true)], true, 1⟩],
    [⟨[(1, false), (0, false)], false, 0⟩], [⟨[(0, false), (1, false)], true, 0⟩],
    [⟨[(1, false), (0, false)], true, 1⟩, ⟨[(1, false), (0, true)], false, 1⟩], [⟨[(1, false), (0, true)], false, 0⟩],
    [⟨[(1, true), (0, false)], false, 0⟩], [⟨[(1, true), (0, false)], false, 1⟩, ⟨[(1, true), (0, true)], true, 1⟩],
    [⟨[(0, true), (1, true)], true, 0⟩], [⟨[(1, true), (0, true)], false, 0⟩],
    [⟨[(1, true), (0, false)], true, 1⟩, ⟨[(1, true), (0, true)], false, 1⟩], [⟨[(0, true), (1, false)], true, 0⟩],
    [⟨[(0, false), (1, false)], true, 1⟩, ⟨[(0, true), (1, false)], false, 1⟩], [⟨[(1, false), (0, false)], true, 0⟩],
    [⟨[(0, true), (1, false)], false, 0⟩], [⟨[(0, false), (1, true)], true, 1⟩, ⟨[(0, true), (1, true)], false, 1⟩],
    [⟨[(1, false), (0, true)], true, 0⟩], [⟨[(0, true), (1, true)], false, 0⟩]]

/-- Data of the search of paths. -/
def b9Enum0 : Enum where
  L := 24
  B := 216
  ones := 4
  offs := [1, 2, 3, 4]
  trans := [
    [(5, 6), (5, 7), (5, 8)], [(3, 15), (3, 16), (3, 17)], [(7, 0), (7, 1), (7, 2)], [(3, 9), (3, 10), (3, 11)], [(5, 12), (5, 13), (5, 14)],
    [(7, 3), (7, 4), (7, 5)], [(1, 21), (1, 22), (1, 23)], [(5, 6), (5, 7), (5, 8)], [(7, 0), (7, 1), (7, 2)], [(1, 18), (1, 19), (1, 20)],
    [(3, 9), (3, 10), (3, 11)], [(7, 3), (7, 4), (7, 5)], [(1, 18), (1, 19), (1, 20)], [(5, 12), (5, 13), (5, 14)], [(7, 3), (7, 4), (7, 5)],
    [(1, 21), (1, 22), (1, 23)], [(3, 15), (3, 16), (3, 17)], [(7, 0), (7, 1), (7, 2)], [(1, 18), (1, 19), (1, 20)], [(3, 9), (3, 10), (3, 11)],
    [(5, 12), (5, 13), (5, 14)], [(1, 21), (1, 22), (1, 23)], [(5, 6), (5, 7), (5, 8)], [(3, 15), (3, 16), (3, 17)]]
  U := 432
  F := 32
  starts := [(4, 3), (4, 4), (4, 5)]
  finals := [(5, 4), (5, 13), (5, 20)]

/-- Data of the search of paths. -/
def b9Enum1 : Enum where
  L := 24
  B := 216
  ones := 4
  offs := [1, 2, 3, 4]
  trans := [
    [(5, 6), (5, 7), (5, 8)], [(3, 15), (3, 16), (3, 17)], [(7, 0), (7, 1), (7, 2)], [(3, 9), (3, 10), (3, 11)], [(5, 12), (5, 13), (5, 14)],
    [(7, 3), (7, 4), (7, 5)], [(1, 21), (1, 22), (1, 23)], [(5, 6), (5, 7), (5, 8)], [(7, 0), (7, 1), (7, 2)], [(1, 18), (1, 19), (1, 20)],
    [(3, 9), (3, 10), (3, 11)], [(7, 3), (7, 4), (7, 5)], [(1, 18), (1, 19), (1, 20)], [(5, 12), (5, 13), (5, 14)], [(7, 3), (7, 4), (7, 5)],
    [(1, 21), (1, 22), (1, 23)], [(3, 15), (3, 16), (3, 17)], [(7, 0), (7, 1), (7, 2)], [(1, 18), (1, 19), (1, 20)], [(3, 9), (3, 10), (3, 11)],
    [(5, 12), (5, 13), (5, 14)], [(1, 21), (1, 22), (1, 23)], [(5, 6), (5, 7), (5, 8)], [(3, 15), (3, 16), (3, 17)]]
  U := 432
  F := 128
  starts := [(4, 3), (4, 4), (4, 5)]
  finals := [(7, 5), (7, 11), (7, 14)]

def b9Tab : Tab := ⟨b9Env, [([0, 1], [1, 3]), ([0, 1], [3, 1])], [b9Enum0, b9Enum1]⟩

theorem b9_ok : b9Tab.Ok 2 2 2 2 := Fast.ok_sound (by decide +kernel)

def b9Tree0 : CT :=
  .node .nil 1025916332 .nil

def b9Tree1 : CT :=
  .node .nil 1014063803 .nil

def b9Pairs0 : List (List ℕ) := [
  [1025916332, 1014063803]]

theorem b9_pairs : (b9Tree0.toList.all fun P => b9Tree1.toList.all fun Q => (b9Pairs0).contains [P, Q]) = true := Fast.pairs_sound (by decide +kernel)

theorem b9_paths0 : ∀ P ∈ b9Enum0.all 4, P ∈ b9Tree0.toList :=
  b9Enum0.allF_sound 4 b9Tree0 (by decide +kernel)

theorem b9_paths1 : ∀ P ∈ b9Enum1.all 4, P ∈ b9Tree1.toList :=
  b9Enum1.allF_sound 4 b9Tree1 (by decide +kernel)

def b9_l1_0 : List ℕ := [
  4, 8, 4722942996811897503753]

theorem b9_l1_run0 : run .l1 2 9 1 b9Env [] b9_l1_0 (b9Pairs0.map fun ps => ⟨ps, []⟩) = true := Run.run_many (by decide +kernel)

def b9_l2_0 : List ℕ := [
  4, 8, 36897992160437207049]

theorem b9_l2_run0 : run .l2 2 5 1 b9Env [] b9_l2_0 (b9Pairs0.map fun ps => ⟨ps, []⟩) = true := Run.run_many (by decide +kernel)

def b9_linf_0 : List ℕ := [
  4, 8, 36897992160437207049]

theorem b9_linf_run0 : run .linf 2 5 1 b9Env [] b9_linf_0 (b9Pairs0.map fun ps => ⟨ps, []⟩) = true := Run.run_many (by decide +kernel)

theorem b9_l1 : b9Tab.Refuted .l1 2 9 1 4 :=
  Tab.refuted_two (T := b9Tab) rfl b9_paths0 b9_paths1 b9_pairs (part2 b9_l1_run0)

theorem b9_l2 : b9Tab.Refuted .l2 2 5 1 4 :=
  Tab.refuted_two (T := b9Tab) rfl b9_paths0 b9_paths1 b9_pairs (part2 b9_l2_run0)

theorem b9_linf : b9Tab.Refuted .linf 2 5 1 4 :=
  Tab.refuted_two (T := b9Tab) rfl b9_paths0 b9_paths1 b9_pairs (part2 b9_linf_run0)

end MinCert
end Peano
