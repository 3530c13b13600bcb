import Verif.Lemmas.MinRun
import Verif.Lemmas.MinPairs

set_option autoImplicit false

/-
Two patterns, grid 3: no curve has less dilation.  This file is generated.
-/
namespace Peano
namespace MinCert

/-- Table of links and of their specs. -/
def c12Env : Env where
  N := 3
  G := 9
  m := 2
  S := 4
  W := 4
  B := 384
  L := 24
  links := [([0, 1], [1, 4]), ([0, 1], [3, 0]), ([0, 1], [4, 1]), ([0, 3], [1, 0]), ([0, 3], [3, 4]), ([0, 3], [4, 3]), ([1, 0], [0, 3]), ([1, 0], [1, 4]), ([1, 0], [4, 1]), ([1, 4], [0, 1]), ([1, 4], [1, 0]), ([1, 4], [4, 3]), ([3, 0], [0, 1]), ([3, 0], [3, 4]), ([3, 0], [4, 3]), ([3, 4], [0, 3]), ([3, 4], [3, 0]), ([3, 4], [4, 1]), ([4, 1], [0, 1]), ([4, 1], [1, 0]), ([4, 1], [3, 4]), ([4, 3], [0, 3]), ([4, 3], [1, 4]), ([4, 3], [3, 0])]
  doms := [
    [⟨[(0, false), (1, false)], false, 0⟩], [⟨[(1, true), (0, false)], true, 0⟩],
    [⟨[(0, false), (1, false)], false, 1⟩, ⟨[(0, true), (1, false)], true, 1⟩], [⟨[(0, false), (1, true)], false, 0⟩],
    [⟨[(1, true), (0, true)], true, 0⟩], [⟨[(0, false), (1, true)], false, 1⟩, ⟨[(0, true), (1, true)], true, 1⟩],
    [⟨[(0, false), (1, true)], true, 0⟩], [⟨[(1, false), (0, false)], false, 1⟩, ⟨[(1, false), (0, true)], true, 1⟩],
    [⟨[(1, false), (0, false)], false, 0⟩], [⟨[(0, false), (1, false)], true, 0⟩],
    [⟨[(1, false), (0, false)], true, 1⟩, ⟨[(1, false), (0, true)], false, 1⟩], [⟨[(1, false), (0, true)], false, 0⟩],
    [⟨[(1, true), (0, false)], false, 0⟩], [⟨[(1, true), (0, false)], false, 1⟩, ⟨[(1, true), (0, true)], true, 1⟩],
    [⟨[(0, true), (1, true)], true, 0⟩], [⟨[(1, true), (0, true)], false, 0⟩],
    [⟨[(1, true), (0, false)], true, 1⟩, ⟨[(1, true), (0, true)], false, 1⟩], [⟨[(0, true), (1, false)], true, 0⟩],
    [⟨[(0, false), (1, false)], true, 1⟩, ⟨[(0, true), (1, false)], false, 1⟩], [⟨[(1, false), (0, false)], true, 0⟩],
    [⟨[(0, true), (1, false)], false, 0⟩], [⟨[(0, false), (1, true)], true, 1⟩, ⟨[(0, true), (1, true)], false, 1⟩],
    [⟨[(1, false), (0, true)], true, 0⟩], [⟨[(0, true), (1, true)], false, 0⟩]]

/-- Data of the search of paths. -/
def c12Enum0 : Enum where
  L := 24
  B := 384
  ones := 5
  offs := [1, 3, 4, 5]
  trans := [
    [(6, 6), (6, 7), (6, 8)], [(4, 15), (4, 16), (4, 17)], [(9, 0), (9, 1), (9, 2)], [(4, 9), (4, 10), (4, 11)], [(6, 12), (6, 13), (6, 14)],
    [(9, 3), (9, 4), (9, 5)], [(1, 21), (1, 22), (1, 23)], [(6, 6), (6, 7), (6, 8)], [(9, 0), (9, 1), (9, 2)], [(1, 18), (1, 19), (1, 20)],
    [(4, 9), (4, 10), (4, 11)], [(9, 3), (9, 4), (9, 5)], [(1, 18), (1, 19), (1, 20)], [(6, 12), (6, 13), (6, 14)], [(9, 3), (9, 4), (9, 5)],
    [(1, 21), (1, 22), (1, 23)], [(4, 15), (4, 16), (4, 17)], [(9, 0), (9, 1), (9, 2)], [(1, 18), (1, 19), (1, 20)], [(4, 9), (4, 10), (4, 11)],
    [(6, 12), (6, 13), (6, 14)], [(1, 21), (1, 22), (1, 23)], [(6, 6), (6, 7), (6, 8)], [(4, 15), (4, 16), (4, 17)]]
  U := 61152
  F := 128
  starts := [(5, 3), (5, 4), (5, 5)]
  finals := [(7, 4), (7, 13), (7, 20)]

/-- Data of the search of paths. -/
def c12Enum1 : Enum where
  L := 24
  B := 384
  ones := 5
  offs := [1, 3, 4, 5]
  trans := [
    [(6, 6), (6, 7), (6, 8)], [(4, 15), (4, 16), (4, 17)], [(9, 0), (9, 1), (9, 2)], [(4, 9), (4, 10), (4, 11)], [(6, 12), (6, 13), (6, 14)],
    [(9, 3), (9, 4), (9, 5)], [(1, 21), (1, 22), (1, 23)], [(6, 6), (6, 7), (6, 8)], [(9, 0), (9, 1), (9, 2)], [(1, 18), (1, 19), (1, 20)],
    [(4, 9), (4, 10), (4, 11)], [(9, 3), (9, 4), (9, 5)], [(1, 18), (1, 19), (1, 20)], [(6, 12), (6, 13), (6, 14)], [(9, 3), (9, 4), (9, 5)],
    [(1, 21), (1, 22), (1, 23)], [(4, 15), (4, 16), (4, 17)], [(9, 0), (9, 1), (9, 2)], [(1, 18), (1, 19), (1, 20)], [(4, 9), (4, 10), (4, 11)],
    [(6, 12), (6, 13), (6, 14)], [(1, 21), (1, 22), (1, 23)], [(6, 6), (6, 7), (6, 8)], [(4, 15), (4, 16), (4, 17)]]
  U := 61152
  F := 8192
  starts := [(5, 3), (5, 4), (5, 5)]
  finals := [(13, 5), (13, 11), (13, 14)]

def c12Tab : Tab := ⟨c12Env, [([0, 1], [1, 4]), ([0, 1], [4, 1])], [c12Enum0, c12Enum1]⟩

theorem c12_ok : c12Tab.Ok 2 3 2 2 := Fast.ok_sound (by decide +kernel)

def c12Tree0 : CT :=
  .node (.node .nil 58818770543431245014972 .nil) 59369339296130284992181 .nil

def c12Tree1 : CT :=
  .node (.node .nil 58817344146849990710717 .nil) 59367901380550094669891 .nil

def c12Pairs0 : List (List ℕ) := [
  [58818770543431245014972, 58817344146849990710717], [58818770543431245014972, 59367901380550094669891],
  [59369339296130284992181, 58817344146849990710717], [59369339296130284992181, 59367901380550094669891]]

theorem c12_pairs : (c12Tree0.toList.all fun P => c12Tree1.toList.all fun Q => (c12Pairs0).contains [P, Q]) = true := Fast.pairs_sound (by decide +kernel)

theorem c12_paths0 : ∀ P ∈ c12Enum0.all 9, P ∈ c12Tree0.toList :=
  c12Enum0.allF_sound 9 c12Tree0 (by decide +kernel)

theorem c12_paths1 : ∀ P ∈ c12Enum1.all 9, P ∈ c12Tree1.toList :=
  c12Enum1.allF_sound 9 c12Tree1 (by decide +kernel)

def c12_l1_0 : List ℕ := [
  16, 64, 68, 0, 20, 24, 9906542887386002776838775877, 9906542855419452621762920981, 604647418079652972864021, 16, 40, 36, 0, 20,
  9906542853100098813667115541, 24, 9906542887386002776838771757, 604647402105948044530733, 8, 52, 12, 4723231246292063813645, 16,
  4723231262096494692409, 8, 12, 16, 52, 4723231262096494692409, 52, 4723231246292063813645]

theorem c12_l1_run0 : run .l1 2 32 3 c12Env [] c12_l1_0 (c12Pairs0.map fun ps => ⟨ps, []⟩) = true := Run.run_many (by decide +kernel)

def c12_l2_0 : List ℕ := [
  16, 64, 68, 0, 20, 24, 9906542887386002776838775877, 9906542855419452621762920981, 604647418079652972864021, 16, 40, 36, 0, 20,
  9906542853100098813667115541, 24, 9906542887386002776838771757, 604647402105948044530733, 8, 24, 28, 36900244647445725213, 8, 24, 28,
  36900244647445725213]

theorem c12_l2_run0 : run .l2 2 17 3 c12Env [] c12_l2_0 (c12Pairs0.map fun ps => ⟨ps, []⟩) = true := Run.run_many (by decide +kernel)

def c12_linf_0 : List ℕ := [
  16, 24, 36904748109634273301, 16, 24, 36904748109634273301, 8, 16, 36900244235128864781, 8, 16, 36900244235128864781]

theorem c12_linf_run0 : run .linf 2 9 2 c12Env [] c12_linf_0 (c12Pairs0.map fun ps => ⟨ps, []⟩) = true := Run.run_many (by decide +kernel)

theorem c12_l1 : c12Tab.Refuted .l1 2 32 3 9 :=
  Tab.refuted_two (T := c12Tab) rfl c12_paths0 c12_paths1 c12_pairs (part2 c12_l1_run0)

theorem c12_l2 : c12Tab.Refuted .l2 2 17 3 9 :=
  Tab.refuted_two (T := c12Tab) rfl c12_paths0 c12_paths1 c12_pairs (part2 c12_l2_run0)

theorem c12_linf : c12Tab.Refuted .linf 2 9 2 9 :=
  Tab.refuted_two (T := c12Tab) rfl c12_paths0 c12_paths1 c12_pairs (part2 c12_linf_run0)

/-- Table of links and of their specs. -/
def c13Env : Env where
  N := 3
  G := 9
  m := 2
  S := 4
  W := 4
  B := 384
  L := 24
  links := [([0, 1], [1, 4]), ([0, 1], [3, 0]), ([0, 1], [4, 3]), ([0, 3], [1, 0]), ([0, 3], [3, 4]), ([0, 3], [4, 1]), ([1, 0], [0, 3]), ([1, 0], [3, 4]), ([1, 0], [4, 1]), ([1, 4], [0, 1]), ([1, 4], [3, 0]), ([1, 4], [4, 3]), ([3, 0], [0, 1]), ([3, 0], [1, 4]), ([3, 0], [4, 3]), ([3, 4], [0, 3]), ([3, 4], [1, 0]), ([3, 4], [4, 1]), ([4, 1], [0, 3]), ([4, 1], [1, 0]), ([4, 1], [3, 4]), ([4, 3], [0, 1]), ([4, 3], [1, 4]), ([4, 3], [3, 0])]
  doms := [
    [⟨[(0, false), (1, false)], false, 0⟩], [⟨[(1, true), (0, false)], true, 0⟩],
    [⟨[(0, false), (1, false)], false, 1⟩, ⟨[(0, true), (1, true)], true, 1⟩], [⟨[(0, false), (1, true)], false, 0⟩],
    [⟨[(1, true), (0, true)], true, 0⟩], [⟨[(0, true), (1, false)], true, 1⟩, ⟨[(0, false), (1, true)], false, 1⟩],
    [⟨[(0, false), (1, true)], true, 0⟩], [⟨[(1, false), (0, false)], false, 1⟩, ⟨[(1, true), (0, true)], true, 1⟩],
    [⟨[(1, false), (0, false)], false, 0⟩], [⟨[(0, false), (1, false)], true, 0⟩],
    [⟨[(1, true), (0, false)], true, 1⟩, ⟨[(1, false), (0, true)], false, 1⟩], [⟨[(1, false), (0, true)], false, 0⟩],
    [⟨[(1, true), (0, false)], false, 0⟩], [⟨[(1, true), (0, false)], false, 1⟩, ⟨[(1, false), (0, true)], true, 1⟩],
    [⟨[(0, true), (1, true)], true, 0⟩], [⟨[(1, true), (0, true)], false, 0⟩],
    [⟨[(1, false), (0, false)], true, 1⟩, ⟨[(1, true), (0, true)], false, 1⟩], [⟨[(0, true), (1, false)], true, 0⟩],
    [⟨[(0, true), (1, false)], false, 1⟩, ⟨[(0, false), (1, true)], true, 1⟩], [⟨[(1, false), (0, false)], true, 0⟩],
    [⟨[(0, true), (1, false)], false, 0⟩], [⟨[(0, false), (1, false)], true, 1⟩, ⟨[(0, true), (1, true)], false, 1⟩],
    [⟨[(1, false), (0, true)], true, 0⟩], [⟨[(0, true), (1, true)], false, 0⟩]]

/-- Data of the search of paths. -/
def c13Enum0 : Enum where
  L := 24
  B := 384
  ones := 5
  offs := [1, 3, 4, 5]
  trans := [
    [(6, 6), (6, 7), (6, 8)], [(4, 15), (4, 16), (4, 17)], [(9, 3), (9, 4), (9, 5)], [(4, 9), (4, 10), (4, 11)], [(6, 12), (6, 13), (6, 14)],
    [(9, 0), (9, 1), (9, 2)], [(1, 21), (1, 22), (1, 23)], [(6, 12), (6, 13), (6, 14)], [(9, 0), (9, 1), (9, 2)], [(1, 18), (1, 19), (1, 20)],
    [(4, 15), (4, 16), (4, 17)], [(9, 3), (9, 4), (9, 5)], [(1, 18), (1, 19), (1, 20)], [(6, 6), (6, 7), (6, 8)], [(9, 3), (9, 4), (9, 5)],
    [(1, 21), (1, 22), (1, 23)], [(4, 9), (4, 10), (4, 11)], [(9, 0), (9, 1), (9, 2)], [(1, 21), (1, 22), (1, 23)], [(4, 9), (4, 10), (4, 11)],
    [(6, 12), (6, 13), (6, 14)], [(1, 18), (1, 19), (1, 20)], [(6, 6), (6, 7), (6, 8)], [(4, 15), (4, 16), (4, 17)]]
  U := 61152
  F := 128
  starts := [(5, 3), (5, 4), (5, 5)]
  finals := [(7, 4), (7, 7), (7, 20)]

/-- Data of the search of paths. -/
def c13Enum1 : Enum where
  L := 24
  B := 384
  ones := 5
  offs := [1, 3, 4, 5]
  trans := [
    [(6, 6), (6, 7), (6, 8)], [(4, 15), (4, 16), (4, 17)], [(9, 3), (9, 4), (9, 5)], [(4, 9), (4, 10), (4, 11)], [(6, 12), (6, 13), (6, 14)],
    [(9, 0), (9, 1), (9, 2)], [(1, 21), (1, 22), (1, 23)], [(6, 12), (6, 13), (6, 14)], [(9, 0), (9, 1), (9, 2)], [(1, 18), (1, 19), (1, 20)],
    [(4, 15), (4, 16), (4, 17)], [(9, 3), (9, 4), (9, 5)], [(1, 18), (1, 19), (1, 20)], [(6, 6), (6, 7), (6, 8)], [(9, 3), (9, 4), (9, 5)],
    [(1, 21), (1, 22), (1, 23)], [(4, 9), (4, 10), (4, 11)], [(9, 0), (9, 1), (9, 2)], [(1, 21), (1, 22), (1, 23)], [(4, 9), (4, 10), (4, 11)],
    [(6, 12), (6, 13), (6, 14)], [(1, 18), (1, 19), (1, 20)], [(6, 6), (6, 7), (6, 8)], [(4, 15), (4, 16), (4, 17)]]
  U := 61152
  F := 32768
  starts := [(5, 3), (5, 4), (5, 5)]
  finals := [(15, 5), (15, 8), (15, 17)]

def c13Tab : Tab := ⟨c13Env, [([0, 1], [1, 4]), ([0, 1], [4, 3])], [c13Enum0, c13Enum1]⟩

theorem c13_ok : c13Tab.Ok 2 3 2 2 := Fast.ok_sound (by decide +kernel)

def c13Tree0 : CT :=
  .node (.node .nil 58818770543431244131388 .nil) 59365645781355655510447 .nil

def c13Tree1 : CT :=
  .node (.node .nil 58817324874063682276592 .nil) 59365645770651102711917 .nil

def c13Pairs0 : List (List ℕ) := [
  [58818770543431244131388, 58817324874063682276592], [58818770543431244131388, 59365645770651102711917],
  [59365645781355655510447, 58817324874063682276592], [59365645781355655510447, 59365645770651102711917]]

theorem c13_pairs : (c13Tree0.toList.all fun P => c13Tree1.toList.all fun Q => (c13Pairs0).contains [P, Q]) = true := Fast.pairs_sound (by decide +kernel)

theorem c13_paths0 : ∀ P ∈ c13Enum0.all 9, P ∈ c13Tree0.toList :=
  c13Enum0.allF_sound 9 c13Tree0 (by decide +kernel)

theorem c13_paths1 : ∀ P ∈ c13Enum1.all 9, P ∈ c13Tree1.toList :=
  c13Enum1.allF_sound 9 c13Tree1 (by decide +kernel)

def c13_l1_0 : List ℕ := [
  0, 4, 16, 604647381839749721358853, 16, 0, 4, 604647381839749721358853, 8, 16, 20, 4723231280239485321237, 8, 16, 20, 4723231280239485321237]

theorem c13_l1_run0 : run .l1 2 49 5 c13Env [] c13_l1_0 (c13Pairs0.map fun ps => ⟨ps, []⟩) = true := Run.run_many (by decide +kernel)

def c13_l2_0 : List ℕ := [
  0, 4, 16, 36904747422439505925, 36, 40, 36893683311806780465, 36893683724123640881, 40, 36893683311806780477, 36893683724123640893, 8, 20,
  36900244372567818253, 8, 20, 36900244372567818253]

theorem c13_l2_run0 : run .l2 2 5 1 c13Env [] c13_l2_0 (c13Pairs0.map fun ps => ⟨ps, []⟩) = true := Run.run_many (by decide +kernel)

def c13_linf_0 : List ℕ := [
  16, 24, 36904748109634273301, 16, 24, 36904748109634273301, 8, 16, 36900244235128864781, 8, 16, 36900244235128864781]

theorem c13_linf_run0 : run .linf 2 9 2 c13Env [] c13_linf_0 (c13Pairs0.map fun ps => ⟨ps, []⟩) = true := Run.run_many (by decide +kernel)

theorem c13_l1 : c13Tab.Refuted .l1 2 49 5 9 :=
  Tab.refuted_two (T := c13Tab) rfl c13_paths0 c13_paths1 c13_pairs (part2 c13_l1_run0)

theorem c13_l2 : c13Tab.Refuted .l2 2 5 1 9 :=
  Tab.refuted_two (T := c13Tab) rfl c13_paths0 c13_paths1 c13_pairs (part2 c13_l2_run0)

theorem c13_linf : c13Tab.Refuted .linf 2 9 2 9 :=
  Tab.refuted_two (T := c13Tab) rfl c13_paths0 c13_paths1 c13_pairs (part2 c13_linf_run0)

end MinCert
end Peano
