import Verif.Lemmas.MinRun
import Verif.Lemmas.MinFast

set_option autoImplicit false

/-
Median, grid 4: no curve has less dilation.  This file is generated.
-/
namespace Peano
namespace MinCert

/-- Table of links and of their specs. -/
def med4Env : Env where
  N := 4
  G := 16
  m := 1
  S := 2
  W := 5
  B := 400
  L := 16
  links := [([0, 0], [1, 2]), ([0, 0], [2, 1]), ([0, 1], [2, 0]), ([0, 1], [2, 2]), ([0, 2], [1, 0]), ([0, 2], [2, 1]), ([1, 0], [0, 2]), ([1, 0], [2, 2]), ([1, 2], [0, 0]), ([1, 2], [2, 0]), ([2, 0], [0, 1]), ([2, 0], [1, 2]), ([2, 1], [0, 0]), ([2, 1], [0, 2]), ([2, 2], [0, 1]), ([2, 2], [1, 0])]
  doms := [
    [⟨[(1, false), (0, false)], false, 0⟩], [⟨[(0, false), (1, false)], false, 0⟩], [⟨[(0, true), (1, false)], true, 0⟩],
    [⟨[(0, true), (1, true)], true, 0⟩], [⟨[(1, false), (0, true)], false, 0⟩], [⟨[(0, false), (1, true)], false, 0⟩],
    [⟨[(1, false), (0, true)], true, 0⟩], [⟨[(1, true), (0, true)], true, 0⟩], [⟨[(1, false), (0, false)], true, 0⟩],
    [⟨[(1, true), (0, false)], true, 0⟩], [⟨[(0, true), (1, false)], false, 0⟩], [⟨[(1, true), (0, false)], false, 0⟩],
    [⟨[(0, false), (1, false)], true, 0⟩], [⟨[(0, false), (1, true)], true, 0⟩], [⟨[(0, true), (1, true)], false, 0⟩],
    [⟨[(1, true), (0, true)], false, 0⟩]]

/-- Data of the search of paths. -/
def med4Enum : Enum where
  L := 16
  B := 400
  ones := 6
  offs := [1, 4, 5, 6]
  trans := [
    [(7, 6), (7, 7)], [(11, 2), (11, 3)], [(5, 14), (5, 15), (10, 4), (10, 5), (11, 0), (11, 1)],
    [(7, 10), (7, 11), (11, 4), (11, 5), (12, 0), (12, 1)], [(5, 8), (5, 9)], [(11, 2), (11, 3)],
    [(1, 14), (1, 15), (2, 10), (2, 11), (7, 0), (7, 1)], [(7, 10), (7, 11), (11, 4), (11, 5), (12, 0), (12, 1)],
    [(0, 14), (0, 15), (1, 10), (1, 11), (5, 4), (5, 5)], [(5, 14), (5, 15), (10, 4), (10, 5), (11, 0), (11, 1)], [(1, 12), (1, 13)],
    [(7, 6), (7, 7)], [(0, 14), (0, 15), (1, 10), (1, 11), (5, 4), (5, 5)], [(1, 14), (1, 15), (2, 10), (2, 11), (7, 0), (7, 1)], [(1, 12), (1, 13)],
    [(5, 8), (5, 9)]]
  U := 32472000
  F := 12582912
  starts := [(6, 0), (6, 1)]
  finals := [(22, 3), (22, 7), (23, 2), (23, 9)]

def med4Tab : Tab := ⟨med4Env, [([0, 0], [2, 1])], [med4Enum]⟩

theorem med4_ok : med4Tab.Ok 2 4 1 2 := Fast.ok_sound (by decide +kernel)

def med4Paths0 : List ℕ := [
  103396830478484529863488061058194481915577, 103396830478484637604672061058194481915577, 103396830478484656065659979647992881915577,
  103396830478484658921126202229874025414759, 103399588652794929863488061058194481915577, 103399588652795037604672061058194481915577,
  103399588652795056065659979647992881915577, 103399588652795058921126202229874025414759, 103400053026454240353088061058194481915577,
  104632502440174237073618336036293681915577, 104632502440174342979794336036293681915577, 104632502440174346456529863859090481915577,
  104634814095829402529098407289823985915577, 104634814095829402529118257038764010534759, 104635213638279837073618336036293681915577,
  104635213638279942979794336036293681915577, 104635213638279946456529863859090481915577, 104635294420069987729618336036293681915577]

def med4Tree : CT :=
  .node (.node (.node (.node (.node .nil 103396830478484529863488061058194481915577 .nil) 103396830478484637604672061058194481915577 .nil)
  103396830478484656065659979647992881915577 (.node .nil 103396830478484658921126202229874025414759 .nil)) 103399588652794929863488061058194481915577
  (.node (.node (.node .nil 103399588652795037604672061058194481915577 .nil) 103399588652795056065659979647992881915577 .nil)
  103399588652795058921126202229874025414759 (.node .nil 103400053026454240353088061058194481915577 .nil)))
  104632502440174237073618336036293681915577 (.node (.node (.node (.node .nil 104632502440174342979794336036293681915577 .nil)
  104632502440174346456529863859090481915577 .nil) 104634814095829402529098407289823985915577 (.node .nil 104634814095829402529118257038764010534759
  .nil)) 104635213638279837073618336036293681915577 (.node (.node .nil 104635213638279942979794336036293681915577 .nil)
  104635213638279946456529863859090481915577 (.node .nil 104635294420069987729618336036293681915577 .nil)))

theorem med4_paths : ∀ P ∈ med4Enum.all 16, P ∈ med4Paths0 := by
  have h : med4Tree.toList = med4Paths0 := by decide +kernel
  rw [← h]
  exact med4Enum.allF_sound 16 med4Tree (by decide +kernel)

def med4_l1_0 : List ℕ := [
  8, 12, 52, 1209073402820983621944889, 8, 12, 52, 1209073402820983621944889, 12, 32, 73795984733191274513, 16, 36, 40, 604466091635773136308741, 12,
  48, 52, 1209073425338981758802489, 12, 48, 52, 1209073425338981758802489, 12, 32, 73795984733191274513, 16, 36, 40, 604466091653365322353157, 4, 8,
  604463781306756480763401, 16, 56, 60, 9903596463904014143616715297, 16, 20, 60, 9903549240239185447080692257, 16, 20, 24, 604464938819821645466141,
  20, 40, 73800488607696683033, 16, 20, 52, 1209147194300878104300089, 16, 56, 60, 9903596463904014143616715297, 16, 20, 60,
  9903549240239185447080692257, 16, 20, 24, 604464938819821645466141, 4, 8, 604463781306756480763401]

theorem med4_l1_run0 : run .l1 2 68 5 med4Env [] med4_l1_0 (med4Paths0.map fun P => ⟨[P], []⟩) = true := Run.run_one (by decide +kernel)

def med4_l2_0 : List ℕ := [
  12, 16, 73795984183435460625, 12, 16, 73795984183435460625, 12, 16, 73795984183435460625, 12, 16, 73795984183435460625, 12, 16,
  73795984183435460625, 12, 16, 73795984183435460625, 12, 16, 73795984183435460625, 12, 16, 73795984183435460625, 12, 16, 73798235983249211409, 4, 8,
  36893541474806793229, 4, 8, 36893541474806793229, 4, 8, 36893541474806793229, 20, 40, 73800488607696683033, 16, 20, 52, 1209147194300878104300089,
  4, 8, 36893541474806793229, 4, 8, 36893541474806793229, 4, 8, 36893541474806793229, 4, 8, 36893541337367839757]

theorem med4_l2_run0 : run .l2 2 34 5 med4Env [] med4_l2_0 (med4Paths0.map fun P => ⟨[P], []⟩) = true := Run.run_one (by decide +kernel)

def med4_linf_0 : List ℕ := [
  12, 16, 73795984183435460625, 12, 16, 73795984183435460625, 12, 16, 73795984183435460625, 12, 16, 73795984183435460625, 12, 16,
  73795984183435460625, 12, 16, 73795984183435460625, 12, 16, 73795984183435460625, 12, 16, 73795984183435460625, 12, 16, 73798235983249211409, 4, 8,
  36893541474806793225, 4, 8, 36893541474806793225, 0, 12, 36893559891626557993, 20, 24, 73800488057940869145, 20, 24, 73800488057940869145, 4, 8,
  36893541474806793225, 4, 8, 36893541474806793225, 0, 12, 36893559891626557993, 4, 8, 36893541474806793225]

theorem med4_linf_run0 : run .linf 2 17 3 med4Env [] med4_linf_0 (med4Paths0.map fun P => ⟨[P], []⟩) = true := Run.run_one (by decide +kernel)

theorem med4_l1 : med4Tab.Refuted .l1 2 68 5 16 :=
  Tab.refuted_one (T := med4Tab) rfl med4_paths (part med4_l1_run0)

theorem med4_l2 : med4Tab.Refuted .l2 2 34 5 16 :=
  Tab.refuted_one (T := med4Tab) rfl med4_paths (part med4_l2_run0)

theorem med4_linf : med4Tab.Refuted .linf 2 17 3 16 :=
  Tab.refuted_one (T := med4Tab) rfl med4_paths (part med4_linf_run0)

end MinCert
end Peano
