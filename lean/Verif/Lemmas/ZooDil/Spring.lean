import Verif.Lemmas.ZooDil

set_option autoImplicit false
set_option maxRecDepth 100000
set_option linter.dupNamespace false

/-
Certificates for the dilations of the curve `spring` of the zoo.  This file is generated.
-/
namespace Peano.ZooDil.Spring
open DilCert Zoo

def m0 : BaseMap 3 := ⟨![(1, true), (2, true), (0, true)], true, by decide⟩
def m1 : BaseMap 3 := ⟨![(1, true), (2, false), (0, true)], false, by decide⟩
def m2 : BaseMap 3 := ⟨![(2, false), (1, false), (0, false)], false, by decide⟩
def m3 : BaseMap 3 := ⟨![(2, false), (0, true), (1, false)], true, by decide⟩
def m4 : BaseMap 3 := ⟨![(2, true), (0, true), (1, false)], false, by decide⟩
def m5 : BaseMap 3 := ⟨![(1, true), (2, true), (0, false)], false, by decide⟩
def m6 : BaseMap 3 := ⟨![(2, false), (1, true), (0, true)], false, by decide⟩
def m7 : BaseMap 3 := ⟨![(1, false), (0, true), (2, true)], false, by decide⟩
def m8 : BaseMap 3 := ⟨![(0, false), (1, false), (2, true)], true, by decide⟩
def m9 : BaseMap 3 := ⟨![(0, true), (2, false), (1, false)], true, by decide⟩
def m10 : BaseMap 3 := ⟨![(2, true), (1, true), (0, true)], true, by decide⟩
def m11 : BaseMap 3 := ⟨![(1, false), (2, true), (0, false)], true, by decide⟩
def m12 : BaseMap 3 := ⟨![(0, true), (1, false), (2, false)], true, by decide⟩
def m13 : BaseMap 3 := ⟨![(0, true), (1, false), (2, true)], false, by decide⟩
def m14 : BaseMap 3 := ⟨![(0, false), (2, true), (1, true)], false, by decide⟩
def m15 : BaseMap 3 := ⟨![(0, false), (1, false), (2, true)], false, by decide⟩
def m16 : BaseMap 3 := ⟨![(0, true), (2, true), (1, true)], false, by decide⟩
def m17 : BaseMap 3 := ⟨![(1, true), (2, true), (0, false)], true, by decide⟩
def m18 : BaseMap 3 := ⟨![(0, true), (2, true), (1, false)], false, by decide⟩
def m19 : BaseMap 3 := ⟨![(1, false), (0, true), (2, false)], true, by decide⟩
def m20 : BaseMap 3 := ⟨![(2, false), (0, false), (1, true)], false, by decide⟩
def m21 : BaseMap 3 := ⟨![(2, false), (0, false), (1, false)], false, by decide⟩
def m22 : BaseMap 3 := ⟨![(2, true), (1, true), (0, false)], false, by decide⟩
def m23 : BaseMap 3 := ⟨![(2, false), (0, true), (1, true)], true, by decide⟩
def m24 : BaseMap 3 := ⟨![(1, true), (0, false), (2, true)], true, by decide⟩
def m25 : BaseMap 3 := ⟨![(0, true), (2, false), (1, true)], true, by decide⟩
def m26 : BaseMap 3 := ⟨![(2, true), (1, true), (0, false)], true, by decide⟩
def m27 : BaseMap 3 := ⟨![(1, false), (2, true), (0, true)], true, by decide⟩
def m28 : BaseMap 3 := ⟨![(2, false), (1, true), (0, false)], false, by decide⟩
def m29 : BaseMap 3 := ⟨![(2, true), (0, true), (1, true)], false, by decide⟩
def m30 : BaseMap 3 := ⟨![(1, false), (0, false), (2, true)], true, by decide⟩
def m31 : BaseMap 3 := ⟨![(0, true), (2, true), (1, true)], true, by decide⟩
def m32 : BaseMap 3 := ⟨![(0, true), (1, true), (2, true)], true, by decide⟩
def m33 : BaseMap 3 := ⟨![(2, true), (0, true), (1, true)], true, by decide⟩
def m34 : BaseMap 3 := ⟨![(0, false), (1, true), (2, true)], true, by decide⟩
def m35 : BaseMap 3 := ⟨![(0, false), (1, true), (2, false)], true, by decide⟩
def m36 : BaseMap 3 := ⟨![(1, true), (0, false), (2, false)], true, by decide⟩
def m37 : BaseMap 3 := ⟨![(2, false), (0, false), (1, true)], true, by decide⟩
def m38 : BaseMap 3 := ⟨![(0, false), (2, true), (1, true)], true, by decide⟩
def m39 : BaseMap 3 := ⟨![(0, true), (1, false), (2, true)], true, by decide⟩
def m40 : BaseMap 3 := ⟨![(0, false), (1, true), (2, true)], false, by decide⟩
def m41 : BaseMap 3 := ⟨![(1, true), (0, true), (2, true)], true, by decide⟩
def m42 : BaseMap 3 := ⟨![(1, true), (0, false), (2, true)], false, by decide⟩
def m43 : BaseMap 3 := ⟨![(1, true), (2, false), (0, false)], true, by decide⟩
def m44 : BaseMap 3 := ⟨![(0, false), (2, true), (1, false)], true, by decide⟩
def m45 : BaseMap 3 := ⟨![(0, false), (2, false), (1, true)], true, by decide⟩
def m46 : BaseMap 3 := ⟨![(1, false), (0, false), (2, true)], false, by decide⟩
def m47 : BaseMap 3 := ⟨![(1, false), (2, true), (0, true)], false, by decide⟩
def m48 : BaseMap 3 := ⟨![(2, true), (0, false), (1, true)], true, by decide⟩
def m49 : BaseMap 3 := ⟨![(1, false), (2, false), (0, true)], true, by decide⟩
def m50 : BaseMap 3 := ⟨![(2, false), (1, true), (0, false)], true, by decide⟩
def m51 : BaseMap 3 := ⟨![(1, false), (2, true), (0, false)], false, by decide⟩
def m52 : BaseMap 3 := ⟨![(1, true), (0, true), (2, true)], false, by decide⟩

def prow : List (List (List ℤ × Spec 3)) :=
  [
    [([0, 0, 0], ⟨m0, 1⟩), ([0, 1, 0], ⟨m1, 0⟩), ([1, 1, 0], ⟨m2, 1⟩), ([1, 1, 1], ⟨m3, 0⟩), ([0, 1, 1], ⟨m4, 1⟩), ([0, 0, 1], ⟨m5, 0⟩), ([1, 0, 1], ⟨m6, 1⟩), ([1, 0, 0], ⟨m7, 1⟩)],
    [([0, 0, 0], ⟨m0, 1⟩), ([0, 1, 0], ⟨m8, 0⟩), ([0, 1, 1], ⟨m9, 0⟩), ([0, 0, 1], ⟨m10, 0⟩), ([1, 0, 1], ⟨m11, 0⟩), ([1, 1, 1], ⟨m12, 0⟩), ([1, 1, 0], ⟨m13, 0⟩), ([1, 0, 0], ⟨m14, 1⟩)]]

theorem div_eq : Zoo.spring.div = 2 := by decide +kernel

theorem genus_eq : Zoo.spring.genus = 8 := by decide +kernel

theorem rows : Rows Zoo.spring prow := by decide +kernel

def core_l1 : List (Ent 3) :=
  [
    ⟨true, 1, ⟨m15, 0⟩, 140576, [0, 0, -1], 1, 0⟩,
    ⟨true, 1, ⟨m16, 1⟩, 156497, [0, -1, -1], 2, 0⟩,
    ⟨true, 1, ⟨m17, 0⟩, 143443, [-1, -1, -1], 3, 0⟩,
    ⟨false, 0, ⟨m18, 1⟩, 16977, [0, -1, 0], 1, 0⟩,
    ⟨false, 0, ⟨m0, 0⟩, 4435, [-1, -1, 0], 2, 0⟩,
    ⟨false, 1, ⟨m19, 0⟩, 136210, [1, 0, 0], 1, 0⟩,
    ⟨false, 1, ⟨m7, 1⟩, 148754, [1, 0, -1], 2, 0⟩,
    ⟨false, 1, ⟨m14, 0⟩, 131920, [1, -1, -1], 3, 0⟩,
    ⟨true, 0, ⟨m15, 1⟩, 25888, [0, 0, -1], 1, 0⟩,
    ⟨true, 0, ⟨m20, 0⟩, 8964, [1, 0, -1], 2, 0⟩,
    ⟨false, 1, ⟨m21, 0⟩, 131588, [1, 0, 0], 1, 0⟩,
    ⟨false, 1, ⟨m14, 1⟩, 148304, [1, -1, -1], 3, 0⟩,
    ⟨false, 0, ⟨m22, 1⟩, 16437, [-1, -1, 0], 2, 0⟩,
    ⟨false, 1, ⟨m21, 1⟩, 147972, [1, 0, 0], 1, 0⟩,
    ⟨true, 1, ⟨m23, 0⟩, 144148, [0, 0, -1], 1, 0⟩,
    ⟨true, 1, ⟨m24, 0⟩, 144643, [-1, 0, -1], 2, 0⟩,
    ⟨true, 0, ⟨m25, 0⟩, 13121, [0, 0, -1], 1, 0⟩,
    ⟨true, 0, ⟨m26, 0⟩, 12341, [0, -1, -1], 2, 0⟩,
    ⟨true, 0, ⟨m27, 0⟩, 12626, [1, -1, -1], 3, 0⟩,
    ⟨true, 0, ⟨m23, 0⟩, 13076, [0, 0, -1], 1, 0⟩,
    ⟨true, 0, ⟨m24, 0⟩, 13571, [-1, 0, -1], 2, 0⟩,
    ⟨true, 0, ⟨m28, 0⟩, 8244, [1, -1, -1], 3, 0⟩,
    ⟨true, 0, ⟨m29, 0⟩, 8981, [-1, 0, -1], 2, 0⟩,
    ⟨true, 0, ⟨m15, 0⟩, 9504, [0, 0, -1], 1, 0⟩,
    ⟨true, 0, ⟨m16, 1⟩, 25425, [0, -1, -1], 2, 0⟩,
    ⟨false, 0, ⟨m30, 0⟩, 5378, [3, -1, -1], 7, 0⟩,
    ⟨false, 0, ⟨m30, 1⟩, 21762, [0, -2, -1], 3, 0⟩,
    ⟨false, 0, ⟨m0, 1⟩, 20819, [0, -1, 1], 2, 0⟩,
    ⟨false, 1, ⟨m12, 1⟩, 152609, [1, 0, 0], 1, 0⟩,
    ⟨false, 1, ⟨m13, 0⟩, 132385, [1, 0, -1], 2, 0⟩,
    ⟨false, 1, ⟨m11, 0⟩, 135250, [2, -1, -1], 4, 0⟩,
    ⟨false, 0, ⟨m31, 0⟩, 4945, [-1, -3, -3], 13, 0⟩,
    ⟨false, 1, ⟨m31, 1⟩, 152401, [2, -1, -1], 4, 0⟩,
    ⟨false, 1, ⟨m32, 0⟩, 136497, [3, -1, -1], 7, 0⟩,
    ⟨false, 0, ⟨m10, 1⟩, 20789, [-1, -1, 1], 3, 0⟩,
    ⟨false, 1, ⟨m3, 1⟩, 152084, [1, 1, 0], 2, 0⟩,
    ⟨false, 1, ⟨m33, 0⟩, 135957, [1, 0, -1], 2, 0⟩,
    ⟨false, 1, ⟨m30, 0⟩, 136450, [2, 0, -1], 3, 0⟩,
    ⟨true, 0, ⟨m34, 1⟩, 30000, [-1, -1, -1], 3, 0⟩,
    ⟨false, 0, ⟨m35, 1⟩, 21552, [-1, -1, 0], 2, 0⟩,
    ⟨false, 0, ⟨m11, 1⟩, 20562, [-1, -1, -1], 3, 0⟩,
    ⟨false, 1, ⟨m9, 1⟩, 152129, [1, 0, 0], 1, 0⟩,
    ⟨false, 1, ⟨m36, 1⟩, 152579, [1, -1, 0], 2, 0⟩,
    ⟨false, 1, ⟨m33, 0⟩, 135957, [1, -1, -1], 3, 0⟩,
    ⟨false, 1, ⟨m32, 1⟩, 152881, [2, -1, -1], 4, 0⟩,
    ⟨false, 0, ⟨m37, 1⟩, 21252, [1, -2, -1], 4, 0⟩,
    ⟨false, 0, ⟨m30, 0⟩, 5378, [1, -3, -1], 7, 0⟩,
    ⟨true, 1, ⟨m38, 1⟩, 160592, [-1, -1, -1], 3, 0⟩,
    ⟨true, 0, ⟨m39, 1⟩, 29985, [1, 0, -1], 2, 0⟩,
    ⟨false, 0, ⟨m40, 0⟩, 1328, [-1, -1, -1], 3, 0⟩,
    ⟨false, 1, ⟨m18, 0⟩, 131665, [1, -1, 0], 2, 0⟩,
    ⟨false, 1, ⟨m40, 1⟩, 148784, [1, -1, -1], 3, 0⟩,
    ⟨false, 1, ⟨m30, 0⟩, 136450, [2, -1, -1], 4, 0⟩,
    ⟨false, 0, ⟨m37, 0⟩, 4868, [-1, -1, -1], 3, 0⟩,
    ⟨false, 0, ⟨m41, 0⟩, 5395, [-2, -1, -1], 4, 0⟩,
    ⟨false, 1, ⟨m10, 0⟩, 135477, [1, -1, 0], 2, 0⟩,
    ⟨false, 1, ⟨m11, 0⟩, 135250, [2, -1, 0], 3, 0⟩,
    ⟨false, 0, ⟨m31, 1⟩, 21329, [3, -1, -1], 7, 0⟩,
    ⟨false, 0, ⟨m37, 1⟩, 21252, [0, -2, -1], 3, 0⟩,
    ⟨false, 0, ⟨m8, 1⟩, 21792, [-1, -2, -1], 4, 0⟩,
    ⟨false, 0, ⟨m42, 0⟩, 1283, [-1, -3, -1], 7, 0⟩,
    ⟨false, 0, ⟨m10, 1⟩, 20789, [0, -1, 1], 2, 0⟩,
    ⟨false, 0, ⟨m31, 1⟩, 21329, [1, -1, 1], 3, 0⟩,
    ⟨false, 1, ⟨m43, 1⟩, 151619, [1, 0, -1], 2, 0⟩,
    ⟨false, 1, ⟨m10, 0⟩, 135477, [1, -1, -1], 3, 0⟩,
    ⟨false, 0, ⟨m30, 1⟩, 21762, [1, -2, -1], 4, 0⟩,
    ⟨true, 1, ⟨m34, 1⟩, 161072, [-1, -1, -1], 3, 0⟩,
    ⟨true, 0, ⟨m25, 1⟩, 29505, [1, 0, -1], 2, 0⟩,
    ⟨true, 0, ⟨m24, 1⟩, 29955, [1, -1, -1], 3, 0⟩,
    ⟨true, 0, ⟨m38, 1⟩, 29520, [-1, -1, -1], 3, 0⟩,
    ⟨false, 0, ⟨m44, 1⟩, 21072, [-1, -1, 0], 2, 0⟩,
    ⟨false, 1, ⟨m45, 0⟩, 136000, [1, 0, -1], 2, 0⟩,
    ⟨true, 0, ⟨m38, 1⟩, 29520, [-5, -3, -3], 33, 0⟩,
    ⟨false, 0, ⟨m31, 0⟩, 4945, [-1, -1, -1], 3, 0⟩,
    ⟨false, 1, ⟨m35, 0⟩, 136240, [1, -1, 0], 2, 0⟩,
    ⟨false, 1, ⟨m40, 0⟩, 132400, [1, -1, -1], 3, 0⟩,
    ⟨false, 1, ⟨m14, 0⟩, 131920, [5, -3, -3], 33, 0⟩,
    ⟨true, 0, ⟨m34, 1⟩, 30000, [-5, -3, -3], 33, 0⟩,
    ⟨true, 0, ⟨m28, 0⟩, 8244, [3, -3, -5], 33, 0⟩,
    ⟨true, 0, ⟨m46, 0⟩, 9474, [5, -3, -3], 33, 0⟩,
    ⟨false, 1, ⟨m40, 0⟩, 132400, [5, -3, -3], 33, 0⟩,
    ⟨false, 0, ⟨m47, 0⟩, 338, [7, -7, -11], 265, 0⟩,
    ⟨true, 0, ⟨m48, 0⟩, 13061, [-11, -7, -7], 265, 0⟩,
    ⟨false, 0, ⟨m6, 0⟩, 308, [7, -7, -11], 265, 0⟩,
    ⟨true, 1, ⟨m16, 1⟩, 156497, [7, -11, -7], 265, 0⟩,
    ⟨true, 1, ⟨m28, 1⟩, 155700, [7, -7, -11], 265, 0⟩,
    ⟨true, 0, ⟨m26, 0⟩, 12341, [-11, -7, -7], 265, 0⟩,
    ⟨false, 0, ⟨m31, 0⟩, 4945, [-15, -15, -23], 2117, 0⟩]

theorem form_l1 : formB Zoo.spring.mult core_l1 = true := by decide +kernel

theorem autos_l1 : autosB .l1 2 175273 2113 prow core_l1 = true := by decide +kernel

theorem closed_l1_0 : closedB .l1 2 8 175273 2113 prow core_l1 ((core_l1.drop 0).take 62) = true := by decide +kernel

theorem closed_l1_1 : closedB .l1 2 8 175273 2113 prow core_l1 (core_l1.drop 62) = true := by decide +kernel

theorem closed_l1 : closedB .l1 2 8 175273 2113 prow core_l1 core_l1 = true :=
  closedB_split 0 62 closed_l1_0 (closed_l1_1)

def pt1_l1 : Pt := ⟨[6, 6], [3, 3, 5, 3, 3, 5], 221 / 511, [0, 0, 1]⟩
def pt2_l1 : Pt := ⟨[7, 2], [4, 4, 2, 4, 4, 2], 290 / 511, [1, 1, 0]⟩

theorem low_l1 : lowB .l1 Zoo.spring 0 pt1_l1 pt2_l1 (175273 / 2113) := by decide +kernel

theorem cert_l1 : Cert .l1 Zoo.spring (175273 / 2113) (175273 / 2113) :=
  ⟨.l1, 2, 8, 175273, 2113, prow, core_l1, 0, pt1_l1, pt2_l1, trivial, by decide, rfl, by norm_num [bnd, Metric.sq], div_eq, genus_eq, rows, form_l1, autos_l1,
    closed_l1, by norm_num [Metric.sq, Metric.ratio]; exact low_l1⟩

def core_l2sq : List (Ent 3) :=
  [
    ⟨true, 1, ⟨m15, 0⟩, 140576, [0, 0, -1], 1, 1000⟩,
    ⟨true, 1, ⟨m16, 1⟩, 156497, [0, -1, -1], 2, 1225⟩,
    ⟨true, 1, ⟨m17, 0⟩, 143443, [-1, -1, -1], 3, 1415⟩,
    ⟨false, 0, ⟨m18, 1⟩, 16977, [0, -1, 0], 1, 1000⟩,
    ⟨false, 0, ⟨m0, 0⟩, 4435, [-1, -1, 0], 2, 1225⟩,
    ⟨false, 1, ⟨m19, 0⟩, 136210, [1, 0, 0], 1, 1000⟩,
    ⟨false, 1, ⟨m7, 1⟩, 148754, [1, 0, -1], 2, 1225⟩,
    ⟨false, 1, ⟨m14, 0⟩, 131920, [1, -1, -1], 3, 1415⟩,
    ⟨true, 0, ⟨m15, 1⟩, 25888, [0, 0, -1], 1, 1000⟩,
    ⟨true, 0, ⟨m20, 0⟩, 8964, [1, 0, -1], 2, 1225⟩,
    ⟨false, 1, ⟨m21, 0⟩, 131588, [1, 0, 0], 1, 1000⟩,
    ⟨false, 1, ⟨m14, 1⟩, 148304, [1, -1, -1], 3, 1415⟩,
    ⟨false, 0, ⟨m22, 1⟩, 16437, [-1, -1, 0], 2, 1225⟩,
    ⟨false, 1, ⟨m21, 1⟩, 147972, [1, 0, 0], 1, 1000⟩,
    ⟨true, 1, ⟨m23, 0⟩, 144148, [0, 0, -1], 1, 1000⟩,
    ⟨true, 1, ⟨m24, 0⟩, 144643, [-1, 0, -1], 2, 1225⟩,
    ⟨true, 0, ⟨m25, 0⟩, 13121, [0, 0, -1], 1, 1000⟩,
    ⟨true, 0, ⟨m26, 0⟩, 12341, [0, -1, -1], 2, 1225⟩,
    ⟨true, 0, ⟨m27, 0⟩, 12626, [1, -1, -1], 3, 1415⟩,
    ⟨true, 0, ⟨m23, 0⟩, 13076, [0, 0, -1], 1, 1000⟩,
    ⟨true, 0, ⟨m24, 0⟩, 13571, [-1, 0, -1], 2, 1225⟩,
    ⟨true, 0, ⟨m28, 0⟩, 8244, [1, -1, -1], 3, 1415⟩,
    ⟨true, 0, ⟨m29, 0⟩, 8981, [-1, 0, -1], 2, 1225⟩,
    ⟨true, 0, ⟨m15, 0⟩, 9504, [0, 0, -1], 1, 1000⟩,
    ⟨true, 0, ⟨m16, 1⟩, 25425, [0, -1, -1], 2, 1225⟩,
    ⟨false, 0, ⟨m30, 0⟩, 5378, [3, -1, -1], 7, 2000⟩,
    ⟨false, 0, ⟨m30, 1⟩, 21762, [0, -2, -1], 3, 1528⟩,
    ⟨false, 0, ⟨m10, 0⟩, 4405, [-1, -3, 0], 6, 1871⟩,
    ⟨false, 0, ⟨m0, 1⟩, 20819, [0, -1, 1], 2, 1225⟩,
    ⟨false, 1, ⟨m12, 1⟩, 152609, [1, 0, 0], 1, 1000⟩,
    ⟨false, 1, ⟨m13, 0⟩, 132385, [1, 0, -1], 2, 1225⟩,
    ⟨false, 1, ⟨m11, 0⟩, 135250, [2, -1, -1], 4, 1684⟩,
    ⟨false, 0, ⟨m31, 0⟩, 4945, [-1, -3, -3], 13, 2450⟩,
    ⟨false, 1, ⟨m31, 1⟩, 152401, [2, -1, -1], 4, 1684⟩,
    ⟨false, 1, ⟨m49, 0⟩, 135490, [3, 0, -1], 6, 1871⟩,
    ⟨false, 1, ⟨m32, 0⟩, 136497, [3, -1, -1], 7, 2000⟩,
    ⟨false, 0, ⟨m10, 1⟩, 20789, [-1, -1, 1], 3, 1415⟩,
    ⟨false, 1, ⟨m3, 1⟩, 152084, [1, 1, 0], 2, 1225⟩,
    ⟨false, 1, ⟨m33, 0⟩, 135957, [1, 0, -1], 2, 1225⟩,
    ⟨false, 1, ⟨m30, 0⟩, 136450, [2, 0, -1], 3, 1528⟩,
    ⟨true, 0, ⟨m34, 1⟩, 30000, [-1, -1, -1], 3, 1415⟩,
    ⟨false, 0, ⟨m35, 1⟩, 21552, [-1, -1, 0], 2, 1225⟩,
    ⟨false, 0, ⟨m11, 1⟩, 20562, [-1, -1, -1], 3, 1415⟩,
    ⟨false, 1, ⟨m9, 1⟩, 152129, [1, 0, 0], 1, 1000⟩,
    ⟨false, 1, ⟨m36, 1⟩, 152579, [1, -1, 0], 2, 1225⟩,
    ⟨false, 1, ⟨m33, 0⟩, 135957, [1, -1, -1], 3, 1415⟩,
    ⟨false, 1, ⟨m32, 1⟩, 152881, [2, -1, -1], 4, 1684⟩,
    ⟨false, 0, ⟨m37, 1⟩, 21252, [1, -2, -1], 4, 1684⟩,
    ⟨false, 0, ⟨m10, 0⟩, 4405, [0, -3, -1], 6, 1871⟩,
    ⟨false, 0, ⟨m30, 0⟩, 5378, [1, -3, -1], 7, 2000⟩,
    ⟨true, 1, ⟨m38, 1⟩, 160592, [-1, -1, -1], 3, 1415⟩,
    ⟨true, 0, ⟨m39, 1⟩, 29985, [1, 0, -1], 2, 1225⟩,
    ⟨false, 0, ⟨m40, 0⟩, 1328, [-1, -1, -1], 3, 1415⟩,
    ⟨false, 1, ⟨m18, 0⟩, 131665, [1, -1, 0], 2, 1225⟩,
    ⟨false, 1, ⟨m40, 1⟩, 148784, [1, -1, -1], 3, 1415⟩,
    ⟨false, 1, ⟨m30, 0⟩, 136450, [2, -1, -1], 4, 1684⟩,
    ⟨false, 0, ⟨m37, 0⟩, 4868, [-1, -1, -1], 3, 1415⟩,
    ⟨false, 0, ⟨m41, 0⟩, 5395, [-2, -1, -1], 4, 1684⟩,
    ⟨false, 1, ⟨m10, 0⟩, 135477, [1, -1, 0], 2, 1225⟩,
    ⟨false, 1, ⟨m11, 0⟩, 135250, [2, -1, 0], 3, 1528⟩,
    ⟨false, 0, ⟨m31, 1⟩, 21329, [3, -1, -1], 7, 2000⟩,
    ⟨false, 0, ⟨m37, 1⟩, 21252, [0, -2, -1], 3, 1528⟩,
    ⟨false, 0, ⟨m8, 1⟩, 21792, [-1, -2, -1], 4, 1684⟩,
    ⟨false, 0, ⟨m36, 1⟩, 21507, [-1, -3, 0], 6, 1871⟩,
    ⟨false, 0, ⟨m42, 0⟩, 1283, [-1, -3, -1], 7, 2000⟩,
    ⟨false, 0, ⟨m10, 1⟩, 20789, [0, -1, 1], 2, 1225⟩,
    ⟨false, 0, ⟨m31, 1⟩, 21329, [1, -1, 1], 3, 1415⟩,
    ⟨false, 1, ⟨m43, 1⟩, 151619, [1, 0, -1], 2, 1225⟩,
    ⟨false, 1, ⟨m10, 0⟩, 135477, [1, -1, -1], 3, 1415⟩,
    ⟨false, 0, ⟨m30, 1⟩, 21762, [1, -2, -1], 4, 1684⟩,
    ⟨true, 1, ⟨m34, 1⟩, 161072, [-1, -1, -1], 3, 1415⟩,
    ⟨true, 0, ⟨m25, 1⟩, 29505, [1, 0, -1], 2, 1225⟩,
    ⟨true, 0, ⟨m24, 1⟩, 29955, [1, -1, -1], 3, 1415⟩,
    ⟨false, 1, ⟨m50, 1⟩, 151604, [3, -3, -7], 55, 4000⟩,
    ⟨true, 0, ⟨m20, 0⟩, 8964, [5, -3, -1], 25, 3056⟩,
    ⟨false, 1, ⟨m40, 0⟩, 132400, [5, -3, -1], 25, 3056⟩,
    ⟨true, 0, ⟨m38, 1⟩, 29520, [-1, -1, -1], 3, 1415⟩,
    ⟨false, 0, ⟨m44, 1⟩, 21072, [-1, -1, 0], 2, 1225⟩,
    ⟨false, 1, ⟨m45, 0⟩, 136000, [1, 0, -1], 2, 1225⟩,
    ⟨true, 0, ⟨m38, 1⟩, 29520, [-5, -3, -3], 33, 3367⟩,
    ⟨true, 0, ⟨m34, 1⟩, 30000, [-5, -3, -1], 25, 3056⟩,
    ⟨true, 0, ⟨m51, 0⟩, 8274, [3, -1, -5], 25, 3056⟩,
    ⟨false, 0, ⟨m31, 0⟩, 4945, [-1, -1, -1], 3, 1415⟩,
    ⟨false, 1, ⟨m35, 0⟩, 136240, [1, -1, 0], 2, 1225⟩,
    ⟨false, 1, ⟨m40, 0⟩, 132400, [1, -1, -1], 3, 1415⟩,
    ⟨false, 1, ⟨m14, 0⟩, 131920, [5, -3, -3], 33, 3367⟩,
    ⟨false, 1, ⟨m50, 1⟩, 151604, [7, -3, -3], 55, 4000⟩,
    ⟨true, 0, ⟨m34, 1⟩, 30000, [-5, -3, -3], 33, 3367⟩,
    ⟨true, 0, ⟨m28, 0⟩, 8244, [3, -3, -5], 33, 3367⟩,
    ⟨true, 0, ⟨m38, 1⟩, 29520, [-5, -1, -3], 25, 3056⟩,
    ⟨false, 1, ⟨m14, 0⟩, 131920, [5, -3, -1], 25, 3056⟩,
    ⟨true, 0, ⟨m46, 0⟩, 9474, [5, -3, -3], 33, 3367⟩,
    ⟨false, 1, ⟨m40, 0⟩, 132400, [5, -3, -3], 33, 3367⟩,
    ⟨true, 0, ⟨m52, 0⟩, 9491, [-7, -15, -7], 443, 8000⟩,
    ⟨false, 0, ⟨m47, 0⟩, 338, [7, -7, -11], 265, 6734⟩,
    ⟨true, 0, ⟨m48, 0⟩, 13061, [-11, -7, -7], 265, 6734⟩,
    ⟨true, 0, ⟨m52, 0⟩, 9491, [-15, -7, -7], 443, 8000⟩,
    ⟨false, 0, ⟨m6, 0⟩, 308, [7, -7, -11], 265, 6734⟩,
    ⟨true, 1, ⟨m16, 1⟩, 156497, [7, -11, -7], 265, 6734⟩,
    ⟨true, 1, ⟨m28, 1⟩, 155700, [7, -7, -11], 265, 6734⟩,
    ⟨true, 0, ⟨m26, 0⟩, 12341, [-11, -7, -7], 265, 6734⟩,
    ⟨false, 0, ⟨m50, 0⟩, 4148, [31, -15, -15], 3543, 16000⟩,
    ⟨false, 0, ⟨m50, 0⟩, 4148, [15, -15, -31], 3543, 16000⟩,
    ⟨false, 1, ⟨m31, 1⟩, 152401, [31, -31, -63], 28343, 32000⟩,
    ⟨false, 1, ⟨m31, 1⟩, 152401, [31, -63, -31], 28343, 32000⟩,
    ⟨true, 0, ⟨m16, 0⟩, 9041, [-63, -127, -63], 226747, 64000⟩,
    ⟨true, 0, ⟨m16, 0⟩, 9041, [-63, -63, -127], 226747, 64000⟩]

theorem form_l2sq : formB Zoo.spring.mult core_l2sq = true := by decide +kernel

theorem autos_l2sq : autosB (.space 6 1000) 2 14100534 48841 prow core_l2sq = true := by decide +kernel

theorem closed_l2sq_0 : closedB (.space 6 1000) 2 8 14100534 48841 prow core_l2sq ((core_l2sq.drop 0).take 62) = true := by decide +kernel

theorem closed_l2sq_1 : closedB (.space 6 1000) 2 8 14100534 48841 prow core_l2sq (core_l2sq.drop 62) = true := by decide +kernel

theorem closed_l2sq : closedB (.space 6 1000) 2 8 14100534 48841 prow core_l2sq core_l2sq = true :=
  closedB_split 0 62 closed_l2sq_0 (closed_l2sq_1)

def pt1_l2sq : Pt := ⟨[0, 4], [4, 2, 4, 4, 2, 4], 276 / 511, [1, 0, 1]⟩
def pt2_l2sq : Pt := ⟨[1], [3, 3, 5, 3, 3, 5], 221 / 511, [0, 1, 0]⟩

theorem low_l2sq : lowB .l2sq Zoo.spring 0 pt1_l2sq pt2_l2sq (14100534 / 48841) := by decide +kernel

theorem cert_l2sq : Cert .l2Squared Zoo.spring (14100534 / 48841) (14100534 / 48841) :=
  ⟨(.space 6 1000), 2, 8, 14100534, 48841, prow, core_l2sq, 0, pt1_l2sq, pt2_l2sq, ⟨by decide, by decide⟩, by decide, rfl, by norm_num [bnd, Metric.sq], div_eq, genus_eq, rows, form_l2sq, autos_l2sq,
    closed_l2sq, by norm_num [Metric.sq, Metric.ratio]; exact low_l2sq⟩

end Peano.ZooDil.Spring
