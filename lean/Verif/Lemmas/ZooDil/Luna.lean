import Verif.Lemmas.ZooDil

set_option autoImplicit false
set_option maxRecDepth 100000
set_option linter.dupNamespace false

/-
Certificates for the dilations of the curve `luna` of the zoo.  This file is generated.
-/
namespace Peano.ZooDil.Luna
open DilCert Zoo

def m0 : BaseMap 3 := ⟨![(2, false), (1, false), (0, false)], false, by decide⟩
def m1 : BaseMap 3 := ⟨![(1, true), (0, false), (2, true)], false, by decide⟩
def m2 : BaseMap 3 := ⟨![(1, true), (0, true), (2, false)], false, by decide⟩
def m3 : BaseMap 3 := ⟨![(0, false), (2, true), (1, true)], false, by decide⟩
def m4 : BaseMap 3 := ⟨![(0, false), (1, false), (2, false)], false, by decide⟩
def m5 : BaseMap 3 := ⟨![(2, true), (0, false), (1, true)], false, by decide⟩
def m6 : BaseMap 3 := ⟨![(1, false), (0, true), (2, true)], false, by decide⟩
def m7 : BaseMap 3 := ⟨![(1, false), (2, true), (0, true)], false, by decide⟩
def m8 : BaseMap 3 := ⟨![(2, true), (1, false), (0, true)], false, by decide⟩
def m9 : BaseMap 3 := ⟨![(1, false), (2, false), (0, false)], false, by decide⟩
def m10 : BaseMap 3 := ⟨![(1, false), (0, false), (2, false)], false, by decide⟩
def m11 : BaseMap 3 := ⟨![(0, true), (1, false), (2, true)], false, by decide⟩
def m12 : BaseMap 3 := ⟨![(2, false), (0, true), (1, true)], false, by decide⟩
def m13 : BaseMap 3 := ⟨![(0, true), (2, false), (1, true)], false, by decide⟩
def m14 : BaseMap 3 := ⟨![(2, true), (0, true), (1, false)], false, by decide⟩
def m15 : BaseMap 3 := ⟨![(1, true), (2, false), (0, true)], false, by decide⟩
def m16 : BaseMap 3 := ⟨![(1, true), (2, true), (0, false)], false, by decide⟩
def m17 : BaseMap 3 := ⟨![(2, false), (1, true), (0, true)], false, by decide⟩
def m18 : BaseMap 3 := ⟨![(2, true), (1, true), (0, false)], false, by decide⟩
def m19 : BaseMap 3 := ⟨![(0, true), (1, true), (2, false)], false, by decide⟩

def prow : List (List (List ℤ × Spec 3)) :=
  [
    [([0, 0, 0], ⟨m0, 1⟩), ([0, 1, 0], ⟨m1, 0⟩), ([0, 1, 1], ⟨m2, 1⟩), ([0, 0, 1], ⟨m3, 1⟩), ([1, 0, 1], ⟨m4, 1⟩), ([1, 1, 1], ⟨m5, 1⟩), ([1, 1, 0], ⟨m6, 0⟩), ([1, 0, 0], ⟨m7, 1⟩)],
    [([0, 0, 0], ⟨m0, 1⟩), ([0, 1, 0], ⟨m1, 0⟩), ([0, 1, 1], ⟨m2, 1⟩), ([0, 0, 1], ⟨m3, 1⟩), ([1, 0, 1], ⟨m4, 0⟩), ([1, 0, 0], ⟨m8, 1⟩), ([1, 1, 0], ⟨m9, 0⟩), ([1, 1, 1], ⟨m10, 1⟩)]]

theorem div_eq : Zoo.luna.div = 2 := by decide +kernel

theorem genus_eq : Zoo.luna.genus = 8 := by decide +kernel

theorem rows : Rows Zoo.luna prow := by decide +kernel

def core_linf : List (Ent 3) :=
  [
    ⟨false, 1, ⟨m5, 0⟩, 131845, [0, 1, 0], 1, 0⟩,
    ⟨false, 0, ⟨m11, 1⟩, 17697, [0, 0, -1], 1, 0⟩,
    ⟨false, 1, ⟨m12, 1⟩, 148244, [1, 0, 0], 1, 0⟩,
    ⟨false, 1, ⟨m3, 1⟩, 148304, [1, 0, 0], 1, 0⟩,
    ⟨false, 1, ⟨m5, 1⟩, 148229, [0, 1, 0], 1, 0⟩,
    ⟨false, 1, ⟨m13, 0⟩, 131905, [0, 1, 0], 1, 0⟩,
    ⟨false, 0, ⟨m0, 1⟩, 16420, [1, 0, 0], 1, 0⟩,
    ⟨false, 1, ⟨m3, 0⟩, 131920, [1, 0, 0], 1, 0⟩,
    ⟨false, 0, ⟨m8, 1⟩, 16677, [0, 0, -1], 1, 0⟩,
    ⟨false, 1, ⟨m13, 1⟩, 148289, [0, 3, 0], 5, 0⟩,
    ⟨false, 1, ⟨m13, 1⟩, 148289, [0, 1, 0], 1, 0⟩]

theorem form_linf : formB Zoo.luna.mult core_linf = true := by decide +kernel

theorem autos_linf : autosB .linf 2 14 1 prow core_linf = true := by decide +kernel

theorem closed_linf : closedB .linf 2 8 14 1 prow core_linf core_linf = true := by decide +kernel

def pt1_linf : Pt := ⟨[1, 5], [5, 5], 5 / 7, [0, 1, 0]⟩
def pt2_linf : Pt := ⟨[2], [2, 2], 2 / 7, [0, 1, 1]⟩

theorem low_linf : lowB .linf Zoo.luna 0 pt1_linf pt2_linf (14) := by decide +kernel

theorem cert_linf : Cert .linf Zoo.luna (14) (14) :=
  ⟨.linf, 2, 8, 14, 1, prow, core_linf, 0, pt1_linf, pt2_linf, trivial, by decide, rfl, by norm_num [bnd, Metric.sq], div_eq, genus_eq, rows, form_linf, autos_linf,
    closed_linf, by norm_num [Metric.sq, Metric.ratio]; exact low_linf⟩

def core_l1 : List (Ent 3) :=
  [
    ⟨false, 1, ⟨m5, 0⟩, 131845, [0, 1, 0], 1, 0⟩,
    ⟨false, 1, ⟨m12, 1⟩, 148244, [1, 1, 0], 2, 0⟩,
    ⟨false, 0, ⟨m11, 1⟩, 17697, [0, 0, -1], 1, 0⟩,
    ⟨false, 0, ⟨m14, 1⟩, 16917, [-1, 0, -1], 2, 0⟩,
    ⟨false, 0, ⟨m6, 1⟩, 17682, [-1, -1, -1], 3, 0⟩,
    ⟨false, 1, ⟨m12, 1⟩, 148244, [1, 0, 0], 1, 0⟩,
    ⟨false, 1, ⟨m2, 1⟩, 148499, [1, -1, 0], 2, 0⟩,
    ⟨false, 1, ⟨m3, 1⟩, 148304, [1, 0, 0], 1, 0⟩,
    ⟨false, 1, ⟨m8, 1⟩, 147749, [1, 0, -1], 2, 0⟩,
    ⟨false, 1, ⟨m9, 0⟩, 131138, [1, 1, -1], 3, 0⟩,
    ⟨false, 1, ⟨m5, 1⟩, 148229, [0, 1, 0], 1, 0⟩,
    ⟨false, 1, ⟨m6, 0⟩, 132370, [0, 1, -1], 2, 0⟩,
    ⟨false, 1, ⟨m13, 0⟩, 131905, [0, 1, 0], 1, 0⟩,
    ⟨false, 0, ⟨m0, 1⟩, 16420, [1, 0, 0], 1, 0⟩,
    ⟨false, 0, ⟨m6, 0⟩, 1298, [-1, -1, -1], 3, 0⟩,
    ⟨false, 1, ⟨m2, 0⟩, 132115, [1, -1, 0], 2, 0⟩,
    ⟨false, 1, ⟨m15, 1⟩, 147779, [1, -1, -1], 3, 0⟩,
    ⟨false, 1, ⟨m3, 0⟩, 131920, [1, 0, 0], 1, 0⟩,
    ⟨false, 1, ⟨m6, 0⟩, 132370, [1, 1, -1], 3, 0⟩,
    ⟨false, 0, ⟨m8, 1⟩, 16677, [0, 0, -1], 1, 0⟩,
    ⟨false, 0, ⟨m9, 0⟩, 66, [0, 1, -1], 2, 0⟩,
    ⟨false, 1, ⟨m9, 1⟩, 147522, [-1, 2, 0], 3, 0⟩,
    ⟨false, 1, ⟨m10, 1⟩, 148482, [-1, 3, 1], 7, 0⟩,
    ⟨false, 0, ⟨m2, 1⟩, 17427, [1, 0, 1], 2, 0⟩,
    ⟨false, 1, ⟨m15, 0⟩, 131395, [1, 0, -1], 2, 0⟩,
    ⟨false, 1, ⟨m16, 1⟩, 147539, [1, -1, -1], 3, 0⟩,
    ⟨false, 1, ⟨m9, 1⟩, 147522, [1, 3, -1], 7, 0⟩,
    ⟨false, 1, ⟨m10, 1⟩, 148482, [-1, 2, 0], 3, 0⟩,
    ⟨false, 1, ⟨m9, 0⟩, 131138, [-1, 3, 1], 7, 0⟩,
    ⟨false, 0, ⟨m16, 1⟩, 16467, [1, 0, 1], 2, 0⟩,
    ⟨false, 1, ⟨m8, 0⟩, 131365, [1, 0, -1], 2, 0⟩,
    ⟨false, 1, ⟨m0, 1⟩, 147492, [2, 0, -1], 3, 0⟩,
    ⟨false, 1, ⟨m13, 0⟩, 131905, [-3, 3, 3], 23, 0⟩,
    ⟨false, 1, ⟨m7, 1⟩, 147794, [-1, 1, -1], 3, 0⟩,
    ⟨false, 0, ⟨m1, 1⟩, 17667, [1, 1, 0], 2, 0⟩,
    ⟨false, 1, ⟨m7, 0⟩, 131410, [0, 1, -1], 2, 0⟩,
    ⟨false, 1, ⟨m9, 1⟩, 147522, [0, 2, -1], 3, 0⟩,
    ⟨false, 1, ⟨m6, 1⟩, 148754, [-1, 1, -1], 3, 0⟩,
    ⟨false, 0, ⟨m15, 1⟩, 16707, [1, 1, 0], 2, 0⟩,
    ⟨false, 1, ⟨m13, 1⟩, 148289, [0, 1, 0], 1, 0⟩,
    ⟨false, 1, ⟨m17, 0⟩, 131380, [0, 1, -1], 2, 0⟩,
    ⟨false, 1, ⟨m18, 1⟩, 147509, [-1, 1, -1], 3, 0⟩,
    ⟨false, 1, ⟨m11, 1⟩, 148769, [3, 3, -3], 23, 0⟩,
    ⟨false, 1, ⟨m10, 0⟩, 132098, [-1, 3, 1], 7, 0⟩,
    ⟨false, 1, ⟨m6, 1⟩, 148754, [1, 1, -3], 7, 0⟩,
    ⟨false, 1, ⟨m13, 1⟩, 148289, [-3, 3, 3], 23, 0⟩,
    ⟨false, 1, ⟨m13, 1⟩, 148289, [3, 3, -3], 23, 0⟩,
    ⟨false, 0, ⟨m18, 1⟩, 16437, [-3, 5, -1], 23, 0⟩,
    ⟨false, 1, ⟨m13, 0⟩, 131905, [-1, 5, 3], 23, 0⟩,
    ⟨false, 1, ⟨m5, 0⟩, 131845, [-1, 5, 3], 23, 0⟩,
    ⟨false, 1, ⟨m11, 1⟩, 148769, [1, 3, -5], 23, 0⟩,
    ⟨false, 0, ⟨m18, 1⟩, 16437, [-1, 5, -3], 23, 0⟩,
    ⟨false, 0, ⟨m14, 1⟩, 16917, [-3, 3, -3], 23, 0⟩,
    ⟨false, 0, ⟨m9, 1⟩, 16450, [-3, 3, -3], 23, 0⟩,
    ⟨false, 1, ⟨m9, 0⟩, 131138, [-7, 7, 7], 183, 0⟩,
    ⟨false, 1, ⟨m6, 1⟩, 148754, [7, 7, -7], 183, 0⟩]

theorem form_l1 : formB Zoo.luna.mult core_l1 = true := by decide +kernel

theorem autos_l1 : autosB .l1 2 378 5 prow core_l1 = true := by decide +kernel

theorem closed_l1 : closedB .l1 2 8 378 5 prow core_l1 core_l1 = true := by decide +kernel

def pt1_l1 : Pt := ⟨[1, 5], [5, 5], 5 / 7, [0, 1, 0]⟩
def pt2_l1 : Pt := ⟨[4], [4, 4], 4 / 7, [1, 0, 1]⟩

theorem low_l1 : lowB .l1 Zoo.luna 0 pt1_l1 pt2_l1 (378 / 5) := by decide +kernel

theorem cert_l1 : Cert .l1 Zoo.luna (378 / 5) (378 / 5) :=
  ⟨.l1, 2, 8, 378, 5, prow, core_l1, 0, pt1_l1, pt2_l1, trivial, by decide, rfl, by norm_num [bnd, Metric.sq], div_eq, genus_eq, rows, form_l1, autos_l1,
    closed_l1, by norm_num [Metric.sq, Metric.ratio]; exact low_l1⟩

def core_l2sq : List (Ent 3) :=
  [
    ⟨false, 1, ⟨m5, 0⟩, 131845, [0, 1, 0], 1, 655⟩,
    ⟨false, 1, ⟨m12, 1⟩, 148244, [1, 1, 0], 2, 802⟩,
    ⟨false, 0, ⟨m11, 1⟩, 17697, [0, 0, -1], 1, 655⟩,
    ⟨false, 0, ⟨m14, 1⟩, 16917, [-1, 0, -1], 2, 802⟩,
    ⟨false, 0, ⟨m6, 1⟩, 17682, [-1, -1, -1], 3, 926⟩,
    ⟨false, 1, ⟨m12, 1⟩, 148244, [1, 0, 0], 1, 655⟩,
    ⟨false, 1, ⟨m2, 1⟩, 148499, [1, -1, 0], 2, 802⟩,
    ⟨false, 1, ⟨m3, 1⟩, 148304, [1, 0, 0], 1, 655⟩,
    ⟨false, 1, ⟨m8, 1⟩, 147749, [1, 0, -1], 2, 802⟩,
    ⟨false, 1, ⟨m9, 0⟩, 131138, [1, 1, -1], 3, 926⟩,
    ⟨false, 1, ⟨m5, 1⟩, 148229, [0, 1, 0], 1, 655⟩,
    ⟨false, 1, ⟨m6, 0⟩, 132370, [0, 1, -1], 2, 802⟩,
    ⟨false, 1, ⟨m13, 0⟩, 131905, [0, 1, 0], 1, 655⟩,
    ⟨false, 1, ⟨m5, 1⟩, 148229, [-1, 1, 0], 2, 802⟩,
    ⟨false, 0, ⟨m0, 1⟩, 16420, [1, 0, 0], 1, 655⟩,
    ⟨false, 0, ⟨m6, 0⟩, 1298, [-1, -1, -1], 3, 926⟩,
    ⟨false, 1, ⟨m2, 0⟩, 132115, [1, -1, 0], 2, 802⟩,
    ⟨false, 1, ⟨m15, 1⟩, 147779, [1, -1, -1], 3, 926⟩,
    ⟨false, 1, ⟨m3, 0⟩, 131920, [1, 0, 0], 1, 655⟩,
    ⟨false, 1, ⟨m5, 1⟩, 148229, [1, 1, 0], 2, 802⟩,
    ⟨false, 1, ⟨m6, 0⟩, 132370, [1, 1, -1], 3, 926⟩,
    ⟨false, 0, ⟨m8, 1⟩, 16677, [0, 0, -1], 1, 655⟩,
    ⟨false, 0, ⟨m9, 0⟩, 66, [0, 1, -1], 2, 802⟩,
    ⟨false, 1, ⟨m9, 1⟩, 147522, [-1, 2, 0], 3, 1000⟩,
    ⟨false, 1, ⟨m10, 1⟩, 148482, [-1, 3, 1], 7, 1310⟩,
    ⟨false, 0, ⟨m2, 1⟩, 17427, [1, 0, 1], 2, 802⟩,
    ⟨false, 1, ⟨m15, 0⟩, 131395, [1, 0, -1], 2, 802⟩,
    ⟨false, 1, ⟨m16, 1⟩, 147539, [1, -1, -1], 3, 926⟩,
    ⟨false, 1, ⟨m9, 1⟩, 147522, [1, 3, -1], 7, 1310⟩,
    ⟨false, 1, ⟨m6, 1⟩, 148754, [0, 1, -3], 6, 1225⟩,
    ⟨false, 1, ⟨m10, 1⟩, 148482, [-1, 2, 0], 3, 1000⟩,
    ⟨false, 1, ⟨m13, 1⟩, 148289, [0, 3, 0], 5, 1134⟩,
    ⟨false, 1, ⟨m18, 1⟩, 147509, [-1, 3, 0], 6, 1225⟩,
    ⟨false, 1, ⟨m9, 0⟩, 131138, [-1, 3, 1], 7, 1310⟩,
    ⟨false, 0, ⟨m16, 1⟩, 16467, [1, 0, 1], 2, 802⟩,
    ⟨false, 1, ⟨m8, 0⟩, 131365, [1, 0, -1], 2, 802⟩,
    ⟨false, 1, ⟨m0, 1⟩, 147492, [2, 0, -1], 3, 1000⟩,
    ⟨false, 1, ⟨m7, 1⟩, 147794, [-1, 1, -1], 3, 926⟩,
    ⟨false, 0, ⟨m1, 1⟩, 17667, [1, 1, 0], 2, 802⟩,
    ⟨false, 1, ⟨m7, 0⟩, 131410, [0, 1, -1], 2, 802⟩,
    ⟨false, 1, ⟨m9, 1⟩, 147522, [0, 2, -1], 3, 1000⟩,
    ⟨false, 1, ⟨m6, 1⟩, 148754, [-1, 1, -1], 3, 926⟩,
    ⟨false, 0, ⟨m15, 1⟩, 16707, [1, 1, 0], 2, 802⟩,
    ⟨false, 1, ⟨m13, 1⟩, 148289, [0, 1, 0], 1, 655⟩,
    ⟨false, 1, ⟨m17, 0⟩, 131380, [0, 1, -1], 2, 802⟩,
    ⟨false, 1, ⟨m18, 1⟩, 147509, [-1, 1, -1], 3, 926⟩,
    ⟨false, 1, ⟨m10, 0⟩, 132098, [-1, 3, 1], 7, 1310⟩,
    ⟨false, 1, ⟨m6, 1⟩, 148754, [1, 1, -3], 7, 1310⟩,
    ⟨false, 0, ⟨m9, 1⟩, 16450, [0, 3, -1], 6, 1225⟩,
    ⟨false, 1, ⟨m9, 1⟩, 147522, [-1, 3, 1], 7, 1310⟩,
    ⟨false, 1, ⟨m0, 1⟩, 147492, [3, 1, -1], 7, 1310⟩,
    ⟨false, 0, ⟨m18, 1⟩, 16437, [-3, 5, -1], 23, 2000⟩,
    ⟨false, 1, ⟨m19, 1⟩, 148529, [0, 5, 3], 22, 1946⟩,
    ⟨false, 1, ⟨m13, 0⟩, 131905, [-1, 5, 3], 23, 2000⟩,
    ⟨false, 1, ⟨m5, 0⟩, 131845, [-1, 5, 3], 23, 2000⟩,
    ⟨false, 1, ⟨m0, 1⟩, 147492, [5, 3, -1], 23, 2000⟩,
    ⟨false, 1, ⟨m11, 1⟩, 148769, [1, 3, -5], 23, 2000⟩,
    ⟨false, 0, ⟨m13, 1⟩, 17217, [0, 5, -3], 22, 1946⟩,
    ⟨false, 0, ⟨m18, 1⟩, 16437, [-1, 5, -3], 23, 2000⟩]

theorem form_l2sq : formB Zoo.luna.mult core_l2sq = true := by decide +kernel

theorem autos_l2sq : autosB (.space 14 1000) 2 16807 50 prow core_l2sq = true := by decide +kernel

theorem closed_l2sq : closedB (.space 14 1000) 2 8 16807 50 prow core_l2sq core_l2sq = true := by decide +kernel

def pt1_l2sq : Pt := ⟨[0, 5], [4, 4], 4 / 7, [0, 0, 0]⟩
def pt2_l2sq : Pt := ⟨[1, 0], [3, 3], 3 / 7, [1, 1, 1]⟩

theorem low_l2sq : lowB .l2sq Zoo.luna 0 pt1_l2sq pt2_l2sq (16807 / 50) := by decide +kernel

theorem cert_l2sq : Cert .l2Squared Zoo.luna (16807 / 50) (16807 / 50) :=
  ⟨(.space 14 1000), 2, 8, 16807, 50, prow, core_l2sq, 0, pt1_l2sq, pt2_l2sq, ⟨by decide, by decide⟩, by decide, rfl, by norm_num [bnd, Metric.sq], div_eq, genus_eq, rows, form_l2sq, autos_l2sq,
    closed_l2sq, by norm_num [Metric.sq, Metric.ratio]; exact low_l2sq⟩

end Peano.ZooDil.Luna
