import Verif.Lemmas.ZooDil

set_option autoImplicit false
set_option maxRecDepth 100000
set_option linter.dupNamespace false

/-
Certificates for the dilations of the curve `haverkortA26` of the zoo.  This file is generated.
-/
namespace Peano.ZooDil.HaverkortA26
open DilCert Zoo

def m0 : BaseMap 3 := ⟨![(2, false), (0, true), (1, false)], true, by decide⟩
def m1 : BaseMap 3 := ⟨![(1, false), (2, false), (0, true)], true, by decide⟩
def m2 : BaseMap 3 := ⟨![(1, false), (2, false), (0, false)], false, by decide⟩
def m3 : BaseMap 3 := ⟨![(0, true), (2, true), (1, true)], true, by decide⟩
def m4 : BaseMap 3 := ⟨![(0, false), (2, true), (1, true)], false, by decide⟩
def m5 : BaseMap 3 := ⟨![(1, true), (2, false), (0, false)], true, by decide⟩
def m6 : BaseMap 3 := ⟨![(1, true), (2, false), (0, true)], false, by decide⟩
def m7 : BaseMap 3 := ⟨![(1, true), (0, true), (2, false)], false, by decide⟩
def m8 : BaseMap 3 := ⟨![(2, true), (0, true), (1, false)], true, by decide⟩
def m9 : BaseMap 3 := ⟨![(2, true), (0, false), (1, false)], false, by decide⟩
def m10 : BaseMap 3 := ⟨![(0, true), (1, false), (2, false)], false, by decide⟩
def m11 : BaseMap 3 := ⟨![(1, false), (0, true), (2, true)], true, by decide⟩
def m12 : BaseMap 3 := ⟨![(1, false), (0, false), (2, true)], false, by decide⟩
def m13 : BaseMap 3 := ⟨![(1, true), (0, true), (2, true)], true, by decide⟩
def m14 : BaseMap 3 := ⟨![(1, true), (0, false), (2, true)], false, by decide⟩
def m15 : BaseMap 3 := ⟨![(2, false), (1, false), (0, true)], false, by decide⟩
def m16 : BaseMap 3 := ⟨![(2, true), (1, false), (0, true)], false, by decide⟩
def m17 : BaseMap 3 := ⟨![(0, true), (2, true), (1, false)], true, by decide⟩
def m18 : BaseMap 3 := ⟨![(0, false), (2, true), (1, false)], true, by decide⟩
def m19 : BaseMap 3 := ⟨![(2, true), (0, false), (1, false)], true, by decide⟩
def m20 : BaseMap 3 := ⟨![(2, true), (0, true), (1, false)], false, by decide⟩
def m21 : BaseMap 3 := ⟨![(1, false), (2, true), (0, true)], true, by decide⟩
def m22 : BaseMap 3 := ⟨![(1, true), (2, true), (0, true)], true, by decide⟩
def m23 : BaseMap 3 := ⟨![(0, false), (1, false), (2, true)], true, by decide⟩
def m24 : BaseMap 3 := ⟨![(2, true), (0, true), (1, true)], true, by decide⟩
def m25 : BaseMap 3 := ⟨![(2, true), (0, false), (1, true)], false, by decide⟩
def m26 : BaseMap 3 := ⟨![(0, false), (2, false), (1, false)], true, by decide⟩
def m27 : BaseMap 3 := ⟨![(0, true), (2, false), (1, false)], false, by decide⟩
def m28 : BaseMap 3 := ⟨![(0, true), (2, false), (1, false)], true, by decide⟩
def m29 : BaseMap 3 := ⟨![(0, false), (2, false), (1, false)], false, by decide⟩
def m30 : BaseMap 3 := ⟨![(2, true), (1, false), (0, true)], true, by decide⟩
def m31 : BaseMap 3 := ⟨![(2, false), (1, false), (0, true)], true, by decide⟩
def m32 : BaseMap 3 := ⟨![(2, true), (1, false), (0, false)], true, by decide⟩

def prow : List (List (List ℤ × Spec 3)) :=
  [
    [([0, 0, 0], ⟨m0, 0⟩), ([0, 1, 0], ⟨m1, 0⟩), ([0, 1, 1], ⟨m2, 0⟩), ([0, 0, 1], ⟨m3, 0⟩), ([1, 0, 1], ⟨m4, 0⟩), ([1, 1, 1], ⟨m5, 0⟩), ([1, 1, 0], ⟨m6, 0⟩), ([1, 0, 0], ⟨m7, 0⟩)]]

theorem div_eq : Zoo.haverkortA26.div = 2 := by decide +kernel

theorem genus_eq : Zoo.haverkortA26.genus = 8 := by decide +kernel

theorem rows : Rows Zoo.haverkortA26 prow := by decide +kernel

def core_l1 : List (Ent 3) :=
  [
    ⟨true, 0, ⟨m8, 0⟩, 12821, [-1, 0, 0], 1, 0⟩,
    ⟨true, 0, ⟨m9, 0⟩, 8709, [-1, 1, 0], 2, 0⟩,
    ⟨true, 0, ⟨m10, 0⟩, 9249, [-1, 0, 0], 1, 0⟩,
    ⟨true, 0, ⟨m11, 0⟩, 13586, [-1, 0, -1], 2, 0⟩,
    ⟨true, 0, ⟨m12, 0⟩, 9474, [-1, 1, -1], 3, 0⟩,
    ⟨false, 0, ⟨m13, 0⟩, 5395, [0, 0, -1], 1, 0⟩,
    ⟨false, 0, ⟨m14, 0⟩, 1283, [0, 1, -1], 2, 0⟩,
    ⟨true, 0, ⟨m15, 0⟩, 8484, [-1, 0, -1], 2, 0⟩,
    ⟨false, 0, ⟨m16, 0⟩, 293, [0, 0, -1], 1, 0⟩,
    ⟨true, 0, ⟨m17, 0⟩, 12881, [-1, -1, -1], 3, 0⟩,
    ⟨false, 0, ⟨m18, 0⟩, 4688, [0, -1, -1], 2, 0⟩,
    ⟨false, 0, ⟨m19, 0⟩, 4613, [-1, -1, -1], 3, 0⟩,
    ⟨false, 0, ⟨m20, 0⟩, 533, [-1, -2, -1], 4, 0⟩,
    ⟨false, 0, ⟨m5, 0⟩, 4163, [0, 1, -1], 2, 0⟩,
    ⟨false, 0, ⟨m6, 0⟩, 323, [0, 1, -2], 3, 0⟩,
    ⟨true, 0, ⟨m21, 0⟩, 12626, [-1, -1, -1], 3, 0⟩,
    ⟨false, 0, ⟨m22, 0⟩, 4435, [0, -1, -1], 2, 0⟩,
    ⟨false, 0, ⟨m23, 0⟩, 5408, [0, 0, -1], 1, 0⟩,
    ⟨false, 0, ⟨m24, 0⟩, 4885, [-1, 0, -1], 2, 0⟩,
    ⟨false, 0, ⟨m25, 0⟩, 773, [-1, 1, -1], 3, 0⟩,
    ⟨true, 0, ⟨m26, 0⟩, 12864, [-2, 1, -1], 4, 0⟩,
    ⟨true, 0, ⟨m27, 0⟩, 8769, [-3, 1, -1], 5, 0⟩,
    ⟨false, 0, ⟨m0, 0⟩, 4628, [1, 0, -1], 2, 0⟩,
    ⟨false, 0, ⟨m28, 0⟩, 4673, [1, 1, -1], 3, 0⟩,
    ⟨false, 0, ⟨m29, 0⟩, 576, [2, 1, -1], 4, 0⟩,
    ⟨true, 0, ⟨m30, 0⟩, 12581, [-2, 0, -1], 3, 0⟩,
    ⟨false, 0, ⟨m31, 0⟩, 4388, [1, 0, -1], 2, 0⟩,
    ⟨false, 0, ⟨m32, 0⟩, 4133, [-1, 0, -1], 2, 0⟩]

theorem form_l1 : formB Zoo.haverkortA26.mult core_l1 = true := by decide +kernel

theorem autos_l1 : autosB .l1 2 896 9 prow core_l1 = true := by decide +kernel

theorem closed_l1 : closedB .l1 2 8 896 9 prow core_l1 core_l1 = true := by decide +kernel

def pt1_l1 : Pt := ⟨[2, 5], [3, 3], 3 / 7, [1, 1, 1]⟩
def pt2_l1 : Pt := ⟨[3, 2], [4, 4], 4 / 7, [0, 0, 0]⟩

theorem low_l1 : lowB .l1 Zoo.haverkortA26 0 pt1_l1 pt2_l1 (896 / 9) := by decide +kernel

theorem cert_l1 : Cert .l1 Zoo.haverkortA26 (896 / 9) (896 / 9) :=
  ⟨.l1, 2, 8, 896, 9, prow, core_l1, 0, pt1_l1, pt2_l1, trivial, by decide, rfl, by norm_num [bnd, Metric.sq], div_eq, genus_eq, rows, form_l1, autos_l1,
    closed_l1, by norm_num [Metric.sq, Metric.ratio]; exact low_l1⟩

def core_linf : List (Ent 3) :=
  [
    ⟨true, 0, ⟨m8, 0⟩, 12821, [-1, 0, 0], 1, 0⟩,
    ⟨true, 0, ⟨m10, 0⟩, 9249, [-1, 0, 0], 1, 0⟩,
    ⟨false, 0, ⟨m13, 0⟩, 5395, [0, 0, -1], 1, 0⟩,
    ⟨false, 0, ⟨m16, 0⟩, 293, [0, 0, -1], 1, 0⟩,
    ⟨false, 0, ⟨m6, 0⟩, 323, [0, 1, -2], 3, 0⟩,
    ⟨false, 0, ⟨m23, 0⟩, 5408, [0, 0, -1], 1, 0⟩,
    ⟨false, 0, ⟨m25, 0⟩, 773, [-1, 3, 0], 6, 0⟩,
    ⟨true, 0, ⟨m27, 0⟩, 8769, [-3, 1, -1], 5, 0⟩,
    ⟨true, 0, ⟨m21, 0⟩, 12626, [-3, 0, -1], 6, 0⟩,
    ⟨true, 0, ⟨m30, 0⟩, 12581, [-2, 0, -1], 3, 0⟩,
    ⟨false, 0, ⟨m14, 0⟩, 1283, [0, 3, -1], 6, 0⟩,
    ⟨true, 0, ⟨m10, 0⟩, 9249, [-3, 0, 0], 5, 0⟩,
    ⟨true, 0, ⟨m11, 0⟩, 13586, [-3, 0, -1], 6, 0⟩]

theorem form_linf : formB Zoo.haverkortA26.mult core_linf = true := by decide +kernel

theorem autos_linf : autosB .linf 2 112 9 prow core_linf = true := by decide +kernel

theorem closed_linf : closedB .linf 2 8 112 9 prow core_linf core_linf = true := by decide +kernel

def pt1_linf : Pt := ⟨[2, 5], [3, 3], 3 / 7, [1, 1, 1]⟩
def pt2_linf : Pt := ⟨[3, 2], [4, 4], 4 / 7, [0, 0, 0]⟩

theorem low_linf : lowB .linf Zoo.haverkortA26 0 pt1_linf pt2_linf (112 / 9) := by decide +kernel

theorem cert_linf : Cert .linf Zoo.haverkortA26 (112 / 9) (112 / 9) :=
  ⟨.linf, 2, 8, 112, 9, prow, core_linf, 0, pt1_linf, pt2_linf, trivial, by decide, rfl, by norm_num [bnd, Metric.sq], div_eq, genus_eq, rows, form_linf, autos_linf,
    closed_linf, by norm_num [Metric.sq, Metric.ratio]; exact low_linf⟩

def core_l2sq : List (Ent 3) :=
  [
    ⟨true, 0, ⟨m8, 0⟩, 12821, [-1, 0, 0], 1, 1000⟩,
    ⟨true, 0, ⟨m9, 0⟩, 8709, [-1, 1, 0], 2, 1225⟩,
    ⟨true, 0, ⟨m10, 0⟩, 9249, [-1, 0, 0], 1, 1000⟩,
    ⟨true, 0, ⟨m11, 0⟩, 13586, [-1, 0, -1], 2, 1225⟩,
    ⟨false, 0, ⟨m13, 0⟩, 5395, [0, 0, -1], 1, 1000⟩,
    ⟨false, 0, ⟨m14, 0⟩, 1283, [0, 1, -1], 2, 1225⟩,
    ⟨true, 0, ⟨m15, 0⟩, 8484, [-1, 0, -1], 2, 1225⟩,
    ⟨false, 0, ⟨m16, 0⟩, 293, [0, 0, -1], 1, 1000⟩,
    ⟨false, 0, ⟨m18, 0⟩, 4688, [0, -1, -1], 2, 1225⟩,
    ⟨false, 0, ⟨m20, 0⟩, 533, [-1, -2, -1], 4, 1684⟩,
    ⟨false, 0, ⟨m5, 0⟩, 4163, [0, 1, -1], 2, 1225⟩,
    ⟨false, 0, ⟨m6, 0⟩, 323, [0, 1, -2], 3, 1528⟩,
    ⟨false, 0, ⟨m22, 0⟩, 4435, [0, -1, -1], 2, 1225⟩,
    ⟨false, 0, ⟨m23, 0⟩, 5408, [0, 0, -1], 1, 1000⟩,
    ⟨false, 0, ⟨m24, 0⟩, 4885, [-1, 0, -1], 2, 1225⟩,
    ⟨true, 0, ⟨m26, 0⟩, 12864, [-2, 1, -1], 4, 1684⟩,
    ⟨true, 0, ⟨m27, 0⟩, 8769, [-3, 1, -1], 5, 2000⟩,
    ⟨false, 0, ⟨m0, 0⟩, 4628, [1, 0, -1], 2, 1225⟩,
    ⟨false, 0, ⟨m29, 0⟩, 576, [2, 1, -1], 4, 1684⟩,
    ⟨true, 0, ⟨m30, 0⟩, 12581, [-2, 0, -1], 3, 1528⟩,
    ⟨false, 0, ⟨m31, 0⟩, 4388, [1, 0, -1], 2, 1225⟩,
    ⟨false, 0, ⟨m32, 0⟩, 4133, [-1, 0, -1], 2, 1225⟩]

theorem form_l2sq : formB Zoo.haverkortA26.mult core_l2sq = true := by decide +kernel

theorem autos_l2sq : autosB (.space 6 1000) 2 1568 3 prow core_l2sq = true := by decide +kernel

theorem closed_l2sq : closedB (.space 6 1000) 2 8 1568 3 prow core_l2sq core_l2sq = true := by decide +kernel

def pt1_l2sq : Pt := ⟨[2, 5], [3, 3], 3 / 7, [1, 1, 1]⟩
def pt2_l2sq : Pt := ⟨[3, 2], [4, 4], 4 / 7, [0, 0, 0]⟩

theorem low_l2sq : lowB .l2sq Zoo.haverkortA26 0 pt1_l2sq pt2_l2sq (1568 / 3) := by decide +kernel

theorem cert_l2sq : Cert .l2Squared Zoo.haverkortA26 (1568 / 3) (1568 / 3) :=
  ⟨(.space 6 1000), 2, 8, 1568, 3, prow, core_l2sq, 0, pt1_l2sq, pt2_l2sq, ⟨by decide, by decide⟩, by decide, rfl, by norm_num [bnd, Metric.sq], div_eq, genus_eq, rows, form_l2sq, autos_l2sq,
    closed_l2sq, by norm_num [Metric.sq, Metric.ratio]; exact low_l2sq⟩

end Peano.ZooDil.HaverkortA26
