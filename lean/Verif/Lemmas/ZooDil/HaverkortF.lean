import Verif.Lemmas.ZooDil

set_option autoImplicit false
set_option maxRecDepth 100000
set_option linter.dupNamespace false

/-
Certificates for the dilations of the curve `haverkortF` of the zoo.  This file is generated.
-/
namespace Peano.ZooDil.HaverkortF
open DilCert Zoo

def m0 : BaseMap 3 := ⟨![(0, false), (2, true), (1, true)], false, by decide⟩
def m1 : BaseMap 3 := ⟨![(1, true), (0, false), (2, true)], false, by decide⟩
def m2 : BaseMap 3 := ⟨![(1, true), (0, false), (2, false)], true, by decide⟩
def m3 : BaseMap 3 := ⟨![(2, true), (0, true), (1, false)], false, by decide⟩
def m4 : BaseMap 3 := ⟨![(2, false), (0, true), (1, false)], true, by decide⟩
def m5 : BaseMap 3 := ⟨![(1, false), (0, false), (2, false)], false, by decide⟩
def m6 : BaseMap 3 := ⟨![(1, false), (0, false), (2, true)], true, by decide⟩
def m7 : BaseMap 3 := ⟨![(1, false), (2, true), (0, false)], true, by decide⟩
def m8 : BaseMap 3 := ⟨![(1, true), (2, false), (0, true)], false, by decide⟩
def m9 : BaseMap 3 := ⟨![(0, false), (1, false), (2, true)], true, by decide⟩
def m10 : BaseMap 3 := ⟨![(0, true), (2, false), (1, false)], false, by decide⟩
def m11 : BaseMap 3 := ⟨![(2, true), (1, false), (0, true)], true, by decide⟩
def m12 : BaseMap 3 := ⟨![(0, true), (1, false), (2, false)], false, by decide⟩
def m13 : BaseMap 3 := ⟨![(1, true), (2, true), (0, true)], true, by decide⟩
def m14 : BaseMap 3 := ⟨![(0, true), (2, false), (1, true)], false, by decide⟩
def m15 : BaseMap 3 := ⟨![(0, true), (2, true), (1, true)], true, by decide⟩
def m16 : BaseMap 3 := ⟨![(0, true), (2, true), (1, false)], true, by decide⟩
def m17 : BaseMap 3 := ⟨![(2, true), (1, false), (0, false)], true, by decide⟩
def m18 : BaseMap 3 := ⟨![(1, true), (2, false), (0, false)], false, by decide⟩
def m19 : BaseMap 3 := ⟨![(2, true), (0, true), (1, true)], false, by decide⟩
def m20 : BaseMap 3 := ⟨![(1, false), (0, true), (2, false)], false, by decide⟩
def m21 : BaseMap 3 := ⟨![(1, false), (0, true), (2, true)], true, by decide⟩
def m22 : BaseMap 3 := ⟨![(2, true), (1, false), (0, true)], false, by decide⟩
def m23 : BaseMap 3 := ⟨![(2, true), (1, false), (0, false)], false, by decide⟩
def m24 : BaseMap 3 := ⟨![(2, false), (1, false), (0, true)], false, by decide⟩
def m25 : BaseMap 3 := ⟨![(1, true), (0, false), (2, false)], false, by decide⟩
def m26 : BaseMap 3 := ⟨![(2, true), (1, true), (0, true)], false, by decide⟩
def m27 : BaseMap 3 := ⟨![(2, true), (0, false), (1, true)], false, by decide⟩
def m28 : BaseMap 3 := ⟨![(2, true), (0, false), (1, false)], false, by decide⟩
def m29 : BaseMap 3 := ⟨![(2, true), (1, true), (0, true)], true, by decide⟩
def m30 : BaseMap 3 := ⟨![(1, false), (2, false), (0, true)], false, by decide⟩
def m31 : BaseMap 3 := ⟨![(1, false), (2, true), (0, true)], true, by decide⟩
def m32 : BaseMap 3 := ⟨![(0, true), (1, true), (2, true)], true, by decide⟩

def prow : List (List (List ℤ × Spec 3)) :=
  [
    [([0, 0, 0], ⟨m0, 0⟩), ([0, 1, 0], ⟨m1, 0⟩), ([0, 1, 1], ⟨m2, 0⟩), ([0, 0, 1], ⟨m3, 0⟩), ([1, 0, 1], ⟨m4, 0⟩), ([1, 1, 1], ⟨m5, 0⟩), ([1, 1, 0], ⟨m6, 0⟩), ([1, 0, 0], ⟨m7, 0⟩)]]

theorem div_eq : Zoo.haverkortF.div = 2 := by decide +kernel

theorem genus_eq : Zoo.haverkortF.genus = 8 := by decide +kernel

theorem rows : Rows Zoo.haverkortF prow := by decide +kernel

def core_linf : List (Ent 3) :=
  [
    ⟨false, 0, ⟨m8, 0⟩, 323, [0, 0, -1], 1, 0⟩,
    ⟨false, 0, ⟨m9, 0⟩, 5408, [0, 0, -1], 1, 0⟩,
    ⟨true, 0, ⟨m10, 0⟩, 8769, [-1, 0, 0], 1, 0⟩,
    ⟨true, 0, ⟨m11, 0⟩, 12581, [-1, 0, 0], 1, 0⟩,
    ⟨true, 0, ⟨m12, 0⟩, 9249, [-1, 0, 0], 1, 0⟩]

theorem form_linf : formB Zoo.haverkortF.mult core_linf = true := by decide +kernel

theorem autos_linf : autosB .linf 2 14 1 prow core_linf = true := by decide +kernel

theorem closed_linf : closedB .linf 2 8 14 1 prow core_linf core_linf = true := by decide +kernel

def pt1_linf : Pt := ⟨[1], [5, 5], 5 / 7, [0, 1, 0]⟩
def pt2_linf : Pt := ⟨[2], [2, 2], 2 / 7, [0, 1, 1]⟩

theorem low_linf : lowB .linf Zoo.haverkortF 0 pt1_linf pt2_linf (14) := by decide +kernel

theorem cert_linf : Cert .linf Zoo.haverkortF (14) (14) :=
  ⟨.linf, 2, 8, 14, 1, prow, core_linf, 0, pt1_linf, pt2_linf, trivial, by decide, rfl, by norm_num [bnd, Metric.sq], div_eq, genus_eq, rows, form_linf, autos_linf,
    closed_linf, by norm_num [Metric.sq, Metric.ratio]; exact low_linf⟩

def core_l1 : List (Ent 3) :=
  [
    ⟨false, 0, ⟨m8, 0⟩, 323, [0, 0, -1], 1, 0⟩,
    ⟨false, 0, ⟨m13, 0⟩, 4435, [0, -1, -1], 2, 0⟩,
    ⟨false, 0, ⟨m9, 0⟩, 5408, [0, 0, -1], 1, 0⟩,
    ⟨false, 0, ⟨m14, 0⟩, 833, [-1, 0, -1], 2, 0⟩,
    ⟨false, 0, ⟨m15, 0⟩, 4945, [-1, -1, -1], 3, 0⟩,
    ⟨true, 0, ⟨m10, 0⟩, 8769, [-1, 0, 0], 1, 0⟩,
    ⟨true, 0, ⟨m16, 0⟩, 12881, [-1, -1, 0], 2, 0⟩,
    ⟨false, 0, ⟨m17, 0⟩, 4133, [-1, 0, -1], 2, 0⟩,
    ⟨true, 0, ⟨m11, 0⟩, 12581, [-1, 0, 0], 1, 0⟩,
    ⟨false, 0, ⟨m3, 0⟩, 533, [-1, -1, -2], 4, 0⟩,
    ⟨true, 0, ⟨m18, 0⟩, 8259, [-1, 0, 1], 2, 0⟩,
    ⟨true, 0, ⟨m19, 0⟩, 8981, [-1, -1, 1], 3, 0⟩,
    ⟨true, 0, ⟨m20, 0⟩, 9234, [-1, -1, 0], 2, 0⟩,
    ⟨true, 0, ⟨m21, 0⟩, 13586, [-1, -1, -1], 3, 0⟩,
    ⟨false, 0, ⟨m22, 0⟩, 293, [-1, 0, -2], 3, 0⟩,
    ⟨true, 0, ⟨m23, 0⟩, 8229, [-1, 0, 1], 2, 0⟩,
    ⟨true, 0, ⟨m12, 0⟩, 9249, [-1, 0, 0], 1, 0⟩,
    ⟨true, 0, ⟨m24, 0⟩, 8484, [-1, 0, -1], 2, 0⟩,
    ⟨false, 0, ⟨m1, 0⟩, 1283, [-1, 1, -1], 3, 0⟩,
    ⟨true, 0, ⟨m25, 0⟩, 9219, [-1, 1, 0], 2, 0⟩,
    ⟨true, 0, ⟨m26, 0⟩, 8501, [-1, 1, -1], 3, 0⟩,
    ⟨false, 0, ⟨m27, 0⟩, 773, [-1, 1, -1], 3, 0⟩,
    ⟨true, 0, ⟨m28, 0⟩, 8709, [-1, 1, 0], 2, 0⟩,
    ⟨false, 0, ⟨m29, 0⟩, 4405, [-3, -3, -5], 31, 0⟩,
    ⟨true, 0, ⟨m30, 0⟩, 8514, [-1, 0, -1], 2, 0⟩,
    ⟨true, 0, ⟨m31, 0⟩, 12626, [-1, -1, -1], 3, 0⟩,
    ⟨false, 0, ⟨m15, 0⟩, 4945, [-7, -7, -11], 245, 0⟩]

theorem form_l1 : formB Zoo.haverkortF.mult core_l1 = true := by decide +kernel

theorem autos_l1 : autosB .l1 2 9604 107 prow core_l1 = true := by decide +kernel

theorem closed_l1 : closedB .l1 2 8 9604 107 prow core_l1 core_l1 = true := by decide +kernel

def pt1_l1 : Pt := ⟨[0, 5], [5, 5], 5 / 7, [1, 0, 0]⟩
def pt2_l1 : Pt := ⟨[1, 1, 4], [2, 2], 2 / 7, [0, 1, 1]⟩

theorem low_l1 : lowB .l1 Zoo.haverkortF 0 pt1_l1 pt2_l1 (9604 / 107) := by decide +kernel

theorem cert_l1 : Cert .l1 Zoo.haverkortF (9604 / 107) (9604 / 107) :=
  ⟨.l1, 2, 8, 9604, 107, prow, core_l1, 0, pt1_l1, pt2_l1, trivial, by decide, rfl, by norm_num [bnd, Metric.sq], div_eq, genus_eq, rows, form_l1, autos_l1,
    closed_l1, by norm_num [Metric.sq, Metric.ratio]; exact low_l1⟩

def core_l2sq : List (Ent 3) :=
  [
    ⟨false, 0, ⟨m8, 0⟩, 323, [0, 0, -1], 1, 655⟩,
    ⟨false, 0, ⟨m13, 0⟩, 4435, [0, -1, -1], 2, 802⟩,
    ⟨false, 0, ⟨m9, 0⟩, 5408, [0, 0, -1], 1, 655⟩,
    ⟨false, 0, ⟨m14, 0⟩, 833, [-1, 0, -1], 2, 802⟩,
    ⟨false, 0, ⟨m15, 0⟩, 4945, [-1, -1, -1], 3, 926⟩,
    ⟨true, 0, ⟨m10, 0⟩, 8769, [-1, 0, 0], 1, 655⟩,
    ⟨true, 0, ⟨m16, 0⟩, 12881, [-1, -1, 0], 2, 802⟩,
    ⟨false, 0, ⟨m17, 0⟩, 4133, [-1, 0, -1], 2, 802⟩,
    ⟨true, 0, ⟨m11, 0⟩, 12581, [-1, 0, 0], 1, 655⟩,
    ⟨false, 0, ⟨m8, 0⟩, 323, [-1, 0, -2], 3, 1000⟩,
    ⟨false, 0, ⟨m3, 0⟩, 533, [-1, -1, -2], 4, 1102⟩,
    ⟨true, 0, ⟨m18, 0⟩, 8259, [-1, 0, 1], 2, 802⟩,
    ⟨true, 0, ⟨m19, 0⟩, 8981, [-1, -1, 1], 3, 926⟩,
    ⟨true, 0, ⟨m20, 0⟩, 9234, [-1, -1, 0], 2, 802⟩,
    ⟨true, 0, ⟨m21, 0⟩, 13586, [-1, -1, -1], 3, 926⟩,
    ⟨false, 0, ⟨m15, 0⟩, 4945, [-1, -3, -1], 7, 1310⟩,
    ⟨true, 0, ⟨m16, 0⟩, 12881, [-1, -3, 0], 6, 1225⟩,
    ⟨false, 0, ⟨m22, 0⟩, 293, [-1, 0, -2], 3, 1000⟩,
    ⟨false, 0, ⟨m14, 0⟩, 833, [-1, 0, -3], 6, 1225⟩,
    ⟨false, 0, ⟨m15, 0⟩, 4945, [-1, -1, -3], 7, 1310⟩,
    ⟨true, 0, ⟨m23, 0⟩, 8229, [-1, 0, 1], 2, 802⟩,
    ⟨true, 0, ⟨m12, 0⟩, 9249, [-1, 0, 0], 1, 655⟩,
    ⟨true, 0, ⟨m24, 0⟩, 8484, [-1, 0, -1], 2, 802⟩,
    ⟨true, 0, ⟨m11, 0⟩, 12581, [-2, 0, -1], 3, 1000⟩,
    ⟨false, 0, ⟨m1, 0⟩, 1283, [-1, 1, -1], 3, 926⟩,
    ⟨true, 0, ⟨m25, 0⟩, 9219, [-1, 1, 0], 2, 802⟩,
    ⟨true, 0, ⟨m26, 0⟩, 8501, [-1, 1, -1], 3, 926⟩,
    ⟨false, 0, ⟨m32, 0⟩, 5425, [-1, -1, -3], 7, 1310⟩,
    ⟨false, 0, ⟨m27, 0⟩, 773, [-1, 1, -1], 3, 926⟩,
    ⟨true, 0, ⟨m28, 0⟩, 8709, [-1, 1, 0], 2, 802⟩,
    ⟨false, 0, ⟨m29, 0⟩, 4405, [-3, -3, -5], 31, 2204⟩,
    ⟨false, 0, ⟨m32, 0⟩, 5425, [-1, -3, -5], 23, 2000⟩,
    ⟨true, 0, ⟨m30, 0⟩, 8514, [-1, 0, -1], 2, 802⟩,
    ⟨true, 0, ⟨m31, 0⟩, 12626, [-1, -1, -1], 3, 926⟩,
    ⟨false, 0, ⟨m32, 0⟩, 5425, [-7, -3, -11], 181, 4000⟩]

theorem form_l2sq : formB Zoo.haverkortF.mult core_l2sq = true := by decide +kernel

theorem autos_l2sq : autosB (.space 14 1000) 2 2151296 6241 prow core_l2sq = true := by decide +kernel

theorem closed_l2sq : closedB (.space 14 1000) 2 8 2151296 6241 prow core_l2sq core_l2sq = true := by decide +kernel

def pt1_l2sq : Pt := ⟨[1, 5], [5, 5], 5 / 7, [0, 1, 0]⟩
def pt2_l2sq : Pt := ⟨[2, 0, 4], [2, 2], 2 / 7, [1, 0, 1]⟩

theorem low_l2sq : lowB .l2sq Zoo.haverkortF 0 pt1_l2sq pt2_l2sq (2151296 / 6241) := by decide +kernel

theorem cert_l2sq : Cert .l2Squared Zoo.haverkortF (2151296 / 6241) (2151296 / 6241) :=
  ⟨(.space 14 1000), 2, 8, 2151296, 6241, prow, core_l2sq, 0, pt1_l2sq, pt2_l2sq, ⟨by decide, by decide⟩, by decide, rfl, by norm_num [bnd, Metric.sq], div_eq, genus_eq, rows, form_l2sq, autos_l2sq,
    closed_l2sq, by norm_num [Metric.sq, Metric.ratio]; exact low_l2sq⟩

end Peano.ZooDil.HaverkortF
