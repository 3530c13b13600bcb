import Verif.Lemmas.ZooDil

set_option autoImplicit false
set_option maxRecDepth 100000
set_option linter.dupNamespace false

/-
Certificates for the dilations of the curve `tokarev` of the zoo.  This file is generated.
-/
namespace Peano.ZooDil.Tokarev
open DilCert Zoo

def m0 : BaseMap 3 := ⟨![(2, false), (0, false), (1, false)], false, by decide⟩
def m1 : BaseMap 3 := ⟨![(1, false), (2, false), (0, false)], false, by decide⟩
def m2 : BaseMap 3 := ⟨![(0, false), (1, true), (2, true)], false, by decide⟩
def m3 : BaseMap 3 := ⟨![(1, true), (2, false), (0, true)], false, by decide⟩
def m4 : BaseMap 3 := ⟨![(2, true), (0, true), (1, false)], false, by decide⟩
def m5 : BaseMap 3 := ⟨![(0, false), (1, false), (2, false)], false, by decide⟩
def m6 : BaseMap 3 := ⟨![(2, true), (0, false), (1, true)], false, by decide⟩
def m7 : BaseMap 3 := ⟨![(1, true), (2, true), (0, false)], false, by decide⟩
def m8 : BaseMap 3 := ⟨![(0, true), (1, false), (2, true)], false, by decide⟩
def m9 : BaseMap 3 := ⟨![(0, true), (1, true), (2, false)], false, by decide⟩

def prow : List (List (List ℤ × Spec 3)) :=
  [
    [([0, 0, 0], ⟨m0, 0⟩), ([0, 1, 0], ⟨m1, 0⟩), ([0, 1, 1], ⟨m1, 0⟩), ([0, 0, 1], ⟨m2, 0⟩), ([1, 0, 1], ⟨m2, 0⟩), ([1, 1, 1], ⟨m3, 0⟩), ([1, 1, 0], ⟨m3, 0⟩), ([1, 0, 0], ⟨m4, 0⟩)]]

theorem div_eq : Zoo.tokarev.div = 2 := by decide +kernel

theorem genus_eq : Zoo.tokarev.genus = 8 := by decide +kernel

theorem rows : Rows Zoo.tokarev prow := by decide +kernel

def core_linf : List (Ent 3) :=
  [
    ⟨false, 0, ⟨m0, 0⟩, 516, [1, 0, 0], 1, 0⟩,
    ⟨false, 0, ⟨m5, 0⟩, 1056, [1, 0, 0], 1, 0⟩,
    ⟨false, 0, ⟨m6, 0⟩, 773, [0, 0, -1], 1, 0⟩,
    ⟨false, 0, ⟨m7, 0⟩, 83, [0, -1, 0], 1, 0⟩,
    ⟨false, 0, ⟨m3, 0⟩, 323, [0, 0, -1], 1, 0⟩,
    ⟨false, 0, ⟨m8, 0⟩, 1313, [0, 0, -1], 1, 0⟩,
    ⟨false, 0, ⟨m4, 0⟩, 533, [0, -1, 0], 1, 0⟩,
    ⟨false, 0, ⟨m1, 0⟩, 66, [1, 0, 0], 1, 0⟩,
    ⟨false, 0, ⟨m9, 0⟩, 1073, [0, -1, 0], 1, 0⟩,
    ⟨false, 0, ⟨m8, 0⟩, 1313, [0, 0, -3], 3, 0⟩,
    ⟨false, 0, ⟨m7, 0⟩, 83, [0, -1, 7], 22, 0⟩,
    ⟨false, 0, ⟨m5, 0⟩, 1056, [7, 0, 0], 21, 0⟩,
    ⟨false, 0, ⟨m6, 0⟩, 773, [7, 0, -1], 22, 0⟩,
    ⟨false, 0, ⟨m6, 0⟩, 773, [0, 15, -1], 170, 0⟩,
    ⟨false, 0, ⟨m7, 0⟩, 83, [15, -1, 0], 170, 0⟩]

theorem form_linf : formB Zoo.tokarev.mult core_linf = true := by decide +kernel

theorem autos_linf : autosB .linf 2 896 37 prow core_linf = true := by decide +kernel

theorem closed_linf : closedB .linf 2 8 896 37 prow core_linf core_linf = true := by decide +kernel

def pt1_linf : Pt := ⟨[1, 7, 7, 6, 5], [3, 3], 3 / 7, [1 / 3, 2 / 3, 0]⟩
def pt2_linf : Pt := ⟨[2, 0, 0, 1, 2], [4, 4], 4 / 7, [1 / 3, 2 / 3, 1]⟩

theorem low_linf : lowB .linf Zoo.tokarev 0 pt1_linf pt2_linf (896 / 37) := by decide +kernel

theorem cert_linf : Cert .linf Zoo.tokarev (896 / 37) (896 / 37) :=
  ⟨.linf, 2, 8, 896, 37, prow, core_linf, 0, pt1_linf, pt2_linf, trivial, by decide, rfl, by norm_num [bnd, Metric.sq], div_eq, genus_eq, rows, form_linf, autos_linf,
    closed_linf, by norm_num [Metric.sq, Metric.ratio]; exact low_linf⟩

def core_l1 : List (Ent 3) :=
  [
    ⟨false, 0, ⟨m0, 0⟩, 516, [1, 0, 0], 1, 0⟩,
    ⟨false, 0, ⟨m5, 0⟩, 1056, [1, 0, 0], 1, 0⟩,
    ⟨false, 0, ⟨m6, 0⟩, 773, [1, 0, -1], 2, 0⟩,
    ⟨false, 0, ⟨m6, 0⟩, 773, [0, 0, -1], 1, 0⟩,
    ⟨false, 0, ⟨m7, 0⟩, 83, [1, -1, 0], 2, 0⟩,
    ⟨false, 0, ⟨m7, 0⟩, 83, [0, -1, 0], 1, 0⟩,
    ⟨false, 0, ⟨m3, 0⟩, 323, [1, 0, -1], 2, 0⟩,
    ⟨false, 0, ⟨m3, 0⟩, 323, [0, 0, -1], 1, 0⟩,
    ⟨false, 0, ⟨m9, 0⟩, 1073, [1, -1, -1], 3, 0⟩,
    ⟨false, 0, ⟨m9, 0⟩, 1073, [0, -1, -1], 2, 0⟩,
    ⟨false, 0, ⟨m4, 0⟩, 533, [-1, -1, -1], 3, 0⟩,
    ⟨false, 0, ⟨m4, 0⟩, 533, [-1, -2, -1], 4, 0⟩,
    ⟨false, 0, ⟨m8, 0⟩, 1313, [0, 0, -1], 1, 0⟩,
    ⟨false, 0, ⟨m0, 0⟩, 516, [3, 1, -1], 5, 0⟩,
    ⟨false, 0, ⟨m4, 0⟩, 533, [0, -1, 0], 1, 0⟩,
    ⟨false, 0, ⟨m3, 0⟩, 323, [1, 1, -3], 5, 0⟩,
    ⟨false, 0, ⟨m1, 0⟩, 66, [1, 0, 0], 1, 0⟩,
    ⟨false, 0, ⟨m9, 0⟩, 1073, [0, -1, 1], 2, 0⟩,
    ⟨false, 0, ⟨m9, 0⟩, 1073, [0, -1, 0], 1, 0⟩,
    ⟨false, 0, ⟨m4, 0⟩, 533, [7, -3, 3], 41, 0⟩,
    ⟨false, 0, ⟨m1, 0⟩, 66, [3, -3, 7], 41, 0⟩]

theorem form_l1 : formB Zoo.tokarev.mult core_l1 = true := by decide +kernel

theorem autos_l1 : autosB .l1 2 4032 41 prow core_l1 = true := by decide +kernel

theorem closed_l1 : closedB .l1 2 8 4032 41 prow core_l1 core_l1 = true := by decide +kernel

def pt1_l1 : Pt := ⟨[2, 5], [3, 1, 3, 1, 3, 1], 25 / 63, [1, 1, 1]⟩
def pt2_l1 : Pt := ⟨[3, 2], [4, 6, 4, 6, 4, 6], 38 / 63, [0, 0, 0]⟩

theorem low_l1 : lowB .l1 Zoo.tokarev 0 pt1_l1 pt2_l1 (4032 / 41) := by decide +kernel

theorem cert_l1 : Cert .l1 Zoo.tokarev (4032 / 41) (4032 / 41) :=
  ⟨.l1, 2, 8, 4032, 41, prow, core_l1, 0, pt1_l1, pt2_l1, trivial, by decide, rfl, by norm_num [bnd, Metric.sq], div_eq, genus_eq, rows, form_l1, autos_l1,
    closed_l1, by norm_num [Metric.sq, Metric.ratio]; exact low_l1⟩

def core_l2sq : List (Ent 3) :=
  [
    ⟨false, 0, ⟨m0, 0⟩, 516, [1, 0, 0], 1, 295⟩,
    ⟨false, 0, ⟨m0, 0⟩, 516, [1, 1, 0], 2, 362⟩,
    ⟨false, 0, ⟨m5, 0⟩, 1056, [1, 0, 0], 1, 295⟩,
    ⟨false, 0, ⟨m6, 0⟩, 773, [1, 0, -1], 2, 362⟩,
    ⟨false, 0, ⟨m6, 0⟩, 773, [0, 0, -1], 1, 295⟩,
    ⟨false, 0, ⟨m6, 0⟩, 773, [0, 1, -1], 2, 362⟩,
    ⟨false, 0, ⟨m7, 0⟩, 83, [1, -1, 0], 2, 362⟩,
    ⟨false, 0, ⟨m7, 0⟩, 83, [0, -1, 0], 1, 295⟩,
    ⟨false, 0, ⟨m7, 0⟩, 83, [0, -1, 1], 2, 362⟩,
    ⟨false, 0, ⟨m3, 0⟩, 323, [1, 0, -1], 2, 362⟩,
    ⟨false, 0, ⟨m3, 0⟩, 323, [0, 0, -1], 1, 295⟩,
    ⟨false, 0, ⟨m9, 0⟩, 1073, [0, -1, -1], 2, 362⟩,
    ⟨false, 0, ⟨m3, 0⟩, 323, [0, 1, -1], 2, 362⟩,
    ⟨false, 0, ⟨m7, 0⟩, 83, [0, -1, -1], 2, 362⟩,
    ⟨false, 0, ⟨m8, 0⟩, 1313, [0, 0, -1], 1, 295⟩,
    ⟨false, 0, ⟨m6, 0⟩, 773, [-1, 0, -1], 2, 362⟩,
    ⟨false, 0, ⟨m0, 0⟩, 516, [3, 0, -1], 4, 552⟩,
    ⟨false, 0, ⟨m5, 0⟩, 1056, [1, 0, -1], 2, 362⟩,
    ⟨false, 0, ⟨m4, 0⟩, 533, [0, -1, 0], 1, 295⟩,
    ⟨false, 0, ⟨m7, 0⟩, 83, [0, -2, 0], 2, 400⟩,
    ⟨false, 0, ⟨m6, 0⟩, 773, [0, 0, -2], 2, 400⟩,
    ⟨false, 0, ⟨m3, 0⟩, 323, [0, 1, -3], 4, 552⟩,
    ⟨false, 0, ⟨m1, 0⟩, 66, [1, 0, 0], 1, 295⟩,
    ⟨false, 0, ⟨m5, 0⟩, 1056, [1, 0, 1], 2, 362⟩,
    ⟨false, 0, ⟨m0, 0⟩, 516, [1, 0, -1], 2, 362⟩,
    ⟨false, 0, ⟨m9, 0⟩, 1073, [0, -1, 1], 2, 362⟩,
    ⟨false, 0, ⟨m1, 0⟩, 66, [1, 0, -1], 2, 362⟩,
    ⟨false, 0, ⟨m9, 0⟩, 1073, [0, -1, 0], 1, 295⟩,
    ⟨false, 0, ⟨m4, 0⟩, 533, [-1, -1, 0], 2, 362⟩,
    ⟨false, 0, ⟨m8, 0⟩, 1313, [0, 0, -2], 2, 400⟩,
    ⟨false, 0, ⟨m1, 0⟩, 66, [1, 1, 0], 2, 362⟩,
    ⟨false, 0, ⟨m4, 0⟩, 533, [0, -1, -1], 2, 362⟩,
    ⟨false, 0, ⟨m8, 0⟩, 1313, [1, 0, -3], 4, 552⟩,
    ⟨false, 0, ⟨m3, 0⟩, 323, [0, 0, -2], 2, 400⟩,
    ⟨false, 0, ⟨m8, 0⟩, 1313, [0, 0, -3], 3, 511⟩,
    ⟨false, 0, ⟨m8, 0⟩, 1313, [-1, 0, -3], 4, 552⟩,
    ⟨false, 0, ⟨m0, 0⟩, 516, [2, 0, 0], 2, 400⟩,
    ⟨false, 0, ⟨m7, 0⟩, 83, [1, -1, 7], 23, 1022⟩,
    ⟨false, 0, ⟨m7, 0⟩, 83, [0, -1, 7], 22, 1000⟩,
    ⟨false, 0, ⟨m5, 0⟩, 1056, [7, 0, 0], 21, 979⟩,
    ⟨false, 0, ⟨m6, 0⟩, 773, [7, 0, -1], 22, 1000⟩,
    ⟨false, 0, ⟨m6, 0⟩, 773, [7, 1, -1], 23, 1022⟩,
    ⟨false, 0, ⟨m5, 0⟩, 1056, [15, 3, -3], 187, 2044⟩,
    ⟨false, 0, ⟨m1, 0⟩, 66, [-15, 1, -3], 175, 2000⟩,
    ⟨false, 0, ⟨m4, 0⟩, 533, [-3, 15, -1], 175, 2000⟩,
    ⟨false, 0, ⟨m5, 0⟩, 1056, [15, -3, 3], 187, 2044⟩,
    ⟨false, 0, ⟨m3, 0⟩, 323, [-31, -3, 7], 1399, 4000⟩,
    ⟨false, 0, ⟨m0, 0⟩, 516, [-7, -31, 3], 1399, 4000⟩,
    ⟨false, 0, ⟨m1, 0⟩, 66, [-15, 63, -7], 11187, 8000⟩,
    ⟨false, 0, ⟨m4, 0⟩, 533, [-7, 15, -63], 11187, 8000⟩,
    ⟨false, 0, ⟨m3, 0⟩, 323, [-31, -127, 15], 89495, 16000⟩,
    ⟨false, 0, ⟨m0, 0⟩, 516, [-15, -31, 127], 89495, 16000⟩,
    ⟨false, 0, ⟨m1, 0⟩, 66, [-31, 63, -255], 715955, 32000⟩,
    ⟨false, 0, ⟨m4, 0⟩, 533, [-255, 31, -63], 715955, 32000⟩,
    ⟨false, 0, ⟨m3, 0⟩, 323, [-63, -127, 511], 5727639, 64000⟩,
    ⟨false, 0, ⟨m0, 0⟩, 516, [-511, -63, 127], 5727639, 64000⟩]

theorem form_l2sq : formB Zoo.tokarev.mult core_l2sq = true := by decide +kernel

theorem autos_l2sq : autosB (.space 69 1000) 2 5215408884 7579009 prow core_l2sq = true := by decide +kernel

theorem closed_l2sq : closedB (.space 69 1000) 2 8 5215408884 7579009 prow core_l2sq core_l2sq = true := by decide +kernel

def pt1_l2sq : Pt := ⟨[1, 7, 7, 6, 4], [6, 4, 6, 4, 6, 4], 52 / 63, [0, 0, 0]⟩
def pt2_l2sq : Pt := ⟨[2, 0, 0, 1, 2, 5], [3, 1, 3, 1, 3, 1], 25 / 63, [1, 1, 1]⟩

theorem low_l2sq : lowB .l2sq Zoo.tokarev 0 pt1_l2sq pt2_l2sq (5215408884 / 7579009) := by decide +kernel

theorem cert_l2sq : Cert .l2Squared Zoo.tokarev (5215408884 / 7579009) (5215408884 / 7579009) :=
  ⟨(.space 69 1000), 2, 8, 5215408884, 7579009, prow, core_l2sq, 0, pt1_l2sq, pt2_l2sq, ⟨by decide, by decide⟩, by decide, rfl, by norm_num [bnd, Metric.sq], div_eq, genus_eq, rows, form_l2sq, autos_l2sq,
    closed_l2sq, by norm_num [Metric.sq, Metric.ratio]; exact low_l2sq⟩

end Peano.ZooDil.Tokarev
