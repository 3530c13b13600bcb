import Verif.Lemmas.ZooDil

set_option autoImplicit false
set_option maxRecDepth 100000
set_option linter.dupNamespace false

/-
Certificates for the dilations of the curve `iupiter` of the zoo.  This file is generated.
-/
namespace Peano.ZooDil.Iupiter
open DilCert Zoo

def m0 : BaseMap 3 := ⟨![(0, false), (2, true), (1, false)], false, by decide⟩
def m1 : BaseMap 3 := ⟨![(2, true), (0, false), (1, false)], false, by decide⟩
def m2 : BaseMap 3 := ⟨![(2, false), (0, false), (1, false)], true, by decide⟩
def m3 : BaseMap 3 := ⟨![(0, true), (2, true), (1, false)], true, by decide⟩
def m4 : BaseMap 3 := ⟨![(1, true), (0, false), (2, true)], true, by decide⟩
def m5 : BaseMap 3 := ⟨![(1, true), (2, true), (0, false)], true, by decide⟩
def m6 : BaseMap 3 := ⟨![(1, true), (0, true), (2, true)], false, by decide⟩
def m7 : BaseMap 3 := ⟨![(0, false), (1, false), (2, true)], false, by decide⟩
def m8 : BaseMap 3 := ⟨![(0, false), (1, true), (2, false)], false, by decide⟩
def m9 : BaseMap 3 := ⟨![(2, true), (1, true), (0, true)], false, by decide⟩
def m10 : BaseMap 3 := ⟨![(1, true), (2, false), (0, true)], true, by decide⟩
def m11 : BaseMap 3 := ⟨![(1, true), (0, true), (2, false)], true, by decide⟩
def m12 : BaseMap 3 := ⟨![(2, true), (1, false), (0, true)], false, by decide⟩
def m13 : BaseMap 3 := ⟨![(2, false), (1, false), (0, true)], true, by decide⟩
def m14 : BaseMap 3 := ⟨![(0, false), (1, false), (2, true)], true, by decide⟩
def m15 : BaseMap 3 := ⟨![(2, true), (1, false), (0, false)], true, by decide⟩
def m16 : BaseMap 3 := ⟨![(2, true), (1, false), (0, true)], true, by decide⟩
def m17 : BaseMap 3 := ⟨![(2, true), (1, false), (0, false)], false, by decide⟩
def m18 : BaseMap 3 := ⟨![(0, true), (1, false), (2, false)], false, by decide⟩
def m19 : BaseMap 3 := ⟨![(2, false), (1, false), (0, true)], false, by decide⟩
def m20 : BaseMap 3 := ⟨![(1, false), (2, true), (0, true)], true, by decide⟩
def m21 : BaseMap 3 := ⟨![(1, true), (2, true), (0, true)], true, by decide⟩
def m22 : BaseMap 3 := ⟨![(0, false), (2, true), (1, false)], true, by decide⟩
def m23 : BaseMap 3 := ⟨![(2, true), (0, false), (1, false)], true, by decide⟩
def m24 : BaseMap 3 := ⟨![(0, true), (2, true), (1, false)], false, by decide⟩
def m25 : BaseMap 3 := ⟨![(2, true), (0, false), (1, true)], false, by decide⟩
def m26 : BaseMap 3 := ⟨![(2, false), (0, false), (1, true)], true, by decide⟩
def m27 : BaseMap 3 := ⟨![(1, true), (2, false), (0, true)], false, by decide⟩
def m28 : BaseMap 3 := ⟨![(1, true), (2, false), (0, false)], false, by decide⟩
def m29 : BaseMap 3 := ⟨![(0, true), (2, false), (1, false)], false, by decide⟩
def m30 : BaseMap 3 := ⟨![(2, false), (0, true), (1, false)], false, by decide⟩
def m31 : BaseMap 3 := ⟨![(1, false), (0, true), (2, true)], true, by decide⟩
def m32 : BaseMap 3 := ⟨![(2, true), (0, true), (1, false)], false, by decide⟩
def m33 : BaseMap 3 := ⟨![(0, false), (1, false), (2, false)], true, by decide⟩
def m34 : BaseMap 3 := ⟨![(0, true), (2, false), (1, true)], true, by decide⟩
def m35 : BaseMap 3 := ⟨![(0, false), (1, false), (2, false)], false, by decide⟩
def m36 : BaseMap 3 := ⟨![(1, false), (2, false), (0, true)], true, by decide⟩
def m37 : BaseMap 3 := ⟨![(1, false), (0, false), (2, true)], false, by decide⟩
def m38 : BaseMap 3 := ⟨![(2, false), (0, false), (1, true)], false, by decide⟩
def m39 : BaseMap 3 := ⟨![(2, true), (0, false), (1, true)], true, by decide⟩
def m40 : BaseMap 3 := ⟨![(1, true), (2, true), (0, true)], false, by decide⟩
def m41 : BaseMap 3 := ⟨![(2, true), (0, true), (1, true)], false, by decide⟩
def m42 : BaseMap 3 := ⟨![(0, true), (1, false), (2, true)], true, by decide⟩
def m43 : BaseMap 3 := ⟨![(0, true), (1, false), (2, true)], false, by decide⟩
def m44 : BaseMap 3 := ⟨![(2, true), (1, true), (0, false)], true, by decide⟩
def m45 : BaseMap 3 := ⟨![(2, false), (1, true), (0, true)], false, by decide⟩
def m46 : BaseMap 3 := ⟨![(0, true), (1, false), (2, false)], true, by decide⟩
def m47 : BaseMap 3 := ⟨![(1, false), (2, true), (0, true)], false, by decide⟩
def m48 : BaseMap 3 := ⟨![(1, true), (0, true), (2, false)], false, by decide⟩
def m49 : BaseMap 3 := ⟨![(1, false), (2, true), (0, false)], false, by decide⟩
def m50 : BaseMap 3 := ⟨![(2, true), (0, true), (1, false)], true, by decide⟩
def m51 : BaseMap 3 := ⟨![(0, true), (2, false), (1, true)], false, by decide⟩
def m52 : BaseMap 3 := ⟨![(2, true), (0, true), (1, true)], true, by decide⟩
def m53 : BaseMap 3 := ⟨![(2, true), (1, true), (0, false)], false, by decide⟩
def m54 : BaseMap 3 := ⟨![(2, false), (1, true), (0, true)], true, by decide⟩
def m55 : BaseMap 3 := ⟨![(1, false), (2, true), (0, false)], true, by decide⟩

def prow : List (List (List ℤ × Spec 3)) :=
  [
    [([0, 0, 0], ⟨m0, 0⟩), ([0, 1, 0], ⟨m1, 4⟩), ([0, 1, 1], ⟨m2, 1⟩), ([0, 0, 1], ⟨m3, 0⟩), ([1, 0, 1], ⟨m0, 0⟩), ([1, 1, 1], ⟨m1, 1⟩), ([1, 1, 0], ⟨m4, 0⟩), ([1, 0, 0], ⟨m5, 0⟩)],
    [([0, 0, 0], ⟨m0, 0⟩), ([0, 1, 0], ⟨m1, 4⟩), ([0, 1, 1], ⟨m2, 1⟩), ([0, 0, 1], ⟨m3, 0⟩), ([1, 0, 1], ⟨m0, 0⟩), ([1, 1, 1], ⟨m1, 1⟩), ([1, 1, 0], ⟨m4, 0⟩), ([1, 0, 0], ⟨m6, 2⟩)],
    [([0, 0, 0], ⟨m0, 0⟩), ([0, 1, 0], ⟨m1, 4⟩), ([0, 1, 1], ⟨m2, 1⟩), ([0, 0, 1], ⟨m3, 0⟩), ([1, 0, 1], ⟨m0, 0⟩), ([1, 1, 1], ⟨m1, 1⟩), ([1, 1, 0], ⟨m2, 4⟩), ([1, 0, 0], ⟨m3, 0⟩)],
    [([0, 0, 0], ⟨m7, 4⟩), ([0, 1, 0], ⟨m1, 4⟩), ([0, 1, 1], ⟨m2, 1⟩), ([0, 0, 1], ⟨m3, 0⟩), ([1, 0, 1], ⟨m0, 0⟩), ([1, 1, 1], ⟨m1, 1⟩), ([1, 1, 0], ⟨m4, 0⟩), ([1, 0, 0], ⟨m5, 0⟩)],
    [([0, 0, 0], ⟨m0, 0⟩), ([0, 1, 0], ⟨m1, 4⟩), ([0, 1, 1], ⟨m2, 1⟩), ([0, 0, 1], ⟨m3, 0⟩), ([1, 0, 1], ⟨m8, 3⟩), ([1, 0, 0], ⟨m9, 1⟩), ([1, 1, 0], ⟨m10, 0⟩), ([1, 1, 1], ⟨m11, 0⟩)]]

theorem div_eq : Zoo.iupiter.div = 2 := by decide +kernel

theorem genus_eq : Zoo.iupiter.genus = 8 := by decide +kernel

theorem rows : Rows Zoo.iupiter prow := by decide +kernel

def core_l1 : List (Ent 3) :=
  [
    ⟨false, 0, ⟨m12, 4⟩, 65829, [0, 0, -1], 1, 0⟩,
    ⟨false, 0, ⟨m13, 1⟩, 20772, [0, 1, -1], 2, 0⟩,
    ⟨false, 4, ⟨m14, 1⟩, 546080, [0, 1, 0], 1, 0⟩,
    ⟨false, 4, ⟨m15, 0⟩, 528421, [-1, 1, 0], 2, 0⟩,
    ⟨false, 4, ⟨m12, 0⟩, 524581, [-1, 1, -1], 3, 0⟩,
    ⟨true, 1, ⟨m16, 0⟩, 143653, [-1, 0, 0], 1, 0⟩,
    ⟨true, 1, ⟨m17, 0⟩, 139301, [-1, 0, 1], 2, 0⟩,
    ⟨true, 0, ⟨m18, 0⟩, 9249, [-1, 0, 0], 1, 0⟩,
    ⟨true, 0, ⟨m19, 1⟩, 24868, [-1, 0, -1], 2, 0⟩,
    ⟨true, 0, ⟨m20, 0⟩, 12626, [-1, -1, -1], 3, 0⟩,
    ⟨false, 0, ⟨m12, 1⟩, 16677, [0, 0, -1], 1, 0⟩,
    ⟨false, 0, ⟨m21, 0⟩, 4435, [0, -1, -1], 2, 0⟩,
    ⟨false, 1, ⟨m22, 0⟩, 135760, [0, -1, 0], 1, 0⟩,
    ⟨false, 1, ⟨m23, 0⟩, 135685, [-1, -1, 0], 2, 0⟩,
    ⟨true, 0, ⟨m16, 0⟩, 12581, [-1, 0, 0], 1, 0⟩,
    ⟨false, 1, ⟨m24, 2⟩, 164433, [-1, -1, 0], 2, 0⟩,
    ⟨true, 0, ⟨m18, 2⟩, 42017, [-1, 0, 0], 1, 0⟩,
    ⟨true, 0, ⟨m16, 4⟩, 78117, [-1, -1, -1], 3, 0⟩,
    ⟨false, 0, ⟨m13, 4⟩, 69924, [0, -1, -1], 2, 0⟩,
    ⟨false, 1, ⟨m14, 4⟩, 202016, [0, -1, 0], 1, 0⟩,
    ⟨false, 1, ⟨m15, 0⟩, 135205, [-1, -1, 0], 2, 0⟩,
    ⟨true, 4, ⟨m16, 0⟩, 536869, [-1, 0, 0], 1, 0⟩,
    ⟨false, 4, ⟨m25, 4⟩, 590597, [0, 1, 0], 1, 0⟩,
    ⟨false, 4, ⟨m26, 1⟩, 545540, [0, 1, -1], 2, 0⟩,
    ⟨false, 4, ⟨m27, 3⟩, 573763, [-1, 1, -1], 3, 0⟩,
    ⟨true, 1, ⟨m28, 3⟩, 188483, [-1, 0, 1], 2, 0⟩,
    ⟨true, 1, ⟨m6, 1⟩, 156947, [-1, -1, 1], 3, 0⟩,
    ⟨true, 0, ⟨m29, 3⟩, 57921, [-1, 0, 0], 1, 0⟩,
    ⟨true, 0, ⟨m30, 1⟩, 25108, [-1, -1, 0], 2, 0⟩,
    ⟨true, 0, ⟨m31, 0⟩, 13586, [-1, -1, -1], 3, 0⟩,
    ⟨false, 3, ⟨m12, 1⟩, 409893, [0, 0, -1], 1, 0⟩,
    ⟨false, 3, ⟨m21, 0⟩, 397651, [0, -1, -1], 2, 0⟩,
    ⟨false, 1, ⟨m32, 0⟩, 131605, [-1, -2, 0], 3, 0⟩,
    ⟨true, 0, ⟨m17, 0⟩, 8229, [-1, 0, 1], 2, 0⟩,
    ⟨true, 0, ⟨m19, 4⟩, 74020, [-1, 0, -1], 2, 0⟩,
    ⟨true, 0, ⟨m16, 1⟩, 28965, [-1, 1, -1], 3, 0⟩,
    ⟨false, 1, ⟨m23, 2⟩, 168453, [-1, -2, 0], 3, 0⟩,
    ⟨false, 1, ⟨m32, 0⟩, 131605, [-1, -3, 0], 4, 0⟩,
    ⟨true, 0, ⟨m16, 2⟩, 45349, [-1, 0, 1], 2, 0⟩,
    ⟨true, 0, ⟨m17, 0⟩, 8229, [-1, 0, 2], 3, 0⟩,
    ⟨true, 0, ⟨m33, 2⟩, 46112, [-1, 0, 0], 1, 0⟩,
    ⟨true, 0, ⟨m34, 1⟩, 29505, [-2, 0, -1], 3, 0⟩,
    ⟨false, 1, ⟨m12, 0⟩, 131365, [-1, -1, -1], 3, 0⟩,
    ⟨true, 4, ⟨m17, 0⟩, 532517, [-1, 0, 1], 2, 0⟩,
    ⟨true, 0, ⟨m19, 0⟩, 8484, [-1, 0, -1], 2, 0⟩,
    ⟨true, 0, ⟨m10, 1⟩, 28995, [-2, 0, -1], 3, 0⟩,
    ⟨false, 1, ⟨m24, 0⟩, 131665, [-2, -1, 0], 3, 0⟩,
    ⟨true, 0, ⟨m19, 0⟩, 8484, [-2, 0, -1], 3, 0⟩,
    ⟨true, 0, ⟨m10, 1⟩, 28995, [-3, 0, -1], 4, 0⟩,
    ⟨false, 2, ⟨m35, 0⟩, 263200, [1, 0, 0], 1, 0⟩,
    ⟨false, 2, ⟨m12, 0⟩, 262437, [1, 0, -1], 2, 0⟩,
    ⟨false, 2, ⟨m36, 1⟩, 282946, [2, 0, -1], 3, 0⟩,
    ⟨false, 1, ⟨m12, 4⟩, 196901, [-1, -1, -1], 3, 0⟩,
    ⟨true, 4, ⟨m17, 4⟩, 598053, [-1, 0, 1], 2, 0⟩,
    ⟨true, 4, ⟨m37, 4⟩, 599298, [-1, 1, 1], 3, 0⟩,
    ⟨true, 0, ⟨m18, 4⟩, 74785, [-1, 0, 0], 1, 0⟩,
    ⟨true, 0, ⟨m38, 4⟩, 74500, [-1, 1, 0], 2, 0⟩,
    ⟨true, 0, ⟨m39, 1⟩, 29445, [-1, 1, -1], 3, 0⟩,
    ⟨false, 1, ⟨m24, 0⟩, 131665, [-7, -1, 3], 31, 0⟩,
    ⟨true, 0, ⟨m19, 1⟩, 24868, [-7, 3, -1], 31, 0⟩,
    ⟨true, 1, ⟨m17, 0⟩, 139301, [-1, -3, 7], 31, 0⟩,
    ⟨true, 0, ⟨m34, 1⟩, 29505, [-7, -3, -1], 31, 0⟩,
    ⟨true, 0, ⟨m40, 1⟩, 24915, [-3, 15, -7], 247, 0⟩,
    ⟨true, 1, ⟨m41, 0⟩, 140053, [-7, -3, 15], 247, 0⟩,
    ⟨true, 0, ⟨m42, 0⟩, 13601, [-7, -15, -31], 1979, 0⟩,
    ⟨false, 0, ⟨m43, 0⟩, 1313, [-7, 15, -31], 1979, 0⟩,
    ⟨true, 1, ⟨m44, 0⟩, 143413, [-31, -63, 15], 15833, 0⟩,
    ⟨false, 0, ⟨m45, 1⟩, 16692, [-15, -63, -31], 15833, 0⟩,
    ⟨false, 0, ⟨m46, 1⟩, 21537, [-127, 63, -31], 126665, 0⟩,
    ⟨false, 1, ⟨m46, 0⟩, 136225, [-127, -63, 31], 126665, 0⟩,
    ⟨false, 0, ⟨m47, 0⟩, 338, [-255, -63, -127], 1013317, 0⟩,
    ⟨true, 0, ⟨m39, 0⟩, 13061, [-127, 255, -63], 1013317, 0⟩,
    ⟨false, 1, ⟨m48, 0⟩, 132115, [-127, -255, 511], 8106535, 0⟩,
    ⟨true, 0, ⟨m11, 1⟩, 29715, [-255, -127, -511], 8106535, 0⟩,
    ⟨true, 0, ⟨m38, 1⟩, 25348, [-511, 255, -1023], 64852279, 0⟩,
    ⟨true, 1, ⟨m49, 0⟩, 139346, [-255, -1023, 511], 64852279, 0⟩,
    ⟨true, 0, ⟨m50, 0⟩, 12821, [-1023, -2047, -511], 518818235, 0⟩,
    ⟨false, 0, ⟨m27, 0⟩, 323, [-2047, 511, -1023], 518818235, 0⟩,
    ⟨true, 1, ⟨m3, 0⟩, 143953, [-4095, -1023, 2047], 4150545881, 0⟩,
    ⟨false, 0, ⟨m51, 1⟩, 17217, [-4095, -2047, -1023], 4150545881, 0⟩,
    ⟨false, 0, ⟨m21, 1⟩, 20819, [-2047, 8191, -4095], 33204367049, 0⟩,
    ⟨false, 1, ⟨m52, 0⟩, 135957, [-4095, -2047, 8191], 33204367049, 0⟩,
    ⟨false, 0, ⟨m43, 0⟩, 1313, [-4095, -8191, -16383], 265634936389, 0⟩,
    ⟨true, 0, ⟨m42, 0⟩, 13601, [-4095, 8191, -16383], 265634936389, 0⟩,
    ⟨false, 1, ⟨m53, 0⟩, 131125, [-16383, -32767, 8191], 2125079491111, 0⟩,
    ⟨true, 0, ⟨m54, 1⟩, 28980, [-8191, -32767, -16383], 2125079491111, 0⟩,
    ⟨true, 0, ⟨m18, 1⟩, 25633, [-65535, 32767, -16383], 17000635928887, 0⟩,
    ⟨true, 1, ⟨m18, 0⟩, 140321, [-65535, -32767, 16383], 17000635928887, 0⟩,
    ⟨true, 0, ⟨m20, 0⟩, 12626, [-131071, -32767, -65535], 136005087431099, 0⟩,
    ⟨false, 0, ⟨m25, 0⟩, 773, [-65535, 131071, -32767], 136005087431099, 0⟩,
    ⟨true, 1, ⟨m11, 0⟩, 144403, [-65535, -131071, 262143], 1088040699448793, 0⟩,
    ⟨false, 0, ⟨m48, 1⟩, 17427, [-131071, -65535, -262143], 1088040699448793, 0⟩,
    ⟨false, 0, ⟨m26, 1⟩, 21252, [-262143, 131071, -524287], 8704325595590345, 0⟩,
    ⟨false, 1, ⟨m55, 0⟩, 135250, [-131071, -524287, 262143], 8704325595590345, 0⟩,
    ⟨false, 0, ⟨m32, 0⟩, 533, [-524287, -1048575, -262143], 69634604764722757, 0⟩,
    ⟨true, 0, ⟨m10, 0⟩, 12611, [-1048575, 262143, -524287], 69634604764722757, 0⟩]

theorem form_l1 : formB Zoo.iupiter.mult core_l1 = true := by decide +kernel

theorem autos_l1 : autosB .l1 2 58653 661 prow core_l1 = true := by decide +kernel

theorem closed_l1_0 : closedB .l1 2 8 58653 661 prow core_l1 ((core_l1.drop 0).take 62) = true := by decide +kernel

theorem closed_l1_1 : closedB .l1 2 8 58653 661 prow core_l1 (core_l1.drop 62) = true := by decide +kernel

theorem closed_l1 : closedB .l1 2 8 58653 661 prow core_l1 core_l1 = true :=
  closedB_split 0 62 closed_l1_0 (closed_l1_1)

def pt1_l1 : Pt := ⟨[1, 5, 5], [6, 3, 2, 1, 4, 5, 6, 3, 2, 1, 4, 5, 6, 3, 2, 1, 4, 5], 137 / 171, [1, 0, 0]⟩
def pt2_l1 : Pt := ⟨[2, 1], [4, 5, 6, 3, 2, 1, 4, 5, 6, 3, 2, 1, 4, 5, 6, 3, 2, 1], 101 / 171, [0, 1, 1]⟩

theorem low_l1 : lowB .l1 Zoo.iupiter 0 pt1_l1 pt2_l1 (58653 / 661) := by decide +kernel

theorem cert_l1 : Cert .l1 Zoo.iupiter (58653 / 661) (58653 / 661) :=
  ⟨.l1, 2, 8, 58653, 661, prow, core_l1, 0, pt1_l1, pt2_l1, trivial, by decide, rfl, by norm_num [bnd, Metric.sq], div_eq, genus_eq, rows, form_l1, autos_l1,
    closed_l1, by norm_num [Metric.sq, Metric.ratio]; exact low_l1⟩

def core_l2 : List (Ent 3) :=
  [
    ⟨false, 0, ⟨m12, 4⟩, 65829, [0, 0, -1], 1, 2450⟩,
    ⟨false, 0, ⟨m13, 1⟩, 20772, [0, 1, -1], 2, 3000⟩,
    ⟨false, 4, ⟨m14, 1⟩, 546080, [0, 1, 0], 1, 2450⟩,
    ⟨false, 4, ⟨m15, 0⟩, 528421, [-1, 1, 0], 2, 3000⟩,
    ⟨true, 1, ⟨m16, 0⟩, 143653, [-1, 0, 0], 1, 2450⟩,
    ⟨true, 1, ⟨m17, 0⟩, 139301, [-1, 0, 1], 2, 3000⟩,
    ⟨true, 0, ⟨m18, 0⟩, 9249, [-1, 0, 0], 1, 2450⟩,
    ⟨true, 0, ⟨m19, 1⟩, 24868, [-1, 0, -1], 2, 3000⟩,
    ⟨false, 0, ⟨m12, 1⟩, 16677, [0, 0, -1], 1, 2450⟩,
    ⟨false, 0, ⟨m21, 0⟩, 4435, [0, -1, -1], 2, 3000⟩,
    ⟨false, 1, ⟨m22, 0⟩, 135760, [0, -1, 0], 1, 2450⟩,
    ⟨false, 1, ⟨m23, 0⟩, 135685, [-1, -1, 0], 2, 3000⟩,
    ⟨true, 0, ⟨m16, 0⟩, 12581, [-1, 0, 0], 1, 2450⟩,
    ⟨false, 1, ⟨m24, 2⟩, 164433, [-1, -1, 0], 2, 3000⟩,
    ⟨true, 0, ⟨m18, 2⟩, 42017, [-1, 0, 0], 1, 2450⟩,
    ⟨false, 0, ⟨m13, 4⟩, 69924, [0, -1, -1], 2, 3000⟩,
    ⟨false, 1, ⟨m14, 4⟩, 202016, [0, -1, 0], 1, 2450⟩,
    ⟨false, 1, ⟨m15, 0⟩, 135205, [-1, -1, 0], 2, 3000⟩,
    ⟨true, 4, ⟨m16, 0⟩, 536869, [-1, 0, 0], 1, 2450⟩,
    ⟨false, 4, ⟨m25, 4⟩, 590597, [0, 1, 0], 1, 2450⟩,
    ⟨false, 4, ⟨m26, 1⟩, 545540, [0, 1, -1], 2, 3000⟩,
    ⟨true, 1, ⟨m28, 3⟩, 188483, [-1, 0, 1], 2, 3000⟩,
    ⟨true, 0, ⟨m29, 3⟩, 57921, [-1, 0, 0], 1, 2450⟩,
    ⟨true, 0, ⟨m30, 1⟩, 25108, [-1, -1, 0], 2, 3000⟩,
    ⟨false, 3, ⟨m12, 1⟩, 409893, [0, 0, -1], 1, 2450⟩,
    ⟨false, 3, ⟨m21, 0⟩, 397651, [0, -1, -1], 2, 3000⟩,
    ⟨false, 1, ⟨m32, 0⟩, 131605, [-1, -2, 0], 3, 3742⟩,
    ⟨true, 0, ⟨m17, 0⟩, 8229, [-1, 0, 1], 2, 3000⟩,
    ⟨true, 0, ⟨m19, 4⟩, 74020, [-1, 0, -1], 2, 3000⟩,
    ⟨false, 1, ⟨m23, 2⟩, 168453, [-1, -2, 0], 3, 3742⟩,
    ⟨false, 1, ⟨m32, 0⟩, 131605, [-1, -3, 0], 4, 4583⟩,
    ⟨true, 0, ⟨m16, 2⟩, 45349, [-1, 0, 1], 2, 3000⟩,
    ⟨true, 0, ⟨m17, 0⟩, 8229, [-1, 0, 2], 3, 3742⟩,
    ⟨true, 0, ⟨m33, 2⟩, 46112, [-1, 0, 0], 1, 2450⟩,
    ⟨true, 0, ⟨m18, 0⟩, 9249, [-2, 0, 0], 2, 3317⟩,
    ⟨true, 0, ⟨m34, 1⟩, 29505, [-2, 0, -1], 3, 3742⟩,
    ⟨true, 4, ⟨m17, 0⟩, 532517, [-1, 0, 1], 2, 3000⟩,
    ⟨true, 0, ⟨m19, 0⟩, 8484, [-1, 0, -1], 2, 3000⟩,
    ⟨true, 0, ⟨m10, 1⟩, 28995, [-2, 0, -1], 3, 3742⟩,
    ⟨false, 1, ⟨m24, 0⟩, 131665, [-2, -1, 0], 3, 3742⟩,
    ⟨true, 0, ⟨m19, 0⟩, 8484, [-2, 0, -1], 3, 3742⟩,
    ⟨true, 0, ⟨m10, 1⟩, 28995, [-3, 0, -1], 4, 4583⟩,
    ⟨false, 2, ⟨m35, 0⟩, 263200, [1, 0, 0], 1, 2450⟩,
    ⟨false, 2, ⟨m12, 0⟩, 262437, [1, 0, -1], 2, 3000⟩,
    ⟨false, 2, ⟨m36, 1⟩, 282946, [2, 0, -1], 3, 3742⟩,
    ⟨true, 4, ⟨m17, 4⟩, 598053, [-1, 0, 1], 2, 3000⟩,
    ⟨true, 0, ⟨m18, 4⟩, 74785, [-1, 0, 0], 1, 2450⟩,
    ⟨true, 0, ⟨m38, 4⟩, 74500, [-1, 1, 0], 2, 3000⟩,
    ⟨false, 1, ⟨m24, 0⟩, 131665, [-7, -1, 3], 31, 9166⟩,
    ⟨true, 0, ⟨m18, 0⟩, 9249, [-7, 3, 0], 30, 9000⟩,
    ⟨true, 0, ⟨m19, 1⟩, 24868, [-7, 3, -1], 31, 9166⟩,
    ⟨true, 1, ⟨m17, 0⟩, 139301, [-1, -3, 7], 31, 9166⟩,
    ⟨true, 0, ⟨m18, 0⟩, 9249, [-7, -3, 0], 30, 9000⟩,
    ⟨true, 0, ⟨m34, 1⟩, 29505, [-7, -3, -1], 31, 9166⟩,
    ⟨true, 0, ⟨m40, 1⟩, 24915, [-3, 15, -7], 247, 18331⟩,
    ⟨true, 1, ⟨m41, 0⟩, 140053, [-7, -3, 15], 247, 18331⟩,
    ⟨true, 0, ⟨m42, 0⟩, 13601, [-7, -15, -31], 1979, 36661⟩,
    ⟨false, 0, ⟨m43, 0⟩, 1313, [-7, 15, -31], 1979, 36661⟩,
    ⟨true, 1, ⟨m44, 0⟩, 143413, [-31, -63, 15], 15833, 73322⟩,
    ⟨false, 0, ⟨m45, 1⟩, 16692, [-15, -63, -31], 15833, 73322⟩,
    ⟨false, 0, ⟨m46, 1⟩, 21537, [-127, 63, -31], 126665, 146643⟩,
    ⟨false, 1, ⟨m46, 0⟩, 136225, [-127, -63, 31], 126665, 146643⟩]

theorem form_l2 : formB Zoo.iupiter.mult core_l2 = true := by decide +kernel

theorem autos_l2 : autosB (.space 1 1000) 2 61979587849 100000000 prow core_l2 = true := by decide +kernel

theorem closed_l2 : closedB (.space 1 1000) 2 8 61979587849 100000000 prow core_l2 core_l2 = true := by decide +kernel

def pt1_l2 : Pt := ⟨[1, 5, 5], [6, 3, 2, 1, 4, 5, 6, 3, 2, 1, 4, 5, 6, 3, 2, 1, 4, 5], 137 / 171, [1, 0, 0]⟩
def pt2_l2 : Pt := ⟨[2, 1], [4, 5, 6, 3, 2, 1, 4, 5, 6, 3, 2, 1, 4, 5, 6, 3, 2, 1], 101 / 171, [0, 1, 1]⟩

theorem low_l2 : lowB .l2sq Zoo.iupiter 0 pt1_l2 pt2_l2 (3873693121 / 6250000) := by decide +kernel

theorem cert_l2 : Cert .l2 Zoo.iupiter (62239 / 2500) (248957 / 10000) :=
  ⟨(.space 1 1000), 2, 8, 61979587849, 100000000, prow, core_l2, 0, pt1_l2, pt2_l2, ⟨by decide, by decide⟩, by decide, rfl, by norm_num [bnd, Metric.sq], div_eq, genus_eq, rows, form_l2, autos_l2,
    closed_l2, by norm_num [Metric.sq, Metric.ratio]; exact low_l2⟩

def core_linf : List (Ent 3) :=
  [
    ⟨false, 0, ⟨m12, 4⟩, 65829, [0, 0, -1], 1, 0⟩,
    ⟨false, 4, ⟨m14, 1⟩, 546080, [0, 1, 0], 1, 0⟩,
    ⟨true, 1, ⟨m16, 0⟩, 143653, [-1, 0, 0], 1, 0⟩,
    ⟨true, 0, ⟨m18, 0⟩, 9249, [-1, 0, 0], 1, 0⟩,
    ⟨false, 0, ⟨m12, 1⟩, 16677, [0, 0, -1], 1, 0⟩,
    ⟨false, 1, ⟨m22, 0⟩, 135760, [0, -1, 0], 1, 0⟩,
    ⟨true, 0, ⟨m16, 0⟩, 12581, [-1, 0, 0], 1, 0⟩,
    ⟨true, 0, ⟨m18, 2⟩, 42017, [-1, 0, 0], 1, 0⟩,
    ⟨false, 1, ⟨m14, 4⟩, 202016, [0, -1, 0], 1, 0⟩,
    ⟨true, 4, ⟨m16, 0⟩, 536869, [-1, 0, 0], 1, 0⟩,
    ⟨false, 4, ⟨m25, 4⟩, 590597, [0, 1, 0], 1, 0⟩,
    ⟨true, 0, ⟨m29, 3⟩, 57921, [-1, 0, 0], 1, 0⟩,
    ⟨false, 3, ⟨m12, 1⟩, 409893, [0, 0, -1], 1, 0⟩,
    ⟨false, 1, ⟨m32, 0⟩, 131605, [-1, -3, 0], 4, 0⟩,
    ⟨true, 0, ⟨m33, 2⟩, 46112, [-1, 0, 0], 1, 0⟩,
    ⟨true, 0, ⟨m18, 0⟩, 9249, [-2, 0, 0], 2, 0⟩,
    ⟨true, 0, ⟨m10, 1⟩, 28995, [-3, 0, -1], 4, 0⟩,
    ⟨false, 2, ⟨m35, 0⟩, 263200, [1, 0, 0], 1, 0⟩,
    ⟨true, 0, ⟨m18, 4⟩, 74785, [-1, 0, 0], 1, 0⟩,
    ⟨false, 1, ⟨m24, 0⟩, 131665, [-7, -1, 3], 31, 0⟩,
    ⟨true, 0, ⟨m18, 0⟩, 9249, [-7, 3, 0], 30, 0⟩,
    ⟨true, 0, ⟨m19, 1⟩, 24868, [-7, 3, -1], 31, 0⟩,
    ⟨true, 1, ⟨m17, 0⟩, 139301, [-1, -3, 7], 31, 0⟩,
    ⟨true, 0, ⟨m18, 0⟩, 9249, [-7, -3, 0], 30, 0⟩,
    ⟨true, 0, ⟨m34, 1⟩, 29505, [-7, -3, -1], 31, 0⟩]

theorem form_linf : formB Zoo.iupiter.mult core_linf = true := by decide +kernel

theorem autos_linf : autosB .linf 2 3584 211 prow core_linf = true := by decide +kernel

theorem closed_linf : closedB .linf 2 8 3584 211 prow core_linf core_linf = true := by decide +kernel

def pt1_linf : Pt := ⟨[1, 5, 6], [3, 3, 3, 3], 3 / 7, [4 / 5, 3 / 5, 0]⟩
def pt2_linf : Pt := ⟨[2, 1], [4, 4, 4, 4], 4 / 7, [2 / 5, 4 / 5, 1]⟩

theorem low_linf : lowB .linf Zoo.iupiter 0 pt1_linf pt2_linf (3584 / 211) := by decide +kernel

theorem cert_linf : Cert .linf Zoo.iupiter (3584 / 211) (3584 / 211) :=
  ⟨.linf, 2, 8, 3584, 211, prow, core_linf, 0, pt1_linf, pt2_linf, trivial, by decide, rfl, by norm_num [bnd, Metric.sq], div_eq, genus_eq, rows, form_linf, autos_linf,
    closed_linf, by norm_num [Metric.sq, Metric.ratio]; exact low_linf⟩

end Peano.ZooDil.Iupiter
