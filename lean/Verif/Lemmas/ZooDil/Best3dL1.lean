import Verif.Lemmas.ZooDil

set_option autoImplicit false
set_option maxRecDepth 100000
set_option linter.dupNamespace false

/-
Certificates for the dilations of the curve `best3dL1` of the zoo.  This file is generated.
-/
namespace Peano.ZooDil.Best3dL1
open DilCert Zoo

def m0 : BaseMap 3 := ⟨![(0, false), (2, true), (1, false)], true, by decide⟩
def m1 : BaseMap 3 := ⟨![(2, true), (1, false), (0, false)], true, by decide⟩
def m2 : BaseMap 3 := ⟨![(1, true), (0, true), (2, false)], false, by decide⟩
def m3 : BaseMap 3 := ⟨![(1, true), (0, true), (2, true)], true, by decide⟩
def m4 : BaseMap 3 := ⟨![(2, true), (1, false), (0, true)], false, by decide⟩
def m5 : BaseMap 3 := ⟨![(2, false), (0, false), (1, true)], true, by decide⟩
def m6 : BaseMap 3 := ⟨![(0, false), (2, false), (1, true)], true, by decide⟩
def m7 : BaseMap 3 := ⟨![(2, true), (0, false), (1, true)], true, by decide⟩
def m8 : BaseMap 3 := ⟨![(0, false), (1, false), (2, false)], true, by decide⟩
def m9 : BaseMap 3 := ⟨![(2, false), (0, true), (1, false)], false, by decide⟩
def m10 : BaseMap 3 := ⟨![(2, true), (0, true), (1, false)], true, by decide⟩
def m11 : BaseMap 3 := ⟨![(0, false), (1, false), (2, true)], true, by decide⟩
def m12 : BaseMap 3 := ⟨![(1, true), (2, false), (0, true)], false, by decide⟩
def m13 : BaseMap 3 := ⟨![(0, true), (2, true), (1, true)], true, by decide⟩
def m14 : BaseMap 3 := ⟨![(1, true), (2, false), (0, false)], false, by decide⟩
def m15 : BaseMap 3 := ⟨![(0, true), (2, true), (1, false)], true, by decide⟩
def m16 : BaseMap 3 := ⟨![(1, false), (0, false), (2, true)], true, by decide⟩
def m17 : BaseMap 3 := ⟨![(1, false), (2, false), (0, true)], true, by decide⟩
def m18 : BaseMap 3 := ⟨![(2, false), (1, false), (0, false)], true, by decide⟩
def m19 : BaseMap 3 := ⟨![(2, true), (0, false), (1, true)], false, by decide⟩
def m20 : BaseMap 3 := ⟨![(0, true), (2, false), (1, true)], false, by decide⟩
def m21 : BaseMap 3 := ⟨![(1, false), (2, true), (0, true)], false, by decide⟩
def m22 : BaseMap 3 := ⟨![(1, false), (0, true), (2, true)], false, by decide⟩
def m23 : BaseMap 3 := ⟨![(0, false), (1, true), (2, false)], true, by decide⟩
def m24 : BaseMap 3 := ⟨![(0, false), (1, true), (2, true)], false, by decide⟩
def m25 : BaseMap 3 := ⟨![(2, false), (1, true), (0, true)], false, by decide⟩
def m26 : BaseMap 3 := ⟨![(2, true), (0, true), (1, true)], true, by decide⟩
def m27 : BaseMap 3 := ⟨![(1, false), (2, true), (0, false)], true, by decide⟩
def m28 : BaseMap 3 := ⟨![(2, false), (1, true), (0, false)], false, by decide⟩
def m29 : BaseMap 3 := ⟨![(0, false), (1, true), (2, false)], false, by decide⟩
def m30 : BaseMap 3 := ⟨![(2, true), (0, false), (1, false)], true, by decide⟩
def m31 : BaseMap 3 := ⟨![(1, true), (2, true), (0, true)], true, by decide⟩
def m32 : BaseMap 3 := ⟨![(1, true), (0, false), (2, true)], false, by decide⟩
def m33 : BaseMap 3 := ⟨![(1, false), (0, true), (2, true)], true, by decide⟩
def m34 : BaseMap 3 := ⟨![(0, false), (2, false), (1, false)], false, by decide⟩
def m35 : BaseMap 3 := ⟨![(1, true), (0, false), (2, true)], true, by decide⟩
def m36 : BaseMap 3 := ⟨![(1, false), (2, true), (0, true)], true, by decide⟩
def m37 : BaseMap 3 := ⟨![(2, false), (0, false), (1, true)], false, by decide⟩
def m38 : BaseMap 3 := ⟨![(0, false), (2, true), (1, false)], false, by decide⟩
def m39 : BaseMap 3 := ⟨![(0, true), (1, false), (2, true)], false, by decide⟩
def m40 : BaseMap 3 := ⟨![(1, false), (0, true), (2, false)], false, by decide⟩
def m41 : BaseMap 3 := ⟨![(1, false), (2, true), (0, false)], false, by decide⟩
def m42 : BaseMap 3 := ⟨![(0, false), (2, false), (1, false)], true, by decide⟩
def m43 : BaseMap 3 := ⟨![(1, false), (2, false), (0, false)], true, by decide⟩
def m44 : BaseMap 3 := ⟨![(0, false), (2, false), (1, true)], false, by decide⟩
def m45 : BaseMap 3 := ⟨![(2, false), (0, false), (1, false)], false, by decide⟩
def m46 : BaseMap 3 := ⟨![(1, true), (0, false), (2, false)], false, by decide⟩
def m47 : BaseMap 3 := ⟨![(0, true), (1, false), (2, true)], true, by decide⟩
def m48 : BaseMap 3 := ⟨![(2, true), (1, true), (0, true)], true, by decide⟩
def m49 : BaseMap 3 := ⟨![(1, true), (0, true), (2, true)], false, by decide⟩
def m50 : BaseMap 3 := ⟨![(2, true), (0, true), (1, true)], false, by decide⟩
def m51 : BaseMap 3 := ⟨![(1, true), (2, true), (0, true)], false, by decide⟩
def m52 : BaseMap 3 := ⟨![(0, false), (1, false), (2, true)], false, by decide⟩
def m53 : BaseMap 3 := ⟨![(2, true), (1, false), (0, true)], true, by decide⟩
def m54 : BaseMap 3 := ⟨![(0, false), (1, false), (2, false)], false, by decide⟩
def m55 : BaseMap 3 := ⟨![(2, true), (0, true), (1, false)], false, by decide⟩
def m56 : BaseMap 3 := ⟨![(0, true), (1, true), (2, true)], false, by decide⟩
def m57 : BaseMap 3 := ⟨![(0, true), (2, true), (1, true)], false, by decide⟩
def m58 : BaseMap 3 := ⟨![(2, false), (1, true), (0, false)], true, by decide⟩
def m59 : BaseMap 3 := ⟨![(1, false), (0, false), (2, true)], false, by decide⟩

def prow : List (List (List ℤ × Spec 3)) :=
  [
    [([0, 0, 0], ⟨m0, 0⟩), ([0, 1, 0], ⟨m1, 0⟩), ([1, 1, 0], ⟨m1, 0⟩), ([1, 0, 0], ⟨m2, 0⟩), ([1, 0, 1], ⟨m3, 0⟩), ([1, 1, 1], ⟨m4, 0⟩), ([0, 1, 1], ⟨m5, 0⟩), ([0, 0, 1], ⟨m6, 0⟩)]]

theorem div_eq : Zoo.best3dL1.div = 2 := by decide +kernel

theorem genus_eq : Zoo.best3dL1.genus = 8 := by decide +kernel

theorem rows : Rows Zoo.best3dL1 prow := by decide +kernel

def core_l1 : List (Ent 3) :=
  [
    ⟨true, 0, ⟨m7, 0⟩, 13061, [0, 0, -1], 1, 0⟩,
    ⟨true, 0, ⟨m8, 0⟩, 13344, [0, 0, -1], 1, 0⟩,
    ⟨true, 0, ⟨m9, 0⟩, 8724, [0, -1, -1], 2, 0⟩,
    ⟨true, 0, ⟨m10, 0⟩, 12821, [1, -1, -1], 3, 0⟩,
    ⟨true, 0, ⟨m9, 0⟩, 8724, [0, -1, 0], 1, 0⟩,
    ⟨true, 0, ⟨m10, 0⟩, 12821, [1, -1, 0], 2, 0⟩,
    ⟨false, 0, ⟨m11, 0⟩, 5408, [0, 0, 1], 1, 0⟩,
    ⟨false, 0, ⟨m12, 0⟩, 323, [-1, 0, 1], 2, 0⟩,
    ⟨false, 0, ⟨m13, 0⟩, 4945, [-1, 1, 1], 3, 0⟩,
    ⟨true, 0, ⟨m14, 0⟩, 8259, [-1, 0, 0], 1, 0⟩,
    ⟨true, 0, ⟨m15, 0⟩, 12881, [-1, 1, 0], 2, 0⟩,
    ⟨false, 0, ⟨m16, 0⟩, 5378, [0, 0, 1], 1, 0⟩,
    ⟨false, 0, ⟨m17, 0⟩, 4418, [0, -1, 1], 2, 0⟩,
    ⟨true, 0, ⟨m18, 0⟩, 12324, [-1, 0, 0], 1, 0⟩,
    ⟨false, 0, ⟨m19, 0⟩, 773, [-1, -1, 1], 3, 0⟩,
    ⟨false, 0, ⟨m20, 0⟩, 833, [-2, -1, 1], 4, 0⟩,
    ⟨false, 0, ⟨m19, 0⟩, 773, [-1, -1, 0], 2, 0⟩,
    ⟨false, 0, ⟨m20, 0⟩, 833, [-2, -1, 0], 3, 0⟩,
    ⟨false, 0, ⟨m21, 0⟩, 338, [0, -1, 0], 1, 0⟩,
    ⟨false, 0, ⟨m22, 0⟩, 1298, [0, -2, 0], 2, 0⟩,
    ⟨false, 0, ⟨m23, 0⟩, 5168, [0, -2, -1], 3, 0⟩,
    ⟨false, 0, ⟨m12, 0⟩, 323, [-1, -1, 1], 3, 0⟩,
    ⟨false, 0, ⟨m12, 0⟩, 323, [-1, -1, 0], 2, 0⟩,
    ⟨false, 0, ⟨m24, 0⟩, 1328, [0, -1, 0], 1, 0⟩,
    ⟨false, 0, ⟨m25, 0⟩, 308, [0, -1, -1], 2, 0⟩,
    ⟨false, 0, ⟨m26, 0⟩, 4885, [1, -1, -1], 3, 0⟩,
    ⟨false, 0, ⟨m26, 0⟩, 4885, [0, -2, 1], 3, 0⟩,
    ⟨false, 0, ⟨m17, 0⟩, 4418, [1, -2, 1], 4, 0⟩,
    ⟨false, 0, ⟨m17, 0⟩, 4418, [1, -3, 1], 5, 0⟩,
    ⟨false, 0, ⟨m26, 0⟩, 4885, [0, -2, 0], 2, 0⟩,
    ⟨false, 0, ⟨m17, 0⟩, 4418, [1, -2, 0], 3, 0⟩,
    ⟨false, 0, ⟨m17, 0⟩, 4418, [1, -3, 0], 4, 0⟩,
    ⟨false, 0, ⟨m27, 0⟩, 4178, [0, 0, 1], 1, 0⟩,
    ⟨true, 0, ⟨m28, 0⟩, 8244, [-1, -1, 0], 2, 0⟩,
    ⟨true, 0, ⟨m29, 0⟩, 9264, [0, -1, 0], 1, 0⟩,
    ⟨true, 0, ⟨m28, 0⟩, 8244, [0, -1, 1], 2, 0⟩,
    ⟨true, 0, ⟨m10, 0⟩, 12821, [1, -1, 1], 3, 0⟩,
    ⟨false, 0, ⟨m30, 0⟩, 4613, [0, -1, 3], 4, 0⟩,
    ⟨false, 0, ⟨m30, 0⟩, 4613, [1, -1, 3], 5, 0⟩,
    ⟨false, 0, ⟨m30, 0⟩, 4613, [0, -1, 2], 3, 0⟩,
    ⟨false, 0, ⟨m30, 0⟩, 4613, [1, -1, 2], 4, 0⟩,
    ⟨false, 0, ⟨m5, 0⟩, 4868, [-1, 0, 0], 1, 0⟩,
    ⟨false, 0, ⟨m31, 0⟩, 4435, [-2, 0, 0], 2, 0⟩,
    ⟨false, 0, ⟨m31, 0⟩, 4435, [-2, 1, 0], 3, 0⟩,
    ⟨false, 0, ⟨m32, 0⟩, 1283, [-1, -1, 1], 3, 0⟩,
    ⟨true, 0, ⟨m28, 0⟩, 8244, [-1, -1, 1], 3, 0⟩,
    ⟨true, 0, ⟨m28, 0⟩, 8244, [0, -1, 0], 1, 0⟩,
    ⟨true, 0, ⟨m33, 0⟩, 13586, [1, -1, 1], 3, 0⟩,
    ⟨false, 0, ⟨m34, 0⟩, 576, [0, -1, 2], 3, 0⟩,
    ⟨false, 0, ⟨m34, 0⟩, 576, [0, -1, 1], 2, 0⟩,
    ⟨false, 0, ⟨m32, 0⟩, 1283, [-1, 0, 0], 1, 0⟩,
    ⟨false, 0, ⟨m12, 0⟩, 323, [-1, 0, -1], 2, 0⟩,
    ⟨false, 0, ⟨m13, 0⟩, 4945, [-1, 1, -1], 3, 0⟩,
    ⟨false, 0, ⟨m23, 0⟩, 5168, [0, -2, 1], 3, 0⟩,
    ⟨true, 0, ⟨m35, 0⟩, 13571, [-2, 0, 0], 2, 0⟩,
    ⟨true, 0, ⟨m15, 0⟩, 12881, [-2, 0, 1], 3, 0⟩,
    ⟨true, 0, ⟨m15, 0⟩, 12881, [-2, 1, 1], 4, 0⟩,
    ⟨true, 0, ⟨m36, 0⟩, 12626, [1, 0, -1], 2, 0⟩,
    ⟨true, 0, ⟨m36, 0⟩, 12626, [1, 1, -1], 3, 0⟩,
    ⟨false, 0, ⟨m17, 0⟩, 4418, [0, -2, 1], 3, 0⟩,
    ⟨false, 0, ⟨m23, 0⟩, 5168, [0, -3, 1], 4, 0⟩,
    ⟨true, 0, ⟨m35, 0⟩, 13571, [-3, 0, 0], 3, 0⟩,
    ⟨true, 0, ⟨m35, 0⟩, 13571, [-3, 0, 1], 4, 0⟩,
    ⟨true, 0, ⟨m37, 0⟩, 8964, [3, -7, -3], 45, 0⟩,
    ⟨true, 0, ⟨m38, 0⟩, 8784, [-7, 1, 3], 31, 0⟩,
    ⟨false, 0, ⟨m39, 0⟩, 1313, [-1, -1, 1], 3, 0⟩,
    ⟨true, 0, ⟨m40, 0⟩, 9234, [-1, -1, 0], 2, 0⟩,
    ⟨true, 0, ⟨m41, 0⟩, 8274, [-1, -1, 1], 3, 0⟩,
    ⟨true, 0, ⟨m42, 0⟩, 12864, [-1, -2, 1], 4, 0⟩,
    ⟨true, 0, ⟨m38, 0⟩, 8784, [1, -1, 0], 2, 0⟩,
    ⟨true, 0, ⟨m43, 0⟩, 12354, [1, -2, 0], 3, 0⟩,
    ⟨false, 0, ⟨m17, 0⟩, 4418, [0, -2, 0], 2, 0⟩,
    ⟨false, 0, ⟨m23, 0⟩, 5168, [0, -3, 0], 3, 0⟩,
    ⟨false, 0, ⟨m23, 0⟩, 5168, [0, -3, -1], 4, 0⟩,
    ⟨false, 0, ⟨m30, 0⟩, 4613, [0, 0, 2], 2, 0⟩,
    ⟨false, 0, ⟨m30, 0⟩, 4613, [1, 0, 2], 3, 0⟩,
    ⟨true, 0, ⟨m44, 0⟩, 9024, [7, -3, 1], 31, 0⟩,
    ⟨true, 0, ⟨m41, 0⟩, 8274, [7, -3, -3], 45, 0⟩,
    ⟨false, 0, ⟨m45, 0⟩, 516, [0, -1, 2], 3, 0⟩,
    ⟨false, 0, ⟨m34, 0⟩, 576, [1, -1, 2], 4, 0⟩,
    ⟨true, 0, ⟨m44, 0⟩, 9024, [-1, 0, -1], 2, 0⟩,
    ⟨true, 0, ⟨m37, 0⟩, 8964, [-1, 1, -1], 3, 0⟩,
    ⟨true, 0, ⟨m46, 0⟩, 9219, [-1, 1, 0], 2, 0⟩,
    ⟨true, 0, ⟨m47, 0⟩, 13601, [-1, 1, 1], 3, 0⟩,
    ⟨false, 0, ⟨m6, 0⟩, 4928, [0, -2, 1], 3, 0⟩,
    ⟨false, 0, ⟨m48, 0⟩, 4405, [0, -3, 1], 4, 0⟩,
    ⟨false, 0, ⟨m48, 0⟩, 4405, [1, -3, 1], 5, 0⟩,
    ⟨false, 0, ⟨m6, 0⟩, 4928, [0, -2, 0], 2, 0⟩,
    ⟨false, 0, ⟨m48, 0⟩, 4405, [0, -3, 0], 3, 0⟩,
    ⟨false, 0, ⟨m48, 0⟩, 4405, [1, -3, 0], 4, 0⟩,
    ⟨false, 0, ⟨m0, 0⟩, 4688, [0, 0, 2], 2, 0⟩,
    ⟨false, 0, ⟨m0, 0⟩, 4688, [0, 1, 2], 3, 0⟩,
    ⟨false, 0, ⟨m0, 0⟩, 4688, [0, -1, 3], 4, 0⟩,
    ⟨true, 0, ⟨m35, 0⟩, 13571, [-2, 0, 1], 3, 0⟩,
    ⟨true, 0, ⟨m49, 0⟩, 9491, [3, -7, 1], 31, 0⟩,
    ⟨false, 0, ⟨m5, 0⟩, 4868, [-15, 7, 7], 365, 0⟩,
    ⟨true, 0, ⟨m42, 0⟩, 12864, [-3, 15, 7], 245, 0⟩,
    ⟨true, 0, ⟨m49, 0⟩, 9491, [-7, 3, 1], 31, 0⟩,
    ⟨false, 0, ⟨m34, 0⟩, 576, [3, -7, -15], 245, 0⟩,
    ⟨false, 0, ⟨m27, 0⟩, 4178, [-7, 7, 15], 365, 0⟩,
    ⟨true, 0, ⟨m50, 0⟩, 8981, [3, -7, 1], 31, 0⟩,
    ⟨true, 0, ⟨m28, 0⟩, 8244, [3, -7, -3], 45, 0⟩,
    ⟨true, 0, ⟨m51, 0⟩, 8531, [-7, 1, 3], 31, 0⟩,
    ⟨true, 0, ⟨m52, 0⟩, 9504, [7, -3, 1], 31, 0⟩,
    ⟨false, 0, ⟨m4, 0⟩, 293, [3, -15, -7], 245, 0⟩,
    ⟨true, 0, ⟨m41, 0⟩, 8274, [-31, 7, 15], 1957, 0⟩,
    ⟨true, 0, ⟨m53, 0⟩, 12581, [-7, 15, 3], 245, 0⟩,
    ⟨true, 0, ⟨m37, 0⟩, 8964, [-15, 31, 7], 1957, 0⟩,
    ⟨false, 0, ⟨m54, 0⟩, 1056, [3, -15, -7], 245, 0⟩,
    ⟨false, 0, ⟨m13, 0⟩, 4945, [-15, 7, 7], 365, 0⟩,
    ⟨true, 0, ⟨m8, 0⟩, 13344, [-3, 15, 7], 245, 0⟩,
    ⟨false, 0, ⟨m55, 0⟩, 533, [3, -7, -15], 245, 0⟩,
    ⟨true, 0, ⟨m56, 0⟩, 9521, [-31, 15, 7], 1957, 0⟩,
    ⟨true, 0, ⟨m57, 0⟩, 9041, [-31, 15, 7], 1957, 0⟩,
    ⟨false, 0, ⟨m58, 0⟩, 4148, [-15, 31, 15], 2921, 0⟩,
    ⟨true, 0, ⟨m57, 0⟩, 9041, [-31, 7, 15], 1957, 0⟩,
    ⟨true, 0, ⟨m59, 0⟩, 9474, [-15, 31, 7], 1957, 0⟩,
    ⟨true, 0, ⟨m28, 0⟩, 8244, [-31, 63, 15], 15655, 0⟩,
    ⟨true, 0, ⟨m28, 0⟩, 8244, [-15, 63, 31], 15655, 0⟩]

theorem form_l1 : formB Zoo.best3dL1.mult core_l1 = true := by decide +kernel

theorem autos_l1 : autosB .l1 2 614656 6849 prow core_l1 = true := by decide +kernel

theorem closed_l1_0 : closedB .l1 2 8 614656 6849 prow core_l1 ((core_l1.drop 0).take 62) = true := by decide +kernel

theorem closed_l1_1 : closedB .l1 2 8 614656 6849 prow core_l1 (core_l1.drop 62) = true := by decide +kernel

theorem closed_l1 : closedB .l1 2 8 614656 6849 prow core_l1 core_l1 = true :=
  closedB_split 0 62 closed_l1_0 (closed_l1_1)

def pt1_l1 : Pt := ⟨[2, 6, 6], [4, 4], 4 / 7, [1, 1, 0]⟩
def pt2_l1 : Pt := ⟨[3, 2, 5, 1, 1], [3, 3], 3 / 7, [0, 0, 1]⟩

theorem low_l1 : lowB .l1 Zoo.best3dL1 0 pt1_l1 pt2_l1 (614656 / 6849) := by decide +kernel

theorem cert_l1 : Cert .l1 Zoo.best3dL1 (614656 / 6849) (614656 / 6849) :=
  ⟨.l1, 2, 8, 614656, 6849, prow, core_l1, 0, pt1_l1, pt2_l1, trivial, by decide, rfl, by norm_num [bnd, Metric.sq], div_eq, genus_eq, rows, form_l1, autos_l1,
    closed_l1, by norm_num [Metric.sq, Metric.ratio]; exact low_l1⟩

end Peano.ZooDil.Best3dL1
