import Verif.Lemmas.ZooDil

set_option autoImplicit false
set_option maxRecDepth 100000
set_option linter.dupNamespace false

/-
Certificates for the dilations of the curve `facetGated4d` of the zoo.  This file is generated.
-/
namespace Peano.ZooDil.FacetGated4d
open DilCert Zoo

def m0 : BaseMap 4 := ⟨![(0, false), (3, true), (1, true), (2, true)], false, by decide⟩
def m1 : BaseMap 4 := ⟨![(2, false), (3, false), (0, false), (1, true)], false, by decide⟩
def m2 : BaseMap 4 := ⟨![(3, false), (1, true), (2, false), (0, false)], false, by decide⟩
def m3 : BaseMap 4 := ⟨![(3, true), (0, false), (1, false), (2, false)], false, by decide⟩
def m4 : BaseMap 4 := ⟨![(3, true), (2, false), (1, true), (0, false)], true, by decide⟩
def m5 : BaseMap 4 := ⟨![(2, true), (3, false), (1, true), (0, true)], false, by decide⟩
def m6 : BaseMap 4 := ⟨![(0, true), (3, false), (1, false), (2, true)], true, by decide⟩
def m7 : BaseMap 4 := ⟨![(0, false), (3, false), (1, false), (2, true)], false, by decide⟩
def m8 : BaseMap 4 := ⟨![(2, false), (3, false), (1, true), (0, true)], true, by decide⟩
def m9 : BaseMap 4 := ⟨![(3, false), (2, false), (1, true), (0, false)], false, by decide⟩
def m10 : BaseMap 4 := ⟨![(3, true), (1, false), (0, false), (2, false)], false, by decide⟩
def m11 : BaseMap 4 := ⟨![(3, true), (1, true), (2, false), (0, false)], true, by decide⟩
def m12 : BaseMap 4 := ⟨![(2, true), (3, true), (1, false), (0, true)], false, by decide⟩
def m13 : BaseMap 4 := ⟨![(3, false), (2, false), (1, true), (0, true)], true, by decide⟩
def m14 : BaseMap 4 := ⟨![(0, false), (2, false), (3, false), (1, false)], true, by decide⟩
def m15 : BaseMap 4 := ⟨![(1, true), (0, false), (3, true), (2, false)], true, by decide⟩
def m16 : BaseMap 4 := ⟨![(2, false), (0, true), (1, false), (3, true)], false, by decide⟩
def m17 : BaseMap 4 := ⟨![(3, false), (2, true), (0, true), (1, false)], false, by decide⟩
def m18 : BaseMap 4 := ⟨![(3, true), (1, true), (2, true), (0, true)], false, by decide⟩
def m19 : BaseMap 4 := ⟨![(2, false), (0, true), (3, false), (1, true)], false, by decide⟩
def m20 : BaseMap 4 := ⟨![(1, false), (2, true), (3, true), (0, false)], false, by decide⟩
def m21 : BaseMap 4 := ⟨![(1, true), (0, true), (3, true), (2, false)], true, by decide⟩
def m22 : BaseMap 4 := ⟨![(0, false), (2, true), (1, true), (3, true)], true, by decide⟩
def m23 : BaseMap 4 := ⟨![(0, true), (3, true), (1, true), (2, true)], false, by decide⟩
def m24 : BaseMap 4 := ⟨![(2, false), (1, true), (0, false), (3, false)], true, by decide⟩
def m25 : BaseMap 4 := ⟨![(3, false), (1, true), (0, true), (2, false)], false, by decide⟩
def m26 : BaseMap 4 := ⟨![(0, true), (1, false), (3, false), (2, false)], false, by decide⟩
def m27 : BaseMap 4 := ⟨![(2, true), (1, true), (3, false), (0, false)], true, by decide⟩
def m28 : BaseMap 4 := ⟨![(2, true), (1, true), (3, false), (0, true)], false, by decide⟩
def m29 : BaseMap 4 := ⟨![(2, false), (1, true), (0, true), (3, false)], false, by decide⟩
def m30 : BaseMap 4 := ⟨![(0, true), (1, false), (2, false), (3, false)], false, by decide⟩
def m31 : BaseMap 4 := ⟨![(2, true), (1, true), (0, false), (3, false)], true, by decide⟩
def m32 : BaseMap 4 := ⟨![(3, true), (1, true), (0, true), (2, false)], false, by decide⟩
def m33 : BaseMap 4 := ⟨![(2, true), (0, true), (3, true), (1, false)], false, by decide⟩
def m34 : BaseMap 4 := ⟨![(0, true), (2, true), (3, true), (1, true)], true, by decide⟩
def m35 : BaseMap 4 := ⟨![(0, true), (1, true), (3, true), (2, true)], false, by decide⟩
def m36 : BaseMap 4 := ⟨![(1, false), (3, true), (0, true), (2, false)], false, by decide⟩
def m37 : BaseMap 4 := ⟨![(1, true), (2, false), (0, true), (3, true)], true, by decide⟩
def m38 : BaseMap 4 := ⟨![(0, true), (3, false), (1, false), (2, false)], false, by decide⟩
def m39 : BaseMap 4 := ⟨![(0, true), (2, true), (1, true), (3, true)], true, by decide⟩
def m40 : BaseMap 4 := ⟨![(0, false), (1, true), (3, true), (2, true)], true, by decide⟩
def m41 : BaseMap 4 := ⟨![(1, true), (3, false), (0, true), (2, true)], true, by decide⟩
def m42 : BaseMap 4 := ⟨![(2, true), (3, true), (1, false), (0, true)], true, by decide⟩
def m43 : BaseMap 4 := ⟨![(1, true), (3, true), (2, false), (0, false)], true, by decide⟩
def m44 : BaseMap 4 := ⟨![(2, true), (3, false), (0, false), (1, true)], true, by decide⟩
def m45 : BaseMap 4 := ⟨![(1, true), (2, false), (0, false), (3, true)], true, by decide⟩
def m46 : BaseMap 4 := ⟨![(3, true), (0, true), (2, false), (1, false)], false, by decide⟩
def m47 : BaseMap 4 := ⟨![(2, true), (3, true), (1, false), (0, false)], false, by decide⟩
def m48 : BaseMap 4 := ⟨![(2, true), (3, false), (0, true), (1, true)], false, by decide⟩
def m49 : BaseMap 4 := ⟨![(1, true), (2, false), (0, true), (3, true)], false, by decide⟩
def m50 : BaseMap 4 := ⟨![(2, true), (0, true), (1, false), (3, true)], false, by decide⟩
def m51 : BaseMap 4 := ⟨![(3, true), (2, true), (0, true), (1, false)], false, by decide⟩
def m52 : BaseMap 4 := ⟨![(3, false), (1, true), (2, true), (0, true)], false, by decide⟩
def m53 : BaseMap 4 := ⟨![(2, true), (0, true), (3, false), (1, false)], false, by decide⟩
def m54 : BaseMap 4 := ⟨![(3, true), (2, true), (1, false), (0, false)], false, by decide⟩
def m55 : BaseMap 4 := ⟨![(3, true), (2, false), (0, true), (1, true)], false, by decide⟩
def m56 : BaseMap 4 := ⟨![(1, true), (3, false), (0, true), (2, true)], false, by decide⟩
def m57 : BaseMap 4 := ⟨![(3, true), (2, true), (1, false), (0, true)], false, by decide⟩
def m58 : BaseMap 4 := ⟨![(3, false), (1, true), (0, true), (2, true)], false, by decide⟩
def m59 : BaseMap 4 := ⟨![(1, true), (0, true), (2, false), (3, false)], false, by decide⟩
def m60 : BaseMap 4 := ⟨![(2, true), (1, true), (3, false), (0, false)], false, by decide⟩
def m61 : BaseMap 4 := ⟨![(2, true), (1, false), (0, true), (3, true)], false, by decide⟩
def m62 : BaseMap 4 := ⟨![(1, true), (0, true), (2, true), (3, false)], false, by decide⟩
def m63 : BaseMap 4 := ⟨![(3, false), (1, false), (2, true), (0, false)], false, by decide⟩
def m64 : BaseMap 4 := ⟨![(0, true), (3, false), (2, false), (1, false)], false, by decide⟩
def m65 : BaseMap 4 := ⟨![(3, false), (1, true), (0, true), (2, false)], true, by decide⟩
def m66 : BaseMap 4 := ⟨![(1, true), (0, true), (2, false), (3, false)], true, by decide⟩
def m67 : BaseMap 4 := ⟨![(3, true), (2, true), (1, true), (0, false)], false, by decide⟩
def m68 : BaseMap 4 := ⟨![(1, true), (3, false), (2, true), (0, true)], false, by decide⟩
def m69 : BaseMap 4 := ⟨![(0, true), (2, false), (1, false), (3, false)], false, by decide⟩
def m70 : BaseMap 4 := ⟨![(3, true), (0, true), (2, true), (1, false)], false, by decide⟩
def m71 : BaseMap 4 := ⟨![(3, false), (2, true), (1, true), (0, true)], false, by decide⟩
def m72 : BaseMap 4 := ⟨![(3, true), (1, true), (2, true), (0, false)], false, by decide⟩
def m73 : BaseMap 4 := ⟨![(3, true), (1, true), (0, true), (2, false)], true, by decide⟩
def m74 : BaseMap 4 := ⟨![(2, true), (3, true), (1, true), (0, false)], false, by decide⟩
def m75 : BaseMap 4 := ⟨![(1, true), (2, false), (3, true), (0, true)], false, by decide⟩
def m76 : BaseMap 4 := ⟨![(3, true), (1, false), (0, true), (2, true)], false, by decide⟩
def m77 : BaseMap 4 := ⟨![(3, false), (0, true), (2, true), (1, true)], false, by decide⟩
def m78 : BaseMap 4 := ⟨![(1, true), (2, true), (3, true), (0, false)], false, by decide⟩
def m79 : BaseMap 4 := ⟨![(2, true), (3, true), (0, true), (1, false)], false, by decide⟩
def m80 : BaseMap 4 := ⟨![(3, true), (1, false), (2, true), (0, true)], false, by decide⟩
def m81 : BaseMap 4 := ⟨![(3, false), (0, true), (1, true), (2, true)], false, by decide⟩
def m82 : BaseMap 4 := ⟨![(2, true), (1, true), (0, true), (3, false)], true, by decide⟩
def m83 : BaseMap 4 := ⟨![(1, true), (3, false), (0, true), (2, false)], true, by decide⟩
def m84 : BaseMap 4 := ⟨![(3, false), (1, true), (2, true), (0, true)], true, by decide⟩
def m85 : BaseMap 4 := ⟨![(1, true), (3, true), (2, true), (0, false)], false, by decide⟩
def m86 : BaseMap 4 := ⟨![(2, true), (1, false), (3, true), (0, true)], false, by decide⟩
def m87 : BaseMap 4 := ⟨![(3, false), (1, true), (2, false), (0, true)], true, by decide⟩
def m88 : BaseMap 4 := ⟨![(1, true), (0, true), (3, false), (2, false)], true, by decide⟩
def m89 : BaseMap 4 := ⟨![(3, false), (2, false), (0, true), (1, true)], true, by decide⟩
def m90 : BaseMap 4 := ⟨![(1, true), (3, false), (2, false), (0, true)], true, by decide⟩
def m91 : BaseMap 4 := ⟨![(1, true), (3, true), (0, true), (2, false)], false, by decide⟩
def m92 : BaseMap 4 := ⟨![(0, true), (3, true), (1, true), (2, false)], false, by decide⟩
def m93 : BaseMap 4 := ⟨![(3, false), (2, true), (0, true), (1, true)], false, by decide⟩
def m94 : BaseMap 4 := ⟨![(2, true), (1, true), (3, true), (0, false)], false, by decide⟩
def m95 : BaseMap 4 := ⟨![(3, true), (2, false), (1, true), (0, true)], false, by decide⟩
def m96 : BaseMap 4 := ⟨![(1, true), (0, true), (3, false), (2, true)], false, by decide⟩
def m97 : BaseMap 4 := ⟨![(1, true), (0, true), (3, true), (2, false)], false, by decide⟩
def m98 : BaseMap 4 := ⟨![(2, true), (0, true), (3, false), (1, true)], false, by decide⟩
def m99 : BaseMap 4 := ⟨![(0, true), (1, true), (3, false), (2, true)], false, by decide⟩
def m100 : BaseMap 4 := ⟨![(1, true), (2, true), (3, false), (0, true)], false, by decide⟩
def m101 : BaseMap 4 := ⟨![(3, true), (0, true), (1, true), (2, false)], false, by decide⟩
def m102 : BaseMap 4 := ⟨![(0, true), (1, true), (3, true), (2, false)], false, by decide⟩
def m103 : BaseMap 4 := ⟨![(0, true), (2, true), (3, false), (1, true)], false, by decide⟩
def m104 : BaseMap 4 := ⟨![(2, true), (0, true), (1, true), (3, false)], false, by decide⟩
def m105 : BaseMap 4 := ⟨![(1, true), (2, true), (0, true), (3, false)], false, by decide⟩
def m106 : BaseMap 4 := ⟨![(2, true), (1, true), (0, true), (3, false)], false, by decide⟩
def m107 : BaseMap 4 := ⟨![(0, true), (2, true), (1, true), (3, false)], false, by decide⟩
def m108 : BaseMap 4 := ⟨![(0, true), (3, false), (1, true), (2, true)], false, by decide⟩
def m109 : BaseMap 4 := ⟨![(0, true), (1, true), (2, true), (3, false)], false, by decide⟩
def m110 : BaseMap 4 := ⟨![(0, true), (2, true), (3, true), (1, false)], false, by decide⟩
def m111 : BaseMap 4 := ⟨![(0, true), (3, false), (2, true), (1, true)], false, by decide⟩
def m112 : BaseMap 4 := ⟨![(0, true), (3, true), (2, true), (1, false)], false, by decide⟩

def prow : List (List (List ℤ × Spec 4)) :=
  [
    [([0, 0, 0, 0], ⟨m0, 0⟩), ([0, 0, 1, 0], ⟨m1, 0⟩), ([0, 0, 1, 1], ⟨m2, 0⟩), ([0, 1, 1, 1], ⟨m3, 0⟩), ([0, 1, 0, 1], ⟨m4, 0⟩), ([0, 1, 0, 0], ⟨m5, 0⟩), ([0, 1, 1, 0], ⟨m6, 0⟩), ([1, 1, 1, 0], ⟨m7, 0⟩), ([1, 1, 0, 0], ⟨m8, 0⟩), ([1, 1, 0, 1], ⟨m9, 0⟩), ([1, 1, 1, 1], ⟨m10, 0⟩), ([1, 0, 1, 1], ⟨m11, 0⟩), ([1, 0, 1, 0], ⟨m12, 0⟩), ([1, 0, 0, 0], ⟨m13, 0⟩), ([1, 0, 0, 1], ⟨m14, 0⟩), ([0, 0, 0, 1], ⟨m15, 0⟩)]]

theorem div_eq : Zoo.facetGated4d.div = 2 := by decide +kernel

theorem genus_eq : Zoo.facetGated4d.genus = 16 := by decide +kernel

theorem rows : Rows Zoo.facetGated4d prow := by decide +kernel

def core_l2 : List (Ent 4) :=
  [
    ⟨false, 0, ⟨m16, 0⟩, 29204, [0, -1, 0, 0], 1, 2646⟩,
    ⟨false, 0, ⟨m17, 0⟩, 8534, [0, -1, -1, 0], 2, 3163⟩,
    ⟨false, 0, ⟨m18, 0⟩, 5431, [0, -1, -1, -1], 3, 3606⟩,
    ⟨false, 0, ⟨m19, 0⟩, 13844, [0, -1, 0, 0], 1, 2646⟩,
    ⟨false, 0, ⟨m20, 0⟩, 1874, [0, -1, 0, 1], 2, 3163⟩,
    ⟨false, 0, ⟨m21, 0⟩, 83731, [-1, -1, 0, 1], 3, 3606⟩,
    ⟨false, 0, ⟨m22, 0⟩, 95056, [0, -1, -1, 0], 2, 3163⟩,
    ⟨false, 0, ⟨m23, 0⟩, 21361, [-1, -1, -1, 0], 3, 3606⟩,
    ⟨false, 0, ⟨m24, 0⟩, 90164, [0, -1, 0, 0], 1, 2646⟩,
    ⟨false, 0, ⟨m25, 0⟩, 16694, [0, -1, -1, 0], 2, 3163⟩,
    ⟨true, 0, ⟨m26, 0⟩, 149025, [-1, 0, 0, 0], 1, 2646⟩,
    ⟨true, 0, ⟨m27, 0⟩, 198197, [-1, -1, 0, 0], 2, 3163⟩,
    ⟨true, 0, ⟨m28, 0⟩, 136757, [-1, -1, 0, -1], 3, 3606⟩,
    ⟨false, 0, ⟨m29, 0⟩, 24884, [0, -1, -1, 0], 2, 3163⟩,
    ⟨true, 0, ⟨m30, 0⟩, 156705, [-1, 0, 0, 0], 1, 2646⟩,
    ⟨true, 0, ⟨m31, 0⟩, 221237, [-1, -1, 0, 0], 2, 3163⟩,
    ⟨true, 0, ⟨m32, 0⟩, 147767, [-1, -1, -1, 0], 3, 3606⟩,
    ⟨true, 0, ⟨m33, 0⟩, 141077, [-1, -1, 0, 0], 2, 3163⟩,
    ⟨true, 0, ⟨m34, 0⟩, 210769, [-1, -1, 0, -1], 3, 3606⟩,
    ⟨false, 0, ⟨m35, 0⟩, 22321, [-1, -1, -1, 0], 3, 3606⟩,
    ⟨false, 0, ⟨m36, 0⟩, 16754, [0, -1, -1, 0], 2, 3163⟩,
    ⟨false, 0, ⟨m37, 0⟩, 94531, [-1, -1, -1, 0], 3, 3606⟩,
    ⟨true, 0, ⟨m38, 0⟩, 148065, [-1, 0, 0, 0], 1, 2646⟩,
    ⟨true, 0, ⟨m39, 0⟩, 226129, [-1, 0, -1, 0], 2, 3163⟩,
    ⟨false, 0, ⟨m40, 0⟩, 87856, [0, -1, 0, 0], 1, 2646⟩,
    ⟨false, 0, ⟨m41, 0⟩, 86371, [-1, -1, 0, 0], 2, 3163⟩,
    ⟨false, 0, ⟨m42, 0⟩, 70261, [-1, -1, 1, 0], 3, 3606⟩,
    ⟨true, 0, ⟨m43, 0⟩, 197747, [-1, 0, 0, 0], 1, 2646⟩,
    ⟨true, 0, ⟨m44, 0⟩, 208997, [-1, 0, 0, -1], 2, 3163⟩,
    ⟨true, 0, ⟨m45, 0⟩, 225347, [-1, 0, 0, 0], 1, 2646⟩,
    ⟨false, 0, ⟨m46, 0⟩, 9239, [-1, -2, 0, 1], 6, 4243⟩,
    ⟨false, 0, ⟨m47, 0⟩, 629, [-1, -1, 1, 1], 4, 4000⟩,
    ⟨true, 0, ⟨m48, 0⟩, 143717, [-1, 0, -1, -1], 3, 3606⟩,
    ⟨true, 0, ⟨m49, 0⟩, 160067, [-1, 0, -1, 0], 2, 3163⟩,
    ⟨true, 0, ⟨m50, 0⟩, 160277, [-1, -1, 0, 0], 2, 3163⟩,
    ⟨true, 0, ⟨m51, 0⟩, 139607, [-1, -1, -1, 0], 3, 3606⟩,
    ⟨true, 0, ⟨m52, 0⟩, 136502, [-1, -1, -1, -1], 4, 4000⟩,
    ⟨false, 0, ⟨m53, 0⟩, 9749, [-1, -2, 0, 1], 6, 4243⟩,
    ⟨false, 0, ⟨m54, 0⟩, 599, [-1, -1, 1, 1], 4, 4000⟩,
    ⟨true, 0, ⟨m55, 0⟩, 143687, [-1, 0, -1, -1], 3, 3606⟩,
    ⟨true, 0, ⟨m56, 0⟩, 151907, [-1, 0, -1, 0], 2, 3163⟩,
    ⟨true, 0, ⟨m57, 0⟩, 135767, [-1, -1, 0, -1], 3, 3606⟩,
    ⟨true, 0, ⟨m58, 0⟩, 151862, [-1, -1, -1, -1], 4, 4000⟩,
    ⟨false, 0, ⟨m59, 0⟩, 25619, [-1, -2, 0, 1], 6, 4243⟩,
    ⟨false, 0, ⟨m60, 0⟩, 1589, [-1, -1, 1, 1], 4, 4000⟩,
    ⟨true, 0, ⟨m61, 0⟩, 160037, [-1, 0, -1, -1], 3, 3606⟩,
    ⟨true, 0, ⟨m62, 0⟩, 156947, [-1, -1, -1, -1], 4, 4000⟩,
    ⟨true, 0, ⟨m55, 0⟩, 143687, [-1, 0, -1, 0], 2, 3163⟩,
    ⟨true, 0, ⟨m63, 0⟩, 132390, [-1, 0, -1, 1], 3, 3606⟩,
    ⟨true, 0, ⟨m62, 0⟩, 156947, [-1, -1, -1, 1], 4, 4000⟩,
    ⟨true, 0, ⟨m64, 0⟩, 140385, [-1, 0, 0, 0], 1, 2646⟩,
    ⟨true, 0, ⟨m12, 0⟩, 135797, [-1, 0, 0, -1], 2, 3163⟩,
    ⟨true, 0, ⟨m65, 0⟩, 213302, [-1, -1, -1, -1], 4, 4000⟩,
    ⟨true, 0, ⟨m66, 0⟩, 222227, [-2, -1, 0, -1], 6, 4243⟩,
    ⟨true, 0, ⟨m67, 0⟩, 131927, [-1, -1, -1, 1], 4, 4000⟩,
    ⟨true, 0, ⟨m68, 0⟩, 136547, [-1, 0, -1, -1], 3, 3606⟩,
    ⟨true, 0, ⟨m61, 0⟩, 160037, [-1, 0, -1, 0], 2, 3163⟩,
    ⟨true, 0, ⟨m62, 0⟩, 156947, [-1, -1, -1, 0], 3, 3606⟩,
    ⟨true, 0, ⟨m69, 0⟩, 156225, [-1, 0, 0, 0], 1, 2646⟩,
    ⟨true, 0, ⟨m70, 0⟩, 140567, [-1, -1, -1, 0], 3, 3606⟩,
    ⟨true, 0, ⟨m71, 0⟩, 136022, [-1, -1, -1, -1], 4, 4000⟩,
    ⟨true, 0, ⟨m72, 0⟩, 132407, [-1, -1, -1, 1], 4, 4000⟩,
    ⟨true, 0, ⟨m5, 0⟩, 136037, [-1, 0, -1, -1], 3, 3606⟩,
    ⟨false, 0, ⟨m73, 0⟩, 82231, [-3, -3, -1, 3], 44, 7212⟩,
    ⟨true, 0, ⟨m74, 0⟩, 131957, [-1, -1, -1, 1], 4, 4000⟩,
    ⟨true, 0, ⟨m75, 0⟩, 137027, [-1, 0, -1, -1], 3, 3606⟩,
    ⟨true, 0, ⟨m76, 0⟩, 151847, [-1, 0, -1, 0], 2, 3163⟩,
    ⟨true, 0, ⟨m77, 0⟩, 144662, [-1, -1, -1, 0], 3, 3606⟩,
    ⟨true, 0, ⟨m78, 0⟩, 132947, [-1, -1, -1, 1], 4, 4000⟩,
    ⟨true, 0, ⟨m79, 0⟩, 139637, [-1, 0, -1, 0], 2, 3163⟩,
    ⟨true, 0, ⟨m80, 0⟩, 136487, [-1, 0, -1, -1], 3, 3606⟩,
    ⟨true, 0, ⟨m81, 0⟩, 152342, [-1, -1, -1, -1], 4, 4000⟩,
    ⟨false, 0, ⟨m82, 0⟩, 90421, [-1, -3, -1, 0], 11, 5000⟩,
    ⟨true, 0, ⟨m12, 0⟩, 135797, [-1, -1, 0, -1], 3, 3606⟩,
    ⟨true, 0, ⟨m13, 0⟩, 201542, [-1, -1, -1, -1], 4, 4000⟩,
    ⟨true, 0, ⟨m83, 0⟩, 213347, [-2, -1, -1, 0], 6, 4243⟩,
    ⟨false, 0, ⟨m84, 0⟩, 70966, [-1, -3, -3, -3], 44, 7212⟩,
    ⟨true, 0, ⟨m85, 0⟩, 132467, [-1, -1, -1, 1], 4, 4000⟩,
    ⟨true, 0, ⟨m86, 0⟩, 136997, [-1, 0, -1, -1], 3, 3606⟩,
    ⟨true, 0, ⟨m87, 0⟩, 201782, [-1, -1, -1, -1], 4, 4000⟩,
    ⟨true, 0, ⟨m88, 0⟩, 214547, [-2, -1, -1, 0], 6, 4243⟩,
    ⟨true, 0, ⟨m79, 0⟩, 139637, [-1, -1, -1, 0], 3, 3606⟩,
    ⟨true, 0, ⟨m89, 0⟩, 209222, [-1, -1, -1, -1], 4, 4000⟩,
    ⟨true, 0, ⟨m90, 0⟩, 201827, [-2, -1, 0, -1], 6, 4243⟩,
    ⟨true, 0, ⟨m91, 0⟩, 147827, [-3, -3, -3, 3], 66, 8000⟩,
    ⟨true, 0, ⟨m92, 0⟩, 148337, [-3, -3, -3, 3], 66, 8000⟩,
    ⟨true, 0, ⟨m93, 0⟩, 143702, [-3, -3, -3, -3], 66, 8000⟩,
    ⟨true, 0, ⟨m94, 0⟩, 132917, [-1, -1, -1, 1], 4, 4000⟩,
    ⟨true, 0, ⟨m95, 0⟩, 136007, [-1, 0, -1, -1], 3, 3606⟩,
    ⟨true, 0, ⟨m28, 0⟩, 136757, [-3, -3, -3, -3], 66, 8000⟩,
    ⟨true, 0, ⟨m96, 0⟩, 153107, [-1, -1, -1, -1], 4, 4000⟩,
    ⟨true, 0, ⟨m97, 0⟩, 149267, [-1, -1, -1, 1], 4, 4000⟩,
    ⟨true, 0, ⟨m76, 0⟩, 151847, [-1, 0, -1, -1], 3, 3606⟩,
    ⟨true, 0, ⟨m77, 0⟩, 144662, [-1, -1, -1, -1], 4, 4000⟩,
    ⟨true, 0, ⟨m32, 0⟩, 147767, [-3, -3, -3, 3], 66, 8000⟩,
    ⟨true, 0, ⟨m98, 0⟩, 144917, [-3, -3, -3, -3], 66, 8000⟩,
    ⟨true, 0, ⟨m99, 0⟩, 153137, [-3, -3, -3, -3], 66, 8000⟩,
    ⟨true, 0, ⟨m100, 0⟩, 136787, [-3, -3, -3, -3], 66, 8000⟩,
    ⟨true, 0, ⟨m101, 0⟩, 148247, [-3, -3, -3, 3], 66, 8000⟩,
    ⟨true, 0, ⟨m56, 0⟩, 151907, [-7, -7, -7, -7], 1058, 16000⟩,
    ⟨true, 0, ⟨m102, 0⟩, 149297, [-7, -7, -7, 7], 1058, 16000⟩,
    ⟨true, 0, ⟨m103, 0⟩, 144977, [-3, -3, -3, -3], 66, 8000⟩,
    ⟨true, 0, ⟨m79, 0⟩, 139637, [-7, -7, -7, 7], 1058, 16000⟩,
    ⟨true, 0, ⟨m104, 0⟩, 156437, [-3, -3, -3, 3], 66, 8000⟩,
    ⟨true, 0, ⟨m105, 0⟩, 155987, [-3, -3, -3, -3], 66, 8000⟩,
    ⟨true, 0, ⟨m48, 0⟩, 143717, [-7, -7, -7, -7], 1058, 16000⟩,
    ⟨true, 0, ⟨m33, 0⟩, 141077, [-7, -7, -7, 7], 1058, 16000⟩,
    ⟨true, 0, ⟨m106, 0⟩, 155957, [-7, -7, -7, 7], 1058, 16000⟩,
    ⟨true, 0, ⟨m106, 0⟩, 155957, [-7, -7, -7, -7], 1058, 16000⟩,
    ⟨true, 0, ⟨m107, 0⟩, 156497, [-15, -15, -15, 15], 16930, 32000⟩,
    ⟨true, 0, ⟨m108, 0⟩, 152417, [-15, -15, -15, -15], 16930, 32000⟩,
    ⟨true, 0, ⟨m109, 0⟩, 156977, [-7, -7, -7, -7], 1058, 16000⟩,
    ⟨true, 0, ⟨m109, 0⟩, 156977, [-7, -7, -7, 7], 1058, 16000⟩,
    ⟨true, 0, ⟨m110, 0⟩, 141137, [-15, -15, -15, 15], 16930, 32000⟩,
    ⟨true, 0, ⟨m107, 0⟩, 156497, [-15, -15, -15, -15], 16930, 32000⟩,
    ⟨true, 0, ⟨m111, 0⟩, 144737, [-15, -15, -15, -15], 16930, 32000⟩,
    ⟨true, 0, ⟨m112, 0⟩, 140657, [-15, -15, -15, 15], 16930, 32000⟩]

theorem form_l2 : formB Zoo.facetGated4d.mult core_l2 = true := by decide +kernel

theorem autos_l2 : autosB (.space 1 1000) 2 3686400 961 prow core_l2 = true := by decide +kernel

theorem closed_l2_0 : closedB (.space 1 1000) 2 16 3686400 961 prow core_l2 ((core_l2.drop 0).take 15) = true := by decide +kernel

theorem closed_l2_1 : closedB (.space 1 1000) 2 16 3686400 961 prow core_l2 ((core_l2.drop 15).take 15) = true := by decide +kernel

theorem closed_l2_2 : closedB (.space 1 1000) 2 16 3686400 961 prow core_l2 ((core_l2.drop 30).take 15) = true := by decide +kernel

theorem closed_l2_3 : closedB (.space 1 1000) 2 16 3686400 961 prow core_l2 ((core_l2.drop 45).take 15) = true := by decide +kernel

theorem closed_l2_4 : closedB (.space 1 1000) 2 16 3686400 961 prow core_l2 ((core_l2.drop 60).take 15) = true := by decide +kernel

theorem closed_l2_5 : closedB (.space 1 1000) 2 16 3686400 961 prow core_l2 ((core_l2.drop 75).take 15) = true := by decide +kernel

theorem closed_l2_6 : closedB (.space 1 1000) 2 16 3686400 961 prow core_l2 ((core_l2.drop 90).take 15) = true := by decide +kernel

theorem closed_l2_7 : closedB (.space 1 1000) 2 16 3686400 961 prow core_l2 (core_l2.drop 105) = true := by decide +kernel

theorem closed_l2 : closedB (.space 1 1000) 2 16 3686400 961 prow core_l2 core_l2 = true :=
  closedB_split 0 15 closed_l2_0 (closedB_split 15 15 closed_l2_1 (closedB_split 30 15 closed_l2_2 (closedB_split 45 15 closed_l2_3 (closedB_split 60 15 closed_l2_4 (closedB_split 75 15 closed_l2_5 (closedB_split 90 15 closed_l2_6 (closed_l2_7)))))))

def pt1_l2 : Pt := ⟨[0, 12, 8], [5, 8, 5, 8], 88 / 255, [1, 1, 0, 0]⟩
def pt2_l2 : Pt := ⟨[1, 0], [10, 7, 10, 7], 167 / 255, [0, 0, 1, 1]⟩

theorem low_l2 : lowB .l2sq Zoo.facetGated4d 0 pt1_l2 pt2_l2 (3686400 / 961) := by decide +kernel

theorem cert_l2 : Cert .l2 Zoo.facetGated4d (1920 / 31) (1920 / 31) :=
  ⟨(.space 1 1000), 2, 16, 3686400, 961, prow, core_l2, 0, pt1_l2, pt2_l2, ⟨by decide, by decide⟩, by decide, rfl, by norm_num [bnd, Metric.sq], div_eq, genus_eq, rows, form_l2, autos_l2,
    closed_l2, by norm_num [Metric.sq, Metric.ratio]; exact low_l2⟩

end Peano.ZooDil.FacetGated4d
