import Verif.Lemmas.DilFast
import Verif.MinCerts.Curves3

set_option autoImplicit false
set_option maxRecDepth 100000
set_option linter.dupNamespace false

/-
Certificates for the dilations of curves with two patterns on the grid 3.  This file is generated.
-/

namespace Peano.BestDil.Tri6L1
open DilCert Zoo

def frow : List (List DilFast.Row) := [
    [⟨nat_lit 0, nat_lit 0, nat_lit 0, nat_lit 0⟩, ⟨nat_lit 0, nat_lit 1, nat_lit 8, nat_lit 0⟩, ⟨nat_lit 1, nat_lit 1, nat_lit 11, nat_lit 0⟩, ⟨nat_lit 1, nat_lit 0, nat_lit 3, nat_lit 0⟩, ⟨nat_lit 2, nat_lit 0, nat_lit 5, nat_lit 0⟩, ⟨nat_lit 2, nat_lit 1, nat_lit 0, nat_lit 0⟩, ⟨nat_lit 2, nat_lit 2, nat_lit 5, nat_lit 0⟩, ⟨nat_lit 1, nat_lit 2, nat_lit 14, nat_lit 0⟩, ⟨nat_lit 0, nat_lit 2, nat_lit 13, nat_lit 0⟩],
    [⟨nat_lit 0, nat_lit 0, nat_lit 15, nat_lit 0⟩, ⟨nat_lit 1, nat_lit 0, nat_lit 12, nat_lit 0⟩, ⟨nat_lit 2, nat_lit 0, nat_lit 15, nat_lit 0⟩, ⟨nat_lit 2, nat_lit 1, nat_lit 2, nat_lit 0⟩, ⟨nat_lit 2, nat_lit 2, nat_lit 10, nat_lit 0⟩, ⟨nat_lit 1, nat_lit 2, nat_lit 9, nat_lit 0⟩, ⟨nat_lit 1, nat_lit 1, nat_lit 1, nat_lit 0⟩, ⟨nat_lit 0, nat_lit 1, nat_lit 2, nat_lit 0⟩, ⟨nat_lit 0, nat_lit 2, nat_lit 10, nat_lit 0⟩]]

theorem div_eq : Best.tri6L1.div = 3 := by decide +kernel

theorem genus_eq : Best.tri6L1.genus = 9 := by decide +kernel

theorem okRows : DilFast.OkRows 3 frow := by decide +kernel

theorem rows : Rows Best.tri6L1 (DilFast.prowOf frow) := by decide +kernel

def tab_l1 : List DilFast.Bin := [
    ⟨nat_lit 16, [⟨nat_lit 0, nat_lit 0, nat_lit 1, nat_lit 0, nat_lit 1⟩, ⟨nat_lit 0, nat_lit 1, nat_lit 4, nat_lit 0, nat_lit 5⟩]⟩,
    ⟨nat_lit 22, [⟨nat_lit 1, nat_lit 0, nat_lit 1, nat_lit 0, nat_lit 2⟩, ⟨nat_lit 0, nat_lit 1, nat_lit 2, nat_lit 0, nat_lit 3⟩]⟩,
    ⟨nat_lit 10, [⟨nat_lit 0, nat_lit 0, nat_lit 1, nat_lit 0, nat_lit 1⟩]⟩,
    ⟨nat_lit 26, [⟨nat_lit 0, nat_lit 1, nat_lit 1, nat_lit 0, nat_lit 2⟩]⟩,
    ⟨nat_lit 19, [⟨nat_lit 0, nat_lit 1, nat_lit 0, nat_lit 0, nat_lit 1⟩]⟩,
    ⟨nat_lit 31, [⟨nat_lit 0, nat_lit 1, nat_lit 0, nat_lit 1, nat_lit 2⟩, ⟨nat_lit 1, nat_lit 0, nat_lit 0, nat_lit 2, nat_lit 3⟩, ⟨nat_lit 0, nat_lit 5, nat_lit 0, nat_lit 14, nat_lit 45⟩]⟩,
    ⟨nat_lit 15, [⟨nat_lit 0, nat_lit 1, nat_lit 0, nat_lit 0, nat_lit 1⟩]⟩,
    ⟨nat_lit 5, [⟨nat_lit 0, nat_lit 1, nat_lit 1, nat_lit 0, nat_lit 2⟩, ⟨nat_lit 0, nat_lit 2, nat_lit 0, nat_lit 2, nat_lit 4⟩, ⟨nat_lit 0, nat_lit 2, nat_lit 0, nat_lit 0, nat_lit 2⟩, ⟨nat_lit 0, nat_lit 1, nat_lit 0, nat_lit 0, nat_lit 1⟩, ⟨nat_lit 0, nat_lit 3, nat_lit 2, nat_lit 0, nat_lit 5⟩]⟩,
    ⟨nat_lit 9, [⟨nat_lit 0, nat_lit 0, nat_lit 0, nat_lit 1, nat_lit 1⟩]⟩,
    ⟨nat_lit 3, [⟨nat_lit 0, nat_lit 0, nat_lit 0, nat_lit 2, nat_lit 2⟩]⟩,
    ⟨nat_lit 21, [⟨nat_lit 0, nat_lit 1, nat_lit 0, nat_lit 2, nat_lit 3⟩, ⟨nat_lit 0, nat_lit 1, nat_lit 0, nat_lit 0, nat_lit 1⟩, ⟨nat_lit 0, nat_lit 3, nat_lit 2, nat_lit 0, nat_lit 5⟩]⟩,
    ⟨nat_lit 28, [⟨nat_lit 0, nat_lit 1, nat_lit 1, nat_lit 0, nat_lit 2⟩, ⟨nat_lit 0, nat_lit 5, nat_lit 0, nat_lit 2, nat_lit 9⟩]⟩,
    ⟨nat_lit 12, [⟨nat_lit 0, nat_lit 2, nat_lit 1, nat_lit 0, nat_lit 3⟩, ⟨nat_lit 0, nat_lit 1, nat_lit 1, nat_lit 0, nat_lit 2⟩, ⟨nat_lit 0, nat_lit 5, nat_lit 0, nat_lit 2, nat_lit 9⟩, ⟨nat_lit 0, nat_lit 3, nat_lit 1, nat_lit 0, nat_lit 4⟩]⟩,
    ⟨nat_lit 25, [⟨nat_lit 0, nat_lit 1, nat_lit 0, nat_lit 1, nat_lit 2⟩, ⟨nat_lit 0, nat_lit 2, nat_lit 0, nat_lit 3, nat_lit 5⟩, ⟨nat_lit 0, nat_lit 1, nat_lit 0, nat_lit 3, nat_lit 4⟩, ⟨nat_lit 0, nat_lit 0, nat_lit 0, nat_lit 2, nat_lit 2⟩]⟩,
    ⟨nat_lit 0, [⟨nat_lit 0, nat_lit 1, nat_lit 2, nat_lit 0, nat_lit 3⟩]⟩]

theorem form_l1 : formB Best.tri6L1.mult (DilFast.coreOf tab_l1) = true := by decide +kernel

theorem autos_l1 : DilFast.autosF .l1 49 5 tab_l1 frow = true := by decide +kernel

theorem closed_l1 : DilFast.closedF .l1 3 9 49 5 frow tab_l1 tab_l1 = true := by decide +kernel

def pt1_l1 : Pt := ⟨[3, 6], [4, 2], 19 / 40, [0, 1]⟩
def pt2_l1 : Pt := ⟨[4, 2], [4, 2], 19 / 40, [1, 0]⟩
theorem low_l1 : lowB .l1 Best.tri6L1 0 pt1_l1 pt2_l1 (49 / 5) := by decide +kernel

theorem cert_l1 : Cert .l1 Best.tri6L1 (49 / 5) (49 / 5) :=
  DilFast.cert (p := 0) (.inr (.inl rfl)) (vn := 49) (vd := 5) (by decide) rfl (by norm_num [bnd, Metric.sq]) div_eq genus_eq okRows rows form_l1 autos_l1 closed_l1
    (by norm_num [Metric.sq, Metric.ratio]; exact low_l1)

end Peano.BestDil.Tri6L1

namespace Peano.BestDil.Tri6L2
open DilCert Zoo

def frow : List (List DilFast.Row) := [
    [⟨nat_lit 0, nat_lit 0, nat_lit 11, nat_lit 0⟩, ⟨nat_lit 1, nat_lit 0, nat_lit 8, nat_lit 0⟩, ⟨nat_lit 2, nat_lit 0, nat_lit 5, nat_lit 0⟩, ⟨nat_lit 2, nat_lit 1, nat_lit 0, nat_lit 0⟩, ⟨nat_lit 2, nat_lit 2, nat_lit 0, nat_lit 0⟩, ⟨nat_lit 1, nat_lit 2, nat_lit 3, nat_lit 0⟩, ⟨nat_lit 1, nat_lit 1, nat_lit 13, nat_lit 0⟩, ⟨nat_lit 0, nat_lit 1, nat_lit 14, nat_lit 0⟩, ⟨nat_lit 0, nat_lit 2, nat_lit 0, nat_lit 0⟩],
    [⟨nat_lit 0, nat_lit 0, nat_lit 12, nat_lit 0⟩, ⟨nat_lit 0, nat_lit 1, nat_lit 2, nat_lit 0⟩, ⟨nat_lit 1, nat_lit 1, nat_lit 1, nat_lit 0⟩, ⟨nat_lit 1, nat_lit 0, nat_lit 15, nat_lit 0⟩, ⟨nat_lit 2, nat_lit 0, nat_lit 12, nat_lit 0⟩, ⟨nat_lit 2, nat_lit 1, nat_lit 2, nat_lit 0⟩, ⟨nat_lit 2, nat_lit 2, nat_lit 9, nat_lit 0⟩, ⟨nat_lit 1, nat_lit 2, nat_lit 9, nat_lit 0⟩, ⟨nat_lit 0, nat_lit 2, nat_lit 9, nat_lit 0⟩]]

theorem div_eq : Best.tri6L2.div = 3 := by decide +kernel

theorem genus_eq : Best.tri6L2.genus = 9 := by decide +kernel

theorem okRows : DilFast.OkRows 3 frow := by decide +kernel

theorem rows : Rows Best.tri6L2 (DilFast.prowOf frow) := by decide +kernel

def tab_l2 : List DilFast.Bin := [
    ⟨nat_lit 9, [⟨nat_lit 0, nat_lit 0, nat_lit 0, nat_lit 1, nat_lit 1⟩]⟩,
    ⟨nat_lit 31, [⟨nat_lit 0, nat_lit 0, nat_lit 0, nat_lit 2, nat_lit 2⟩, ⟨nat_lit 0, nat_lit 0, nat_lit 0, nat_lit 1, nat_lit 1⟩, ⟨nat_lit 0, nat_lit 2, nat_lit 0, nat_lit 4, nat_lit 6⟩]⟩,
    ⟨nat_lit 25, [⟨nat_lit 1, nat_lit 0, nat_lit 0, nat_lit 2, nat_lit 3⟩, ⟨nat_lit 1, nat_lit 0, nat_lit 0, nat_lit 1, nat_lit 2⟩]⟩,
    ⟨nat_lit 22, [⟨nat_lit 0, nat_lit 0, nat_lit 1, nat_lit 0, nat_lit 1⟩]⟩,
    ⟨nat_lit 16, [⟨nat_lit 1, nat_lit 0, nat_lit 1, nat_lit 0, nat_lit 2⟩]⟩,
    ⟨nat_lit 15, [⟨nat_lit 0, nat_lit 1, nat_lit 0, nat_lit 2, nat_lit 3⟩, ⟨nat_lit 0, nat_lit 2, nat_lit 0, nat_lit 1, nat_lit 3⟩, ⟨nat_lit 0, nat_lit 1, nat_lit 0, nat_lit 1, nat_lit 2⟩]⟩,
    ⟨nat_lit 0, [⟨nat_lit 0, nat_lit 0, nat_lit 1, nat_lit 0, nat_lit 1⟩]⟩,
    ⟨nat_lit 6, [⟨nat_lit 0, nat_lit 1, nat_lit 1, nat_lit 0, nat_lit 2⟩, ⟨nat_lit 0, nat_lit 1, nat_lit 0, nat_lit 0, nat_lit 1⟩]⟩,
    ⟨nat_lit 26, [⟨nat_lit 0, nat_lit 1, nat_lit 0, nat_lit 1, nat_lit 2⟩, ⟨nat_lit 0, nat_lit 1, nat_lit 0, nat_lit 0, nat_lit 1⟩]⟩,
    ⟨nat_lit 28, [⟨nat_lit 0, nat_lit 2, nat_lit 0, nat_lit 1, nat_lit 3⟩, ⟨nat_lit 0, nat_lit 1, nat_lit 0, nat_lit 0, nat_lit 1⟩, ⟨nat_lit 0, nat_lit 4, nat_lit 0, nat_lit 2, nat_lit 6⟩]⟩,
    ⟨nat_lit 21, [⟨nat_lit 0, nat_lit 1, nat_lit 0, nat_lit 1, nat_lit 2⟩]⟩,
    ⟨nat_lit 3, [⟨nat_lit 0, nat_lit 0, nat_lit 0, nat_lit 1, nat_lit 1⟩]⟩,
    ⟨nat_lit 12, [⟨nat_lit 0, nat_lit 1, nat_lit 0, nat_lit 1, nat_lit 2⟩]⟩,
    ⟨nat_lit 10, [⟨nat_lit 1, nat_lit 0, nat_lit 1, nat_lit 0, nat_lit 2⟩, ⟨nat_lit 0, nat_lit 2, nat_lit 1, nat_lit 0, nat_lit 3⟩, ⟨nat_lit 0, nat_lit 1, nat_lit 1, nat_lit 0, nat_lit 2⟩]⟩,
    ⟨nat_lit 19, [⟨nat_lit 0, nat_lit 1, nat_lit 0, nat_lit 1, nat_lit 2⟩]⟩]

theorem form_l2 : formB Best.tri6L2.mult (DilFast.coreOf tab_l2) = true := by decide +kernel

theorem autos_l2 : DilFast.autosF .plane 17 3 tab_l2 frow = true := by decide +kernel

theorem closed_l2 : DilFast.closedF .plane 3 9 17 3 frow tab_l2 tab_l2 = true := by decide +kernel

def pt1_l2 : Pt := ⟨[3, 7], [4], 1 / 2, [0, 0]⟩
def pt2_l2 : Pt := ⟨[4, 4], [4], 1 / 2, [1, 1]⟩
theorem low_l2 : lowB .l2sq Best.tri6L2 0 pt1_l2 pt2_l2 (289 / 9) := by decide +kernel

theorem cert_l2 : Cert .l2 Best.tri6L2 (17 / 3) (17 / 3) :=
  DilFast.cert (p := 0) (.inr (.inr rfl)) (vn := 17) (vd := 3) (by decide) rfl (by norm_num [bnd, Metric.sq]) div_eq genus_eq okRows rows form_l2 autos_l2 closed_l2
    (by norm_num [Metric.sq, Metric.ratio]; exact low_l2)

end Peano.BestDil.Tri6L2

namespace Peano.BestDil.Tri6Linf
open DilCert Zoo

def frow : List (List DilFast.Row) := [
    [⟨nat_lit 0, nat_lit 0, nat_lit 0, nat_lit 0⟩, ⟨nat_lit 0, nat_lit 1, nat_lit 8, nat_lit 0⟩, ⟨nat_lit 1, nat_lit 1, nat_lit 11, nat_lit 0⟩, ⟨nat_lit 1, nat_lit 0, nat_lit 3, nat_lit 0⟩, ⟨nat_lit 2, nat_lit 0, nat_lit 0, nat_lit 0⟩, ⟨nat_lit 2, nat_lit 1, nat_lit 5, nat_lit 0⟩, ⟨nat_lit 2, nat_lit 2, nat_lit 5, nat_lit 0⟩, ⟨nat_lit 1, nat_lit 2, nat_lit 14, nat_lit 0⟩, ⟨nat_lit 0, nat_lit 2, nat_lit 13, nat_lit 0⟩],
    [⟨nat_lit 0, nat_lit 0, nat_lit 12, nat_lit 0⟩, ⟨nat_lit 1, nat_lit 0, nat_lit 12, nat_lit 0⟩, ⟨nat_lit 2, nat_lit 0, nat_lit 15, nat_lit 0⟩, ⟨nat_lit 2, nat_lit 1, nat_lit 7, nat_lit 0⟩, ⟨nat_lit 2, nat_lit 2, nat_lit 10, nat_lit 0⟩, ⟨nat_lit 1, nat_lit 2, nat_lit 9, nat_lit 0⟩, ⟨nat_lit 1, nat_lit 1, nat_lit 1, nat_lit 0⟩, ⟨nat_lit 0, nat_lit 1, nat_lit 2, nat_lit 0⟩, ⟨nat_lit 0, nat_lit 2, nat_lit 10, nat_lit 0⟩]]

theorem div_eq : Best.tri6Linf.div = 3 := by decide +kernel

theorem genus_eq : Best.tri6Linf.genus = 9 := by decide +kernel

theorem okRows : DilFast.OkRows 3 frow := by decide +kernel

theorem rows : Rows Best.tri6Linf (DilFast.prowOf frow) := by decide +kernel

def tab_linf : List DilFast.Bin := [
    ⟨nat_lit 16, [⟨nat_lit 0, nat_lit 0, nat_lit 1, nat_lit 0, nat_lit 1⟩]⟩,
    ⟨nat_lit 10, [⟨nat_lit 0, nat_lit 0, nat_lit 1, nat_lit 0, nat_lit 1⟩, ⟨nat_lit 0, nat_lit 0, nat_lit 2, nat_lit 0, nat_lit 2⟩]⟩,
    ⟨nat_lit 19, [⟨nat_lit 0, nat_lit 1, nat_lit 0, nat_lit 0, nat_lit 1⟩, ⟨nat_lit 0, nat_lit 2, nat_lit 0, nat_lit 0, nat_lit 2⟩]⟩,
    ⟨nat_lit 5, [⟨nat_lit 0, nat_lit 1, nat_lit 0, nat_lit 0, nat_lit 1⟩, ⟨nat_lit 0, nat_lit 2, nat_lit 0, nat_lit 0, nat_lit 2⟩]⟩,
    ⟨nat_lit 3, [⟨nat_lit 0, nat_lit 0, nat_lit 0, nat_lit 1, nat_lit 1⟩]⟩,
    ⟨nat_lit 21, [⟨nat_lit 0, nat_lit 1, nat_lit 0, nat_lit 0, nat_lit 1⟩]⟩,
    ⟨nat_lit 0, [⟨nat_lit 0, nat_lit 0, nat_lit 1, nat_lit 0, nat_lit 1⟩]⟩,
    ⟨nat_lit 25, [⟨nat_lit 0, nat_lit 0, nat_lit 0, nat_lit 1, nat_lit 1⟩]⟩]

theorem form_linf : formB Best.tri6Linf.mult (DilFast.coreOf tab_linf) = true := by decide +kernel

theorem autos_linf : DilFast.autosF .linf 9 2 tab_linf frow = true := by decide +kernel

theorem closed_linf : DilFast.closedF .linf 3 9 9 2 frow tab_linf tab_linf = true := by decide +kernel

def pt1_linf : Pt := ⟨[4], [4], 1 / 2, [1, 0]⟩
def pt2_linf : Pt := ⟨[6], [4], 1 / 2, [1, 1]⟩
theorem low_linf : lowB .linf Best.tri6Linf 0 pt1_linf pt2_linf (9 / 2) := by decide +kernel

theorem cert_linf : Cert .linf Best.tri6Linf (9 / 2) (9 / 2) :=
  DilFast.cert (p := 0) (.inl rfl) (vn := 9) (vd := 2) (by decide) rfl (by norm_num [bnd, Metric.sq]) div_eq genus_eq okRows rows form_linf autos_linf closed_linf
    (by norm_num [Metric.sq, Metric.ratio]; exact low_linf)

end Peano.BestDil.Tri6Linf

namespace Peano.BestDil.Tri7L1
open DilCert Zoo

def frow : List (List DilFast.Row) := [
    [⟨nat_lit 0, nat_lit 0, nat_lit 0, nat_lit 0⟩, ⟨nat_lit 0, nat_lit 1, nat_lit 8, nat_lit 0⟩, ⟨nat_lit 1, nat_lit 1, nat_lit 11, nat_lit 0⟩, ⟨nat_lit 1, nat_lit 0, nat_lit 3, nat_lit 0⟩, ⟨nat_lit 2, nat_lit 0, nat_lit 5, nat_lit 0⟩, ⟨nat_lit 2, nat_lit 1, nat_lit 0, nat_lit 0⟩, ⟨nat_lit 2, nat_lit 2, nat_lit 5, nat_lit 0⟩, ⟨nat_lit 1, nat_lit 2, nat_lit 14, nat_lit 0⟩, ⟨nat_lit 0, nat_lit 2, nat_lit 13, nat_lit 0⟩],
    [⟨nat_lit 0, nat_lit 0, nat_lit 15, nat_lit 0⟩, ⟨nat_lit 0, nat_lit 1, nat_lit 7, nat_lit 0⟩, ⟨nat_lit 1, nat_lit 1, nat_lit 4, nat_lit 0⟩, ⟨nat_lit 1, nat_lit 0, nat_lit 12, nat_lit 0⟩, ⟨nat_lit 2, nat_lit 0, nat_lit 15, nat_lit 0⟩, ⟨nat_lit 2, nat_lit 1, nat_lit 2, nat_lit 0⟩, ⟨nat_lit 2, nat_lit 2, nat_lit 10, nat_lit 0⟩, ⟨nat_lit 1, nat_lit 2, nat_lit 9, nat_lit 0⟩, ⟨nat_lit 0, nat_lit 2, nat_lit 2, nat_lit 0⟩]]

theorem div_eq : Best.tri7L1.div = 3 := by decide +kernel

theorem genus_eq : Best.tri7L1.genus = 9 := by decide +kernel

theorem okRows : DilFast.OkRows 3 frow := by decide +kernel

theorem rows : Rows Best.tri7L1 (DilFast.prowOf frow) := by decide +kernel

def tab_l1 : List DilFast.Bin := [
    ⟨nat_lit 16, [⟨nat_lit 0, nat_lit 0, nat_lit 1, nat_lit 0, nat_lit 1⟩, ⟨nat_lit 0, nat_lit 1, nat_lit 4, nat_lit 0, nat_lit 5⟩]⟩,
    ⟨nat_lit 22, [⟨nat_lit 1, nat_lit 0, nat_lit 1, nat_lit 0, nat_lit 2⟩, ⟨nat_lit 0, nat_lit 1, nat_lit 2, nat_lit 0, nat_lit 3⟩]⟩,
    ⟨nat_lit 10, [⟨nat_lit 0, nat_lit 0, nat_lit 1, nat_lit 0, nat_lit 1⟩]⟩,
    ⟨nat_lit 26, [⟨nat_lit 0, nat_lit 1, nat_lit 1, nat_lit 0, nat_lit 2⟩]⟩,
    ⟨nat_lit 19, [⟨nat_lit 0, nat_lit 1, nat_lit 0, nat_lit 0, nat_lit 1⟩]⟩,
    ⟨nat_lit 31, [⟨nat_lit 0, nat_lit 1, nat_lit 0, nat_lit 1, nat_lit 2⟩, ⟨nat_lit 1, nat_lit 0, nat_lit 0, nat_lit 2, nat_lit 3⟩, ⟨nat_lit 0, nat_lit 5, nat_lit 0, nat_lit 14, nat_lit 45⟩]⟩,
    ⟨nat_lit 15, [⟨nat_lit 0, nat_lit 1, nat_lit 0, nat_lit 0, nat_lit 1⟩]⟩,
    ⟨nat_lit 5, [⟨nat_lit 0, nat_lit 1, nat_lit 1, nat_lit 0, nat_lit 2⟩, ⟨nat_lit 0, nat_lit 1, nat_lit 0, nat_lit 0, nat_lit 1⟩, ⟨nat_lit 0, nat_lit 3, nat_lit 2, nat_lit 0, nat_lit 5⟩]⟩,
    ⟨nat_lit 9, [⟨nat_lit 0, nat_lit 0, nat_lit 0, nat_lit 1, nat_lit 1⟩]⟩,
    ⟨nat_lit 3, [⟨nat_lit 0, nat_lit 0, nat_lit 0, nat_lit 2, nat_lit 2⟩]⟩,
    ⟨nat_lit 21, [⟨nat_lit 0, nat_lit 1, nat_lit 0, nat_lit 2, nat_lit 3⟩, ⟨nat_lit 0, nat_lit 1, nat_lit 0, nat_lit 0, nat_lit 1⟩, ⟨nat_lit 0, nat_lit 3, nat_lit 2, nat_lit 0, nat_lit 5⟩]⟩,
    ⟨nat_lit 28, [⟨nat_lit 0, nat_lit 1, nat_lit 1, nat_lit 0, nat_lit 2⟩, ⟨nat_lit 0, nat_lit 5, nat_lit 0, nat_lit 2, nat_lit 9⟩]⟩,
    ⟨nat_lit 25, [⟨nat_lit 0, nat_lit 1, nat_lit 0, nat_lit 1, nat_lit 2⟩, ⟨nat_lit 0, nat_lit 0, nat_lit 0, nat_lit 1, nat_lit 1⟩, ⟨nat_lit 0, nat_lit 2, nat_lit 0, nat_lit 3, nat_lit 5⟩]⟩,
    ⟨nat_lit 12, [⟨nat_lit 0, nat_lit 2, nat_lit 1, nat_lit 0, nat_lit 3⟩, ⟨nat_lit 0, nat_lit 1, nat_lit 1, nat_lit 0, nat_lit 2⟩, ⟨nat_lit 0, nat_lit 5, nat_lit 0, nat_lit 2, nat_lit 9⟩, ⟨nat_lit 0, nat_lit 3, nat_lit 1, nat_lit 0, nat_lit 4⟩]⟩,
    ⟨nat_lit 0, [⟨nat_lit 2, nat_lit 0, nat_lit 1, nat_lit 0, nat_lit 3⟩, ⟨nat_lit 0, nat_lit 1, nat_lit 2, nat_lit 0, nat_lit 3⟩]⟩]

theorem form_l1 : formB Best.tri7L1.mult (DilFast.coreOf tab_l1) = true := by decide +kernel

theorem autos_l1 : DilFast.autosF .l1 49 5 tab_l1 frow = true := by decide +kernel

theorem closed_l1 : DilFast.closedF .l1 3 9 49 5 frow tab_l1 tab_l1 = true := by decide +kernel

def pt1_l1 : Pt := ⟨[3, 6], [4, 2], 19 / 40, [0, 1]⟩
def pt2_l1 : Pt := ⟨[4, 2], [4, 2], 19 / 40, [1, 0]⟩
theorem low_l1 : lowB .l1 Best.tri7L1 0 pt1_l1 pt2_l1 (49 / 5) := by decide +kernel

theorem cert_l1 : Cert .l1 Best.tri7L1 (49 / 5) (49 / 5) :=
  DilFast.cert (p := 0) (.inr (.inl rfl)) (vn := 49) (vd := 5) (by decide) rfl (by norm_num [bnd, Metric.sq]) div_eq genus_eq okRows rows form_l1 autos_l1 closed_l1
    (by norm_num [Metric.sq, Metric.ratio]; exact low_l1)

end Peano.BestDil.Tri7L1

namespace Peano.BestDil.Tri7L2
open DilCert Zoo

def frow : List (List DilFast.Row) := [
    [⟨nat_lit 0, nat_lit 0, nat_lit 0, nat_lit 0⟩, ⟨nat_lit 0, nat_lit 1, nat_lit 8, nat_lit 0⟩, ⟨nat_lit 1, nat_lit 1, nat_lit 11, nat_lit 0⟩, ⟨nat_lit 1, nat_lit 0, nat_lit 3, nat_lit 0⟩, ⟨nat_lit 2, nat_lit 0, nat_lit 0, nat_lit 0⟩, ⟨nat_lit 2, nat_lit 1, nat_lit 5, nat_lit 0⟩, ⟨nat_lit 2, nat_lit 2, nat_lit 5, nat_lit 0⟩, ⟨nat_lit 1, nat_lit 2, nat_lit 14, nat_lit 0⟩, ⟨nat_lit 0, nat_lit 2, nat_lit 13, nat_lit 0⟩],
    [⟨nat_lit 0, nat_lit 0, nat_lit 12, nat_lit 0⟩, ⟨nat_lit 1, nat_lit 0, nat_lit 12, nat_lit 0⟩, ⟨nat_lit 2, nat_lit 0, nat_lit 15, nat_lit 0⟩, ⟨nat_lit 2, nat_lit 1, nat_lit 7, nat_lit 0⟩, ⟨nat_lit 2, nat_lit 2, nat_lit 10, nat_lit 0⟩, ⟨nat_lit 1, nat_lit 2, nat_lit 9, nat_lit 0⟩, ⟨nat_lit 1, nat_lit 1, nat_lit 1, nat_lit 0⟩, ⟨nat_lit 0, nat_lit 1, nat_lit 2, nat_lit 0⟩, ⟨nat_lit 0, nat_lit 2, nat_lit 2, nat_lit 0⟩]]

theorem div_eq : Best.tri7L2.div = 3 := by decide +kernel

theorem genus_eq : Best.tri7L2.genus = 9 := by decide +kernel

theorem okRows : DilFast.OkRows 3 frow := by decide +kernel

theorem rows : Rows Best.tri7L2 (DilFast.prowOf frow) := by decide +kernel

def tab_l2 : List DilFast.Bin := [
    ⟨nat_lit 16, [⟨nat_lit 0, nat_lit 0, nat_lit 1, nat_lit 0, nat_lit 1⟩, ⟨nat_lit 0, nat_lit 2, nat_lit 4, nat_lit 0, nat_lit 6⟩]⟩,
    ⟨nat_lit 22, [⟨nat_lit 1, nat_lit 0, nat_lit 1, nat_lit 0, nat_lit 2⟩]⟩,
    ⟨nat_lit 10, [⟨nat_lit 0, nat_lit 0, nat_lit 1, nat_lit 0, nat_lit 1⟩]⟩,
    ⟨nat_lit 26, [⟨nat_lit 0, nat_lit 1, nat_lit 1, nat_lit 0, nat_lit 2⟩]⟩,
    ⟨nat_lit 19, [⟨nat_lit 0, nat_lit 1, nat_lit 0, nat_lit 0, nat_lit 1⟩, ⟨nat_lit 0, nat_lit 4, nat_lit 2, nat_lit 0, nat_lit 6⟩]⟩,
    ⟨nat_lit 25, [⟨nat_lit 0, nat_lit 1, nat_lit 0, nat_lit 1, nat_lit 2⟩, ⟨nat_lit 0, nat_lit 0, nat_lit 0, nat_lit 1, nat_lit 1⟩]⟩,
    ⟨nat_lit 5, [⟨nat_lit 0, nat_lit 1, nat_lit 0, nat_lit 0, nat_lit 1⟩]⟩,
    ⟨nat_lit 15, [⟨nat_lit 0, nat_lit 1, nat_lit 1, nat_lit 0, nat_lit 2⟩]⟩,
    ⟨nat_lit 28, [⟨nat_lit 0, nat_lit 1, nat_lit 2, nat_lit 0, nat_lit 3⟩, ⟨nat_lit 0, nat_lit 1, nat_lit 1, nat_lit 0, nat_lit 2⟩]⟩,
    ⟨nat_lit 3, [⟨nat_lit 0, nat_lit 0, nat_lit 0, nat_lit 1, nat_lit 1⟩]⟩,
    ⟨nat_lit 21, [⟨nat_lit 0, nat_lit 1, nat_lit 0, nat_lit 1, nat_lit 2⟩, ⟨nat_lit 0, nat_lit 1, nat_lit 0, nat_lit 0, nat_lit 1⟩]⟩,
    ⟨nat_lit 0, [⟨nat_lit 0, nat_lit 0, nat_lit 1, nat_lit 0, nat_lit 1⟩]⟩,
    ⟨nat_lit 12, [⟨nat_lit 0, nat_lit 2, nat_lit 2, nat_lit 0, nat_lit 4⟩, ⟨nat_lit 0, nat_lit 2, nat_lit 1, nat_lit 0, nat_lit 3⟩, ⟨nat_lit 0, nat_lit 1, nat_lit 1, nat_lit 0, nat_lit 2⟩]⟩,
    ⟨nat_lit 31, [⟨nat_lit 1, nat_lit 0, nat_lit 0, nat_lit 1, nat_lit 2⟩]⟩,
    ⟨nat_lit 9, [⟨nat_lit 2, nat_lit 0, nat_lit 0, nat_lit 1, nat_lit 3⟩, ⟨nat_lit 0, nat_lit 1, nat_lit 0, nat_lit 1, nat_lit 2⟩, ⟨nat_lit 1, nat_lit 0, nat_lit 0, nat_lit 1, nat_lit 2⟩]⟩]

theorem form_l2 : formB Best.tri7L2.mult (DilFast.coreOf tab_l2) = true := by decide +kernel

theorem autos_l2 : DilFast.autosF .plane 17 3 tab_l2 frow = true := by decide +kernel

theorem closed_l2 : DilFast.closedF .plane 3 9 17 3 frow tab_l2 tab_l2 = true := by decide +kernel

def pt1_l2 : Pt := ⟨[5, 7], [4], 1 / 2, [0, 0]⟩
def pt2_l2 : Pt := ⟨[6, 4], [4], 1 / 2, [1, 1]⟩
theorem low_l2 : lowB .l2sq Best.tri7L2 0 pt1_l2 pt2_l2 (289 / 9) := by decide +kernel

theorem cert_l2 : Cert .l2 Best.tri7L2 (17 / 3) (17 / 3) :=
  DilFast.cert (p := 0) (.inr (.inr rfl)) (vn := 17) (vd := 3) (by decide) rfl (by norm_num [bnd, Metric.sq]) div_eq genus_eq okRows rows form_l2 autos_l2 closed_l2
    (by norm_num [Metric.sq, Metric.ratio]; exact low_l2)

end Peano.BestDil.Tri7L2

namespace Peano.BestDil.Tri7Linf
open DilCert Zoo

def frow : List (List DilFast.Row) := [
    [⟨nat_lit 0, nat_lit 0, nat_lit 0, nat_lit 0⟩, ⟨nat_lit 0, nat_lit 1, nat_lit 8, nat_lit 0⟩, ⟨nat_lit 1, nat_lit 1, nat_lit 11, nat_lit 0⟩, ⟨nat_lit 1, nat_lit 0, nat_lit 3, nat_lit 0⟩, ⟨nat_lit 2, nat_lit 0, nat_lit 0, nat_lit 0⟩, ⟨nat_lit 2, nat_lit 1, nat_lit 5, nat_lit 0⟩, ⟨nat_lit 2, nat_lit 2, nat_lit 5, nat_lit 0⟩, ⟨nat_lit 1, nat_lit 2, nat_lit 14, nat_lit 0⟩, ⟨nat_lit 0, nat_lit 2, nat_lit 13, nat_lit 0⟩],
    [⟨nat_lit 0, nat_lit 0, nat_lit 12, nat_lit 0⟩, ⟨nat_lit 1, nat_lit 0, nat_lit 15, nat_lit 0⟩, ⟨nat_lit 2, nat_lit 0, nat_lit 15, nat_lit 0⟩, ⟨nat_lit 2, nat_lit 1, nat_lit 7, nat_lit 0⟩, ⟨nat_lit 2, nat_lit 2, nat_lit 10, nat_lit 0⟩, ⟨nat_lit 1, nat_lit 2, nat_lit 9, nat_lit 0⟩, ⟨nat_lit 1, nat_lit 1, nat_lit 1, nat_lit 0⟩, ⟨nat_lit 0, nat_lit 1, nat_lit 2, nat_lit 0⟩, ⟨nat_lit 0, nat_lit 2, nat_lit 2, nat_lit 0⟩]]

theorem div_eq : Best.tri7Linf.div = 3 := by decide +kernel

theorem genus_eq : Best.tri7Linf.genus = 9 := by decide +kernel

theorem okRows : DilFast.OkRows 3 frow := by decide +kernel

theorem rows : Rows Best.tri7Linf (DilFast.prowOf frow) := by decide +kernel

def tab_linf : List DilFast.Bin := [
    ⟨nat_lit 16, [⟨nat_lit 0, nat_lit 0, nat_lit 1, nat_lit 0, nat_lit 1⟩]⟩,
    ⟨nat_lit 10, [⟨nat_lit 0, nat_lit 0, nat_lit 1, nat_lit 0, nat_lit 1⟩, ⟨nat_lit 0, nat_lit 0, nat_lit 2, nat_lit 0, nat_lit 2⟩]⟩,
    ⟨nat_lit 19, [⟨nat_lit 0, nat_lit 1, nat_lit 0, nat_lit 0, nat_lit 1⟩, ⟨nat_lit 0, nat_lit 2, nat_lit 0, nat_lit 0, nat_lit 2⟩]⟩,
    ⟨nat_lit 5, [⟨nat_lit 0, nat_lit 1, nat_lit 0, nat_lit 0, nat_lit 1⟩, ⟨nat_lit 0, nat_lit 2, nat_lit 0, nat_lit 0, nat_lit 2⟩]⟩,
    ⟨nat_lit 3, [⟨nat_lit 0, nat_lit 0, nat_lit 0, nat_lit 1, nat_lit 1⟩]⟩,
    ⟨nat_lit 21, [⟨nat_lit 0, nat_lit 1, nat_lit 0, nat_lit 0, nat_lit 1⟩]⟩,
    ⟨nat_lit 25, [⟨nat_lit 0, nat_lit 0, nat_lit 0, nat_lit 1, nat_lit 1⟩]⟩,
    ⟨nat_lit 0, [⟨nat_lit 0, nat_lit 0, nat_lit 1, nat_lit 0, nat_lit 1⟩]⟩]

theorem form_linf : formB Best.tri7Linf.mult (DilFast.coreOf tab_linf) = true := by decide +kernel

theorem autos_linf : DilFast.autosF .linf 9 2 tab_linf frow = true := by decide +kernel

theorem closed_linf : DilFast.closedF .linf 3 9 9 2 frow tab_linf tab_linf = true := by decide +kernel

def pt1_linf : Pt := ⟨[4], [4], 1 / 2, [1, 0]⟩
def pt2_linf : Pt := ⟨[6], [4], 1 / 2, [1, 1]⟩
theorem low_linf : lowB .linf Best.tri7Linf 0 pt1_linf pt2_linf (9 / 2) := by decide +kernel

theorem cert_linf : Cert .linf Best.tri7Linf (9 / 2) (9 / 2) :=
  DilFast.cert (p := 0) (.inl rfl) (vn := 9) (vd := 2) (by decide) rfl (by norm_num [bnd, Metric.sq]) div_eq genus_eq okRows rows form_linf autos_linf closed_linf
    (by norm_num [Metric.sq, Metric.ratio]; exact low_linf)

end Peano.BestDil.Tri7Linf

namespace Peano.BestDil.Tri8L1
open DilCert Zoo

def frow : List (List DilFast.Row) := [
    [⟨nat_lit 0, nat_lit 0, nat_lit 11, nat_lit 0⟩, ⟨nat_lit 1, nat_lit 0, nat_lit 8, nat_lit 0⟩, ⟨nat_lit 2, nat_lit 0, nat_lit 5, nat_lit 0⟩, ⟨nat_lit 2, nat_lit 1, nat_lit 0, nat_lit 0⟩, ⟨nat_lit 2, nat_lit 2, nat_lit 5, nat_lit 0⟩, ⟨nat_lit 1, nat_lit 2, nat_lit 3, nat_lit 0⟩, ⟨nat_lit 1, nat_lit 1, nat_lit 13, nat_lit 0⟩, ⟨nat_lit 0, nat_lit 1, nat_lit 14, nat_lit 0⟩, ⟨nat_lit 0, nat_lit 2, nat_lit 0, nat_lit 0⟩],
    [⟨nat_lit 0, nat_lit 0, nat_lit 12, nat_lit 0⟩, ⟨nat_lit 0, nat_lit 1, nat_lit 7, nat_lit 0⟩, ⟨nat_lit 0, nat_lit 2, nat_lit 2, nat_lit 0⟩, ⟨nat_lit 1, nat_lit 2, nat_lit 12, nat_lit 0⟩, ⟨nat_lit 2, nat_lit 2, nat_lit 1, nat_lit 0⟩, ⟨nat_lit 2, nat_lit 1, nat_lit 4, nat_lit 0⟩, ⟨nat_lit 1, nat_lit 1, nat_lit 9, nat_lit 0⟩, ⟨nat_lit 1, nat_lit 0, nat_lit 15, nat_lit 0⟩, ⟨nat_lit 2, nat_lit 0, nat_lit 12, nat_lit 0⟩]]

theorem div_eq : Best.tri8L1.div = 3 := by decide +kernel

theorem genus_eq : Best.tri8L1.genus = 9 := by decide +kernel

theorem okRows : DilFast.OkRows 3 frow := by decide +kernel

theorem rows : Rows Best.tri8L1 (DilFast.prowOf frow) := by decide +kernel

def tab_l1 : List DilFast.Bin := [
    ⟨nat_lit 9, [⟨nat_lit 0, nat_lit 0, nat_lit 0, nat_lit 1, nat_lit 1⟩]⟩,
    ⟨nat_lit 31, [⟨nat_lit 0, nat_lit 0, nat_lit 0, nat_lit 2, nat_lit 2⟩, ⟨nat_lit 2, nat_lit 0, nat_lit 0, nat_lit 2, nat_lit 4⟩, ⟨nat_lit 0, nat_lit 0, nat_lit 0, nat_lit 1, nat_lit 1⟩]⟩,
    ⟨nat_lit 25, [⟨nat_lit 1, nat_lit 0, nat_lit 0, nat_lit 2, nat_lit 3⟩, ⟨nat_lit 1, nat_lit 0, nat_lit 0, nat_lit 1, nat_lit 2⟩]⟩,
    ⟨nat_lit 22, [⟨nat_lit 0, nat_lit 0, nat_lit 1, nat_lit 0, nat_lit 1⟩, ⟨nat_lit 0, nat_lit 2, nat_lit 3, nat_lit 0, nat_lit 5⟩]⟩,
    ⟨nat_lit 16, [⟨nat_lit 1, nat_lit 0, nat_lit 1, nat_lit 0, nat_lit 2⟩, ⟨nat_lit 0, nat_lit 2, nat_lit 5, nat_lit 0, nat_lit 9⟩]⟩,
    ⟨nat_lit 3, [⟨nat_lit 0, nat_lit 0, nat_lit 0, nat_lit 2, nat_lit 2⟩]⟩,
    ⟨nat_lit 15, [⟨nat_lit 0, nat_lit 1, nat_lit 0, nat_lit 2, nat_lit 3⟩, ⟨nat_lit 0, nat_lit 1, nat_lit 0, nat_lit 0, nat_lit 1⟩]⟩,
    ⟨nat_lit 10, [⟨nat_lit 0, nat_lit 0, nat_lit 1, nat_lit 0, nat_lit 1⟩]⟩,
    ⟨nat_lit 6, [⟨nat_lit 0, nat_lit 1, nat_lit 1, nat_lit 0, nat_lit 2⟩, ⟨nat_lit 0, nat_lit 2, nat_lit 0, nat_lit 0, nat_lit 2⟩, ⟨nat_lit 0, nat_lit 1, nat_lit 0, nat_lit 0, nat_lit 1⟩, ⟨nat_lit 0, nat_lit 3, nat_lit 2, nat_lit 0, nat_lit 5⟩]⟩,
    ⟨nat_lit 19, [⟨nat_lit 0, nat_lit 1, nat_lit 1, nat_lit 0, nat_lit 2⟩, ⟨nat_lit 0, nat_lit 1, nat_lit 0, nat_lit 1, nat_lit 2⟩, ⟨nat_lit 0, nat_lit 14, nat_lit 5, nat_lit 0, nat_lit 45⟩]⟩,
    ⟨nat_lit 21, [⟨nat_lit 0, nat_lit 2, nat_lit 1, nat_lit 0, nat_lit 3⟩, ⟨nat_lit 0, nat_lit 1, nat_lit 0, nat_lit 1, nat_lit 2⟩]⟩,
    ⟨nat_lit 28, [⟨nat_lit 0, nat_lit 1, nat_lit 0, nat_lit 0, nat_lit 1⟩, ⟨nat_lit 0, nat_lit 4, nat_lit 0, nat_lit 1, nat_lit 5⟩]⟩,
    ⟨nat_lit 26, [⟨nat_lit 0, nat_lit 1, nat_lit 0, nat_lit 0, nat_lit 1⟩, ⟨nat_lit 0, nat_lit 3, nat_lit 0, nat_lit 2, nat_lit 5⟩]⟩,
    ⟨nat_lit 0, [⟨nat_lit 0, nat_lit 2, nat_lit 1, nat_lit 0, nat_lit 3⟩, ⟨nat_lit 1, nat_lit 0, nat_lit 2, nat_lit 0, nat_lit 3⟩]⟩,
    ⟨nat_lit 12, [⟨nat_lit 0, nat_lit 2, nat_lit 0, nat_lit 1, nat_lit 3⟩, ⟨nat_lit 0, nat_lit 1, nat_lit 0, nat_lit 1, nat_lit 2⟩, ⟨nat_lit 0, nat_lit 3, nat_lit 0, nat_lit 1, nat_lit 4⟩, ⟨nat_lit 0, nat_lit 5, nat_lit 2, nat_lit 0, nat_lit 9⟩]⟩,
    ⟨nat_lit 5, [⟨nat_lit 0, nat_lit 1, nat_lit 1, nat_lit 0, nat_lit 2⟩]⟩]

theorem form_l1 : formB Best.tri8L1.mult (DilFast.coreOf tab_l1) = true := by decide +kernel

theorem autos_l1 : DilFast.autosF .l1 49 5 tab_l1 frow = true := by decide +kernel

theorem closed_l1 : DilFast.closedF .l1 3 9 49 5 frow tab_l1 tab_l1 = true := by decide +kernel

def pt1_l1 : Pt := ⟨[4, 6], [4, 6], 21 / 40, [1, 1]⟩
def pt2_l1 : Pt := ⟨[5, 2], [4, 6], 21 / 40, [0, 0]⟩
theorem low_l1 : lowB .l1 Best.tri8L1 0 pt1_l1 pt2_l1 (49 / 5) := by decide +kernel

theorem cert_l1 : Cert .l1 Best.tri8L1 (49 / 5) (49 / 5) :=
  DilFast.cert (p := 0) (.inr (.inl rfl)) (vn := 49) (vd := 5) (by decide) rfl (by norm_num [bnd, Metric.sq]) div_eq genus_eq okRows rows form_l1 autos_l1 closed_l1
    (by norm_num [Metric.sq, Metric.ratio]; exact low_l1)

end Peano.BestDil.Tri8L1

namespace Peano.BestDil.Tri8L2
open DilCert Zoo

def frow : List (List DilFast.Row) := [
    [⟨nat_lit 0, nat_lit 0, nat_lit 11, nat_lit 0⟩, ⟨nat_lit 1, nat_lit 0, nat_lit 8, nat_lit 0⟩, ⟨nat_lit 2, nat_lit 0, nat_lit 5, nat_lit 0⟩, ⟨nat_lit 2, nat_lit 1, nat_lit 0, nat_lit 0⟩, ⟨nat_lit 2, nat_lit 2, nat_lit 0, nat_lit 0⟩, ⟨nat_lit 1, nat_lit 2, nat_lit 3, nat_lit 0⟩, ⟨nat_lit 1, nat_lit 1, nat_lit 13, nat_lit 0⟩, ⟨nat_lit 0, nat_lit 1, nat_lit 14, nat_lit 0⟩, ⟨nat_lit 0, nat_lit 2, nat_lit 0, nat_lit 0⟩],
    [⟨nat_lit 0, nat_lit 0, nat_lit 12, nat_lit 0⟩, ⟨nat_lit 0, nat_lit 1, nat_lit 2, nat_lit 0⟩, ⟨nat_lit 0, nat_lit 2, nat_lit 2, nat_lit 0⟩, ⟨nat_lit 1, nat_lit 2, nat_lit 12, nat_lit 0⟩, ⟨nat_lit 2, nat_lit 2, nat_lit 1, nat_lit 0⟩, ⟨nat_lit 2, nat_lit 1, nat_lit 4, nat_lit 0⟩, ⟨nat_lit 1, nat_lit 1, nat_lit 10, nat_lit 0⟩, ⟨nat_lit 1, nat_lit 0, nat_lit 15, nat_lit 0⟩, ⟨nat_lit 2, nat_lit 0, nat_lit 12, nat_lit 0⟩]]

theorem div_eq : Best.tri8L2.div = 3 := by decide +kernel

theorem genus_eq : Best.tri8L2.genus = 9 := by decide +kernel

theorem okRows : DilFast.OkRows 3 frow := by decide +kernel

theorem rows : Rows Best.tri8L2 (DilFast.prowOf frow) := by decide +kernel

def tab_l2 : List DilFast.Bin := [
    ⟨nat_lit 9, [⟨nat_lit 0, nat_lit 0, nat_lit 0, nat_lit 1, nat_lit 1⟩]⟩,
    ⟨nat_lit 31, [⟨nat_lit 0, nat_lit 0, nat_lit 0, nat_lit 2, nat_lit 2⟩, ⟨nat_lit 0, nat_lit 0, nat_lit 0, nat_lit 1, nat_lit 1⟩]⟩,
    ⟨nat_lit 25, [⟨nat_lit 1, nat_lit 0, nat_lit 0, nat_lit 2, nat_lit 3⟩, ⟨nat_lit 1, nat_lit 0, nat_lit 0, nat_lit 1, nat_lit 2⟩]⟩,
    ⟨nat_lit 22, [⟨nat_lit 0, nat_lit 0, nat_lit 1, nat_lit 0, nat_lit 1⟩]⟩,
    ⟨nat_lit 16, [⟨nat_lit 1, nat_lit 0, nat_lit 1, nat_lit 0, nat_lit 2⟩]⟩,
    ⟨nat_lit 15, [⟨nat_lit 0, nat_lit 1, nat_lit 0, nat_lit 2, nat_lit 3⟩, ⟨nat_lit 0, nat_lit 1, nat_lit 0, nat_lit 1, nat_lit 2⟩]⟩,
    ⟨nat_lit 0, [⟨nat_lit 0, nat_lit 0, nat_lit 1, nat_lit 0, nat_lit 1⟩]⟩,
    ⟨nat_lit 6, [⟨nat_lit 0, nat_lit 1, nat_lit 1, nat_lit 0, nat_lit 2⟩, ⟨nat_lit 0, nat_lit 1, nat_lit 0, nat_lit 0, nat_lit 1⟩]⟩,
    ⟨nat_lit 26, [⟨nat_lit 0, nat_lit 1, nat_lit 0, nat_lit 1, nat_lit 2⟩]⟩,
    ⟨nat_lit 28, [⟨nat_lit 0, nat_lit 2, nat_lit 0, nat_lit 1, nat_lit 3⟩, ⟨nat_lit 0, nat_lit 1, nat_lit 0, nat_lit 0, nat_lit 1⟩, ⟨nat_lit 0, nat_lit 4, nat_lit 0, nat_lit 2, nat_lit 6⟩]⟩,
    ⟨nat_lit 21, [⟨nat_lit 0, nat_lit 1, nat_lit 0, nat_lit 1, nat_lit 2⟩]⟩,
    ⟨nat_lit 12, [⟨nat_lit 0, nat_lit 2, nat_lit 0, nat_lit 1, nat_lit 3⟩, ⟨nat_lit 0, nat_lit 1, nat_lit 0, nat_lit 1, nat_lit 2⟩]⟩,
    ⟨nat_lit 10, [⟨nat_lit 1, nat_lit 0, nat_lit 1, nat_lit 0, nat_lit 2⟩]⟩]

theorem form_l2 : formB Best.tri8L2.mult (DilFast.coreOf tab_l2) = true := by decide +kernel

theorem autos_l2 : DilFast.autosF .plane 17 3 tab_l2 frow = true := by decide +kernel

theorem closed_l2 : DilFast.closedF .plane 3 9 17 3 frow tab_l2 tab_l2 = true := by decide +kernel

def pt1_l2 : Pt := ⟨[3, 7], [4], 1 / 2, [0, 0]⟩
def pt2_l2 : Pt := ⟨[4, 4], [4], 1 / 2, [1, 1]⟩
theorem low_l2 : lowB .l2sq Best.tri8L2 0 pt1_l2 pt2_l2 (289 / 9) := by decide +kernel

theorem cert_l2 : Cert .l2 Best.tri8L2 (17 / 3) (17 / 3) :=
  DilFast.cert (p := 0) (.inr (.inr rfl)) (vn := 17) (vd := 3) (by decide) rfl (by norm_num [bnd, Metric.sq]) div_eq genus_eq okRows rows form_l2 autos_l2 closed_l2
    (by norm_num [Metric.sq, Metric.ratio]; exact low_l2)

end Peano.BestDil.Tri8L2

namespace Peano.BestDil.Tri8Linf
open DilCert Zoo

def frow : List (List DilFast.Row) := [
    [⟨nat_lit 0, nat_lit 0, nat_lit 0, nat_lit 0⟩, ⟨nat_lit 0, nat_lit 1, nat_lit 8, nat_lit 0⟩, ⟨nat_lit 1, nat_lit 1, nat_lit 11, nat_lit 0⟩, ⟨nat_lit 1, nat_lit 0, nat_lit 3, nat_lit 0⟩, ⟨nat_lit 2, nat_lit 0, nat_lit 0, nat_lit 0⟩, ⟨nat_lit 2, nat_lit 1, nat_lit 5, nat_lit 0⟩, ⟨nat_lit 2, nat_lit 2, nat_lit 5, nat_lit 0⟩, ⟨nat_lit 1, nat_lit 2, nat_lit 14, nat_lit 0⟩, ⟨nat_lit 0, nat_lit 2, nat_lit 13, nat_lit 0⟩],
    [⟨nat_lit 0, nat_lit 0, nat_lit 15, nat_lit 0⟩, ⟨nat_lit 1, nat_lit 0, nat_lit 15, nat_lit 0⟩, ⟨nat_lit 1, nat_lit 1, nat_lit 10, nat_lit 0⟩, ⟨nat_lit 0, nat_lit 1, nat_lit 2, nat_lit 0⟩, ⟨nat_lit 0, nat_lit 2, nat_lit 7, nat_lit 0⟩, ⟨nat_lit 1, nat_lit 2, nat_lit 15, nat_lit 0⟩, ⟨nat_lit 2, nat_lit 2, nat_lit 4, nat_lit 0⟩, ⟨nat_lit 2, nat_lit 1, nat_lit 4, nat_lit 0⟩, ⟨nat_lit 2, nat_lit 0, nat_lit 12, nat_lit 0⟩]]

theorem div_eq : Best.tri8Linf.div = 3 := by decide +kernel

theorem genus_eq : Best.tri8Linf.genus = 9 := by decide +kernel

theorem okRows : DilFast.OkRows 3 frow := by decide +kernel

theorem rows : Rows Best.tri8Linf (DilFast.prowOf frow) := by decide +kernel

def tab_linf : List DilFast.Bin := [
    ⟨nat_lit 16, [⟨nat_lit 0, nat_lit 0, nat_lit 1, nat_lit 0, nat_lit 1⟩, ⟨nat_lit 0, nat_lit 0, nat_lit 2, nat_lit 0, nat_lit 2⟩]⟩,
    ⟨nat_lit 10, [⟨nat_lit 0, nat_lit 0, nat_lit 1, nat_lit 0, nat_lit 1⟩, ⟨nat_lit 0, nat_lit 0, nat_lit 2, nat_lit 0, nat_lit 2⟩]⟩,
    ⟨nat_lit 19, [⟨nat_lit 0, nat_lit 1, nat_lit 0, nat_lit 0, nat_lit 1⟩, ⟨nat_lit 0, nat_lit 2, nat_lit 0, nat_lit 0, nat_lit 2⟩]⟩,
    ⟨nat_lit 5, [⟨nat_lit 0, nat_lit 1, nat_lit 0, nat_lit 0, nat_lit 1⟩, ⟨nat_lit 0, nat_lit 2, nat_lit 0, nat_lit 0, nat_lit 2⟩]⟩,
    ⟨nat_lit 3, [⟨nat_lit 0, nat_lit 0, nat_lit 0, nat_lit 1, nat_lit 1⟩]⟩,
    ⟨nat_lit 21, [⟨nat_lit 0, nat_lit 1, nat_lit 0, nat_lit 0, nat_lit 1⟩]⟩,
    ⟨nat_lit 25, [⟨nat_lit 0, nat_lit 0, nat_lit 0, nat_lit 1, nat_lit 1⟩]⟩,
    ⟨nat_lit 0, [⟨nat_lit 0, nat_lit 0, nat_lit 1, nat_lit 0, nat_lit 1⟩]⟩]

theorem form_linf : formB Best.tri8Linf.mult (DilFast.coreOf tab_linf) = true := by decide +kernel

theorem autos_linf : DilFast.autosF .linf 9 2 tab_linf frow = true := by decide +kernel

theorem closed_linf : DilFast.closedF .linf 3 9 9 2 frow tab_linf tab_linf = true := by decide +kernel

def pt1_linf : Pt := ⟨[4], [4], 1 / 2, [1, 0]⟩
def pt2_linf : Pt := ⟨[6], [4], 1 / 2, [1, 1]⟩
theorem low_linf : lowB .linf Best.tri8Linf 0 pt1_linf pt2_linf (9 / 2) := by decide +kernel

theorem cert_linf : Cert .linf Best.tri8Linf (9 / 2) (9 / 2) :=
  DilFast.cert (p := 0) (.inl rfl) (vn := 9) (vd := 2) (by decide) rfl (by norm_num [bnd, Metric.sq]) div_eq genus_eq okRows rows form_linf autos_linf closed_linf
    (by norm_num [Metric.sq, Metric.ratio]; exact low_linf)

end Peano.BestDil.Tri8Linf

namespace Peano.BestDil.Tri12L1L2Linf
open DilCert Zoo

def frow : List (List DilFast.Row) := [
    [⟨nat_lit 0, nat_lit 0, nat_lit 15, nat_lit 0⟩, ⟨nat_lit 0, nat_lit 1, nat_lit 7, nat_lit 0⟩, ⟨nat_lit 1, nat_lit 1, nat_lit 4, nat_lit 0⟩, ⟨nat_lit 1, nat_lit 0, nat_lit 12, nat_lit 0⟩, ⟨nat_lit 2, nat_lit 0, nat_lit 15, nat_lit 0⟩, ⟨nat_lit 2, nat_lit 1, nat_lit 15, nat_lit 1⟩, ⟨nat_lit 2, nat_lit 2, nat_lit 10, nat_lit 0⟩, ⟨nat_lit 1, nat_lit 2, nat_lit 1, nat_lit 1⟩, ⟨nat_lit 0, nat_lit 2, nat_lit 2, nat_lit 0⟩],
    [⟨nat_lit 0, nat_lit 0, nat_lit 15, nat_lit 0⟩, ⟨nat_lit 0, nat_lit 1, nat_lit 10, nat_lit 1⟩, ⟨nat_lit 0, nat_lit 2, nat_lit 7, nat_lit 0⟩, ⟨nat_lit 1, nat_lit 2, nat_lit 4, nat_lit 1⟩, ⟨nat_lit 2, nat_lit 2, nat_lit 4, nat_lit 0⟩, ⟨nat_lit 2, nat_lit 1, nat_lit 1, nat_lit 0⟩, ⟨nat_lit 1, nat_lit 1, nat_lit 9, nat_lit 0⟩, ⟨nat_lit 1, nat_lit 0, nat_lit 12, nat_lit 0⟩, ⟨nat_lit 2, nat_lit 0, nat_lit 4, nat_lit 1⟩]]

theorem div_eq : Best.tri12L1L2Linf.div = 3 := by decide +kernel

theorem genus_eq : Best.tri12L1L2Linf.genus = 9 := by decide +kernel

theorem okRows : DilFast.OkRows 3 frow := by decide +kernel

theorem rows : Rows Best.tri12L1L2Linf (DilFast.prowOf frow) := by decide +kernel

def tab_l1 : List DilFast.Bin := [
    ⟨nat_lit 19, [⟨nat_lit 0, nat_lit 1, nat_lit 0, nat_lit 0, nat_lit 1⟩, ⟨nat_lit 0, nat_lit 4, nat_lit 2, nat_lit 0, nat_lit 6⟩]⟩,
    ⟨nat_lit 25, [⟨nat_lit 0, nat_lit 1, nat_lit 0, nat_lit 1, nat_lit 2⟩]⟩,
    ⟨nat_lit 5, [⟨nat_lit 0, nat_lit 1, nat_lit 0, nat_lit 0, nat_lit 1⟩]⟩,
    ⟨nat_lit 21, [⟨nat_lit 0, nat_lit 1, nat_lit 1, nat_lit 0, nat_lit 2⟩]⟩,
    ⟨nat_lit 16, [⟨nat_lit 0, nat_lit 0, nat_lit 1, nat_lit 0, nat_lit 1⟩, ⟨nat_lit 0, nat_lit 2, nat_lit 4, nat_lit 0, nat_lit 6⟩]⟩,
    ⟨nat_lit 22, [⟨nat_lit 1, nat_lit 0, nat_lit 1, nat_lit 0, nat_lit 2⟩]⟩,
    ⟨nat_lit 10, [⟨nat_lit 0, nat_lit 0, nat_lit 1, nat_lit 0, nat_lit 1⟩]⟩,
    ⟨nat_lit 42, [⟨nat_lit 0, nat_lit 1, nat_lit 1, nat_lit 0, nat_lit 2⟩]⟩,
    ⟨nat_lit 12, [⟨nat_lit 0, nat_lit 2, nat_lit 1, nat_lit 0, nat_lit 3⟩, ⟨nat_lit 0, nat_lit 1, nat_lit 2, nat_lit 0, nat_lit 3⟩]⟩,
    ⟨nat_lit 35, [⟨nat_lit 0, nat_lit 1, nat_lit 0, nat_lit 0, nat_lit 1⟩]⟩,
    ⟨nat_lit 63, [⟨nat_lit 0, nat_lit 2, nat_lit 1, nat_lit 0, nat_lit 3⟩]⟩,
    ⟨nat_lit 261, [⟨nat_lit 0, nat_lit 1, nat_lit 0, nat_lit 0, nat_lit 1⟩]⟩,
    ⟨nat_lit 319, [⟨nat_lit 0, nat_lit 1, nat_lit 1, nat_lit 0, nat_lit 2⟩]⟩,
    ⟨nat_lit 277, [⟨nat_lit 0, nat_lit 1, nat_lit 2, nat_lit 0, nat_lit 3⟩]⟩,
    ⟨nat_lit 58, [⟨nat_lit 0, nat_lit 0, nat_lit 1, nat_lit 0, nat_lit 1⟩]⟩,
    ⟨nat_lit 37, [⟨nat_lit 0, nat_lit 1, nat_lit 0, nat_lit 0, nat_lit 1⟩]⟩,
    ⟨nat_lit 57, [⟨nat_lit 0, nat_lit 2, nat_lit 0, nat_lit 1, nat_lit 3⟩]⟩,
    ⟨nat_lit 278, [⟨nat_lit 1, nat_lit 0, nat_lit 0, nat_lit 0, nat_lit 1⟩]⟩,
    ⟨nat_lit 316, [⟨nat_lit 1, nat_lit 0, nat_lit 0, nat_lit 1, nat_lit 2⟩]⟩,
    ⟨nat_lit 284, [⟨nat_lit 1, nat_lit 0, nat_lit 0, nat_lit 2, nat_lit 3⟩]⟩,
    ⟨nat_lit 15, [⟨nat_lit 0, nat_lit 2, nat_lit 1, nat_lit 0, nat_lit 3⟩, ⟨nat_lit 0, nat_lit 1, nat_lit 2, nat_lit 0, nat_lit 3⟩]⟩,
    ⟨nat_lit 256, [⟨nat_lit 1, nat_lit 0, nat_lit 0, nat_lit 0, nat_lit 1⟩]⟩,
    ⟨nat_lit 266, [⟨nat_lit 1, nat_lit 0, nat_lit 1, nat_lit 0, nat_lit 2⟩]⟩,
    ⟨nat_lit 26, [⟨nat_lit 0, nat_lit 1, nat_lit 1, nat_lit 0, nat_lit 2⟩]⟩,
    ⟨nat_lit 53, [⟨nat_lit 0, nat_lit 1, nat_lit 1, nat_lit 0, nat_lit 2⟩]⟩,
    ⟨nat_lit 48, [⟨nat_lit 0, nat_lit 0, nat_lit 1, nat_lit 0, nat_lit 1⟩]⟩,
    ⟨nat_lit 44, [⟨nat_lit 0, nat_lit 1, nat_lit 1, nat_lit 0, nat_lit 2⟩]⟩,
    ⟨nat_lit 275, [⟨nat_lit 0, nat_lit 2, nat_lit 2, nat_lit 0, nat_lit 4⟩, ⟨nat_lit 0, nat_lit 3, nat_lit 2, nat_lit 0, nat_lit 5⟩]⟩,
    ⟨nat_lit 271, [⟨nat_lit 0, nat_lit 1, nat_lit 1, nat_lit 0, nat_lit 2⟩]⟩,
    ⟨nat_lit 38, [⟨nat_lit 1, nat_lit 0, nat_lit 1, nat_lit 0, nat_lit 2⟩]⟩,
    ⟨nat_lit 291, [⟨nat_lit 0, nat_lit 2, nat_lit 2, nat_lit 0, nat_lit 4⟩]⟩,
    ⟨nat_lit 262, [⟨nat_lit 1, nat_lit 0, nat_lit 0, nat_lit 2, nat_lit 3⟩, ⟨nat_lit 1, nat_lit 0, nat_lit 0, nat_lit 1, nat_lit 2⟩]⟩,
    ⟨nat_lit 288, [⟨nat_lit 2, nat_lit 0, nat_lit 0, nat_lit 2, nat_lit 4⟩]⟩]

theorem form_l1 : formB Best.tri12L1L2Linf.mult (DilFast.coreOf tab_l1) = true := by decide +kernel

theorem autos_l1 : DilFast.autosF .l1 32 3 tab_l1 frow = true := by decide +kernel

theorem closed_l1 : DilFast.closedF .l1 3 9 32 3 frow tab_l1 tab_l1 = true := by decide +kernel

def pt1_l1 : Pt := ⟨[6, 4], [4, 4], 1 / 2, [1, 1]⟩
def pt2_l1 : Pt := ⟨[7, 1], [4, 4], 1 / 2, [0, 0]⟩
theorem low_l1 : lowB .l1 Best.tri12L1L2Linf 0 pt1_l1 pt2_l1 (32 / 3) := by decide +kernel

theorem cert_l1 : Cert .l1 Best.tri12L1L2Linf (32 / 3) (32 / 3) :=
  DilFast.cert (p := 0) (.inr (.inl rfl)) (vn := 32) (vd := 3) (by decide) rfl (by norm_num [bnd, Metric.sq]) div_eq genus_eq okRows rows form_l1 autos_l1 closed_l1
    (by norm_num [Metric.sq, Metric.ratio]; exact low_l1)

def tab_l2 : List DilFast.Bin := [
    ⟨nat_lit 19, [⟨nat_lit 0, nat_lit 1, nat_lit 0, nat_lit 0, nat_lit 1⟩, ⟨nat_lit 0, nat_lit 4, nat_lit 2, nat_lit 0, nat_lit 6⟩]⟩,
    ⟨nat_lit 25, [⟨nat_lit 0, nat_lit 1, nat_lit 0, nat_lit 1, nat_lit 2⟩]⟩,
    ⟨nat_lit 5, [⟨nat_lit 0, nat_lit 1, nat_lit 0, nat_lit 0, nat_lit 1⟩]⟩,
    ⟨nat_lit 21, [⟨nat_lit 0, nat_lit 1, nat_lit 1, nat_lit 0, nat_lit 2⟩]⟩,
    ⟨nat_lit 16, [⟨nat_lit 0, nat_lit 0, nat_lit 1, nat_lit 0, nat_lit 1⟩, ⟨nat_lit 0, nat_lit 2, nat_lit 4, nat_lit 0, nat_lit 6⟩]⟩,
    ⟨nat_lit 22, [⟨nat_lit 1, nat_lit 0, nat_lit 1, nat_lit 0, nat_lit 2⟩]⟩,
    ⟨nat_lit 10, [⟨nat_lit 0, nat_lit 0, nat_lit 1, nat_lit 0, nat_lit 1⟩]⟩,
    ⟨nat_lit 42, [⟨nat_lit 0, nat_lit 1, nat_lit 1, nat_lit 0, nat_lit 2⟩]⟩,
    ⟨nat_lit 12, [⟨nat_lit 0, nat_lit 2, nat_lit 1, nat_lit 0, nat_lit 3⟩, ⟨nat_lit 0, nat_lit 1, nat_lit 2, nat_lit 0, nat_lit 3⟩]⟩,
    ⟨nat_lit 35, [⟨nat_lit 0, nat_lit 1, nat_lit 0, nat_lit 0, nat_lit 1⟩]⟩,
    ⟨nat_lit 63, [⟨nat_lit 0, nat_lit 2, nat_lit 1, nat_lit 0, nat_lit 3⟩]⟩,
    ⟨nat_lit 261, [⟨nat_lit 0, nat_lit 1, nat_lit 0, nat_lit 0, nat_lit 1⟩]⟩,
    ⟨nat_lit 319, [⟨nat_lit 0, nat_lit 1, nat_lit 1, nat_lit 0, nat_lit 2⟩]⟩,
    ⟨nat_lit 277, [⟨nat_lit 0, nat_lit 1, nat_lit 2, nat_lit 0, nat_lit 3⟩]⟩,
    ⟨nat_lit 58, [⟨nat_lit 0, nat_lit 0, nat_lit 1, nat_lit 0, nat_lit 1⟩]⟩,
    ⟨nat_lit 37, [⟨nat_lit 0, nat_lit 1, nat_lit 0, nat_lit 0, nat_lit 1⟩]⟩,
    ⟨nat_lit 57, [⟨nat_lit 0, nat_lit 2, nat_lit 0, nat_lit 1, nat_lit 3⟩]⟩,
    ⟨nat_lit 278, [⟨nat_lit 1, nat_lit 0, nat_lit 0, nat_lit 0, nat_lit 1⟩]⟩,
    ⟨nat_lit 316, [⟨nat_lit 1, nat_lit 0, nat_lit 0, nat_lit 1, nat_lit 2⟩]⟩,
    ⟨nat_lit 284, [⟨nat_lit 1, nat_lit 0, nat_lit 0, nat_lit 2, nat_lit 3⟩]⟩,
    ⟨nat_lit 15, [⟨nat_lit 0, nat_lit 2, nat_lit 1, nat_lit 0, nat_lit 3⟩, ⟨nat_lit 0, nat_lit 1, nat_lit 2, nat_lit 0, nat_lit 3⟩]⟩,
    ⟨nat_lit 256, [⟨nat_lit 1, nat_lit 0, nat_lit 0, nat_lit 0, nat_lit 1⟩]⟩,
    ⟨nat_lit 266, [⟨nat_lit 1, nat_lit 0, nat_lit 1, nat_lit 0, nat_lit 2⟩]⟩,
    ⟨nat_lit 26, [⟨nat_lit 0, nat_lit 1, nat_lit 1, nat_lit 0, nat_lit 2⟩]⟩,
    ⟨nat_lit 53, [⟨nat_lit 0, nat_lit 1, nat_lit 1, nat_lit 0, nat_lit 2⟩]⟩,
    ⟨nat_lit 48, [⟨nat_lit 0, nat_lit 0, nat_lit 1, nat_lit 0, nat_lit 1⟩]⟩,
    ⟨nat_lit 44, [⟨nat_lit 0, nat_lit 1, nat_lit 1, nat_lit 0, nat_lit 2⟩]⟩,
    ⟨nat_lit 275, [⟨nat_lit 0, nat_lit 2, nat_lit 2, nat_lit 0, nat_lit 4⟩, ⟨nat_lit 0, nat_lit 3, nat_lit 2, nat_lit 0, nat_lit 5⟩]⟩,
    ⟨nat_lit 271, [⟨nat_lit 0, nat_lit 1, nat_lit 1, nat_lit 0, nat_lit 2⟩]⟩,
    ⟨nat_lit 38, [⟨nat_lit 1, nat_lit 0, nat_lit 1, nat_lit 0, nat_lit 2⟩]⟩,
    ⟨nat_lit 291, [⟨nat_lit 0, nat_lit 2, nat_lit 2, nat_lit 0, nat_lit 4⟩]⟩,
    ⟨nat_lit 262, [⟨nat_lit 1, nat_lit 0, nat_lit 0, nat_lit 2, nat_lit 3⟩, ⟨nat_lit 1, nat_lit 0, nat_lit 0, nat_lit 1, nat_lit 2⟩]⟩,
    ⟨nat_lit 288, [⟨nat_lit 2, nat_lit 0, nat_lit 0, nat_lit 2, nat_lit 4⟩]⟩]

theorem form_l2 : formB Best.tri12L1L2Linf.mult (DilFast.coreOf tab_l2) = true := by decide +kernel

theorem autos_l2 : DilFast.autosF .plane 17 3 tab_l2 frow = true := by decide +kernel

theorem closed_l2 : DilFast.closedF .plane 3 9 17 3 frow tab_l2 tab_l2 = true := by decide +kernel

def pt1_l2 : Pt := ⟨[6, 4], [4, 4], 1 / 2, [1, 1]⟩
def pt2_l2 : Pt := ⟨[7, 1], [4, 4], 1 / 2, [0, 0]⟩
theorem low_l2 : lowB .l2sq Best.tri12L1L2Linf 0 pt1_l2 pt2_l2 (289 / 9) := by decide +kernel

theorem cert_l2 : Cert .l2 Best.tri12L1L2Linf (17 / 3) (17 / 3) :=
  DilFast.cert (p := 0) (.inr (.inr rfl)) (vn := 17) (vd := 3) (by decide) rfl (by norm_num [bnd, Metric.sq]) div_eq genus_eq okRows rows form_l2 autos_l2 closed_l2
    (by norm_num [Metric.sq, Metric.ratio]; exact low_l2)

def tab_linf : List DilFast.Bin := [
    ⟨nat_lit 19, [⟨nat_lit 0, nat_lit 1, nat_lit 0, nat_lit 0, nat_lit 1⟩, ⟨nat_lit 0, nat_lit 2, nat_lit 0, nat_lit 0, nat_lit 2⟩]⟩,
    ⟨nat_lit 5, [⟨nat_lit 0, nat_lit 1, nat_lit 0, nat_lit 0, nat_lit 1⟩, ⟨nat_lit 0, nat_lit 2, nat_lit 0, nat_lit 0, nat_lit 2⟩]⟩,
    ⟨nat_lit 16, [⟨nat_lit 0, nat_lit 0, nat_lit 1, nat_lit 0, nat_lit 1⟩, ⟨nat_lit 0, nat_lit 0, nat_lit 2, nat_lit 0, nat_lit 2⟩]⟩,
    ⟨nat_lit 10, [⟨nat_lit 0, nat_lit 0, nat_lit 1, nat_lit 0, nat_lit 1⟩, ⟨nat_lit 0, nat_lit 0, nat_lit 2, nat_lit 0, nat_lit 2⟩]⟩,
    ⟨nat_lit 35, [⟨nat_lit 0, nat_lit 1, nat_lit 0, nat_lit 0, nat_lit 1⟩]⟩,
    ⟨nat_lit 261, [⟨nat_lit 0, nat_lit 1, nat_lit 0, nat_lit 0, nat_lit 1⟩]⟩,
    ⟨nat_lit 58, [⟨nat_lit 0, nat_lit 0, nat_lit 1, nat_lit 0, nat_lit 1⟩]⟩,
    ⟨nat_lit 37, [⟨nat_lit 0, nat_lit 1, nat_lit 0, nat_lit 0, nat_lit 1⟩]⟩,
    ⟨nat_lit 278, [⟨nat_lit 1, nat_lit 0, nat_lit 0, nat_lit 0, nat_lit 1⟩]⟩,
    ⟨nat_lit 256, [⟨nat_lit 1, nat_lit 0, nat_lit 0, nat_lit 0, nat_lit 1⟩]⟩,
    ⟨nat_lit 48, [⟨nat_lit 0, nat_lit 0, nat_lit 1, nat_lit 0, nat_lit 1⟩]⟩]

theorem form_linf : formB Best.tri12L1L2Linf.mult (DilFast.coreOf tab_linf) = true := by decide +kernel

theorem autos_linf : DilFast.autosF .linf 9 2 tab_linf frow = true := by decide +kernel

theorem closed_linf : DilFast.closedF .linf 3 9 9 2 frow tab_linf tab_linf = true := by decide +kernel

def pt1_linf : Pt := ⟨[4], [4, 4], 1 / 2, [1, 0]⟩
def pt2_linf : Pt := ⟨[6], [4, 4], 1 / 2, [1, 1]⟩
theorem low_linf : lowB .linf Best.tri12L1L2Linf 0 pt1_linf pt2_linf (9 / 2) := by decide +kernel

theorem cert_linf : Cert .linf Best.tri12L1L2Linf (9 / 2) (9 / 2) :=
  DilFast.cert (p := 0) (.inl rfl) (vn := 9) (vd := 2) (by decide) rfl (by norm_num [bnd, Metric.sq]) div_eq genus_eq okRows rows form_linf autos_linf closed_linf
    (by norm_num [Metric.sq, Metric.ratio]; exact low_linf)

end Peano.BestDil.Tri12L1L2Linf

namespace Peano.BestDil.Tri13L1L2Linf
open DilCert Zoo

def frow : List (List DilFast.Row) := [
    [⟨nat_lit 0, nat_lit 0, nat_lit 15, nat_lit 0⟩, ⟨nat_lit 0, nat_lit 1, nat_lit 7, nat_lit 0⟩, ⟨nat_lit 1, nat_lit 1, nat_lit 4, nat_lit 0⟩, ⟨nat_lit 1, nat_lit 0, nat_lit 12, nat_lit 0⟩, ⟨nat_lit 2, nat_lit 0, nat_lit 15, nat_lit 0⟩, ⟨nat_lit 2, nat_lit 1, nat_lit 13, nat_lit 1⟩, ⟨nat_lit 2, nat_lit 2, nat_lit 5, nat_lit 0⟩, ⟨nat_lit 1, nat_lit 2, nat_lit 1, nat_lit 1⟩, ⟨nat_lit 0, nat_lit 2, nat_lit 2, nat_lit 0⟩],
    [⟨nat_lit 0, nat_lit 0, nat_lit 15, nat_lit 0⟩, ⟨nat_lit 0, nat_lit 1, nat_lit 10, nat_lit 1⟩, ⟨nat_lit 0, nat_lit 2, nat_lit 8, nat_lit 0⟩, ⟨nat_lit 1, nat_lit 2, nat_lit 11, nat_lit 0⟩, ⟨nat_lit 1, nat_lit 1, nat_lit 14, nat_lit 1⟩, ⟨nat_lit 1, nat_lit 0, nat_lit 12, nat_lit 0⟩, ⟨nat_lit 2, nat_lit 0, nat_lit 15, nat_lit 0⟩, ⟨nat_lit 2, nat_lit 1, nat_lit 10, nat_lit 1⟩, ⟨nat_lit 2, nat_lit 2, nat_lit 8, nat_lit 0⟩]]

theorem div_eq : Best.tri13L1L2Linf.div = 3 := by decide +kernel

theorem genus_eq : Best.tri13L1L2Linf.genus = 9 := by decide +kernel

theorem okRows : DilFast.OkRows 3 frow := by decide +kernel

theorem rows : Rows Best.tri13L1L2Linf (DilFast.prowOf frow) := by decide +kernel

def tab_l1 : List DilFast.Bin := [
    ⟨nat_lit 19, [⟨nat_lit 0, nat_lit 1, nat_lit 0, nat_lit 0, nat_lit 1⟩, ⟨nat_lit 0, nat_lit 3, nat_lit 2, nat_lit 0, nat_lit 5⟩]⟩,
    ⟨nat_lit 25, [⟨nat_lit 0, nat_lit 1, nat_lit 0, nat_lit 1, nat_lit 2⟩]⟩,
    ⟨nat_lit 5, [⟨nat_lit 0, nat_lit 1, nat_lit 0, nat_lit 0, nat_lit 1⟩]⟩,
    ⟨nat_lit 21, [⟨nat_lit 0, nat_lit 1, nat_lit 1, nat_lit 0, nat_lit 2⟩, ⟨nat_lit 0, nat_lit 2, nat_lit 2, nat_lit 0, nat_lit 4⟩]⟩,
    ⟨nat_lit 16, [⟨nat_lit 0, nat_lit 0, nat_lit 1, nat_lit 0, nat_lit 1⟩, ⟨nat_lit 0, nat_lit 2, nat_lit 3, nat_lit 0, nat_lit 5⟩]⟩,
    ⟨nat_lit 22, [⟨nat_lit 1, nat_lit 0, nat_lit 1, nat_lit 0, nat_lit 2⟩]⟩,
    ⟨nat_lit 10, [⟨nat_lit 0, nat_lit 0, nat_lit 1, nat_lit 0, nat_lit 1⟩]⟩,
    ⟨nat_lit 34, [⟨nat_lit 0, nat_lit 1, nat_lit 1, nat_lit 0, nat_lit 2⟩]⟩,
    ⟨nat_lit 18, [⟨nat_lit 0, nat_lit 2, nat_lit 1, nat_lit 0, nat_lit 3⟩]⟩,
    ⟨nat_lit 43, [⟨nat_lit 0, nat_lit 1, nat_lit 0, nat_lit 0, nat_lit 1⟩]⟩,
    ⟨nat_lit 27, [⟨nat_lit 0, nat_lit 2, nat_lit 0, nat_lit 0, nat_lit 2⟩]⟩,
    ⟨nat_lit 63, [⟨nat_lit 0, nat_lit 2, nat_lit 1, nat_lit 0, nat_lit 3⟩]⟩,
    ⟨nat_lit 275, [⟨nat_lit 0, nat_lit 1, nat_lit 0, nat_lit 0, nat_lit 1⟩]⟩,
    ⟨nat_lit 311, [⟨nat_lit 0, nat_lit 1, nat_lit 0, nat_lit 1, nat_lit 2⟩]⟩,
    ⟨nat_lit 285, [⟨nat_lit 0, nat_lit 1, nat_lit 0, nat_lit 2, nat_lit 3⟩]⟩,
    ⟨nat_lit 13, [⟨nat_lit 0, nat_lit 2, nat_lit 0, nat_lit 0, nat_lit 2⟩]⟩,
    ⟨nat_lit 261, [⟨nat_lit 0, nat_lit 1, nat_lit 0, nat_lit 0, nat_lit 1⟩]⟩,
    ⟨nat_lit 37, [⟨nat_lit 0, nat_lit 1, nat_lit 0, nat_lit 0, nat_lit 1⟩]⟩,
    ⟨nat_lit 7, [⟨nat_lit 0, nat_lit 2, nat_lit 0, nat_lit 1, nat_lit 3⟩]⟩,
    ⟨nat_lit 264, [⟨nat_lit 1, nat_lit 0, nat_lit 0, nat_lit 0, nat_lit 1⟩]⟩,
    ⟨nat_lit 258, [⟨nat_lit 1, nat_lit 0, nat_lit 0, nat_lit 1, nat_lit 2⟩]⟩,
    ⟨nat_lit 44, [⟨nat_lit 0, nat_lit 1, nat_lit 1, nat_lit 0, nat_lit 2⟩]⟩,
    ⟨nat_lit 4, [⟨nat_lit 0, nat_lit 2, nat_lit 1, nat_lit 0, nat_lit 3⟩]⟩,
    ⟨nat_lit 14, [⟨nat_lit 0, nat_lit 2, nat_lit 2, nat_lit 0, nat_lit 4⟩]⟩,
    ⟨nat_lit 52, [⟨nat_lit 0, nat_lit 2, nat_lit 2, nat_lit 0, nat_lit 4⟩]⟩,
    ⟨nat_lit 26, [⟨nat_lit 0, nat_lit 1, nat_lit 1, nat_lit 0, nat_lit 2⟩]⟩,
    ⟨nat_lit 283, [⟨nat_lit 0, nat_lit 2, nat_lit 0, nat_lit 2, nat_lit 4⟩]⟩,
    ⟨nat_lit 271, [⟨nat_lit 0, nat_lit 1, nat_lit 1, nat_lit 0, nat_lit 2⟩]⟩]

theorem form_l1 : formB Best.tri13L1L2Linf.mult (DilFast.coreOf tab_l1) = true := by decide +kernel

theorem autos_l1 : DilFast.autosF .l1 49 5 tab_l1 frow = true := by decide +kernel

theorem closed_l1 : DilFast.closedF .l1 3 9 49 5 frow tab_l1 tab_l1 = true := by decide +kernel

def pt1_l1 : Pt := ⟨[0, 8], [4, 4], 1 / 2, [1, 0]⟩
def pt2_l1 : Pt := ⟨[1, 4], [4, 4], 1 / 2, [0, 1]⟩
theorem low_l1 : lowB .l1 Best.tri13L1L2Linf 0 pt1_l1 pt2_l1 (49 / 5) := by decide +kernel

theorem cert_l1 : Cert .l1 Best.tri13L1L2Linf (49 / 5) (49 / 5) :=
  DilFast.cert (p := 0) (.inr (.inl rfl)) (vn := 49) (vd := 5) (by decide) rfl (by norm_num [bnd, Metric.sq]) div_eq genus_eq okRows rows form_l1 autos_l1 closed_l1
    (by norm_num [Metric.sq, Metric.ratio]; exact low_l1)

def tab_l2 : List DilFast.Bin := [
    ⟨nat_lit 19, [⟨nat_lit 0, nat_lit 1, nat_lit 0, nat_lit 0, nat_lit 1⟩]⟩,
    ⟨nat_lit 25, [⟨nat_lit 0, nat_lit 1, nat_lit 0, nat_lit 1, nat_lit 2⟩]⟩,
    ⟨nat_lit 5, [⟨nat_lit 0, nat_lit 1, nat_lit 0, nat_lit 0, nat_lit 1⟩]⟩,
    ⟨nat_lit 21, [⟨nat_lit 0, nat_lit 1, nat_lit 1, nat_lit 0, nat_lit 2⟩]⟩,
    ⟨nat_lit 16, [⟨nat_lit 0, nat_lit 0, nat_lit 1, nat_lit 0, nat_lit 1⟩]⟩,
    ⟨nat_lit 22, [⟨nat_lit 1, nat_lit 0, nat_lit 1, nat_lit 0, nat_lit 2⟩]⟩,
    ⟨nat_lit 10, [⟨nat_lit 0, nat_lit 0, nat_lit 1, nat_lit 0, nat_lit 1⟩]⟩,
    ⟨nat_lit 34, [⟨nat_lit 0, nat_lit 1, nat_lit 1, nat_lit 0, nat_lit 2⟩]⟩,
    ⟨nat_lit 18, [⟨nat_lit 0, nat_lit 2, nat_lit 1, nat_lit 0, nat_lit 3⟩]⟩,
    ⟨nat_lit 43, [⟨nat_lit 0, nat_lit 1, nat_lit 0, nat_lit 0, nat_lit 1⟩]⟩,
    ⟨nat_lit 27, [⟨nat_lit 0, nat_lit 2, nat_lit 0, nat_lit 0, nat_lit 2⟩]⟩,
    ⟨nat_lit 63, [⟨nat_lit 0, nat_lit 2, nat_lit 1, nat_lit 0, nat_lit 3⟩]⟩,
    ⟨nat_lit 275, [⟨nat_lit 0, nat_lit 1, nat_lit 0, nat_lit 0, nat_lit 1⟩]⟩,
    ⟨nat_lit 311, [⟨nat_lit 0, nat_lit 1, nat_lit 0, nat_lit 1, nat_lit 2⟩]⟩,
    ⟨nat_lit 285, [⟨nat_lit 0, nat_lit 1, nat_lit 0, nat_lit 2, nat_lit 3⟩]⟩,
    ⟨nat_lit 13, [⟨nat_lit 0, nat_lit 2, nat_lit 0, nat_lit 0, nat_lit 2⟩]⟩,
    ⟨nat_lit 261, [⟨nat_lit 0, nat_lit 1, nat_lit 0, nat_lit 0, nat_lit 1⟩]⟩,
    ⟨nat_lit 37, [⟨nat_lit 0, nat_lit 1, nat_lit 0, nat_lit 0, nat_lit 1⟩]⟩,
    ⟨nat_lit 7, [⟨nat_lit 0, nat_lit 2, nat_lit 0, nat_lit 1, nat_lit 3⟩]⟩,
    ⟨nat_lit 264, [⟨nat_lit 1, nat_lit 0, nat_lit 0, nat_lit 0, nat_lit 1⟩]⟩,
    ⟨nat_lit 258, [⟨nat_lit 1, nat_lit 0, nat_lit 0, nat_lit 1, nat_lit 2⟩]⟩,
    ⟨nat_lit 44, [⟨nat_lit 0, nat_lit 1, nat_lit 1, nat_lit 0, nat_lit 2⟩]⟩,
    ⟨nat_lit 4, [⟨nat_lit 0, nat_lit 2, nat_lit 1, nat_lit 0, nat_lit 3⟩]⟩,
    ⟨nat_lit 14, [⟨nat_lit 0, nat_lit 2, nat_lit 2, nat_lit 0, nat_lit 4⟩, ⟨nat_lit 0, nat_lit 2, nat_lit 8, nat_lit 0, nat_lit 18⟩]⟩,
    ⟨nat_lit 52, [⟨nat_lit 0, nat_lit 2, nat_lit 2, nat_lit 0, nat_lit 4⟩]⟩,
    ⟨nat_lit 26, [⟨nat_lit 0, nat_lit 1, nat_lit 1, nat_lit 0, nat_lit 2⟩]⟩,
    ⟨nat_lit 283, [⟨nat_lit 0, nat_lit 2, nat_lit 0, nat_lit 2, nat_lit 4⟩]⟩,
    ⟨nat_lit 271, [⟨nat_lit 0, nat_lit 1, nat_lit 1, nat_lit 0, nat_lit 2⟩]⟩]

theorem form_l2 : formB Best.tri13L1L2Linf.mult (DilFast.coreOf tab_l2) = true := by decide +kernel

theorem autos_l2 : DilFast.autosF .plane 5 1 tab_l2 frow = true := by decide +kernel

theorem closed_l2 : DilFast.closedF .plane 3 9 5 1 frow tab_l2 tab_l2 = true := by decide +kernel

def pt1_l2 : Pt := ⟨[0], [4, 4], 1 / 2, [1, 0]⟩
def pt2_l2 : Pt := ⟨[1], [4, 4], 1 / 2, [0, 1]⟩
theorem low_l2 : lowB .l2sq Best.tri13L1L2Linf 0 pt1_l2 pt2_l2 (25) := by decide +kernel

theorem cert_l2 : Cert .l2 Best.tri13L1L2Linf (5) (5) :=
  DilFast.cert (p := 0) (.inr (.inr rfl)) (vn := 5) (vd := 1) (by decide) rfl (by norm_num [bnd, Metric.sq]) div_eq genus_eq okRows rows form_l2 autos_l2 closed_l2
    (by norm_num [Metric.sq, Metric.ratio]; exact low_l2)

def tab_linf : List DilFast.Bin := [
    ⟨nat_lit 19, [⟨nat_lit 0, nat_lit 1, nat_lit 0, nat_lit 0, nat_lit 1⟩]⟩,
    ⟨nat_lit 5, [⟨nat_lit 0, nat_lit 1, nat_lit 0, nat_lit 0, nat_lit 1⟩]⟩,
    ⟨nat_lit 16, [⟨nat_lit 0, nat_lit 0, nat_lit 1, nat_lit 0, nat_lit 1⟩]⟩,
    ⟨nat_lit 10, [⟨nat_lit 0, nat_lit 0, nat_lit 1, nat_lit 0, nat_lit 1⟩]⟩,
    ⟨nat_lit 43, [⟨nat_lit 0, nat_lit 1, nat_lit 0, nat_lit 0, nat_lit 1⟩]⟩,
    ⟨nat_lit 27, [⟨nat_lit 0, nat_lit 2, nat_lit 0, nat_lit 0, nat_lit 2⟩]⟩,
    ⟨nat_lit 275, [⟨nat_lit 0, nat_lit 1, nat_lit 0, nat_lit 0, nat_lit 1⟩]⟩,
    ⟨nat_lit 13, [⟨nat_lit 0, nat_lit 2, nat_lit 0, nat_lit 0, nat_lit 2⟩]⟩,
    ⟨nat_lit 261, [⟨nat_lit 0, nat_lit 1, nat_lit 0, nat_lit 0, nat_lit 1⟩]⟩,
    ⟨nat_lit 37, [⟨nat_lit 0, nat_lit 1, nat_lit 0, nat_lit 0, nat_lit 1⟩]⟩,
    ⟨nat_lit 264, [⟨nat_lit 1, nat_lit 0, nat_lit 0, nat_lit 0, nat_lit 1⟩]⟩,
    ⟨nat_lit 20, [⟨nat_lit 0, nat_lit 0, nat_lit 8, nat_lit 0, nat_lit 18⟩]⟩,
    ⟨nat_lit 14, [⟨nat_lit 0, nat_lit 2, nat_lit 8, nat_lit 0, nat_lit 18⟩]⟩]

theorem form_linf : formB Best.tri13L1L2Linf.mult (DilFast.coreOf tab_linf) = true := by decide +kernel

theorem autos_linf : DilFast.autosF .linf 9 2 tab_linf frow = true := by decide +kernel

theorem closed_linf : DilFast.closedF .linf 3 9 9 2 frow tab_linf tab_linf = true := by decide +kernel

def pt1_linf : Pt := ⟨[4], [4, 4], 1 / 2, [1, 0]⟩
def pt2_linf : Pt := ⟨[6], [4, 4], 1 / 2, [1, 1]⟩
theorem low_linf : lowB .linf Best.tri13L1L2Linf 0 pt1_linf pt2_linf (9 / 2) := by decide +kernel

theorem cert_linf : Cert .linf Best.tri13L1L2Linf (9 / 2) (9 / 2) :=
  DilFast.cert (p := 0) (.inl rfl) (vn := 9) (vd := 2) (by decide) rfl (by norm_num [bnd, Metric.sq]) div_eq genus_eq okRows rows form_linf autos_linf closed_linf
    (by norm_num [Metric.sq, Metric.ratio]; exact low_linf)

end Peano.BestDil.Tri13L1L2Linf

namespace Peano.BestDil.Tri3L2
open DilCert Zoo

def frow : List (List DilFast.Row) := [
    [⟨nat_lit 0, nat_lit 0, nat_lit 11, nat_lit 0⟩, ⟨nat_lit 1, nat_lit 0, nat_lit 8, nat_lit 0⟩, ⟨nat_lit 2, nat_lit 0, nat_lit 5, nat_lit 0⟩, ⟨nat_lit 2, nat_lit 1, nat_lit 0, nat_lit 0⟩, ⟨nat_lit 2, nat_lit 2, nat_lit 0, nat_lit 0⟩, ⟨nat_lit 1, nat_lit 2, nat_lit 3, nat_lit 0⟩, ⟨nat_lit 1, nat_lit 1, nat_lit 13, nat_lit 0⟩, ⟨nat_lit 0, nat_lit 1, nat_lit 14, nat_lit 0⟩, ⟨nat_lit 0, nat_lit 2, nat_lit 0, nat_lit 0⟩],
    [⟨nat_lit 0, nat_lit 0, nat_lit 11, nat_lit 1⟩, ⟨nat_lit 1, nat_lit 0, nat_lit 8, nat_lit 1⟩, ⟨nat_lit 2, nat_lit 0, nat_lit 5, nat_lit 1⟩, ⟨nat_lit 2, nat_lit 1, nat_lit 0, nat_lit 1⟩, ⟨nat_lit 2, nat_lit 2, nat_lit 0, nat_lit 1⟩, ⟨nat_lit 1, nat_lit 2, nat_lit 3, nat_lit 1⟩, ⟨nat_lit 1, nat_lit 1, nat_lit 13, nat_lit 1⟩, ⟨nat_lit 0, nat_lit 1, nat_lit 14, nat_lit 1⟩, ⟨nat_lit 0, nat_lit 2, nat_lit 0, nat_lit 1⟩]]

theorem div_eq : Best.tri3L2.div = 3 := by decide +kernel

theorem genus_eq : Best.tri3L2.genus = 9 := by decide +kernel

theorem okRows : DilFast.OkRows 3 frow := by decide +kernel

theorem rows : Rows Best.tri3L2 (DilFast.prowOf frow) := by decide +kernel

def tab_l2 : List DilFast.Bin := [
    ⟨nat_lit 9, [⟨nat_lit 0, nat_lit 0, nat_lit 0, nat_lit 1, nat_lit 1⟩]⟩,
    ⟨nat_lit 31, [⟨nat_lit 0, nat_lit 0, nat_lit 0, nat_lit 2, nat_lit 2⟩, ⟨nat_lit 0, nat_lit 0, nat_lit 0, nat_lit 1, nat_lit 1⟩]⟩,
    ⟨nat_lit 25, [⟨nat_lit 1, nat_lit 0, nat_lit 0, nat_lit 2, nat_lit 3⟩, ⟨nat_lit 1, nat_lit 0, nat_lit 0, nat_lit 1, nat_lit 2⟩]⟩,
    ⟨nat_lit 22, [⟨nat_lit 0, nat_lit 0, nat_lit 1, nat_lit 0, nat_lit 1⟩]⟩,
    ⟨nat_lit 16, [⟨nat_lit 1, nat_lit 0, nat_lit 1, nat_lit 0, nat_lit 2⟩]⟩,
    ⟨nat_lit 15, [⟨nat_lit 0, nat_lit 1, nat_lit 0, nat_lit 2, nat_lit 3⟩, ⟨nat_lit 0, nat_lit 1, nat_lit 0, nat_lit 1, nat_lit 2⟩]⟩,
    ⟨nat_lit 0, [⟨nat_lit 0, nat_lit 0, nat_lit 1, nat_lit 0, nat_lit 1⟩]⟩,
    ⟨nat_lit 6, [⟨nat_lit 0, nat_lit 1, nat_lit 1, nat_lit 0, nat_lit 2⟩, ⟨nat_lit 0, nat_lit 1, nat_lit 0, nat_lit 0, nat_lit 1⟩]⟩,
    ⟨nat_lit 26, [⟨nat_lit 0, nat_lit 1, nat_lit 0, nat_lit 1, nat_lit 2⟩]⟩,
    ⟨nat_lit 28, [⟨nat_lit 0, nat_lit 2, nat_lit 0, nat_lit 1, nat_lit 3⟩, ⟨nat_lit 0, nat_lit 1, nat_lit 0, nat_lit 0, nat_lit 1⟩, ⟨nat_lit 0, nat_lit 4, nat_lit 0, nat_lit 2, nat_lit 6⟩]⟩,
    ⟨nat_lit 21, [⟨nat_lit 0, nat_lit 1, nat_lit 0, nat_lit 1, nat_lit 2⟩]⟩,
    ⟨nat_lit 297, [⟨nat_lit 0, nat_lit 0, nat_lit 0, nat_lit 1, nat_lit 1⟩]⟩,
    ⟨nat_lit 319, [⟨nat_lit 0, nat_lit 0, nat_lit 0, nat_lit 2, nat_lit 2⟩, ⟨nat_lit 0, nat_lit 0, nat_lit 0, nat_lit 1, nat_lit 1⟩]⟩,
    ⟨nat_lit 313, [⟨nat_lit 1, nat_lit 0, nat_lit 0, nat_lit 2, nat_lit 3⟩, ⟨nat_lit 1, nat_lit 0, nat_lit 0, nat_lit 1, nat_lit 2⟩]⟩,
    ⟨nat_lit 310, [⟨nat_lit 0, nat_lit 0, nat_lit 1, nat_lit 0, nat_lit 1⟩]⟩,
    ⟨nat_lit 304, [⟨nat_lit 1, nat_lit 0, nat_lit 1, nat_lit 0, nat_lit 2⟩]⟩,
    ⟨nat_lit 303, [⟨nat_lit 0, nat_lit 1, nat_lit 0, nat_lit 2, nat_lit 3⟩, ⟨nat_lit 0, nat_lit 1, nat_lit 0, nat_lit 1, nat_lit 2⟩]⟩,
    ⟨nat_lit 288, [⟨nat_lit 0, nat_lit 0, nat_lit 1, nat_lit 0, nat_lit 1⟩]⟩,
    ⟨nat_lit 294, [⟨nat_lit 0, nat_lit 1, nat_lit 1, nat_lit 0, nat_lit 2⟩, ⟨nat_lit 0, nat_lit 1, nat_lit 0, nat_lit 0, nat_lit 1⟩]⟩,
    ⟨nat_lit 314, [⟨nat_lit 0, nat_lit 1, nat_lit 0, nat_lit 1, nat_lit 2⟩]⟩,
    ⟨nat_lit 316, [⟨nat_lit 0, nat_lit 2, nat_lit 0, nat_lit 1, nat_lit 3⟩, ⟨nat_lit 0, nat_lit 1, nat_lit 0, nat_lit 0, nat_lit 1⟩, ⟨nat_lit 0, nat_lit 4, nat_lit 0, nat_lit 2, nat_lit 6⟩]⟩,
    ⟨nat_lit 309, [⟨nat_lit 0, nat_lit 1, nat_lit 0, nat_lit 1, nat_lit 2⟩]⟩,
    ⟨nat_lit 12, [⟨nat_lit 0, nat_lit 1, nat_lit 0, nat_lit 1, nat_lit 2⟩]⟩,
    ⟨nat_lit 10, [⟨nat_lit 1, nat_lit 0, nat_lit 1, nat_lit 0, nat_lit 2⟩]⟩,
    ⟨nat_lit 300, [⟨nat_lit 0, nat_lit 1, nat_lit 0, nat_lit 1, nat_lit 2⟩]⟩,
    ⟨nat_lit 298, [⟨nat_lit 1, nat_lit 0, nat_lit 1, nat_lit 0, nat_lit 2⟩]⟩]

theorem form_l2 : formB Best.tri3L2.mult (DilFast.coreOf tab_l2) = true := by decide +kernel

theorem autos_l2 : DilFast.autosF .plane 17 3 tab_l2 frow = true := by decide +kernel

theorem closed_l2 : DilFast.closedF .plane 3 9 17 3 frow tab_l2 tab_l2 = true := by decide +kernel

def pt1_l2 : Pt := ⟨[3, 7], [4], 1 / 2, [0, 0]⟩
def pt2_l2 : Pt := ⟨[4, 4], [4], 1 / 2, [1, 1]⟩
theorem low_l2 : lowB .l2sq Best.tri3L2 0 pt1_l2 pt2_l2 (289 / 9) := by decide +kernel

theorem cert_l2 : Cert .l2 Best.tri3L2 (17 / 3) (17 / 3) :=
  DilFast.cert (p := 0) (.inr (.inr rfl)) (vn := 17) (vd := 3) (by decide) rfl (by norm_num [bnd, Metric.sq]) div_eq genus_eq okRows rows form_l2 autos_l2 closed_l2
    (by norm_num [Metric.sq, Metric.ratio]; exact low_l2)

end Peano.BestDil.Tri3L2

namespace Peano.BestDil.Tri3Linf
open DilCert Zoo

def frow : List (List DilFast.Row) := [
    [⟨nat_lit 0, nat_lit 0, nat_lit 0, nat_lit 0⟩, ⟨nat_lit 0, nat_lit 1, nat_lit 8, nat_lit 0⟩, ⟨nat_lit 1, nat_lit 1, nat_lit 11, nat_lit 0⟩, ⟨nat_lit 1, nat_lit 0, nat_lit 3, nat_lit 0⟩, ⟨nat_lit 2, nat_lit 0, nat_lit 0, nat_lit 0⟩, ⟨nat_lit 2, nat_lit 1, nat_lit 5, nat_lit 0⟩, ⟨nat_lit 2, nat_lit 2, nat_lit 5, nat_lit 0⟩, ⟨nat_lit 1, nat_lit 2, nat_lit 14, nat_lit 0⟩, ⟨nat_lit 0, nat_lit 2, nat_lit 13, nat_lit 0⟩],
    [⟨nat_lit 0, nat_lit 0, nat_lit 0, nat_lit 1⟩, ⟨nat_lit 0, nat_lit 1, nat_lit 8, nat_lit 1⟩, ⟨nat_lit 1, nat_lit 1, nat_lit 11, nat_lit 1⟩, ⟨nat_lit 1, nat_lit 0, nat_lit 3, nat_lit 1⟩, ⟨nat_lit 2, nat_lit 0, nat_lit 0, nat_lit 1⟩, ⟨nat_lit 2, nat_lit 1, nat_lit 5, nat_lit 1⟩, ⟨nat_lit 2, nat_lit 2, nat_lit 5, nat_lit 1⟩, ⟨nat_lit 1, nat_lit 2, nat_lit 14, nat_lit 1⟩, ⟨nat_lit 0, nat_lit 2, nat_lit 13, nat_lit 1⟩]]

theorem div_eq : Best.tri3Linf.div = 3 := by decide +kernel

theorem genus_eq : Best.tri3Linf.genus = 9 := by decide +kernel

theorem okRows : DilFast.OkRows 3 frow := by decide +kernel

theorem rows : Rows Best.tri3Linf (DilFast.prowOf frow) := by decide +kernel

def tab_linf : List DilFast.Bin := [
    ⟨nat_lit 16, [⟨nat_lit 0, nat_lit 0, nat_lit 1, nat_lit 0, nat_lit 1⟩]⟩,
    ⟨nat_lit 10, [⟨nat_lit 0, nat_lit 0, nat_lit 1, nat_lit 0, nat_lit 1⟩, ⟨nat_lit 0, nat_lit 0, nat_lit 2, nat_lit 0, nat_lit 2⟩]⟩,
    ⟨nat_lit 19, [⟨nat_lit 0, nat_lit 1, nat_lit 0, nat_lit 0, nat_lit 1⟩, ⟨nat_lit 0, nat_lit 2, nat_lit 0, nat_lit 0, nat_lit 2⟩]⟩,
    ⟨nat_lit 5, [⟨nat_lit 0, nat_lit 1, nat_lit 0, nat_lit 0, nat_lit 1⟩, ⟨nat_lit 0, nat_lit 2, nat_lit 0, nat_lit 0, nat_lit 2⟩]⟩,
    ⟨nat_lit 3, [⟨nat_lit 0, nat_lit 0, nat_lit 0, nat_lit 1, nat_lit 1⟩]⟩,
    ⟨nat_lit 21, [⟨nat_lit 0, nat_lit 1, nat_lit 0, nat_lit 0, nat_lit 1⟩]⟩,
    ⟨nat_lit 304, [⟨nat_lit 0, nat_lit 0, nat_lit 1, nat_lit 0, nat_lit 1⟩]⟩,
    ⟨nat_lit 298, [⟨nat_lit 0, nat_lit 0, nat_lit 1, nat_lit 0, nat_lit 1⟩, ⟨nat_lit 0, nat_lit 0, nat_lit 2, nat_lit 0, nat_lit 2⟩]⟩,
    ⟨nat_lit 307, [⟨nat_lit 0, nat_lit 1, nat_lit 0, nat_lit 0, nat_lit 1⟩, ⟨nat_lit 0, nat_lit 2, nat_lit 0, nat_lit 0, nat_lit 2⟩]⟩,
    ⟨nat_lit 293, [⟨nat_lit 0, nat_lit 1, nat_lit 0, nat_lit 0, nat_lit 1⟩, ⟨nat_lit 0, nat_lit 2, nat_lit 0, nat_lit 0, nat_lit 2⟩]⟩,
    ⟨nat_lit 291, [⟨nat_lit 0, nat_lit 0, nat_lit 0, nat_lit 1, nat_lit 1⟩]⟩,
    ⟨nat_lit 309, [⟨nat_lit 0, nat_lit 1, nat_lit 0, nat_lit 0, nat_lit 1⟩]⟩,
    ⟨nat_lit 25, [⟨nat_lit 0, nat_lit 0, nat_lit 0, nat_lit 1, nat_lit 1⟩]⟩,
    ⟨nat_lit 313, [⟨nat_lit 0, nat_lit 0, nat_lit 0, nat_lit 1, nat_lit 1⟩]⟩]

theorem form_linf : formB Best.tri3Linf.mult (DilFast.coreOf tab_linf) = true := by decide +kernel

theorem autos_linf : DilFast.autosF .linf 9 2 tab_linf frow = true := by decide +kernel

theorem closed_linf : DilFast.closedF .linf 3 9 9 2 frow tab_linf tab_linf = true := by decide +kernel

def pt1_linf : Pt := ⟨[4], [4], 1 / 2, [1, 0]⟩
def pt2_linf : Pt := ⟨[6], [4], 1 / 2, [1, 1]⟩
theorem low_linf : lowB .linf Best.tri3Linf 0 pt1_linf pt2_linf (9 / 2) := by decide +kernel

theorem cert_linf : Cert .linf Best.tri3Linf (9 / 2) (9 / 2) :=
  DilFast.cert (p := 0) (.inl rfl) (vn := 9) (vd := 2) (by decide) rfl (by norm_num [bnd, Metric.sq]) div_eq genus_eq okRows rows form_linf autos_linf closed_linf
    (by norm_num [Metric.sq, Metric.ratio]; exact low_linf)

end Peano.BestDil.Tri3Linf
