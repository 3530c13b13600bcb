import Verif.Lemmas.DilFast
import Verif.MinCerts.Curves
import Verif.Model.Zoo

set_option autoImplicit false
set_option maxRecDepth 100000
set_option linter.dupNamespace false

/-
Certificates for the dilations of the best monofractal curves (diagonal and median).  This file is generated.
-/

namespace Peano.BestDil.Diag3L1
open DilCert Zoo

def frow : List (List DilFast.Row) := [
    [⟨nat_lit 0, nat_lit 0, nat_lit 8, nat_lit 0⟩, ⟨nat_lit 0, nat_lit 1, nat_lit 10, nat_lit 0⟩, ⟨nat_lit 0, nat_lit 2, nat_lit 15, nat_lit 0⟩, ⟨nat_lit 1, nat_lit 2, nat_lit 3, nat_lit 0⟩, ⟨nat_lit 1, nat_lit 1, nat_lit 9, nat_lit 0⟩, ⟨nat_lit 1, nat_lit 0, nat_lit 4, nat_lit 0⟩, ⟨nat_lit 2, nat_lit 0, nat_lit 7, nat_lit 0⟩, ⟨nat_lit 2, nat_lit 1, nat_lit 10, nat_lit 0⟩, ⟨nat_lit 2, nat_lit 2, nat_lit 0, nat_lit 0⟩]]

theorem div_eq : Best.diag3L1.div = 3 := by decide +kernel

theorem genus_eq : Best.diag3L1.genus = 9 := by decide +kernel

theorem okRows : DilFast.OkRows 3 frow := by decide +kernel

theorem rows : Rows Best.diag3L1 (DilFast.prowOf frow) := by decide +kernel

def tab_l1 : List DilFast.Bin := [
    ⟨nat_lit 8, [⟨nat_lit 1, nat_lit 0, nat_lit 0, nat_lit 0, nat_lit 1⟩]⟩,
    ⟨nat_lit 14, [⟨nat_lit 2, nat_lit 0, nat_lit 0, nat_lit 0, nat_lit 2⟩, ⟨nat_lit 4, nat_lit 0, nat_lit 0, nat_lit 2, nat_lit 6⟩]⟩,
    ⟨nat_lit 26, [⟨nat_lit 2, nat_lit 0, nat_lit 1, nat_lit 0, nat_lit 3⟩, ⟨nat_lit 2, nat_lit 0, nat_lit 3, nat_lit 0, nat_lit 5⟩]⟩,
    ⟨nat_lit 6, [⟨nat_lit 1, nat_lit 0, nat_lit 0, nat_lit 0, nat_lit 1⟩]⟩,
    ⟨nat_lit 18, [⟨nat_lit 1, nat_lit 0, nat_lit 0, nat_lit 1, nat_lit 2⟩]⟩,
    ⟨nat_lit 23, [⟨nat_lit 0, nat_lit 0, nat_lit 0, nat_lit 1, nat_lit 1⟩]⟩,
    ⟨nat_lit 15, [⟨nat_lit 1, nat_lit 0, nat_lit 0, nat_lit 1, nat_lit 2⟩]⟩,
    ⟨nat_lit 25, [⟨nat_lit 2, nat_lit 0, nat_lit 0, nat_lit 1, nat_lit 3⟩, ⟨nat_lit 0, nat_lit 0, nat_lit 0, nat_lit 1, nat_lit 1⟩]⟩,
    ⟨nat_lit 19, [⟨nat_lit 2, nat_lit 0, nat_lit 0, nat_lit 2, nat_lit 4⟩, ⟨nat_lit 0, nat_lit 2, nat_lit 0, nat_lit 2, nat_lit 4⟩]⟩,
    ⟨nat_lit 13, [⟨nat_lit 0, nat_lit 0, nat_lit 0, nat_lit 2, nat_lit 2⟩]⟩,
    ⟨nat_lit 11, [⟨nat_lit 0, nat_lit 1, nat_lit 0, nat_lit 2, nat_lit 3⟩, ⟨nat_lit 0, nat_lit 3, nat_lit 0, nat_lit 2, nat_lit 5⟩, ⟨nat_lit 0, nat_lit 1, nat_lit 0, nat_lit 0, nat_lit 1⟩]⟩,
    ⟨nat_lit 21, [⟨nat_lit 0, nat_lit 1, nat_lit 0, nat_lit 0, nat_lit 1⟩]⟩,
    ⟨nat_lit 31, [⟨nat_lit 0, nat_lit 1, nat_lit 1, nat_lit 0, nat_lit 2⟩]⟩,
    ⟨nat_lit 28, [⟨nat_lit 1, nat_lit 0, nat_lit 0, nat_lit 1, nat_lit 2⟩]⟩,
    ⟨nat_lit 24, [⟨nat_lit 1, nat_lit 0, nat_lit 0, nat_lit 0, nat_lit 1⟩]⟩,
    ⟨nat_lit 16, [⟨nat_lit 2, nat_lit 0, nat_lit 0, nat_lit 2, nat_lit 4⟩, ⟨nat_lit 2, nat_lit 0, nat_lit 2, nat_lit 0, nat_lit 4⟩]⟩,
    ⟨nat_lit 12, [⟨nat_lit 1, nat_lit 0, nat_lit 0, nat_lit 1, nat_lit 2⟩]⟩,
    ⟨nat_lit 22, [⟨nat_lit 1, nat_lit 0, nat_lit 0, nat_lit 2, nat_lit 3⟩, ⟨nat_lit 3, nat_lit 0, nat_lit 0, nat_lit 2, nat_lit 5⟩]⟩,
    ⟨nat_lit 3, [⟨nat_lit 0, nat_lit 2, nat_lit 0, nat_lit 0, nat_lit 2⟩]⟩,
    ⟨nat_lit 5, [⟨nat_lit 0, nat_lit 1, nat_lit 2, nat_lit 0, nat_lit 3⟩, ⟨nat_lit 0, nat_lit 1, nat_lit 0, nat_lit 2, nat_lit 3⟩]⟩,
    ⟨nat_lit 0, [⟨nat_lit 2, nat_lit 0, nat_lit 0, nat_lit 2, nat_lit 4⟩, ⟨nat_lit 2, nat_lit 0, nat_lit 0, nat_lit 0, nat_lit 2⟩]⟩,
    ⟨nat_lit 20, [⟨nat_lit 2, nat_lit 0, nat_lit 1, nat_lit 0, nat_lit 3⟩]⟩,
    ⟨nat_lit 17, [⟨nat_lit 0, nat_lit 1, nat_lit 1, nat_lit 0, nat_lit 2⟩]⟩,
    ⟨nat_lit 29, [⟨nat_lit 0, nat_lit 0, nat_lit 0, nat_lit 2, nat_lit 2⟩, ⟨nat_lit 0, nat_lit 2, nat_lit 0, nat_lit 0, nat_lit 2⟩]⟩,
    ⟨nat_lit 27, [⟨nat_lit 0, nat_lit 1, nat_lit 2, nat_lit 0, nat_lit 3⟩]⟩]

theorem form_l1 : formB Best.diag3L1.mult (DilFast.coreOf tab_l1) = true := by decide +kernel

theorem autos_l1 : DilFast.autosF .l1 10 1 tab_l1 frow = true := by decide +kernel

theorem closed_l1 : DilFast.closedF .l1 3 9 10 1 frow tab_l1 tab_l1 = true := by decide +kernel

def pt1_l1 : Pt := ⟨[3], [6, 2], 7 / 10, [1, 1]⟩
def pt2_l1 : Pt := ⟨[5], [2, 6], 3 / 10, [0, 0]⟩
theorem low_l1 : lowB .l1 Best.diag3L1 0 pt1_l1 pt2_l1 (10) := by decide +kernel

theorem cert_l1 : Cert .l1 Best.diag3L1 (10) (10) :=
  DilFast.cert (p := 0) (.inr (.inl rfl)) (vn := 10) (vd := 1) (by decide) rfl (by norm_num [bnd, Metric.sq]) div_eq genus_eq okRows rows form_l1 autos_l1 closed_l1
    (by norm_num [Metric.sq, Metric.ratio]; exact low_l1)

end Peano.BestDil.Diag3L1

namespace Peano.BestDil.Diag3L2Linf
open DilCert Zoo

def frow : List (List DilFast.Row) := [
    [⟨nat_lit 0, nat_lit 0, nat_lit 0, nat_lit 0⟩, ⟨nat_lit 1, nat_lit 0, nat_lit 12, nat_lit 0⟩, ⟨nat_lit 2, nat_lit 0, nat_lit 8, nat_lit 0⟩, ⟨nat_lit 2, nat_lit 1, nat_lit 2, nat_lit 0⟩, ⟨nat_lit 1, nat_lit 1, nat_lit 14, nat_lit 0⟩, ⟨nat_lit 0, nat_lit 1, nat_lit 10, nat_lit 0⟩, ⟨nat_lit 0, nat_lit 2, nat_lit 0, nat_lit 0⟩, ⟨nat_lit 1, nat_lit 2, nat_lit 12, nat_lit 0⟩, ⟨nat_lit 2, nat_lit 2, nat_lit 8, nat_lit 0⟩]]

theorem div_eq : Best.diag3L2Linf.div = 3 := by decide +kernel

theorem genus_eq : Best.diag3L2Linf.genus = 9 := by decide +kernel

theorem okRows : DilFast.OkRows 3 frow := by decide +kernel

theorem rows : Rows Best.diag3L2Linf (DilFast.prowOf frow) := by decide +kernel

def tab_l2 : List DilFast.Bin := [
    ⟨nat_lit 24, [⟨nat_lit 1, nat_lit 0, nat_lit 0, nat_lit 0, nat_lit 1⟩, ⟨nat_lit 3, nat_lit 0, nat_lit 0, nat_lit 0, nat_lit 3⟩]⟩,
    ⟨nat_lit 16, [⟨nat_lit 2, nat_lit 0, nat_lit 0, nat_lit 0, nat_lit 2⟩, ⟨nat_lit 4, nat_lit 0, nat_lit 0, nat_lit 2, nat_lit 6⟩]⟩,
    ⟨nat_lit 4, [⟨nat_lit 2, nat_lit 0, nat_lit 1, nat_lit 0, nat_lit 3⟩, ⟨nat_lit 0, nat_lit 0, nat_lit 1, nat_lit 0, nat_lit 1⟩]⟩,
    ⟨nat_lit 28, [⟨nat_lit 0, nat_lit 1, nat_lit 1, nat_lit 0, nat_lit 2⟩]⟩,
    ⟨nat_lit 12, [⟨nat_lit 1, nat_lit 0, nat_lit 0, nat_lit 1, nat_lit 2⟩, ⟨nat_lit 1, nat_lit 0, nat_lit 0, nat_lit 3, nat_lit 4⟩, ⟨nat_lit 3, nat_lit 0, nat_lit 0, nat_lit 1, nat_lit 4⟩]⟩,
    ⟨nat_lit 8, [⟨nat_lit 1, nat_lit 0, nat_lit 0, nat_lit 2, nat_lit 3⟩, ⟨nat_lit 3, nat_lit 0, nat_lit 0, nat_lit 2, nat_lit 5⟩]⟩,
    ⟨nat_lit 0, [⟨nat_lit 0, nat_lit 0, nat_lit 2, nat_lit 0, nat_lit 2⟩]⟩,
    ⟨nat_lit 20, [⟨nat_lit 0, nat_lit 2, nat_lit 1, nat_lit 0, nat_lit 3⟩]⟩]

theorem form_l2 : formB Best.diag3L2Linf.mult (DilFast.coreOf tab_l2) = true := by decide +kernel

theorem autos_l2 : DilFast.autosF .plane 17 3 tab_l2 frow = true := by decide +kernel

theorem closed_l2 : DilFast.closedF .plane 3 9 17 3 frow tab_l2 tab_l2 = true := by decide +kernel

def pt1_l2 : Pt := ⟨[0, 6], [6], 3 / 4, [0, 1]⟩
def pt2_l2 : Pt := ⟨[1, 3], [6], 3 / 4, [1, 0]⟩
theorem low_l2 : lowB .l2sq Best.diag3L2Linf 0 pt1_l2 pt2_l2 (289 / 9) := by decide +kernel

theorem cert_l2 : Cert .l2 Best.diag3L2Linf (17 / 3) (17 / 3) :=
  DilFast.cert (p := 0) (.inr (.inr rfl)) (vn := 17) (vd := 3) (by decide) rfl (by norm_num [bnd, Metric.sq]) div_eq genus_eq okRows rows form_l2 autos_l2 closed_l2
    (by norm_num [Metric.sq, Metric.ratio]; exact low_l2)

def tab_linf : List DilFast.Bin := [
    ⟨nat_lit 24, [⟨nat_lit 1, nat_lit 0, nat_lit 0, nat_lit 0, nat_lit 1⟩, ⟨nat_lit 3, nat_lit 0, nat_lit 0, nat_lit 0, nat_lit 3⟩]⟩,
    ⟨nat_lit 16, [⟨nat_lit 2, nat_lit 0, nat_lit 0, nat_lit 0, nat_lit 2⟩]⟩,
    ⟨nat_lit 4, [⟨nat_lit 0, nat_lit 0, nat_lit 1, nat_lit 0, nat_lit 1⟩]⟩,
    ⟨nat_lit 0, [⟨nat_lit 0, nat_lit 0, nat_lit 2, nat_lit 0, nat_lit 2⟩]⟩]

theorem form_linf : formB Best.diag3L2Linf.mult (DilFast.coreOf tab_linf) = true := by decide +kernel

theorem autos_linf : DilFast.autosF .linf 16 3 tab_linf frow = true := by decide +kernel

theorem closed_linf : DilFast.closedF .linf 3 9 16 3 frow tab_linf tab_linf = true := by decide +kernel

def pt1_linf : Pt := ⟨[0, 6], [6], 3 / 4, [0, 1]⟩
def pt2_linf : Pt := ⟨[1, 0], [6], 3 / 4, [1, 1]⟩
theorem low_linf : lowB .linf Best.diag3L2Linf 0 pt1_linf pt2_linf (16 / 3) := by decide +kernel

theorem cert_linf : Cert .linf Best.diag3L2Linf (16 / 3) (16 / 3) :=
  DilFast.cert (p := 0) (.inl rfl) (vn := 16) (vd := 3) (by decide) rfl (by norm_num [bnd, Metric.sq]) div_eq genus_eq okRows rows form_linf autos_linf closed_linf
    (by norm_num [Metric.sq, Metric.ratio]; exact low_linf)

end Peano.BestDil.Diag3L2Linf

namespace Peano.BestDil.Diag5aL2
open DilCert Zoo

def frow : List (List DilFast.Row) := [
    [⟨nat_lit 0, nat_lit 0, nat_lit 15, nat_lit 0⟩, ⟨nat_lit 0, nat_lit 1, nat_lit 10, nat_lit 0⟩, ⟨nat_lit 0, nat_lit 2, nat_lit 8, nat_lit 0⟩, ⟨nat_lit 0, nat_lit 3, nat_lit 10, nat_lit 0⟩, ⟨nat_lit 0, nat_lit 4, nat_lit 8, nat_lit 0⟩, ⟨nat_lit 1, nat_lit 4, nat_lit 4, nat_lit 0⟩, ⟨nat_lit 1, nat_lit 3, nat_lit 9, nat_lit 0⟩, ⟨nat_lit 1, nat_lit 2, nat_lit 3, nat_lit 0⟩, ⟨nat_lit 2, nat_lit 2, nat_lit 0, nat_lit 0⟩, ⟨nat_lit 3, nat_lit 2, nat_lit 4, nat_lit 0⟩, ⟨nat_lit 3, nat_lit 1, nat_lit 1, nat_lit 0⟩, ⟨nat_lit 2, nat_lit 1, nat_lit 2, nat_lit 0⟩, ⟨nat_lit 1, nat_lit 1, nat_lit 6, nat_lit 0⟩, ⟨nat_lit 1, nat_lit 0, nat_lit 3, nat_lit 0⟩, ⟨nat_lit 2, nat_lit 0, nat_lit 7, nat_lit 0⟩, ⟨nat_lit 3, nat_lit 0, nat_lit 3, nat_lit 0⟩, ⟨nat_lit 4, nat_lit 0, nat_lit 0, nat_lit 0⟩, ⟨nat_lit 4, nat_lit 1, nat_lit 10, nat_lit 0⟩, ⟨nat_lit 4, nat_lit 2, nat_lit 8, nat_lit 0⟩, ⟨nat_lit 4, nat_lit 3, nat_lit 5, nat_lit 0⟩, ⟨nat_lit 3, nat_lit 3, nat_lit 1, nat_lit 0⟩, ⟨nat_lit 2, nat_lit 3, nat_lit 2, nat_lit 0⟩, ⟨nat_lit 2, nat_lit 4, nat_lit 7, nat_lit 0⟩, ⟨nat_lit 3, nat_lit 4, nat_lit 4, nat_lit 0⟩, ⟨nat_lit 4, nat_lit 4, nat_lit 0, nat_lit 0⟩]]

theorem div_eq : Best.diag5aL2.div = 5 := by decide +kernel

theorem genus_eq : Best.diag5aL2.genus = 25 := by decide +kernel

theorem okRows : DilFast.OkRows 5 frow := by decide +kernel

theorem rows : Rows Best.diag5aL2 (DilFast.prowOf frow) := by decide +kernel

def tab_l2 : List DilFast.Bin := [
    ⟨nat_lit 5, [⟨nat_lit 0, nat_lit 1, nat_lit 0, nat_lit 0, nat_lit 1⟩]⟩,
    ⟨nat_lit 13, [⟨nat_lit 0, nat_lit 2, nat_lit 0, nat_lit 0, nat_lit 2⟩, ⟨nat_lit 0, nat_lit 4, nat_lit 0, nat_lit 0, nat_lit 4⟩]⟩,
    ⟨nat_lit 25, [⟨nat_lit 0, nat_lit 4, nat_lit 0, nat_lit 1, nat_lit 5⟩, ⟨nat_lit 0, nat_lit 2, nat_lit 0, nat_lit 1, nat_lit 3⟩]⟩,
    ⟨nat_lit 8, [⟨nat_lit 1, nat_lit 0, nat_lit 0, nat_lit 0, nat_lit 1⟩]⟩,
    ⟨nat_lit 0, [⟨nat_lit 2, nat_lit 0, nat_lit 0, nat_lit 0, nat_lit 2⟩]⟩,
    ⟨nat_lit 28, [⟨nat_lit 3, nat_lit 0, nat_lit 0, nat_lit 1, nat_lit 4⟩, ⟨nat_lit 1, nat_lit 0, nat_lit 0, nat_lit 1, nat_lit 2⟩]⟩,
    ⟨nat_lit 20, [⟨nat_lit 2, nat_lit 0, nat_lit 1, nat_lit 0, nat_lit 3⟩, ⟨nat_lit 0, nat_lit 0, nat_lit 1, nat_lit 0, nat_lit 1⟩]⟩,
    ⟨nat_lit 2, [⟨nat_lit 0, nat_lit 1, nat_lit 1, nat_lit 0, nat_lit 2⟩, ⟨nat_lit 1, nat_lit 0, nat_lit 0, nat_lit 1, nat_lit 2⟩]⟩,
    ⟨nat_lit 26, [⟨nat_lit 0, nat_lit 2, nat_lit 1, nat_lit 0, nat_lit 3⟩, ⟨nat_lit 0, nat_lit 0, nat_lit 1, nat_lit 0, nat_lit 1⟩]⟩,
    ⟨nat_lit 18, [⟨nat_lit 0, nat_lit 3, nat_lit 3, nat_lit 0, nat_lit 6⟩, ⟨nat_lit 1, nat_lit 0, nat_lit 0, nat_lit 1, nat_lit 2⟩, ⟨nat_lit 0, nat_lit 3, nat_lit 1, nat_lit 0, nat_lit 4⟩, ⟨nat_lit 0, nat_lit 1, nat_lit 7, nat_lit 0, nat_lit 12⟩, ⟨nat_lit 0, nat_lit 1, nat_lit 3, nat_lit 0, nat_lit 4⟩]⟩,
    ⟨nat_lit 14, [⟨nat_lit 0, nat_lit 0, nat_lit 2, nat_lit 0, nat_lit 2⟩]⟩,
    ⟨nat_lit 10, [⟨nat_lit 2, nat_lit 0, nat_lit 3, nat_lit 0, nat_lit 5⟩, ⟨nat_lit 0, nat_lit 0, nat_lit 1, nat_lit 0, nat_lit 1⟩]⟩,
    ⟨nat_lit 27, [⟨nat_lit 0, nat_lit 1, nat_lit 0, nat_lit 0, nat_lit 1⟩]⟩,
    ⟨nat_lit 17, [⟨nat_lit 0, nat_lit 1, nat_lit 1, nat_lit 0, nat_lit 2⟩]⟩,
    ⟨nat_lit 21, [⟨nat_lit 0, nat_lit 1, nat_lit 2, nat_lit 0, nat_lit 3⟩, ⟨nat_lit 0, nat_lit 3, nat_lit 4, nat_lit 0, nat_lit 7⟩]⟩,
    ⟨nat_lit 7, [⟨nat_lit 0, nat_lit 2, nat_lit 0, nat_lit 1, nat_lit 3⟩, ⟨nat_lit 0, nat_lit 4, nat_lit 0, nat_lit 1, nat_lit 5⟩]⟩,
    ⟨nat_lit 12, [⟨nat_lit 0, nat_lit 1, nat_lit 1, nat_lit 0, nat_lit 2⟩]⟩,
    ⟨nat_lit 4, [⟨nat_lit 0, nat_lit 2, nat_lit 1, nat_lit 0, nat_lit 3⟩, ⟨nat_lit 0, nat_lit 4, nat_lit 1, nat_lit 0, nat_lit 5⟩]⟩,
    ⟨nat_lit 11, [⟨nat_lit 0, nat_lit 1, nat_lit 0, nat_lit 0, nat_lit 1⟩]⟩,
    ⟨nat_lit 3, [⟨nat_lit 0, nat_lit 2, nat_lit 0, nat_lit 0, nat_lit 2⟩]⟩,
    ⟨nat_lit 15, [⟨nat_lit 0, nat_lit 3, nat_lit 3, nat_lit 0, nat_lit 6⟩, ⟨nat_lit 0, nat_lit 1, nat_lit 3, nat_lit 0, nat_lit 4⟩, ⟨nat_lit 0, nat_lit 1, nat_lit 1, nat_lit 0, nat_lit 2⟩]⟩,
    ⟨nat_lit 16, [⟨nat_lit 0, nat_lit 0, nat_lit 2, nat_lit 0, nat_lit 2⟩]⟩,
    ⟨nat_lit 30, [⟨nat_lit 2, nat_lit 0, nat_lit 0, nat_lit 0, nat_lit 2⟩, ⟨nat_lit 0, nat_lit 0, nat_lit 2, nat_lit 0, nat_lit 2⟩]⟩,
    ⟨nat_lit 22, [⟨nat_lit 3, nat_lit 0, nat_lit 2, nat_lit 0, nat_lit 5⟩, ⟨nat_lit 1, nat_lit 0, nat_lit 0, nat_lit 0, nat_lit 1⟩]⟩,
    ⟨nat_lit 24, [⟨nat_lit 1, nat_lit 0, nat_lit 0, nat_lit 2, nat_lit 3⟩, ⟨nat_lit 1, nat_lit 0, nat_lit 0, nat_lit 4, nat_lit 5⟩]⟩,
    ⟨nat_lit 19, [⟨nat_lit 0, nat_lit 2, nat_lit 4, nat_lit 0, nat_lit 6⟩, ⟨nat_lit 0, nat_lit 4, nat_lit 0, nat_lit 2, nat_lit 6⟩, ⟨nat_lit 0, nat_lit 4, nat_lit 2, nat_lit 0, nat_lit 6⟩]⟩,
    ⟨nat_lit 23, [⟨nat_lit 0, nat_lit 2, nat_lit 0, nat_lit 1, nat_lit 3⟩, ⟨nat_lit 0, nat_lit 4, nat_lit 0, nat_lit 1, nat_lit 5⟩]⟩,
    ⟨nat_lit 31, [⟨nat_lit 0, nat_lit 3, nat_lit 1, nat_lit 0, nat_lit 4⟩, ⟨nat_lit 0, nat_lit 1, nat_lit 1, nat_lit 0, nat_lit 2⟩]⟩]

theorem form_l2 : formB Best.diag5aL2.mult (DilFast.coreOf tab_l2) = true := by decide +kernel

theorem autos_l2 : DilFast.autosF .plane 6 1 tab_l2 frow = true := by decide +kernel

theorem closed_l2 : DilFast.closedF .plane 5 25 6 1 frow tab_l2 tab_l2 = true := by decide +kernel

def pt1_l2 : Pt := ⟨[0], [8], 1 / 3, [1, 0]⟩
def pt2_l2 : Pt := ⟨[4], [16], 2 / 3, [0, 1]⟩
theorem low_l2 : lowB .l2sq Best.diag5aL2 0 pt1_l2 pt2_l2 (36) := by decide +kernel

theorem cert_l2 : Cert .l2 Best.diag5aL2 (6) (6) :=
  DilFast.cert (p := 0) (.inr (.inr rfl)) (vn := 6) (vd := 1) (by decide) rfl (by norm_num [bnd, Metric.sq]) div_eq genus_eq okRows rows form_l2 autos_l2 closed_l2
    (by norm_num [Metric.sq, Metric.ratio]; exact low_l2)

end Peano.BestDil.Diag5aL2

namespace Peano.BestDil.Med4L1L2Linf
open DilCert Zoo

def frow : List (List DilFast.Row) := [
    [⟨nat_lit 0, nat_lit 0, nat_lit 0, nat_lit 0⟩, ⟨nat_lit 1, nat_lit 0, nat_lit 7, nat_lit 0⟩, ⟨nat_lit 1, nat_lit 1, nat_lit 2, nat_lit 0⟩, ⟨nat_lit 0, nat_lit 1, nat_lit 5, nat_lit 0⟩, ⟨nat_lit 0, nat_lit 2, nat_lit 8, nat_lit 0⟩, ⟨nat_lit 0, nat_lit 3, nat_lit 15, nat_lit 0⟩, ⟨nat_lit 1, nat_lit 3, nat_lit 12, nat_lit 0⟩, ⟨nat_lit 1, nat_lit 2, nat_lit 11, nat_lit 0⟩, ⟨nat_lit 2, nat_lit 1, nat_lit 12, nat_lit 0⟩, ⟨nat_lit 2, nat_lit 0, nat_lit 11, nat_lit 0⟩, ⟨nat_lit 3, nat_lit 0, nat_lit 8, nat_lit 0⟩, ⟨nat_lit 3, nat_lit 1, nat_lit 13, nat_lit 0⟩, ⟨nat_lit 2, nat_lit 2, nat_lit 10, nat_lit 0⟩, ⟨nat_lit 2, nat_lit 3, nat_lit 15, nat_lit 0⟩, ⟨nat_lit 3, nat_lit 3, nat_lit 12, nat_lit 0⟩, ⟨nat_lit 3, nat_lit 2, nat_lit 11, nat_lit 0⟩]]

theorem div_eq : Best.med4L1L2Linf.div = 4 := by decide +kernel

theorem genus_eq : Best.med4L1L2Linf.genus = 16 := by decide +kernel

theorem okRows : DilFast.OkRows 4 frow := by decide +kernel

theorem rows : Rows Best.med4L1L2Linf (DilFast.prowOf frow) := by decide +kernel

def tab_l1 : List DilFast.Bin := [
    ⟨nat_lit 14, [⟨nat_lit 1, nat_lit 0, nat_lit 0, nat_lit 0, nat_lit 1⟩, ⟨nat_lit 15, nat_lit 0, nat_lit 0, nat_lit 15, nat_lit 75⟩]⟩,
    ⟨nat_lit 4, [⟨nat_lit 1, nat_lit 0, nat_lit 1, nat_lit 0, nat_lit 2⟩, ⟨nat_lit 3, nat_lit 0, nat_lit 2, nat_lit 0, nat_lit 4⟩]⟩,
    ⟨nat_lit 9, [⟨nat_lit 0, nat_lit 0, nat_lit 0, nat_lit 1, nat_lit 1⟩]⟩,
    ⟨nat_lit 7, [⟨nat_lit 1, nat_lit 0, nat_lit 0, nat_lit 1, nat_lit 2⟩, ⟨nat_lit 3, nat_lit 0, nat_lit 0, nat_lit 2, nat_lit 4⟩]⟩,
    ⟨nat_lit 20, [⟨nat_lit 1, nat_lit 0, nat_lit 1, nat_lit 0, nat_lit 2⟩]⟩,
    ⟨nat_lit 25, [⟨nat_lit 0, nat_lit 0, nat_lit 0, nat_lit 1, nat_lit 1⟩]⟩,
    ⟨nat_lit 23, [⟨nat_lit 0, nat_lit 0, nat_lit 0, nat_lit 2, nat_lit 2⟩]⟩,
    ⟨nat_lit 13, [⟨nat_lit 3, nat_lit 0, nat_lit 0, nat_lit 3, nat_lit 5⟩, ⟨nat_lit 0, nat_lit 1, nat_lit 0, nat_lit 1, nat_lit 1⟩]⟩,
    ⟨nat_lit 0, [⟨nat_lit 2, nat_lit 0, nat_lit 1, nat_lit 0, nat_lit 2⟩]⟩,
    ⟨nat_lit 3, [⟨nat_lit 0, nat_lit 2, nat_lit 0, nat_lit 1, nat_lit 2⟩]⟩,
    ⟨nat_lit 15, [⟨nat_lit 1, nat_lit 0, nat_lit 0, nat_lit 1, nat_lit 2⟩]⟩,
    ⟨nat_lit 6, [⟨nat_lit 1, nat_lit 0, nat_lit 0, nat_lit 0, nat_lit 1⟩]⟩,
    ⟨nat_lit 8, [⟨nat_lit 2, nat_lit 0, nat_lit 0, nat_lit 1, nat_lit 2⟩]⟩,
    ⟨nat_lit 11, [⟨nat_lit 0, nat_lit 2, nat_lit 0, nat_lit 1, nat_lit 2⟩]⟩,
    ⟨nat_lit 12, [⟨nat_lit 1, nat_lit 0, nat_lit 0, nat_lit 1, nat_lit 2⟩]⟩]

theorem form_l1 : formB Best.med4L1L2Linf.mult (DilFast.coreOf tab_l1) = true := by decide +kernel

theorem autos_l1 : DilFast.autosF .l1 68 5 tab_l1 frow = true := by decide +kernel

theorem closed_l1 : DilFast.closedF .l1 4 16 68 5 frow tab_l1 tab_l1 = true := by decide +kernel

def pt1_l1 : Pt := ⟨[5], [10, 5], 11 / 17, [0, 1]⟩
def pt2_l1 : Pt := ⟨[10], [5, 10], 6 / 17, [1, 0]⟩
theorem low_l1 : lowB .l1 Best.med4L1L2Linf 0 pt1_l1 pt2_l1 (68 / 5) := by decide +kernel

theorem cert_l1 : Cert .l1 Best.med4L1L2Linf (68 / 5) (68 / 5) :=
  DilFast.cert (p := 0) (.inr (.inl rfl)) (vn := 68) (vd := 5) (by decide) rfl (by norm_num [bnd, Metric.sq]) div_eq genus_eq okRows rows form_l1 autos_l1 closed_l1
    (by norm_num [Metric.sq, Metric.ratio]; exact low_l1)

def tab_l2 : List DilFast.Bin := [
    ⟨nat_lit 14, [⟨nat_lit 1, nat_lit 0, nat_lit 0, nat_lit 0, nat_lit 1⟩, ⟨nat_lit 3, nat_lit 0, nat_lit 1, nat_lit 0, nat_lit 3⟩, ⟨nat_lit 3, nat_lit 0, nat_lit 0, nat_lit 1, nat_lit 3⟩, ⟨nat_lit 15, nat_lit 0, nat_lit 0, nat_lit 15, nat_lit 75⟩]⟩,
    ⟨nat_lit 4, [⟨nat_lit 1, nat_lit 0, nat_lit 1, nat_lit 0, nat_lit 2⟩, ⟨nat_lit 3, nat_lit 0, nat_lit 2, nat_lit 0, nat_lit 4⟩]⟩,
    ⟨nat_lit 9, [⟨nat_lit 0, nat_lit 0, nat_lit 0, nat_lit 1, nat_lit 1⟩]⟩,
    ⟨nat_lit 7, [⟨nat_lit 1, nat_lit 0, nat_lit 0, nat_lit 1, nat_lit 2⟩, ⟨nat_lit 3, nat_lit 0, nat_lit 0, nat_lit 2, nat_lit 4⟩]⟩,
    ⟨nat_lit 20, [⟨nat_lit 1, nat_lit 0, nat_lit 1, nat_lit 0, nat_lit 2⟩]⟩,
    ⟨nat_lit 25, [⟨nat_lit 0, nat_lit 0, nat_lit 0, nat_lit 1, nat_lit 1⟩]⟩,
    ⟨nat_lit 23, [⟨nat_lit 0, nat_lit 0, nat_lit 0, nat_lit 2, nat_lit 2⟩]⟩,
    ⟨nat_lit 13, [⟨nat_lit 3, nat_lit 0, nat_lit 0, nat_lit 3, nat_lit 5⟩, ⟨nat_lit 0, nat_lit 1, nat_lit 0, nat_lit 1, nat_lit 1⟩]⟩,
    ⟨nat_lit 0, [⟨nat_lit 2, nat_lit 0, nat_lit 1, nat_lit 0, nat_lit 2⟩]⟩,
    ⟨nat_lit 3, [⟨nat_lit 0, nat_lit 2, nat_lit 0, nat_lit 1, nat_lit 2⟩]⟩,
    ⟨nat_lit 15, [⟨nat_lit 1, nat_lit 0, nat_lit 0, nat_lit 1, nat_lit 2⟩]⟩,
    ⟨nat_lit 6, [⟨nat_lit 1, nat_lit 0, nat_lit 0, nat_lit 0, nat_lit 1⟩]⟩,
    ⟨nat_lit 8, [⟨nat_lit 2, nat_lit 0, nat_lit 0, nat_lit 1, nat_lit 2⟩]⟩,
    ⟨nat_lit 11, [⟨nat_lit 0, nat_lit 2, nat_lit 0, nat_lit 1, nat_lit 2⟩]⟩,
    ⟨nat_lit 12, [⟨nat_lit 1, nat_lit 0, nat_lit 0, nat_lit 1, nat_lit 2⟩]⟩]

theorem form_l2 : formB Best.med4L1L2Linf.mult (DilFast.coreOf tab_l2) = true := by decide +kernel

theorem autos_l2 : DilFast.autosF .plane 34 5 tab_l2 frow = true := by decide +kernel

theorem closed_l2 : DilFast.closedF .plane 4 16 34 5 frow tab_l2 tab_l2 = true := by decide +kernel

def pt1_l2 : Pt := ⟨[5], [10, 5], 11 / 17, [0, 1]⟩
def pt2_l2 : Pt := ⟨[10], [5, 10], 6 / 17, [1, 0]⟩
theorem low_l2 : lowB .l2sq Best.med4L1L2Linf 0 pt1_l2 pt2_l2 (1156 / 25) := by decide +kernel

theorem cert_l2 : Cert .l2 Best.med4L1L2Linf (34 / 5) (34 / 5) :=
  DilFast.cert (p := 0) (.inr (.inr rfl)) (vn := 34) (vd := 5) (by decide) rfl (by norm_num [bnd, Metric.sq]) div_eq genus_eq okRows rows form_l2 autos_l2 closed_l2
    (by norm_num [Metric.sq, Metric.ratio]; exact low_l2)

def tab_linf : List DilFast.Bin := [
    ⟨nat_lit 14, [⟨nat_lit 1, nat_lit 0, nat_lit 0, nat_lit 0, nat_lit 1⟩, ⟨nat_lit 3, nat_lit 0, nat_lit 1, nat_lit 0, nat_lit 3⟩, ⟨nat_lit 3, nat_lit 0, nat_lit 0, nat_lit 1, nat_lit 3⟩, ⟨nat_lit 7, nat_lit 0, nat_lit 1, nat_lit 0, nat_lit 11⟩]⟩,
    ⟨nat_lit 9, [⟨nat_lit 0, nat_lit 0, nat_lit 0, nat_lit 1, nat_lit 1⟩]⟩,
    ⟨nat_lit 25, [⟨nat_lit 0, nat_lit 0, nat_lit 0, nat_lit 1, nat_lit 1⟩]⟩,
    ⟨nat_lit 23, [⟨nat_lit 0, nat_lit 0, nat_lit 0, nat_lit 2, nat_lit 2⟩]⟩,
    ⟨nat_lit 0, [⟨nat_lit 2, nat_lit 0, nat_lit 1, nat_lit 0, nat_lit 2⟩]⟩,
    ⟨nat_lit 13, [⟨nat_lit 0, nat_lit 1, nat_lit 0, nat_lit 1, nat_lit 1⟩]⟩,
    ⟨nat_lit 3, [⟨nat_lit 0, nat_lit 2, nat_lit 0, nat_lit 1, nat_lit 2⟩]⟩,
    ⟨nat_lit 6, [⟨nat_lit 1, nat_lit 0, nat_lit 0, nat_lit 0, nat_lit 1⟩, ⟨nat_lit 7, nat_lit 0, nat_lit 0, nat_lit 0, nat_lit 11⟩]⟩,
    ⟨nat_lit 8, [⟨nat_lit 2, nat_lit 0, nat_lit 0, nat_lit 1, nat_lit 2⟩]⟩,
    ⟨nat_lit 11, [⟨nat_lit 0, nat_lit 2, nat_lit 0, nat_lit 1, nat_lit 2⟩]⟩,
    ⟨nat_lit 15, [⟨nat_lit 7, nat_lit 0, nat_lit 0, nat_lit 1, nat_lit 12⟩]⟩,
    ⟨nat_lit 12, [⟨nat_lit 7, nat_lit 0, nat_lit 0, nat_lit 1, nat_lit 12⟩]⟩,
    ⟨nat_lit 7, [⟨nat_lit 7, nat_lit 0, nat_lit 0, nat_lit 2, nat_lit 12⟩]⟩,
    ⟨nat_lit 4, [⟨nat_lit 7, nat_lit 0, nat_lit 2, nat_lit 0, nat_lit 12⟩]⟩]

theorem form_linf : formB Best.med4L1L2Linf.mult (DilFast.coreOf tab_linf) = true := by decide +kernel

theorem autos_linf : DilFast.autosF .linf 17 3 tab_linf frow = true := by decide +kernel

theorem closed_linf : DilFast.closedF .linf 4 16 17 3 frow tab_linf tab_linf = true := by decide +kernel

def pt1_linf : Pt := ⟨[1], [10, 5], 11 / 17, [1, 0]⟩
def pt2_linf : Pt := ⟨[2], [5, 10], 6 / 17, [1, 1]⟩
theorem low_linf : lowB .linf Best.med4L1L2Linf 0 pt1_linf pt2_linf (17 / 3) := by decide +kernel

theorem cert_linf : Cert .linf Best.med4L1L2Linf (17 / 3) (17 / 3) :=
  DilFast.cert (p := 0) (.inl rfl) (vn := 17) (vd := 3) (by decide) rfl (by norm_num [bnd, Metric.sq]) div_eq genus_eq okRows rows form_linf autos_linf closed_linf
    (by norm_num [Metric.sq, Metric.ratio]; exact low_linf)

end Peano.BestDil.Med4L1L2Linf

namespace Peano.BestDil.Med5L1
open DilCert Zoo

def frow : List (List DilFast.Row) := [
    [⟨nat_lit 0, nat_lit 0, nat_lit 0, nat_lit 0⟩, ⟨nat_lit 1, nat_lit 0, nat_lit 3, nat_lit 0⟩, ⟨nat_lit 2, nat_lit 0, nat_lit 8, nat_lit 0⟩, ⟨nat_lit 2, nat_lit 1, nat_lit 13, nat_lit 0⟩, ⟨nat_lit 1, nat_lit 1, nat_lit 6, nat_lit 0⟩, ⟨nat_lit 0, nat_lit 1, nat_lit 5, nat_lit 0⟩, ⟨nat_lit 0, nat_lit 2, nat_lit 0, nat_lit 0⟩, ⟨nat_lit 1, nat_lit 2, nat_lit 7, nat_lit 0⟩, ⟨nat_lit 1, nat_lit 3, nat_lit 2, nat_lit 0⟩, ⟨nat_lit 0, nat_lit 3, nat_lit 5, nat_lit 0⟩, ⟨nat_lit 0, nat_lit 4, nat_lit 0, nat_lit 0⟩, ⟨nat_lit 1, nat_lit 4, nat_lit 3, nat_lit 0⟩, ⟨nat_lit 2, nat_lit 4, nat_lit 0, nat_lit 0⟩, ⟨nat_lit 3, nat_lit 4, nat_lit 7, nat_lit 0⟩, ⟨nat_lit 4, nat_lit 4, nat_lit 12, nat_lit 0⟩, ⟨nat_lit 4, nat_lit 3, nat_lit 9, nat_lit 0⟩, ⟨nat_lit 3, nat_lit 3, nat_lit 2, nat_lit 0⟩, ⟨nat_lit 2, nat_lit 3, nat_lit 1, nat_lit 0⟩, ⟨nat_lit 2, nat_lit 2, nat_lit 4, nat_lit 0⟩, ⟨nat_lit 3, nat_lit 2, nat_lit 3, nat_lit 0⟩, ⟨nat_lit 3, nat_lit 1, nat_lit 14, nat_lit 0⟩, ⟨nat_lit 3, nat_lit 0, nat_lit 11, nat_lit 0⟩, ⟨nat_lit 4, nat_lit 0, nat_lit 8, nat_lit 0⟩, ⟨nat_lit 4, nat_lit 1, nat_lit 13, nat_lit 0⟩, ⟨nat_lit 4, nat_lit 2, nat_lit 0, nat_lit 0⟩]]

theorem div_eq : Best.med5L1.div = 5 := by decide +kernel

theorem genus_eq : Best.med5L1.genus = 25 := by decide +kernel

theorem okRows : DilFast.OkRows 5 frow := by decide +kernel

theorem rows : Rows Best.med5L1 (DilFast.prowOf frow) := by decide +kernel

def tab_l1 : List DilFast.Bin := [
    ⟨nat_lit 6, [⟨nat_lit 1, nat_lit 0, nat_lit 0, nat_lit 0, nat_lit 1⟩]⟩,
    ⟨nat_lit 16, [⟨nat_lit 2, nat_lit 0, nat_lit 0, nat_lit 0, nat_lit 2⟩, ⟨nat_lit 4, nat_lit 0, nat_lit 0, nat_lit 2, nat_lit 6⟩]⟩,
    ⟨nat_lit 26, [⟨nat_lit 2, nat_lit 0, nat_lit 1, nat_lit 0, nat_lit 3⟩, ⟨nat_lit 4, nat_lit 0, nat_lit 1, nat_lit 0, nat_lit 5⟩]⟩,
    ⟨nat_lit 21, [⟨nat_lit 0, nat_lit 1, nat_lit 0, nat_lit 0, nat_lit 1⟩]⟩,
    ⟨nat_lit 31, [⟨nat_lit 0, nat_lit 1, nat_lit 1, nat_lit 0, nat_lit 2⟩]⟩,
    ⟨nat_lit 28, [⟨nat_lit 1, nat_lit 0, nat_lit 0, nat_lit 1, nat_lit 2⟩]⟩,
    ⟨nat_lit 22, [⟨nat_lit 1, nat_lit 0, nat_lit 0, nat_lit 2, nat_lit 3⟩, ⟨nat_lit 1, nat_lit 0, nat_lit 0, nat_lit 4, nat_lit 5⟩]⟩,
    ⟨nat_lit 25, [⟨nat_lit 0, nat_lit 0, nat_lit 0, nat_lit 1, nat_lit 1⟩]⟩,
    ⟨nat_lit 19, [⟨nat_lit 0, nat_lit 0, nat_lit 0, nat_lit 2, nat_lit 2⟩, ⟨nat_lit 2, nat_lit 0, nat_lit 0, nat_lit 4, nat_lit 6⟩]⟩,
    ⟨nat_lit 12, [⟨nat_lit 1, nat_lit 0, nat_lit 0, nat_lit 1, nat_lit 2⟩, ⟨nat_lit 1, nat_lit 0, nat_lit 0, nat_lit 5, nat_lit 6⟩]⟩,
    ⟨nat_lit 9, [⟨nat_lit 0, nat_lit 0, nat_lit 0, nat_lit 1, nat_lit 1⟩]⟩,
    ⟨nat_lit 7, [⟨nat_lit 1, nat_lit 0, nat_lit 0, nat_lit 1, nat_lit 2⟩, ⟨nat_lit 4, nat_lit 0, nat_lit 0, nat_lit 2, nat_lit 6⟩]⟩,
    ⟨nat_lit 13, [⟨nat_lit 1, nat_lit 0, nat_lit 0, nat_lit 2, nat_lit 3⟩, ⟨nat_lit 4, nat_lit 0, nat_lit 0, nat_lit 3, nat_lit 7⟩, ⟨nat_lit 0, nat_lit 2, nat_lit 1, nat_lit 0, nat_lit 3⟩]⟩,
    ⟨nat_lit 14, [⟨nat_lit 1, nat_lit 0, nat_lit 0, nat_lit 0, nat_lit 1⟩]⟩,
    ⟨nat_lit 4, [⟨nat_lit 1, nat_lit 0, nat_lit 1, nat_lit 0, nat_lit 2⟩, ⟨nat_lit 4, nat_lit 0, nat_lit 2, nat_lit 0, nat_lit 6⟩]⟩,
    ⟨nat_lit 15, [⟨nat_lit 1, nat_lit 0, nat_lit 0, nat_lit 1, nat_lit 2⟩, ⟨nat_lit 1, nat_lit 0, nat_lit 0, nat_lit 5, nat_lit 6⟩]⟩,
    ⟨nat_lit 17, [⟨nat_lit 4, nat_lit 0, nat_lit 0, nat_lit 1, nat_lit 5⟩, ⟨nat_lit 2, nat_lit 0, nat_lit 0, nat_lit 3, nat_lit 5⟩]⟩,
    ⟨nat_lit 0, [⟨nat_lit 2, nat_lit 0, nat_lit 0, nat_lit 0, nat_lit 2⟩]⟩,
    ⟨nat_lit 24, [⟨nat_lit 4, nat_lit 0, nat_lit 0, nat_lit 0, nat_lit 4⟩, ⟨nat_lit 2, nat_lit 0, nat_lit 0, nat_lit 0, nat_lit 2⟩]⟩,
    ⟨nat_lit 18, [⟨nat_lit 4, nat_lit 0, nat_lit 0, nat_lit 1, nat_lit 5⟩, ⟨nat_lit 2, nat_lit 0, nat_lit 0, nat_lit 1, nat_lit 3⟩]⟩,
    ⟨nat_lit 5, [⟨nat_lit 0, nat_lit 1, nat_lit 0, nat_lit 0, nat_lit 1⟩]⟩,
    ⟨nat_lit 11, [⟨nat_lit 0, nat_lit 2, nat_lit 0, nat_lit 0, nat_lit 2⟩]⟩,
    ⟨nat_lit 29, [⟨nat_lit 0, nat_lit 3, nat_lit 0, nat_lit 0, nat_lit 3⟩, ⟨nat_lit 1, nat_lit 0, nat_lit 0, nat_lit 2, nat_lit 3⟩]⟩,
    ⟨nat_lit 23, [⟨nat_lit 0, nat_lit 3, nat_lit 0, nat_lit 1, nat_lit 4⟩, ⟨nat_lit 1, nat_lit 0, nat_lit 0, nat_lit 3, nat_lit 4⟩, ⟨nat_lit 2, nat_lit 0, nat_lit 0, nat_lit 2, nat_lit 4⟩]⟩,
    ⟨nat_lit 20, [⟨nat_lit 1, nat_lit 0, nat_lit 1, nat_lit 0, nat_lit 2⟩]⟩,
    ⟨nat_lit 30, [⟨nat_lit 1, nat_lit 0, nat_lit 2, nat_lit 0, nat_lit 3⟩, ⟨nat_lit 2, nat_lit 0, nat_lit 1, nat_lit 0, nat_lit 3⟩]⟩,
    ⟨nat_lit 3, [⟨nat_lit 0, nat_lit 2, nat_lit 2, nat_lit 0, nat_lit 4⟩, ⟨nat_lit 0, nat_lit 2, nat_lit 0, nat_lit 2, nat_lit 4⟩, ⟨nat_lit 0, nat_lit 2, nat_lit 0, nat_lit 0, nat_lit 2⟩]⟩,
    ⟨nat_lit 1, [⟨nat_lit 3, nat_lit 0, nat_lit 0, nat_lit 2, nat_lit 5⟩, ⟨nat_lit 0, nat_lit 3, nat_lit 2, nat_lit 0, nat_lit 5⟩]⟩,
    ⟨nat_lit 8, [⟨nat_lit 3, nat_lit 0, nat_lit 1, nat_lit 0, nat_lit 4⟩]⟩,
    ⟨nat_lit 27, [⟨nat_lit 0, nat_lit 1, nat_lit 1, nat_lit 0, nat_lit 2⟩]⟩]

theorem form_l1 : formB Best.med5L1.mult (DilFast.coreOf tab_l1) = true := by decide +kernel

theorem autos_l1 : DilFast.autosF .l1 486 41 tab_l1 frow = true := by decide +kernel

theorem closed_l1 : DilFast.closedF .l1 5 25 486 41 frow tab_l1 tab_l1 = true := by decide +kernel

def pt1_l1 : Pt := ⟨[6, 21], [14], 7 / 12, [0, 0]⟩
def pt2_l1 : Pt := ⟨[7, 3], [10], 5 / 12, [1, 1]⟩
theorem low_l1 : lowB .l1 Best.med5L1 0 pt1_l1 pt2_l1 (486 / 41) := by decide +kernel

theorem cert_l1 : Cert .l1 Best.med5L1 (486 / 41) (486 / 41) :=
  DilFast.cert (p := 0) (.inr (.inl rfl)) (vn := 486) (vd := 41) (by decide) rfl (by norm_num [bnd, Metric.sq]) div_eq genus_eq okRows rows form_l1 autos_l1 closed_l1
    (by norm_num [Metric.sq, Metric.ratio]; exact low_l1)

end Peano.BestDil.Med5L1

namespace Peano.BestDil.Med5L2Linf
open DilCert Zoo

def frow : List (List DilFast.Row) := [
    [⟨nat_lit 0, nat_lit 0, nat_lit 0, nat_lit 0⟩, ⟨nat_lit 1, nat_lit 0, nat_lit 7, nat_lit 0⟩, ⟨nat_lit 1, nat_lit 1, nat_lit 2, nat_lit 0⟩, ⟨nat_lit 0, nat_lit 1, nat_lit 5, nat_lit 0⟩, ⟨nat_lit 0, nat_lit 2, nat_lit 0, nat_lit 0⟩, ⟨nat_lit 1, nat_lit 2, nat_lit 7, nat_lit 0⟩, ⟨nat_lit 1, nat_lit 3, nat_lit 2, nat_lit 0⟩, ⟨nat_lit 0, nat_lit 3, nat_lit 5, nat_lit 0⟩, ⟨nat_lit 0, nat_lit 4, nat_lit 0, nat_lit 0⟩, ⟨nat_lit 1, nat_lit 4, nat_lit 3, nat_lit 0⟩, ⟨nat_lit 2, nat_lit 4, nat_lit 0, nat_lit 0⟩, ⟨nat_lit 3, nat_lit 4, nat_lit 7, nat_lit 0⟩, ⟨nat_lit 4, nat_lit 4, nat_lit 12, nat_lit 0⟩, ⟨nat_lit 4, nat_lit 3, nat_lit 9, nat_lit 0⟩, ⟨nat_lit 3, nat_lit 3, nat_lit 2, nat_lit 0⟩, ⟨nat_lit 2, nat_lit 3, nat_lit 1, nat_lit 0⟩, ⟨nat_lit 2, nat_lit 2, nat_lit 4, nat_lit 0⟩, ⟨nat_lit 3, nat_lit 2, nat_lit 3, nat_lit 0⟩, ⟨nat_lit 3, nat_lit 1, nat_lit 6, nat_lit 0⟩, ⟨nat_lit 2, nat_lit 1, nat_lit 1, nat_lit 0⟩, ⟨nat_lit 2, nat_lit 0, nat_lit 4, nat_lit 0⟩, ⟨nat_lit 3, nat_lit 0, nat_lit 3, nat_lit 0⟩, ⟨nat_lit 4, nat_lit 0, nat_lit 8, nat_lit 0⟩, ⟨nat_lit 4, nat_lit 1, nat_lit 13, nat_lit 0⟩, ⟨nat_lit 4, nat_lit 2, nat_lit 0, nat_lit 0⟩]]

theorem div_eq : Best.med5L2Linf.div = 5 := by decide +kernel

theorem genus_eq : Best.med5L2Linf.genus = 25 := by decide +kernel

theorem okRows : DilFast.OkRows 5 frow := by decide +kernel

theorem rows : Rows Best.med5L2Linf (DilFast.prowOf frow) := by decide +kernel

def tab_l2 : List DilFast.Bin := [
    ⟨nat_lit 14, [⟨nat_lit 1, nat_lit 0, nat_lit 0, nat_lit 0, nat_lit 1⟩, ⟨nat_lit 5, nat_lit 0, nat_lit 0, nat_lit 4, nat_lit 9⟩]⟩,
    ⟨nat_lit 4, [⟨nat_lit 1, nat_lit 0, nat_lit 1, nat_lit 0, nat_lit 2⟩]⟩,
    ⟨nat_lit 9, [⟨nat_lit 0, nat_lit 0, nat_lit 0, nat_lit 1, nat_lit 1⟩]⟩,
    ⟨nat_lit 7, [⟨nat_lit 1, nat_lit 0, nat_lit 0, nat_lit 1, nat_lit 2⟩]⟩,
    ⟨nat_lit 15, [⟨nat_lit 1, nat_lit 0, nat_lit 0, nat_lit 1, nat_lit 2⟩]⟩,
    ⟨nat_lit 17, [⟨nat_lit 4, nat_lit 0, nat_lit 0, nat_lit 1, nat_lit 5⟩]⟩,
    ⟨nat_lit 6, [⟨nat_lit 1, nat_lit 0, nat_lit 0, nat_lit 0, nat_lit 1⟩]⟩,
    ⟨nat_lit 0, [⟨nat_lit 2, nat_lit 0, nat_lit 0, nat_lit 0, nat_lit 2⟩, ⟨nat_lit 4, nat_lit 0, nat_lit 0, nat_lit 4, nat_lit 8⟩]⟩,
    ⟨nat_lit 24, [⟨nat_lit 4, nat_lit 0, nat_lit 0, nat_lit 0, nat_lit 4⟩, ⟨nat_lit 2, nat_lit 0, nat_lit 0, nat_lit 0, nat_lit 2⟩]⟩,
    ⟨nat_lit 18, [⟨nat_lit 4, nat_lit 0, nat_lit 0, nat_lit 1, nat_lit 5⟩]⟩,
    ⟨nat_lit 5, [⟨nat_lit 0, nat_lit 1, nat_lit 0, nat_lit 0, nat_lit 1⟩]⟩,
    ⟨nat_lit 11, [⟨nat_lit 0, nat_lit 2, nat_lit 0, nat_lit 0, nat_lit 2⟩]⟩,
    ⟨nat_lit 29, [⟨nat_lit 0, nat_lit 3, nat_lit 0, nat_lit 0, nat_lit 3⟩]⟩,
    ⟨nat_lit 23, [⟨nat_lit 0, nat_lit 3, nat_lit 0, nat_lit 1, nat_lit 4⟩, ⟨nat_lit 0, nat_lit 0, nat_lit 0, nat_lit 2, nat_lit 2⟩]⟩,
    ⟨nat_lit 21, [⟨nat_lit 0, nat_lit 1, nat_lit 0, nat_lit 0, nat_lit 1⟩]⟩,
    ⟨nat_lit 31, [⟨nat_lit 0, nat_lit 1, nat_lit 1, nat_lit 0, nat_lit 2⟩]⟩,
    ⟨nat_lit 28, [⟨nat_lit 1, nat_lit 0, nat_lit 0, nat_lit 1, nat_lit 2⟩]⟩,
    ⟨nat_lit 25, [⟨nat_lit 0, nat_lit 0, nat_lit 0, nat_lit 1, nat_lit 1⟩]⟩,
    ⟨nat_lit 19, [⟨nat_lit 0, nat_lit 0, nat_lit 0, nat_lit 2, nat_lit 2⟩]⟩,
    ⟨nat_lit 12, [⟨nat_lit 1, nat_lit 0, nat_lit 0, nat_lit 1, nat_lit 2⟩]⟩,
    ⟨nat_lit 16, [⟨nat_lit 2, nat_lit 0, nat_lit 0, nat_lit 0, nat_lit 2⟩]⟩,
    ⟨nat_lit 22, [⟨nat_lit 3, nat_lit 0, nat_lit 0, nat_lit 4, nat_lit 7⟩]⟩,
    ⟨nat_lit 27, [⟨nat_lit 0, nat_lit 2, nat_lit 4, nat_lit 0, nat_lit 6⟩, ⟨nat_lit 0, nat_lit 1, nat_lit 1, nat_lit 0, nat_lit 2⟩]⟩,
    ⟨nat_lit 13, [⟨nat_lit 0, nat_lit 3, nat_lit 4, nat_lit 0, nat_lit 7⟩]⟩,
    ⟨nat_lit 3, [⟨nat_lit 0, nat_lit 4, nat_lit 4, nat_lit 0, nat_lit 8⟩]⟩,
    ⟨nat_lit 8, [⟨nat_lit 3, nat_lit 0, nat_lit 1, nat_lit 0, nat_lit 4⟩, ⟨nat_lit 2, nat_lit 0, nat_lit 0, nat_lit 0, nat_lit 2⟩]⟩,
    ⟨nat_lit 20, [⟨nat_lit 4, nat_lit 0, nat_lit 2, nat_lit 0, nat_lit 6⟩, ⟨nat_lit 1, nat_lit 0, nat_lit 1, nat_lit 0, nat_lit 2⟩]⟩,
    ⟨nat_lit 26, [⟨nat_lit 4, nat_lit 0, nat_lit 3, nat_lit 0, nat_lit 7⟩]⟩]

theorem form_l2 : formB Best.med5L2Linf.mult (DilFast.coreOf tab_l2) = true := by decide +kernel

theorem autos_l2 : DilFast.autosF .plane 183 28 tab_l2 frow = true := by decide +kernel

theorem closed_l2 : DilFast.closedF .plane 5 25 183 28 frow tab_l2 tab_l2 = true := by decide +kernel

def pt1_l2 : Pt := ⟨[0, 20], [8], 1 / 3, [0, 0]⟩
def pt2_l2 : Pt := ⟨[1, 4], [16], 2 / 3, [1, 1]⟩
theorem low_l2 : lowB .l2sq Best.med5L2Linf 0 pt1_l2 pt2_l2 (33489 / 784) := by decide +kernel

theorem cert_l2 : Cert .l2 Best.med5L2Linf (183 / 28) (183 / 28) :=
  DilFast.cert (p := 0) (.inr (.inr rfl)) (vn := 183) (vd := 28) (by decide) rfl (by norm_num [bnd, Metric.sq]) div_eq genus_eq okRows rows form_l2 autos_l2 closed_l2
    (by norm_num [Metric.sq, Metric.ratio]; exact low_l2)

def tab_linf : List DilFast.Bin := [
    ⟨nat_lit 14, [⟨nat_lit 1, nat_lit 0, nat_lit 0, nat_lit 0, nat_lit 1⟩]⟩,
    ⟨nat_lit 9, [⟨nat_lit 0, nat_lit 0, nat_lit 0, nat_lit 1, nat_lit 1⟩]⟩,
    ⟨nat_lit 6, [⟨nat_lit 1, nat_lit 0, nat_lit 0, nat_lit 0, nat_lit 1⟩]⟩,
    ⟨nat_lit 0, [⟨nat_lit 2, nat_lit 0, nat_lit 0, nat_lit 0, nat_lit 2⟩]⟩,
    ⟨nat_lit 24, [⟨nat_lit 4, nat_lit 0, nat_lit 0, nat_lit 0, nat_lit 4⟩, ⟨nat_lit 2, nat_lit 0, nat_lit 0, nat_lit 0, nat_lit 2⟩]⟩,
    ⟨nat_lit 5, [⟨nat_lit 0, nat_lit 1, nat_lit 0, nat_lit 0, nat_lit 1⟩]⟩,
    ⟨nat_lit 11, [⟨nat_lit 0, nat_lit 2, nat_lit 0, nat_lit 0, nat_lit 2⟩]⟩,
    ⟨nat_lit 29, [⟨nat_lit 0, nat_lit 3, nat_lit 0, nat_lit 0, nat_lit 3⟩]⟩,
    ⟨nat_lit 21, [⟨nat_lit 0, nat_lit 1, nat_lit 0, nat_lit 0, nat_lit 1⟩]⟩,
    ⟨nat_lit 25, [⟨nat_lit 0, nat_lit 0, nat_lit 0, nat_lit 1, nat_lit 1⟩]⟩,
    ⟨nat_lit 19, [⟨nat_lit 0, nat_lit 0, nat_lit 0, nat_lit 2, nat_lit 2⟩]⟩,
    ⟨nat_lit 16, [⟨nat_lit 2, nat_lit 0, nat_lit 0, nat_lit 0, nat_lit 2⟩]⟩,
    ⟨nat_lit 8, [⟨nat_lit 2, nat_lit 0, nat_lit 0, nat_lit 0, nat_lit 2⟩]⟩,
    ⟨nat_lit 23, [⟨nat_lit 0, nat_lit 0, nat_lit 0, nat_lit 2, nat_lit 2⟩]⟩]

theorem form_linf : formB Best.med5L2Linf.mult (DilFast.coreOf tab_linf) = true := by decide +kernel

theorem autos_linf : DilFast.autosF .linf 25 4 tab_linf frow = true := by decide +kernel

theorem closed_linf : DilFast.closedF .linf 5 25 25 4 frow tab_linf tab_linf = true := by decide +kernel

def pt1_linf : Pt := ⟨[8], [8], 1 / 3, [0, 1]⟩
def pt2_linf : Pt := ⟨[12], [8], 1 / 3, [1, 1]⟩
theorem low_linf : lowB .linf Best.med5L2Linf 0 pt1_linf pt2_linf (25 / 4) := by decide +kernel

theorem cert_linf : Cert .linf Best.med5L2Linf (25 / 4) (25 / 4) :=
  DilFast.cert (p := 0) (.inl rfl) (vn := 25) (vd := 4) (by decide) rfl (by norm_num [bnd, Metric.sq]) div_eq genus_eq okRows rows form_linf autos_linf closed_linf
    (by norm_num [Metric.sq, Metric.ratio]; exact low_linf)

end Peano.BestDil.Med5L2Linf

namespace Peano.BestDil.Med6aL2
open DilCert Zoo

def frow : List (List DilFast.Row) := [
    [⟨nat_lit 0, nat_lit 0, nat_lit 8, nat_lit 0⟩, ⟨nat_lit 0, nat_lit 1, nat_lit 15, nat_lit 0⟩, ⟨nat_lit 1, nat_lit 1, nat_lit 12, nat_lit 0⟩, ⟨nat_lit 1, nat_lit 0, nat_lit 11, nat_lit 0⟩, ⟨nat_lit 2, nat_lit 0, nat_lit 8, nat_lit 0⟩, ⟨nat_lit 2, nat_lit 1, nat_lit 15, nat_lit 0⟩, ⟨nat_lit 2, nat_lit 2, nat_lit 2, nat_lit 0⟩, ⟨nat_lit 1, nat_lit 2, nat_lit 1, nat_lit 0⟩, ⟨nat_lit 0, nat_lit 2, nat_lit 10, nat_lit 0⟩, ⟨nat_lit 0, nat_lit 3, nat_lit 15, nat_lit 0⟩, ⟨nat_lit 1, nat_lit 3, nat_lit 4, nat_lit 0⟩, ⟨nat_lit 2, nat_lit 3, nat_lit 7, nat_lit 0⟩, ⟨nat_lit 2, nat_lit 4, nat_lit 2, nat_lit 0⟩, ⟨nat_lit 1, nat_lit 4, nat_lit 1, nat_lit 0⟩, ⟨nat_lit 0, nat_lit 4, nat_lit 10, nat_lit 0⟩, ⟨nat_lit 0, nat_lit 5, nat_lit 15, nat_lit 0⟩, ⟨nat_lit 1, nat_lit 5, nat_lit 4, nat_lit 0⟩, ⟨nat_lit 2, nat_lit 5, nat_lit 7, nat_lit 0⟩, ⟨nat_lit 3, nat_lit 5, nat_lit 12, nat_lit 0⟩, ⟨nat_lit 3, nat_lit 4, nat_lit 11, nat_lit 0⟩, ⟨nat_lit 4, nat_lit 4, nat_lit 8, nat_lit 0⟩, ⟨nat_lit 4, nat_lit 5, nat_lit 15, nat_lit 0⟩, ⟨nat_lit 5, nat_lit 5, nat_lit 12, nat_lit 0⟩, ⟨nat_lit 5, nat_lit 4, nat_lit 11, nat_lit 0⟩, ⟨nat_lit 5, nat_lit 3, nat_lit 6, nat_lit 0⟩, ⟨nat_lit 4, nat_lit 3, nat_lit 5, nat_lit 0⟩, ⟨nat_lit 3, nat_lit 3, nat_lit 14, nat_lit 0⟩, ⟨nat_lit 3, nat_lit 2, nat_lit 9, nat_lit 0⟩, ⟨nat_lit 3, nat_lit 1, nat_lit 12, nat_lit 0⟩, ⟨nat_lit 3, nat_lit 0, nat_lit 11, nat_lit 0⟩, ⟨nat_lit 4, nat_lit 0, nat_lit 0, nat_lit 0⟩, ⟨nat_lit 5, nat_lit 0, nat_lit 7, nat_lit 0⟩, ⟨nat_lit 5, nat_lit 1, nat_lit 2, nat_lit 0⟩, ⟨nat_lit 4, nat_lit 1, nat_lit 5, nat_lit 0⟩, ⟨nat_lit 4, nat_lit 2, nat_lit 0, nat_lit 0⟩, ⟨nat_lit 5, nat_lit 2, nat_lit 7, nat_lit 0⟩]]

theorem div_eq : Best.med6aL2.div = 6 := by decide +kernel

theorem genus_eq : Best.med6aL2.genus = 36 := by decide +kernel

theorem okRows : DilFast.OkRows 6 frow := by decide +kernel

theorem rows : Rows Best.med6aL2 (DilFast.prowOf frow) := by decide +kernel

def tab_l2 : List DilFast.Bin := [
    ⟨nat_lit 14, [⟨nat_lit 1, nat_lit 0, nat_lit 0, nat_lit 0, nat_lit 1⟩, ⟨nat_lit 5, nat_lit 0, nat_lit 0, nat_lit 2, nat_lit 7⟩, ⟨nat_lit 3, nat_lit 0, nat_lit 1, nat_lit 0, nat_lit 3⟩, ⟨nat_lit 23, nat_lit 0, nat_lit 0, nat_lit 23, nat_lit 175⟩]⟩,
    ⟨nat_lit 4, [⟨nat_lit 1, nat_lit 0, nat_lit 1, nat_lit 0, nat_lit 2⟩, ⟨nat_lit 3, nat_lit 0, nat_lit 2, nat_lit 0, nat_lit 4⟩]⟩,
    ⟨nat_lit 9, [⟨nat_lit 0, nat_lit 0, nat_lit 0, nat_lit 1, nat_lit 1⟩]⟩,
    ⟨nat_lit 7, [⟨nat_lit 1, nat_lit 0, nat_lit 0, nat_lit 1, nat_lit 2⟩, ⟨nat_lit 3, nat_lit 0, nat_lit 0, nat_lit 2, nat_lit 4⟩]⟩,
    ⟨nat_lit 24, [⟨nat_lit 2, nat_lit 0, nat_lit 0, nat_lit 0, nat_lit 2⟩]⟩,
    ⟨nat_lit 21, [⟨nat_lit 0, nat_lit 1, nat_lit 0, nat_lit 0, nat_lit 1⟩]⟩,
    ⟨nat_lit 31, [⟨nat_lit 0, nat_lit 1, nat_lit 1, nat_lit 0, nat_lit 2⟩]⟩,
    ⟨nat_lit 6, [⟨nat_lit 1, nat_lit 0, nat_lit 0, nat_lit 0, nat_lit 1⟩]⟩,
    ⟨nat_lit 16, [⟨nat_lit 2, nat_lit 0, nat_lit 0, nat_lit 0, nat_lit 2⟩]⟩,
    ⟨nat_lit 28, [⟨nat_lit 1, nat_lit 0, nat_lit 0, nat_lit 1, nat_lit 2⟩]⟩,
    ⟨nat_lit 25, [⟨nat_lit 0, nat_lit 0, nat_lit 0, nat_lit 1, nat_lit 1⟩]⟩,
    ⟨nat_lit 19, [⟨nat_lit 0, nat_lit 0, nat_lit 0, nat_lit 2, nat_lit 2⟩]⟩,
    ⟨nat_lit 12, [⟨nat_lit 1, nat_lit 0, nat_lit 0, nat_lit 1, nat_lit 2⟩]⟩,
    ⟨nat_lit 15, [⟨nat_lit 1, nat_lit 0, nat_lit 0, nat_lit 1, nat_lit 2⟩]⟩,
    ⟨nat_lit 13, [⟨nat_lit 1, nat_lit 0, nat_lit 0, nat_lit 4, nat_lit 5⟩, ⟨nat_lit 3, nat_lit 0, nat_lit 0, nat_lit 3, nat_lit 5⟩, ⟨nat_lit 0, nat_lit 1, nat_lit 0, nat_lit 1, nat_lit 1⟩]⟩,
    ⟨nat_lit 27, [⟨nat_lit 0, nat_lit 1, nat_lit 1, nat_lit 0, nat_lit 2⟩]⟩,
    ⟨nat_lit 0, [⟨nat_lit 4, nat_lit 0, nat_lit 0, nat_lit 2, nat_lit 6⟩, ⟨nat_lit 2, nat_lit 0, nat_lit 1, nat_lit 0, nat_lit 2⟩]⟩,
    ⟨nat_lit 3, [⟨nat_lit 0, nat_lit 4, nat_lit 2, nat_lit 0, nat_lit 6⟩, ⟨nat_lit 0, nat_lit 2, nat_lit 0, nat_lit 1, nat_lit 2⟩]⟩,
    ⟨nat_lit 8, [⟨nat_lit 2, nat_lit 0, nat_lit 0, nat_lit 0, nat_lit 2⟩]⟩,
    ⟨nat_lit 5, [⟨nat_lit 0, nat_lit 1, nat_lit 0, nat_lit 0, nat_lit 1⟩]⟩,
    ⟨nat_lit 11, [⟨nat_lit 0, nat_lit 2, nat_lit 0, nat_lit 0, nat_lit 2⟩]⟩,
    ⟨nat_lit 20, [⟨nat_lit 1, nat_lit 0, nat_lit 1, nat_lit 0, nat_lit 2⟩]⟩,
    ⟨nat_lit 23, [⟨nat_lit 0, nat_lit 0, nat_lit 0, nat_lit 2, nat_lit 2⟩]⟩]

theorem form_l2 : formB Best.med6aL2.mult (DilFast.coreOf tab_l2) = true := by decide +kernel

theorem autos_l2 : DilFast.autosF .plane 296 45 tab_l2 frow = true := by decide +kernel

theorem closed_l2 : DilFast.closedF .plane 6 36 296 45 frow tab_l2 tab_l2 = true := by decide +kernel

def pt1_l2 : Pt := ⟨[0, 33], [20, 15], 21 / 37, [0, 0]⟩
def pt2_l2 : Pt := ⟨[1, 2], [15, 20], 16 / 37, [1, 1]⟩
theorem low_l2 : lowB .l2sq Best.med6aL2 0 pt1_l2 pt2_l2 (87616 / 2025) := by decide +kernel

theorem cert_l2 : Cert .l2 Best.med6aL2 (296 / 45) (296 / 45) :=
  DilFast.cert (p := 0) (.inr (.inr rfl)) (vn := 296) (vd := 45) (by decide) rfl (by norm_num [bnd, Metric.sq]) div_eq genus_eq okRows rows form_l2 autos_l2 closed_l2
    (by norm_num [Metric.sq, Metric.ratio]; exact low_l2)

end Peano.BestDil.Med6aL2

namespace Peano.BestDil.Ye
open DilCert Zoo

def frow : List (List DilFast.Row) := [
    [⟨nat_lit 0, nat_lit 0, nat_lit 13, nat_lit 0⟩, ⟨nat_lit 0, nat_lit 1, nat_lit 0, nat_lit 0⟩, ⟨nat_lit 1, nat_lit 1, nat_lit 0, nat_lit 0⟩, ⟨nat_lit 1, nat_lit 0, nat_lit 11, nat_lit 0⟩, ⟨nat_lit 2, nat_lit 0, nat_lit 13, nat_lit 0⟩, ⟨nat_lit 2, nat_lit 1, nat_lit 13, nat_lit 0⟩, ⟨nat_lit 2, nat_lit 2, nat_lit 13, nat_lit 0⟩, ⟨nat_lit 1, nat_lit 2, nat_lit 6, nat_lit 0⟩, ⟨nat_lit 0, nat_lit 2, nat_lit 6, nat_lit 0⟩, ⟨nat_lit 0, nat_lit 3, nat_lit 13, nat_lit 0⟩, ⟨nat_lit 0, nat_lit 4, nat_lit 0, nat_lit 0⟩, ⟨nat_lit 1, nat_lit 4, nat_lit 0, nat_lit 0⟩, ⟨nat_lit 1, nat_lit 3, nat_lit 11, nat_lit 0⟩, ⟨nat_lit 2, nat_lit 3, nat_lit 13, nat_lit 0⟩, ⟨nat_lit 2, nat_lit 4, nat_lit 0, nat_lit 0⟩, ⟨nat_lit 3, nat_lit 4, nat_lit 0, nat_lit 0⟩, ⟨nat_lit 4, nat_lit 4, nat_lit 0, nat_lit 0⟩, ⟨nat_lit 4, nat_lit 3, nat_lit 6, nat_lit 0⟩, ⟨nat_lit 3, nat_lit 3, nat_lit 11, nat_lit 0⟩, ⟨nat_lit 3, nat_lit 2, nat_lit 11, nat_lit 0⟩, ⟨nat_lit 4, nat_lit 2, nat_lit 0, nat_lit 0⟩, ⟨nat_lit 4, nat_lit 1, nat_lit 6, nat_lit 0⟩, ⟨nat_lit 3, nat_lit 1, nat_lit 11, nat_lit 0⟩, ⟨nat_lit 3, nat_lit 0, nat_lit 11, nat_lit 0⟩, ⟨nat_lit 4, nat_lit 0, nat_lit 0, nat_lit 0⟩]]

theorem lit : Zoo.ye = DilFast.curve 5 frow := by decide +kernel

theorem div_eq : Zoo.ye.div = 5 := by rw [lit]; decide +kernel

theorem genus_eq : Zoo.ye.genus = 25 := by rw [lit]; decide +kernel

theorem okRows : DilFast.OkRows 5 frow := by decide +kernel

theorem rows : Rows Zoo.ye (DilFast.prowOf frow) := by rw [lit]; decide +kernel

def tab_linf : List DilFast.Bin := [
    ⟨nat_lit 21, [⟨nat_lit 0, nat_lit 1, nat_lit 0, nat_lit 0, nat_lit 1⟩]⟩,
    ⟨nat_lit 0, [⟨nat_lit 1, nat_lit 0, nat_lit 0, nat_lit 0, nat_lit 1⟩]⟩,
    ⟨nat_lit 22, [⟨nat_lit 0, nat_lit 0, nat_lit 0, nat_lit 1, nat_lit 1⟩]⟩,
    ⟨nat_lit 15, [⟨nat_lit 0, nat_lit 0, nat_lit 0, nat_lit 1, nat_lit 1⟩]⟩,
    ⟨nat_lit 3, [⟨nat_lit 0, nat_lit 1, nat_lit 0, nat_lit 0, nat_lit 1⟩]⟩,
    ⟨nat_lit 25, [⟨nat_lit 0, nat_lit 0, nat_lit 0, nat_lit 1, nat_lit 1⟩]⟩,
    ⟨nat_lit 12, [⟨nat_lit 0, nat_lit 0, nat_lit 0, nat_lit 2, nat_lit 2⟩, ⟨nat_lit 0, nat_lit 0, nat_lit 0, nat_lit 1, nat_lit 1⟩]⟩,
    ⟨nat_lit 26, [⟨nat_lit 1, nat_lit 0, nat_lit 0, nat_lit 0, nat_lit 1⟩]⟩]

theorem form_linf : formB Zoo.ye.mult (DilFast.coreOf tab_linf) = true := by rw [lit]; decide +kernel

theorem autos_linf : DilFast.autosF .linf 16 3 tab_linf frow = true := by decide +kernel

theorem closed_linf : DilFast.closedF .linf 5 25 16 3 frow tab_linf tab_linf = true := by decide +kernel

def pt1_linf : Pt := ⟨[3], [14], 7 / 12, [0, 0]⟩
def pt2_linf : Pt := ⟨[4], [8], 1 / 3, [1, 0]⟩
theorem low_linf : lowB .linf Zoo.ye 0 pt1_linf pt2_linf (16 / 3) := by rw [lit]; decide +kernel

theorem cert_linf : Cert .linf Zoo.ye (16 / 3) (16 / 3) :=
  DilFast.cert (p := 0) (.inl rfl) (vn := 16) (vd := 3) (by decide) rfl (by norm_num [bnd, Metric.sq]) div_eq genus_eq okRows rows form_linf autos_linf closed_linf
    (by norm_num [Metric.sq, Metric.ratio]; exact low_linf)

end Peano.BestDil.Ye
