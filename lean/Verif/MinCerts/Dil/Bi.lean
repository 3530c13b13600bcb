import Verif.Lemmas.DilFast
import Verif.MinCerts.Curves2

set_option autoImplicit false
set_option maxRecDepth 100000
set_option linter.dupNamespace false

/-
Certificates for the dilations of the best bifractal curves.  This file is generated.
-/

namespace Peano.BestDil.Bi1L1L2
open DilCert Zoo

def frow : List (List DilFast.Row) := [
    [⟨nat_lit 0, nat_lit 0, nat_lit 8, nat_lit 1⟩, ⟨nat_lit 1, nat_lit 0, nat_lit 5, nat_lit 0⟩, ⟨nat_lit 1, nat_lit 1, nat_lit 0, nat_lit 0⟩, ⟨nat_lit 0, nat_lit 1, nat_lit 9, nat_lit 1⟩],
    [⟨nat_lit 0, nat_lit 0, nat_lit 8, nat_lit 1⟩, ⟨nat_lit 1, nat_lit 0, nat_lit 15, nat_lit 1⟩, ⟨nat_lit 1, nat_lit 1, nat_lit 10, nat_lit 1⟩, ⟨nat_lit 0, nat_lit 1, nat_lit 7, nat_lit 0⟩]]

theorem div_eq : Best.bi1L1L2.div = 2 := by decide +kernel

theorem genus_eq : Best.bi1L1L2.genus = 4 := by decide +kernel

theorem okRows : DilFast.OkRows 2 frow := by decide +kernel

theorem rows : Rows Best.bi1L1L2 (DilFast.prowOf frow) := by decide +kernel

def tab_l1 : List DilFast.Bin := [
    ⟨nat_lit 278, [⟨nat_lit 0, nat_lit 0, nat_lit 1, nat_lit 0, nat_lit 1⟩, ⟨nat_lit 1, nat_lit 0, nat_lit 3, nat_lit 0, nat_lit 3⟩]⟩,
    ⟨nat_lit 272, [⟨nat_lit 1, nat_lit 0, nat_lit 1, nat_lit 0, nat_lit 2⟩, ⟨nat_lit 2, nat_lit 0, nat_lit 3, nat_lit 0, nat_lit 4⟩]⟩,
    ⟨nat_lit 9, [⟨nat_lit 0, nat_lit 0, nat_lit 0, nat_lit 1, nat_lit 1⟩]⟩,
    ⟨nat_lit 59, [⟨nat_lit 0, nat_lit 1, nat_lit 0, nat_lit 1, nat_lit 2⟩]⟩,
    ⟨nat_lit 50, [⟨nat_lit 0, nat_lit 1, nat_lit 0, nat_lit 0, nat_lit 1⟩]⟩,
    ⟨nat_lit 302, [⟨nat_lit 0, nat_lit 0, nat_lit 1, nat_lit 0, nat_lit 1⟩, ⟨nat_lit 1, nat_lit 0, nat_lit 3, nat_lit 0, nat_lit 3⟩, ⟨nat_lit 0, nat_lit 7, nat_lit 7, nat_lit 0, nat_lit 19⟩]⟩,
    ⟨nat_lit 296, [⟨nat_lit 1, nat_lit 0, nat_lit 1, nat_lit 0, nat_lit 2⟩, ⟨nat_lit 2, nat_lit 0, nat_lit 3, nat_lit 0, nat_lit 4⟩]⟩,
    ⟨nat_lit 293, [⟨nat_lit 0, nat_lit 1, nat_lit 0, nat_lit 0, nat_lit 1⟩, ⟨nat_lit 0, nat_lit 2, nat_lit 2, nat_lit 0, nat_lit 3⟩, ⟨nat_lit 0, nat_lit 2, nat_lit 0, nat_lit 2, nat_lit 3⟩]⟩,
    ⟨nat_lit 275, [⟨nat_lit 0, nat_lit 1, nat_lit 1, nat_lit 0, nat_lit 2⟩, ⟨nat_lit 0, nat_lit 2, nat_lit 3, nat_lit 0, nat_lit 4⟩]⟩,
    ⟨nat_lit 304, [⟨nat_lit 1, nat_lit 0, nat_lit 1, nat_lit 0, nat_lit 2⟩]⟩,
    ⟨nat_lit 41, [⟨nat_lit 0, nat_lit 0, nat_lit 0, nat_lit 1, nat_lit 1⟩]⟩,
    ⟨nat_lit 27, [⟨nat_lit 0, nat_lit 0, nat_lit 0, nat_lit 2, nat_lit 2⟩]⟩,
    ⟨nat_lit 48, [⟨nat_lit 0, nat_lit 1, nat_lit 1, nat_lit 0, nat_lit 2⟩]⟩,
    ⟨nat_lit 28, [⟨nat_lit 0, nat_lit 2, nat_lit 0, nat_lit 1, nat_lit 2⟩]⟩,
    ⟨nat_lit 269, [⟨nat_lit 0, nat_lit 1, nat_lit 0, nat_lit 1, nat_lit 1⟩]⟩,
    ⟨nat_lit 13, [⟨nat_lit 0, nat_lit 1, nat_lit 0, nat_lit 1, nat_lit 1⟩]⟩,
    ⟨nat_lit 292, [⟨nat_lit 0, nat_lit 0, nat_lit 2, nat_lit 0, nat_lit 2⟩]⟩,
    ⟨nat_lit 297, [⟨nat_lit 0, nat_lit 0, nat_lit 0, nat_lit 1, nat_lit 1⟩]⟩,
    ⟨nat_lit 295, [⟨nat_lit 0, nat_lit 0, nat_lit 0, nat_lit 2, nat_lit 2⟩]⟩,
    ⟨nat_lit 299, [⟨nat_lit 0, nat_lit 1, nat_lit 1, nat_lit 0, nat_lit 2⟩, ⟨nat_lit 0, nat_lit 2, nat_lit 3, nat_lit 0, nat_lit 4⟩]⟩,
    ⟨nat_lit 26, [⟨nat_lit 0, nat_lit 4, nat_lit 0, nat_lit 3, nat_lit 7⟩]⟩,
    ⟨nat_lit 277, [⟨nat_lit 0, nat_lit 3, nat_lit 3, nat_lit 0, nat_lit 5⟩]⟩,
    ⟨nat_lit 288, [⟨nat_lit 1, nat_lit 0, nat_lit 2, nat_lit 0, nat_lit 2⟩]⟩,
    ⟨nat_lit 301, [⟨nat_lit 0, nat_lit 1, nat_lit 0, nat_lit 1, nat_lit 1⟩, ⟨nat_lit 0, nat_lit 3, nat_lit 3, nat_lit 0, nat_lit 5⟩]⟩,
    ⟨nat_lit 283, [⟨nat_lit 0, nat_lit 1, nat_lit 0, nat_lit 2, nat_lit 2⟩]⟩,
    ⟨nat_lit 285, [⟨nat_lit 0, nat_lit 2, nat_lit 0, nat_lit 2, nat_lit 3⟩]⟩,
    ⟨nat_lit 61, [⟨nat_lit 0, nat_lit 2, nat_lit 0, nat_lit 2, nat_lit 3⟩]⟩,
    ⟨nat_lit 7, [⟨nat_lit 0, nat_lit 3, nat_lit 0, nat_lit 2, nat_lit 4⟩]⟩,
    ⟨nat_lit 52, [⟨nat_lit 0, nat_lit 2, nat_lit 1, nat_lit 0, nat_lit 2⟩]⟩,
    ⟨nat_lit 14, [⟨nat_lit 0, nat_lit 3, nat_lit 1, nat_lit 0, nat_lit 3⟩]⟩,
    ⟨nat_lit 4, [⟨nat_lit 0, nat_lit 3, nat_lit 2, nat_lit 0, nat_lit 4⟩]⟩,
    ⟨nat_lit 260, [⟨nat_lit 0, nat_lit 7, nat_lit 7, nat_lit 0, nat_lit 20⟩]⟩,
    ⟨nat_lit 57, [⟨nat_lit 0, nat_lit 3, nat_lit 0, nat_lit 4, nat_lit 7⟩]⟩,
    ⟨nat_lit 291, [⟨nat_lit 0, nat_lit 1, nat_lit 0, nat_lit 2, nat_lit 2⟩]⟩]

theorem form_l1 : formB Best.bi1L1L2.mult (DilFast.coreOf tab_l1) = true := by decide +kernel

theorem autos_l1 : DilFast.autosF .l1 40 3 tab_l1 frow = true := by decide +kernel

theorem closed_l1 : DilFast.closedF .l1 2 4 40 3 frow tab_l1 tab_l1 = true := by decide +kernel

def pt1_l1 : Pt := ⟨[2, 3, 3, 1], [2, 1], 3 / 5, [1, 1]⟩
def pt2_l1 : Pt := ⟨[3, 0, 0, 2], [1, 2], 2 / 5, [0, 0]⟩
theorem low_l1 : lowB .l1 Best.bi1L1L2 0 pt1_l1 pt2_l1 (40 / 3) := by decide +kernel

theorem cert_l1 : Cert .l1 Best.bi1L1L2 (40 / 3) (40 / 3) :=
  DilFast.cert (p := 0) (.inr (.inl rfl)) (vn := 40) (vd := 3) (by decide) rfl (by norm_num [bnd, Metric.sq]) div_eq genus_eq okRows rows form_l1 autos_l1 closed_l1
    (by norm_num [Metric.sq, Metric.ratio]; exact low_l1)

def tab_l2 : List DilFast.Bin := [
    ⟨nat_lit 278, [⟨nat_lit 0, nat_lit 0, nat_lit 1, nat_lit 0, nat_lit 1⟩, ⟨nat_lit 1, nat_lit 0, nat_lit 3, nat_lit 0, nat_lit 3⟩]⟩,
    ⟨nat_lit 272, [⟨nat_lit 1, nat_lit 0, nat_lit 1, nat_lit 0, nat_lit 2⟩, ⟨nat_lit 2, nat_lit 0, nat_lit 3, nat_lit 0, nat_lit 4⟩]⟩,
    ⟨nat_lit 9, [⟨nat_lit 0, nat_lit 0, nat_lit 0, nat_lit 1, nat_lit 1⟩]⟩,
    ⟨nat_lit 59, [⟨nat_lit 0, nat_lit 1, nat_lit 0, nat_lit 1, nat_lit 2⟩]⟩,
    ⟨nat_lit 50, [⟨nat_lit 0, nat_lit 1, nat_lit 0, nat_lit 0, nat_lit 1⟩]⟩,
    ⟨nat_lit 302, [⟨nat_lit 0, nat_lit 0, nat_lit 1, nat_lit 0, nat_lit 1⟩, ⟨nat_lit 1, nat_lit 0, nat_lit 3, nat_lit 0, nat_lit 3⟩, ⟨nat_lit 0, nat_lit 7, nat_lit 7, nat_lit 0, nat_lit 19⟩]⟩,
    ⟨nat_lit 296, [⟨nat_lit 1, nat_lit 0, nat_lit 1, nat_lit 0, nat_lit 2⟩, ⟨nat_lit 2, nat_lit 0, nat_lit 3, nat_lit 0, nat_lit 4⟩]⟩,
    ⟨nat_lit 293, [⟨nat_lit 0, nat_lit 1, nat_lit 0, nat_lit 0, nat_lit 1⟩]⟩,
    ⟨nat_lit 275, [⟨nat_lit 0, nat_lit 1, nat_lit 1, nat_lit 0, nat_lit 2⟩, ⟨nat_lit 0, nat_lit 2, nat_lit 3, nat_lit 0, nat_lit 4⟩]⟩,
    ⟨nat_lit 304, [⟨nat_lit 1, nat_lit 0, nat_lit 1, nat_lit 0, nat_lit 2⟩]⟩,
    ⟨nat_lit 41, [⟨nat_lit 0, nat_lit 0, nat_lit 0, nat_lit 1, nat_lit 1⟩]⟩,
    ⟨nat_lit 27, [⟨nat_lit 0, nat_lit 0, nat_lit 0, nat_lit 2, nat_lit 2⟩]⟩,
    ⟨nat_lit 48, [⟨nat_lit 0, nat_lit 1, nat_lit 1, nat_lit 0, nat_lit 2⟩]⟩,
    ⟨nat_lit 28, [⟨nat_lit 0, nat_lit 2, nat_lit 0, nat_lit 1, nat_lit 2⟩]⟩,
    ⟨nat_lit 269, [⟨nat_lit 0, nat_lit 1, nat_lit 0, nat_lit 1, nat_lit 1⟩]⟩,
    ⟨nat_lit 13, [⟨nat_lit 0, nat_lit 1, nat_lit 0, nat_lit 1, nat_lit 1⟩]⟩,
    ⟨nat_lit 292, [⟨nat_lit 0, nat_lit 0, nat_lit 2, nat_lit 0, nat_lit 2⟩]⟩,
    ⟨nat_lit 298, [⟨nat_lit 0, nat_lit 0, nat_lit 3, nat_lit 0, nat_lit 3⟩]⟩,
    ⟨nat_lit 297, [⟨nat_lit 0, nat_lit 0, nat_lit 0, nat_lit 1, nat_lit 1⟩]⟩,
    ⟨nat_lit 295, [⟨nat_lit 0, nat_lit 0, nat_lit 0, nat_lit 2, nat_lit 2⟩]⟩,
    ⟨nat_lit 299, [⟨nat_lit 0, nat_lit 1, nat_lit 1, nat_lit 0, nat_lit 2⟩, ⟨nat_lit 0, nat_lit 2, nat_lit 3, nat_lit 0, nat_lit 4⟩]⟩,
    ⟨nat_lit 44, [⟨nat_lit 0, nat_lit 4, nat_lit 0, nat_lit 2, nat_lit 6⟩]⟩,
    ⟨nat_lit 26, [⟨nat_lit 0, nat_lit 4, nat_lit 0, nat_lit 3, nat_lit 7⟩]⟩,
    ⟨nat_lit 277, [⟨nat_lit 0, nat_lit 3, nat_lit 3, nat_lit 0, nat_lit 5⟩]⟩,
    ⟨nat_lit 288, [⟨nat_lit 1, nat_lit 0, nat_lit 2, nat_lit 0, nat_lit 2⟩]⟩,
    ⟨nat_lit 301, [⟨nat_lit 0, nat_lit 1, nat_lit 0, nat_lit 1, nat_lit 1⟩, ⟨nat_lit 0, nat_lit 3, nat_lit 3, nat_lit 0, nat_lit 5⟩]⟩,
    ⟨nat_lit 283, [⟨nat_lit 0, nat_lit 1, nat_lit 0, nat_lit 2, nat_lit 2⟩]⟩,
    ⟨nat_lit 285, [⟨nat_lit 0, nat_lit 2, nat_lit 0, nat_lit 2, nat_lit 3⟩]⟩,
    ⟨nat_lit 61, [⟨nat_lit 0, nat_lit 2, nat_lit 0, nat_lit 2, nat_lit 3⟩]⟩,
    ⟨nat_lit 7, [⟨nat_lit 0, nat_lit 3, nat_lit 0, nat_lit 2, nat_lit 4⟩]⟩,
    ⟨nat_lit 52, [⟨nat_lit 0, nat_lit 2, nat_lit 1, nat_lit 0, nat_lit 2⟩]⟩,
    ⟨nat_lit 14, [⟨nat_lit 0, nat_lit 3, nat_lit 1, nat_lit 0, nat_lit 3⟩]⟩,
    ⟨nat_lit 4, [⟨nat_lit 0, nat_lit 3, nat_lit 2, nat_lit 0, nat_lit 4⟩]⟩,
    ⟨nat_lit 260, [⟨nat_lit 0, nat_lit 7, nat_lit 7, nat_lit 0, nat_lit 20⟩]⟩,
    ⟨nat_lit 57, [⟨nat_lit 0, nat_lit 3, nat_lit 0, nat_lit 4, nat_lit 7⟩]⟩,
    ⟨nat_lit 291, [⟨nat_lit 0, nat_lit 1, nat_lit 0, nat_lit 2, nat_lit 2⟩]⟩]

theorem form_l2 : formB Best.bi1L1L2.mult (DilFast.coreOf tab_l2) = true := by decide +kernel

theorem autos_l2 : DilFast.autosF .plane 20 3 tab_l2 frow = true := by decide +kernel

theorem closed_l2 : DilFast.closedF .plane 2 4 20 3 frow tab_l2 tab_l2 = true := by decide +kernel

def pt1_l2 : Pt := ⟨[2, 3, 3, 1], [2, 1], 3 / 5, [1, 1]⟩
def pt2_l2 : Pt := ⟨[3, 0, 0, 2], [1, 2], 2 / 5, [0, 0]⟩
theorem low_l2 : lowB .l2sq Best.bi1L1L2 0 pt1_l2 pt2_l2 (400 / 9) := by decide +kernel

theorem cert_l2 : Cert .l2 Best.bi1L1L2 (20 / 3) (20 / 3) :=
  DilFast.cert (p := 0) (.inr (.inr rfl)) (vn := 20) (vd := 3) (by decide) rfl (by norm_num [bnd, Metric.sq]) div_eq genus_eq okRows rows form_l2 autos_l2 closed_l2
    (by norm_num [Metric.sq, Metric.ratio]; exact low_l2)

end Peano.BestDil.Bi1L1L2

namespace Peano.BestDil.Bi1Linf
open DilCert Zoo

def frow : List (List DilFast.Row) := [
    [⟨nat_lit 0, nat_lit 0, nat_lit 8, nat_lit 1⟩, ⟨nat_lit 1, nat_lit 0, nat_lit 15, nat_lit 1⟩, ⟨nat_lit 1, nat_lit 1, nat_lit 10, nat_lit 1⟩, ⟨nat_lit 0, nat_lit 1, nat_lit 9, nat_lit 1⟩],
    [⟨nat_lit 0, nat_lit 0, nat_lit 8, nat_lit 1⟩, ⟨nat_lit 1, nat_lit 0, nat_lit 15, nat_lit 1⟩, ⟨nat_lit 1, nat_lit 1, nat_lit 10, nat_lit 1⟩, ⟨nat_lit 0, nat_lit 1, nat_lit 7, nat_lit 0⟩]]

theorem div_eq : Best.bi1Linf.div = 2 := by decide +kernel

theorem genus_eq : Best.bi1Linf.genus = 4 := by decide +kernel

theorem okRows : DilFast.OkRows 2 frow := by decide +kernel

theorem rows : Rows Best.bi1Linf (DilFast.prowOf frow) := by decide +kernel

def tab_linf : List DilFast.Bin := [
    ⟨nat_lit 302, [⟨nat_lit 0, nat_lit 0, nat_lit 1, nat_lit 0, nat_lit 1⟩, ⟨nat_lit 1, nat_lit 0, nat_lit 3, nat_lit 0, nat_lit 3⟩]⟩,
    ⟨nat_lit 293, [⟨nat_lit 0, nat_lit 1, nat_lit 0, nat_lit 0, nat_lit 1⟩]⟩,
    ⟨nat_lit 298, [⟨nat_lit 0, nat_lit 0, nat_lit 1, nat_lit 0, nat_lit 1⟩, ⟨nat_lit 0, nat_lit 0, nat_lit 3, nat_lit 0, nat_lit 3⟩]⟩,
    ⟨nat_lit 278, [⟨nat_lit 0, nat_lit 0, nat_lit 1, nat_lit 0, nat_lit 1⟩]⟩,
    ⟨nat_lit 13, [⟨nat_lit 0, nat_lit 1, nat_lit 0, nat_lit 1, nat_lit 1⟩]⟩,
    ⟨nat_lit 303, [⟨nat_lit 0, nat_lit 1, nat_lit 3, nat_lit 0, nat_lit 4⟩]⟩,
    ⟨nat_lit 292, [⟨nat_lit 0, nat_lit 0, nat_lit 2, nat_lit 0, nat_lit 2⟩]⟩,
    ⟨nat_lit 300, [⟨nat_lit 0, nat_lit 1, nat_lit 3, nat_lit 0, nat_lit 4⟩]⟩,
    ⟨nat_lit 297, [⟨nat_lit 0, nat_lit 0, nat_lit 0, nat_lit 1, nat_lit 1⟩]⟩,
    ⟨nat_lit 295, [⟨nat_lit 0, nat_lit 0, nat_lit 0, nat_lit 2, nat_lit 2⟩]⟩,
    ⟨nat_lit 9, [⟨nat_lit 0, nat_lit 0, nat_lit 0, nat_lit 1, nat_lit 1⟩]⟩,
    ⟨nat_lit 307, [⟨nat_lit 0, nat_lit 3, nat_lit 1, nat_lit 0, nat_lit 4⟩]⟩,
    ⟨nat_lit 41, [⟨nat_lit 0, nat_lit 0, nat_lit 0, nat_lit 1, nat_lit 1⟩]⟩,
    ⟨nat_lit 35, [⟨nat_lit 0, nat_lit 0, nat_lit 0, nat_lit 2, nat_lit 2⟩]⟩,
    ⟨nat_lit 299, [⟨nat_lit 0, nat_lit 2, nat_lit 3, nat_lit 0, nat_lit 4⟩]⟩,
    ⟨nat_lit 288, [⟨nat_lit 1, nat_lit 0, nat_lit 2, nat_lit 0, nat_lit 2⟩]⟩,
    ⟨nat_lit 296, [⟨nat_lit 2, nat_lit 0, nat_lit 3, nat_lit 0, nat_lit 4⟩]⟩,
    ⟨nat_lit 301, [⟨nat_lit 0, nat_lit 1, nat_lit 0, nat_lit 1, nat_lit 1⟩]⟩,
    ⟨nat_lit 291, [⟨nat_lit 0, nat_lit 1, nat_lit 0, nat_lit 2, nat_lit 2⟩]⟩]

theorem form_linf : formB Best.bi1Linf.mult (DilFast.coreOf tab_linf) = true := by decide +kernel

theorem autos_linf : DilFast.autosF .linf 5 1 tab_linf frow = true := by decide +kernel

theorem closed_linf : DilFast.closedF .linf 2 4 5 1 frow tab_linf tab_linf = true := by decide +kernel

def pt1_linf : Pt := ⟨[0, 3, 2], [1, 2], 2 / 5, [1, 0]⟩
def pt2_linf : Pt := ⟨[1, 0, 1], [2, 1], 3 / 5, [0, 1]⟩
theorem low_linf : lowB .linf Best.bi1Linf 0 pt1_linf pt2_linf (5) := by decide +kernel

theorem cert_linf : Cert .linf Best.bi1Linf (5) (5) :=
  DilFast.cert (p := 0) (.inl rfl) (vn := 5) (vd := 1) (by decide) rfl (by norm_num [bnd, Metric.sq]) div_eq genus_eq okRows rows form_linf autos_linf closed_linf
    (by norm_num [Metric.sq, Metric.ratio]; exact low_linf)

end Peano.BestDil.Bi1Linf

namespace Peano.BestDil.Bi2L1L2Linf
open DilCert Zoo

def frow : List (List DilFast.Row) := [
    [⟨nat_lit 0, nat_lit 0, nat_lit 11, nat_lit 1⟩, ⟨nat_lit 1, nat_lit 0, nat_lit 0, nat_lit 1⟩, ⟨nat_lit 1, nat_lit 1, nat_lit 5, nat_lit 0⟩, ⟨nat_lit 0, nat_lit 1, nat_lit 14, nat_lit 1⟩],
    [⟨nat_lit 0, nat_lit 0, nat_lit 11, nat_lit 0⟩, ⟨nat_lit 1, nat_lit 0, nat_lit 5, nat_lit 1⟩, ⟨nat_lit 1, nat_lit 1, nat_lit 0, nat_lit 1⟩, ⟨nat_lit 0, nat_lit 1, nat_lit 13, nat_lit 0⟩]]

theorem div_eq : Best.bi2L1L2Linf.div = 2 := by decide +kernel

theorem genus_eq : Best.bi2L1L2Linf.genus = 4 := by decide +kernel

theorem okRows : DilFast.OkRows 2 frow := by decide +kernel

theorem rows : Rows Best.bi2L1L2Linf (DilFast.prowOf frow) := by decide +kernel

def tab_l1 : List DilFast.Bin := [
    ⟨nat_lit 313, [⟨nat_lit 0, nat_lit 0, nat_lit 0, nat_lit 1, nat_lit 1⟩]⟩,
    ⟨nat_lit 287, [⟨nat_lit 1, nat_lit 0, nat_lit 0, nat_lit 1, nat_lit 2⟩, ⟨nat_lit 0, nat_lit 1, nat_lit 0, nat_lit 2, nat_lit 3⟩]⟩,
    ⟨nat_lit 266, [⟨nat_lit 0, nat_lit 0, nat_lit 1, nat_lit 0, nat_lit 1⟩]⟩,
    ⟨nat_lit 316, [⟨nat_lit 0, nat_lit 1, nat_lit 1, nat_lit 0, nat_lit 2⟩, ⟨nat_lit 0, nat_lit 5, nat_lit 0, nat_lit 3, nat_lit 12⟩, ⟨nat_lit 0, nat_lit 7, nat_lit 0, nat_lit 3, nat_lit 16⟩, ⟨nat_lit 0, nat_lit 2, nat_lit 0, nat_lit 1, nat_lit 3⟩]⟩,
    ⟨nat_lit 53, [⟨nat_lit 0, nat_lit 1, nat_lit 0, nat_lit 0, nat_lit 1⟩]⟩,
    ⟨nat_lit 63, [⟨nat_lit 0, nat_lit 0, nat_lit 0, nat_lit 1, nat_lit 1⟩]⟩,
    ⟨nat_lit 57, [⟨nat_lit 1, nat_lit 0, nat_lit 0, nat_lit 1, nat_lit 2⟩]⟩,
    ⟨nat_lit 297, [⟨nat_lit 0, nat_lit 0, nat_lit 0, nat_lit 1, nat_lit 1⟩]⟩,
    ⟨nat_lit 275, [⟨nat_lit 0, nat_lit 1, nat_lit 0, nat_lit 1, nat_lit 2⟩, ⟨nat_lit 0, nat_lit 3, nat_lit 3, nat_lit 0, nat_lit 8⟩, ⟨nat_lit 0, nat_lit 3, nat_lit 1, nat_lit 0, nat_lit 4⟩]⟩,
    ⟨nat_lit 282, [⟨nat_lit 0, nat_lit 1, nat_lit 0, nat_lit 0, nat_lit 1⟩]⟩,
    ⟨nat_lit 259, [⟨nat_lit 0, nat_lit 1, nat_lit 0, nat_lit 2, nat_lit 3⟩]⟩,
    ⟨nat_lit 319, [⟨nat_lit 0, nat_lit 1, nat_lit 0, nat_lit 3, nat_lit 4⟩, ⟨nat_lit 0, nat_lit 1, nat_lit 0, nat_lit 2, nat_lit 3⟩]⟩,
    ⟨nat_lit 310, [⟨nat_lit 0, nat_lit 1, nat_lit 2, nat_lit 0, nat_lit 3⟩, ⟨nat_lit 0, nat_lit 1, nat_lit 1, nat_lit 0, nat_lit 2⟩, ⟨nat_lit 0, nat_lit 0, nat_lit 1, nat_lit 0, nat_lit 1⟩]⟩,
    ⟨nat_lit 26, [⟨nat_lit 0, nat_lit 1, nat_lit 0, nat_lit 0, nat_lit 1⟩]⟩,
    ⟨nat_lit 38, [⟨nat_lit 0, nat_lit 2, nat_lit 0, nat_lit 0, nat_lit 2⟩, ⟨nat_lit 0, nat_lit 3, nat_lit 1, nat_lit 0, nat_lit 4⟩]⟩,
    ⟨nat_lit 44, [⟨nat_lit 0, nat_lit 2, nat_lit 0, nat_lit 1, nat_lit 3⟩, ⟨nat_lit 0, nat_lit 5, nat_lit 1, nat_lit 0, nat_lit 8⟩, ⟨nat_lit 0, nat_lit 3, nat_lit 1, nat_lit 0, nat_lit 4⟩]⟩,
    ⟨nat_lit 47, [⟨nat_lit 0, nat_lit 1, nat_lit 0, nat_lit 0, nat_lit 1⟩]⟩,
    ⟨nat_lit 21, [⟨nat_lit 0, nat_lit 1, nat_lit 1, nat_lit 0, nat_lit 2⟩, ⟨nat_lit 0, nat_lit 1, nat_lit 0, nat_lit 0, nat_lit 1⟩]⟩,
    ⟨nat_lit 51, [⟨nat_lit 0, nat_lit 2, nat_lit 1, nat_lit 0, nat_lit 3⟩, ⟨nat_lit 0, nat_lit 3, nat_lit 1, nat_lit 0, nat_lit 4⟩, ⟨nat_lit 0, nat_lit 1, nat_lit 0, nat_lit 0, nat_lit 1⟩]⟩,
    ⟨nat_lit 6, [⟨nat_lit 0, nat_lit 2, nat_lit 1, nat_lit 0, nat_lit 3⟩, ⟨nat_lit 0, nat_lit 1, nat_lit 0, nat_lit 0, nat_lit 1⟩]⟩,
    ⟨nat_lit 271, [⟨nat_lit 0, nat_lit 2, nat_lit 0, nat_lit 0, nat_lit 2⟩, ⟨nat_lit 0, nat_lit 3, nat_lit 1, nat_lit 0, nat_lit 4⟩]⟩,
    ⟨nat_lit 307, [⟨nat_lit 0, nat_lit 2, nat_lit 1, nat_lit 0, nat_lit 3⟩, ⟨nat_lit 0, nat_lit 2, nat_lit 0, nat_lit 0, nat_lit 2⟩]⟩,
    ⟨nat_lit 309, [⟨nat_lit 0, nat_lit 3, nat_lit 1, nat_lit 0, nat_lit 4⟩, ⟨nat_lit 0, nat_lit 2, nat_lit 1, nat_lit 0, nat_lit 3⟩]⟩,
    ⟨nat_lit 278, [⟨nat_lit 0, nat_lit 0, nat_lit 1, nat_lit 0, nat_lit 1⟩]⟩,
    ⟨nat_lit 298, [⟨nat_lit 1, nat_lit 0, nat_lit 1, nat_lit 0, nat_lit 2⟩, ⟨nat_lit 0, nat_lit 1, nat_lit 1, nat_lit 0, nat_lit 2⟩, ⟨nat_lit 0, nat_lit 0, nat_lit 1, nat_lit 0, nat_lit 1⟩]⟩,
    ⟨nat_lit 288, [⟨nat_lit 1, nat_lit 0, nat_lit 2, nat_lit 0, nat_lit 3⟩, ⟨nat_lit 1, nat_lit 0, nat_lit 1, nat_lit 0, nat_lit 2⟩]⟩,
    ⟨nat_lit 0, [⟨nat_lit 0, nat_lit 1, nat_lit 2, nat_lit 0, nat_lit 3⟩]⟩,
    ⟨nat_lit 54, [⟨nat_lit 0, nat_lit 1, nat_lit 3, nat_lit 0, nat_lit 4⟩]⟩,
    ⟨nat_lit 265, [⟨nat_lit 0, nat_lit 1, nat_lit 0, nat_lit 1, nat_lit 2⟩]⟩,
    ⟨nat_lit 284, [⟨nat_lit 0, nat_lit 1, nat_lit 0, nat_lit 0, nat_lit 1⟩]⟩,
    ⟨nat_lit 294, [⟨nat_lit 0, nat_lit 2, nat_lit 0, nat_lit 0, nat_lit 2⟩, ⟨nat_lit 0, nat_lit 7, nat_lit 3, nat_lit 0, nat_lit 16⟩, ⟨nat_lit 0, nat_lit 7, nat_lit 0, nat_lit 3, nat_lit 16⟩]⟩,
    ⟨nat_lit 300, [⟨nat_lit 0, nat_lit 2, nat_lit 0, nat_lit 1, nat_lit 3⟩, ⟨nat_lit 0, nat_lit 7, nat_lit 0, nat_lit 3, nat_lit 16⟩, ⟨nat_lit 0, nat_lit 5, nat_lit 3, nat_lit 0, nat_lit 12⟩]⟩,
    ⟨nat_lit 58, [⟨nat_lit 0, nat_lit 1, nat_lit 0, nat_lit 1, nat_lit 2⟩, ⟨nat_lit 0, nat_lit 2, nat_lit 1, nat_lit 0, nat_lit 3⟩]⟩,
    ⟨nat_lit 60, [⟨nat_lit 0, nat_lit 2, nat_lit 0, nat_lit 1, nat_lit 3⟩]⟩,
    ⟨nat_lit 303, [⟨nat_lit 0, nat_lit 2, nat_lit 0, nat_lit 1, nat_lit 3⟩, ⟨nat_lit 0, nat_lit 3, nat_lit 0, nat_lit 0, nat_lit 3⟩, ⟨nat_lit 0, nat_lit 2, nat_lit 0, nat_lit 0, nat_lit 2⟩, ⟨nat_lit 0, nat_lit 15, nat_lit 0, nat_lit 7, nat_lit 64⟩]⟩,
    ⟨nat_lit 314, [⟨nat_lit 0, nat_lit 3, nat_lit 0, nat_lit 1, nat_lit 4⟩, ⟨nat_lit 0, nat_lit 2, nat_lit 1, nat_lit 0, nat_lit 3⟩]⟩,
    ⟨nat_lit 9, [⟨nat_lit 1, nat_lit 0, nat_lit 0, nat_lit 1, nat_lit 2⟩]⟩,
    ⟨nat_lit 35, [⟨nat_lit 1, nat_lit 0, nat_lit 0, nat_lit 2, nat_lit 3⟩]⟩,
    ⟨nat_lit 256, [⟨nat_lit 1, nat_lit 0, nat_lit 1, nat_lit 0, nat_lit 2⟩, ⟨nat_lit 0, nat_lit 0, nat_lit 1, nat_lit 0, nat_lit 1⟩]⟩,
    ⟨nat_lit 37, [⟨nat_lit 0, nat_lit 5, nat_lit 1, nat_lit 0, nat_lit 8⟩, ⟨nat_lit 0, nat_lit 2, nat_lit 1, nat_lit 0, nat_lit 3⟩, ⟨nat_lit 0, nat_lit 2, nat_lit 0, nat_lit 0, nat_lit 2⟩]⟩,
    ⟨nat_lit 28, [⟨nat_lit 0, nat_lit 2, nat_lit 1, nat_lit 0, nat_lit 3⟩]⟩,
    ⟨nat_lit 277, [⟨nat_lit 0, nat_lit 2, nat_lit 0, nat_lit 0, nat_lit 2⟩]⟩,
    ⟨nat_lit 293, [⟨nat_lit 0, nat_lit 3, nat_lit 1, nat_lit 0, nat_lit 4⟩, ⟨nat_lit 0, nat_lit 7, nat_lit 0, nat_lit 3, nat_lit 16⟩, ⟨nat_lit 0, nat_lit 5, nat_lit 0, nat_lit 1, nat_lit 8⟩, ⟨nat_lit 0, nat_lit 3, nat_lit 0, nat_lit 0, nat_lit 3⟩]⟩,
    ⟨nat_lit 304, [⟨nat_lit 1, nat_lit 0, nat_lit 2, nat_lit 0, nat_lit 3⟩, ⟨nat_lit 0, nat_lit 1, nat_lit 2, nat_lit 0, nat_lit 3⟩, ⟨nat_lit 0, nat_lit 0, nat_lit 2, nat_lit 0, nat_lit 2⟩]⟩,
    ⟨nat_lit 268, [⟨nat_lit 0, nat_lit 5, nat_lit 3, nat_lit 0, nat_lit 12⟩, ⟨nat_lit 0, nat_lit 3, nat_lit 1, nat_lit 0, nat_lit 4⟩]⟩,
    ⟨nat_lit 261, [⟨nat_lit 0, nat_lit 5, nat_lit 0, nat_lit 1, nat_lit 8⟩, ⟨nat_lit 0, nat_lit 2, nat_lit 0, nat_lit 0, nat_lit 2⟩]⟩,
    ⟨nat_lit 291, [⟨nat_lit 0, nat_lit 1, nat_lit 0, nat_lit 2, nat_lit 3⟩]⟩,
    ⟨nat_lit 281, [⟨nat_lit 0, nat_lit 1, nat_lit 0, nat_lit 3, nat_lit 4⟩, ⟨nat_lit 0, nat_lit 1, nat_lit 0, nat_lit 2, nat_lit 3⟩]⟩,
    ⟨nat_lit 272, [⟨nat_lit 0, nat_lit 1, nat_lit 2, nat_lit 0, nat_lit 3⟩, ⟨nat_lit 0, nat_lit 0, nat_lit 2, nat_lit 0, nat_lit 2⟩, ⟨nat_lit 0, nat_lit 0, nat_lit 1, nat_lit 0, nat_lit 1⟩]⟩,
    ⟨nat_lit 5, [⟨nat_lit 0, nat_lit 2, nat_lit 0, nat_lit 0, nat_lit 2⟩, ⟨nat_lit 0, nat_lit 1, nat_lit 0, nat_lit 0, nat_lit 1⟩]⟩,
    ⟨nat_lit 41, [⟨nat_lit 1, nat_lit 0, nat_lit 0, nat_lit 1, nat_lit 2⟩]⟩,
    ⟨nat_lit 3, [⟨nat_lit 1, nat_lit 0, nat_lit 0, nat_lit 2, nat_lit 3⟩]⟩,
    ⟨nat_lit 19, [⟨nat_lit 0, nat_lit 2, nat_lit 1, nat_lit 0, nat_lit 3⟩]⟩,
    ⟨nat_lit 12, [⟨nat_lit 0, nat_lit 2, nat_lit 1, nat_lit 0, nat_lit 3⟩]⟩,
    ⟨nat_lit 262, [⟨nat_lit 0, nat_lit 5, nat_lit 0, nat_lit 1, nat_lit 8⟩]⟩,
    ⟨nat_lit 15, [⟨nat_lit 0, nat_lit 2, nat_lit 1, nat_lit 0, nat_lit 3⟩]⟩]

theorem form_l1 : formB Best.bi2L1L2Linf.mult (DilFast.coreOf tab_l1) = true := by decide +kernel

theorem autos_l1 : DilFast.autosF .l1 9 1 tab_l1 frow = true := by decide +kernel

theorem closed_l1 : DilFast.closedF .l1 2 4 9 1 frow tab_l1 tab_l1 = true := by decide +kernel

def pt1_l1 : Pt := ⟨[0], [1], 1 / 3, [0, 1]⟩
def pt2_l1 : Pt := ⟨[1, 1], [1], 1 / 3, [1, 0]⟩
theorem low_l1 : lowB .l1 Best.bi2L1L2Linf 0 pt1_l1 pt2_l1 (9) := by decide +kernel

theorem cert_l1 : Cert .l1 Best.bi2L1L2Linf (9) (9) :=
  DilFast.cert (p := 0) (.inr (.inl rfl)) (vn := 9) (vd := 1) (by decide) rfl (by norm_num [bnd, Metric.sq]) div_eq genus_eq okRows rows form_l1 autos_l1 closed_l1
    (by norm_num [Metric.sq, Metric.ratio]; exact low_l1)

def tab_l2 : List DilFast.Bin := [
    ⟨nat_lit 313, [⟨nat_lit 0, nat_lit 0, nat_lit 0, nat_lit 1, nat_lit 1⟩]⟩,
    ⟨nat_lit 287, [⟨nat_lit 1, nat_lit 0, nat_lit 0, nat_lit 1, nat_lit 2⟩, ⟨nat_lit 0, nat_lit 1, nat_lit 0, nat_lit 2, nat_lit 3⟩]⟩,
    ⟨nat_lit 266, [⟨nat_lit 0, nat_lit 0, nat_lit 1, nat_lit 0, nat_lit 1⟩]⟩,
    ⟨nat_lit 316, [⟨nat_lit 0, nat_lit 1, nat_lit 1, nat_lit 0, nat_lit 2⟩, ⟨nat_lit 0, nat_lit 2, nat_lit 0, nat_lit 1, nat_lit 3⟩]⟩,
    ⟨nat_lit 53, [⟨nat_lit 0, nat_lit 1, nat_lit 0, nat_lit 0, nat_lit 1⟩]⟩,
    ⟨nat_lit 63, [⟨nat_lit 0, nat_lit 0, nat_lit 0, nat_lit 1, nat_lit 1⟩]⟩,
    ⟨nat_lit 57, [⟨nat_lit 1, nat_lit 0, nat_lit 0, nat_lit 1, nat_lit 2⟩]⟩,
    ⟨nat_lit 297, [⟨nat_lit 0, nat_lit 0, nat_lit 0, nat_lit 1, nat_lit 1⟩]⟩,
    ⟨nat_lit 275, [⟨nat_lit 0, nat_lit 1, nat_lit 0, nat_lit 1, nat_lit 2⟩, ⟨nat_lit 0, nat_lit 3, nat_lit 1, nat_lit 0, nat_lit 4⟩]⟩,
    ⟨nat_lit 282, [⟨nat_lit 0, nat_lit 1, nat_lit 0, nat_lit 0, nat_lit 1⟩]⟩,
    ⟨nat_lit 259, [⟨nat_lit 0, nat_lit 1, nat_lit 0, nat_lit 2, nat_lit 3⟩]⟩,
    ⟨nat_lit 319, [⟨nat_lit 0, nat_lit 1, nat_lit 0, nat_lit 3, nat_lit 4⟩, ⟨nat_lit 0, nat_lit 1, nat_lit 0, nat_lit 2, nat_lit 3⟩]⟩,
    ⟨nat_lit 310, [⟨nat_lit 0, nat_lit 1, nat_lit 2, nat_lit 0, nat_lit 3⟩, ⟨nat_lit 0, nat_lit 1, nat_lit 1, nat_lit 0, nat_lit 2⟩, ⟨nat_lit 0, nat_lit 0, nat_lit 1, nat_lit 0, nat_lit 1⟩]⟩,
    ⟨nat_lit 26, [⟨nat_lit 0, nat_lit 1, nat_lit 0, nat_lit 0, nat_lit 1⟩]⟩,
    ⟨nat_lit 38, [⟨nat_lit 0, nat_lit 2, nat_lit 0, nat_lit 0, nat_lit 2⟩]⟩,
    ⟨nat_lit 44, [⟨nat_lit 0, nat_lit 2, nat_lit 0, nat_lit 1, nat_lit 3⟩, ⟨nat_lit 0, nat_lit 7, nat_lit 1, nat_lit 0, nat_lit 12⟩, ⟨nat_lit 0, nat_lit 3, nat_lit 1, nat_lit 0, nat_lit 4⟩]⟩,
    ⟨nat_lit 47, [⟨nat_lit 0, nat_lit 1, nat_lit 0, nat_lit 0, nat_lit 1⟩]⟩,
    ⟨nat_lit 21, [⟨nat_lit 0, nat_lit 1, nat_lit 1, nat_lit 0, nat_lit 2⟩, ⟨nat_lit 0, nat_lit 1, nat_lit 0, nat_lit 0, nat_lit 1⟩]⟩,
    ⟨nat_lit 51, [⟨nat_lit 0, nat_lit 2, nat_lit 1, nat_lit 0, nat_lit 3⟩, ⟨nat_lit 0, nat_lit 3, nat_lit 1, nat_lit 0, nat_lit 4⟩, ⟨nat_lit 0, nat_lit 1, nat_lit 0, nat_lit 0, nat_lit 1⟩]⟩,
    ⟨nat_lit 6, [⟨nat_lit 0, nat_lit 2, nat_lit 1, nat_lit 0, nat_lit 3⟩, ⟨nat_lit 0, nat_lit 1, nat_lit 0, nat_lit 0, nat_lit 1⟩]⟩,
    ⟨nat_lit 271, [⟨nat_lit 0, nat_lit 2, nat_lit 0, nat_lit 0, nat_lit 2⟩]⟩,
    ⟨nat_lit 307, [⟨nat_lit 0, nat_lit 2, nat_lit 1, nat_lit 0, nat_lit 3⟩, ⟨nat_lit 0, nat_lit 2, nat_lit 0, nat_lit 0, nat_lit 2⟩]⟩,
    ⟨nat_lit 309, [⟨nat_lit 0, nat_lit 3, nat_lit 1, nat_lit 0, nat_lit 4⟩, ⟨nat_lit 0, nat_lit 2, nat_lit 1, nat_lit 0, nat_lit 3⟩]⟩,
    ⟨nat_lit 278, [⟨nat_lit 0, nat_lit 0, nat_lit 1, nat_lit 0, nat_lit 1⟩]⟩,
    ⟨nat_lit 298, [⟨nat_lit 1, nat_lit 0, nat_lit 1, nat_lit 0, nat_lit 2⟩, ⟨nat_lit 0, nat_lit 1, nat_lit 1, nat_lit 0, nat_lit 2⟩, ⟨nat_lit 0, nat_lit 0, nat_lit 1, nat_lit 0, nat_lit 1⟩]⟩,
    ⟨nat_lit 288, [⟨nat_lit 1, nat_lit 0, nat_lit 2, nat_lit 0, nat_lit 3⟩, ⟨nat_lit 1, nat_lit 0, nat_lit 1, nat_lit 0, nat_lit 2⟩]⟩,
    ⟨nat_lit 0, [⟨nat_lit 0, nat_lit 1, nat_lit 2, nat_lit 0, nat_lit 3⟩]⟩,
    ⟨nat_lit 54, [⟨nat_lit 0, nat_lit 1, nat_lit 3, nat_lit 0, nat_lit 4⟩]⟩,
    ⟨nat_lit 265, [⟨nat_lit 0, nat_lit 1, nat_lit 0, nat_lit 1, nat_lit 2⟩]⟩,
    ⟨nat_lit 284, [⟨nat_lit 0, nat_lit 1, nat_lit 0, nat_lit 0, nat_lit 1⟩]⟩,
    ⟨nat_lit 294, [⟨nat_lit 0, nat_lit 2, nat_lit 0, nat_lit 0, nat_lit 2⟩, ⟨nat_lit 0, nat_lit 7, nat_lit 0, nat_lit 0, nat_lit 11⟩]⟩,
    ⟨nat_lit 300, [⟨nat_lit 0, nat_lit 2, nat_lit 0, nat_lit 1, nat_lit 3⟩, ⟨nat_lit 0, nat_lit 7, nat_lit 0, nat_lit 1, nat_lit 12⟩, ⟨nat_lit 0, nat_lit 5, nat_lit 0, nat_lit 0, nat_lit 7⟩]⟩,
    ⟨nat_lit 58, [⟨nat_lit 0, nat_lit 1, nat_lit 0, nat_lit 1, nat_lit 2⟩, ⟨nat_lit 0, nat_lit 2, nat_lit 1, nat_lit 0, nat_lit 3⟩]⟩,
    ⟨nat_lit 60, [⟨nat_lit 0, nat_lit 2, nat_lit 0, nat_lit 1, nat_lit 3⟩]⟩,
    ⟨nat_lit 303, [⟨nat_lit 0, nat_lit 2, nat_lit 0, nat_lit 1, nat_lit 3⟩, ⟨nat_lit 0, nat_lit 3, nat_lit 0, nat_lit 0, nat_lit 3⟩, ⟨nat_lit 0, nat_lit 2, nat_lit 0, nat_lit 0, nat_lit 2⟩]⟩,
    ⟨nat_lit 314, [⟨nat_lit 0, nat_lit 3, nat_lit 0, nat_lit 1, nat_lit 4⟩, ⟨nat_lit 0, nat_lit 2, nat_lit 1, nat_lit 0, nat_lit 3⟩]⟩,
    ⟨nat_lit 9, [⟨nat_lit 1, nat_lit 0, nat_lit 0, nat_lit 1, nat_lit 2⟩]⟩,
    ⟨nat_lit 35, [⟨nat_lit 1, nat_lit 0, nat_lit 0, nat_lit 2, nat_lit 3⟩]⟩,
    ⟨nat_lit 256, [⟨nat_lit 1, nat_lit 0, nat_lit 1, nat_lit 0, nat_lit 2⟩, ⟨nat_lit 0, nat_lit 0, nat_lit 1, nat_lit 0, nat_lit 1⟩]⟩,
    ⟨nat_lit 28, [⟨nat_lit 0, nat_lit 2, nat_lit 1, nat_lit 0, nat_lit 3⟩]⟩,
    ⟨nat_lit 277, [⟨nat_lit 0, nat_lit 2, nat_lit 0, nat_lit 0, nat_lit 2⟩]⟩,
    ⟨nat_lit 293, [⟨nat_lit 0, nat_lit 3, nat_lit 1, nat_lit 0, nat_lit 4⟩, ⟨nat_lit 0, nat_lit 5, nat_lit 0, nat_lit 0, nat_lit 7⟩, ⟨nat_lit 0, nat_lit 7, nat_lit 0, nat_lit 0, nat_lit 11⟩, ⟨nat_lit 0, nat_lit 3, nat_lit 0, nat_lit 0, nat_lit 3⟩]⟩,
    ⟨nat_lit 304, [⟨nat_lit 1, nat_lit 0, nat_lit 2, nat_lit 0, nat_lit 3⟩, ⟨nat_lit 0, nat_lit 1, nat_lit 2, nat_lit 0, nat_lit 3⟩, ⟨nat_lit 0, nat_lit 0, nat_lit 2, nat_lit 0, nat_lit 2⟩]⟩,
    ⟨nat_lit 268, [⟨nat_lit 0, nat_lit 5, nat_lit 0, nat_lit 0, nat_lit 7⟩, ⟨nat_lit 0, nat_lit 3, nat_lit 1, nat_lit 0, nat_lit 4⟩]⟩,
    ⟨nat_lit 291, [⟨nat_lit 0, nat_lit 1, nat_lit 0, nat_lit 2, nat_lit 3⟩]⟩,
    ⟨nat_lit 281, [⟨nat_lit 0, nat_lit 1, nat_lit 0, nat_lit 3, nat_lit 4⟩, ⟨nat_lit 0, nat_lit 1, nat_lit 0, nat_lit 2, nat_lit 3⟩]⟩,
    ⟨nat_lit 272, [⟨nat_lit 0, nat_lit 1, nat_lit 2, nat_lit 0, nat_lit 3⟩, ⟨nat_lit 0, nat_lit 0, nat_lit 2, nat_lit 0, nat_lit 2⟩, ⟨nat_lit 0, nat_lit 0, nat_lit 1, nat_lit 0, nat_lit 1⟩]⟩,
    ⟨nat_lit 5, [⟨nat_lit 0, nat_lit 2, nat_lit 0, nat_lit 0, nat_lit 2⟩, ⟨nat_lit 0, nat_lit 3, nat_lit 0, nat_lit 0, nat_lit 3⟩, ⟨nat_lit 0, nat_lit 1, nat_lit 0, nat_lit 0, nat_lit 1⟩]⟩,
    ⟨nat_lit 41, [⟨nat_lit 1, nat_lit 0, nat_lit 0, nat_lit 1, nat_lit 2⟩]⟩,
    ⟨nat_lit 3, [⟨nat_lit 1, nat_lit 0, nat_lit 0, nat_lit 2, nat_lit 3⟩]⟩,
    ⟨nat_lit 37, [⟨nat_lit 0, nat_lit 2, nat_lit 1, nat_lit 0, nat_lit 3⟩, ⟨nat_lit 0, nat_lit 2, nat_lit 0, nat_lit 0, nat_lit 2⟩]⟩,
    ⟨nat_lit 19, [⟨nat_lit 0, nat_lit 2, nat_lit 1, nat_lit 0, nat_lit 3⟩]⟩,
    ⟨nat_lit 12, [⟨nat_lit 0, nat_lit 2, nat_lit 1, nat_lit 0, nat_lit 3⟩]⟩,
    ⟨nat_lit 261, [⟨nat_lit 0, nat_lit 2, nat_lit 0, nat_lit 0, nat_lit 2⟩]⟩,
    ⟨nat_lit 15, [⟨nat_lit 0, nat_lit 2, nat_lit 1, nat_lit 0, nat_lit 3⟩]⟩]

theorem form_l2 : formB Best.bi2L1L2Linf.mult (DilFast.coreOf tab_l2) = true := by decide +kernel

theorem autos_l2 : DilFast.autosF .plane 6 1 tab_l2 frow = true := by decide +kernel

theorem closed_l2 : DilFast.closedF .plane 2 4 6 1 frow tab_l2 tab_l2 = true := by decide +kernel

def pt1_l2 : Pt := ⟨[1, 3, 2, 2], [2], 2 / 3, [0, 0]⟩
def pt2_l2 : Pt := ⟨[2, 0], [1], 1 / 3, [0, 1]⟩
theorem low_l2 : lowB .l2sq Best.bi2L1L2Linf 0 pt1_l2 pt2_l2 (36) := by decide +kernel

theorem cert_l2 : Cert .l2 Best.bi2L1L2Linf (6) (6) :=
  DilFast.cert (p := 0) (.inr (.inr rfl)) (vn := 6) (vd := 1) (by decide) rfl (by norm_num [bnd, Metric.sq]) div_eq genus_eq okRows rows form_l2 autos_l2 closed_l2
    (by norm_num [Metric.sq, Metric.ratio]; exact low_l2)

def tab_linf : List DilFast.Bin := [
    ⟨nat_lit 313, [⟨nat_lit 0, nat_lit 0, nat_lit 0, nat_lit 1, nat_lit 1⟩]⟩,
    ⟨nat_lit 266, [⟨nat_lit 0, nat_lit 0, nat_lit 1, nat_lit 0, nat_lit 1⟩]⟩,
    ⟨nat_lit 53, [⟨nat_lit 0, nat_lit 1, nat_lit 0, nat_lit 0, nat_lit 1⟩]⟩,
    ⟨nat_lit 63, [⟨nat_lit 0, nat_lit 0, nat_lit 0, nat_lit 1, nat_lit 1⟩]⟩,
    ⟨nat_lit 297, [⟨nat_lit 0, nat_lit 0, nat_lit 0, nat_lit 1, nat_lit 1⟩]⟩,
    ⟨nat_lit 282, [⟨nat_lit 0, nat_lit 1, nat_lit 0, nat_lit 0, nat_lit 1⟩]⟩,
    ⟨nat_lit 26, [⟨nat_lit 0, nat_lit 1, nat_lit 0, nat_lit 0, nat_lit 1⟩]⟩,
    ⟨nat_lit 38, [⟨nat_lit 0, nat_lit 2, nat_lit 0, nat_lit 0, nat_lit 2⟩]⟩,
    ⟨nat_lit 47, [⟨nat_lit 0, nat_lit 1, nat_lit 0, nat_lit 0, nat_lit 1⟩]⟩,
    ⟨nat_lit 271, [⟨nat_lit 0, nat_lit 2, nat_lit 0, nat_lit 0, nat_lit 2⟩]⟩,
    ⟨nat_lit 278, [⟨nat_lit 0, nat_lit 0, nat_lit 1, nat_lit 0, nat_lit 1⟩]⟩,
    ⟨nat_lit 284, [⟨nat_lit 0, nat_lit 1, nat_lit 0, nat_lit 0, nat_lit 1⟩]⟩,
    ⟨nat_lit 294, [⟨nat_lit 0, nat_lit 2, nat_lit 0, nat_lit 0, nat_lit 2⟩, ⟨nat_lit 0, nat_lit 7, nat_lit 0, nat_lit 0, nat_lit 11⟩]⟩,
    ⟨nat_lit 6, [⟨nat_lit 0, nat_lit 1, nat_lit 0, nat_lit 0, nat_lit 1⟩]⟩,
    ⟨nat_lit 310, [⟨nat_lit 0, nat_lit 0, nat_lit 1, nat_lit 0, nat_lit 1⟩]⟩,
    ⟨nat_lit 277, [⟨nat_lit 0, nat_lit 2, nat_lit 0, nat_lit 0, nat_lit 2⟩]⟩,
    ⟨nat_lit 303, [⟨nat_lit 0, nat_lit 3, nat_lit 0, nat_lit 0, nat_lit 3⟩, ⟨nat_lit 0, nat_lit 2, nat_lit 0, nat_lit 0, nat_lit 2⟩]⟩,
    ⟨nat_lit 256, [⟨nat_lit 0, nat_lit 0, nat_lit 1, nat_lit 0, nat_lit 1⟩]⟩,
    ⟨nat_lit 51, [⟨nat_lit 0, nat_lit 1, nat_lit 0, nat_lit 0, nat_lit 1⟩]⟩,
    ⟨nat_lit 5, [⟨nat_lit 0, nat_lit 2, nat_lit 0, nat_lit 0, nat_lit 2⟩, ⟨nat_lit 0, nat_lit 3, nat_lit 0, nat_lit 0, nat_lit 3⟩, ⟨nat_lit 0, nat_lit 1, nat_lit 0, nat_lit 0, nat_lit 1⟩]⟩,
    ⟨nat_lit 298, [⟨nat_lit 0, nat_lit 0, nat_lit 1, nat_lit 0, nat_lit 1⟩]⟩,
    ⟨nat_lit 272, [⟨nat_lit 0, nat_lit 0, nat_lit 2, nat_lit 0, nat_lit 2⟩, ⟨nat_lit 0, nat_lit 0, nat_lit 1, nat_lit 0, nat_lit 1⟩]⟩,
    ⟨nat_lit 21, [⟨nat_lit 0, nat_lit 1, nat_lit 0, nat_lit 0, nat_lit 1⟩]⟩,
    ⟨nat_lit 261, [⟨nat_lit 0, nat_lit 2, nat_lit 0, nat_lit 0, nat_lit 2⟩]⟩,
    ⟨nat_lit 293, [⟨nat_lit 0, nat_lit 7, nat_lit 0, nat_lit 0, nat_lit 11⟩, ⟨nat_lit 0, nat_lit 3, nat_lit 0, nat_lit 0, nat_lit 3⟩]⟩,
    ⟨nat_lit 37, [⟨nat_lit 0, nat_lit 2, nat_lit 0, nat_lit 0, nat_lit 2⟩]⟩,
    ⟨nat_lit 307, [⟨nat_lit 0, nat_lit 2, nat_lit 0, nat_lit 0, nat_lit 2⟩]⟩,
    ⟨nat_lit 304, [⟨nat_lit 0, nat_lit 0, nat_lit 2, nat_lit 0, nat_lit 2⟩]⟩]

theorem form_linf : formB Best.bi2L1L2Linf.mult (DilFast.coreOf tab_linf) = true := by decide +kernel

theorem autos_linf : DilFast.autosF .linf 6 1 tab_linf frow = true := by decide +kernel

theorem closed_linf : DilFast.closedF .linf 2 4 6 1 frow tab_linf tab_linf = true := by decide +kernel

def pt1_linf : Pt := ⟨[1, 3, 2, 2], [2], 2 / 3, [0, 0]⟩
def pt2_linf : Pt := ⟨[2, 0], [1], 1 / 3, [0, 1]⟩
theorem low_linf : lowB .linf Best.bi2L1L2Linf 0 pt1_linf pt2_linf (6) := by decide +kernel

theorem cert_linf : Cert .linf Best.bi2L1L2Linf (6) (6) :=
  DilFast.cert (p := 0) (.inl rfl) (vn := 6) (vd := 1) (by decide) rfl (by norm_num [bnd, Metric.sq]) div_eq genus_eq okRows rows form_linf autos_linf closed_linf
    (by norm_num [Metric.sq, Metric.ratio]; exact low_linf)

end Peano.BestDil.Bi2L1L2Linf

namespace Peano.BestDil.Bi3L1L2
open DilCert Zoo

def frow : List (List DilFast.Row) := [
    [⟨nat_lit 0, nat_lit 0, nat_lit 11, nat_lit 0⟩, ⟨nat_lit 1, nat_lit 0, nat_lit 0, nat_lit 0⟩, ⟨nat_lit 1, nat_lit 1, nat_lit 5, nat_lit 0⟩, ⟨nat_lit 0, nat_lit 1, nat_lit 14, nat_lit 0⟩],
    [⟨nat_lit 0, nat_lit 0, nat_lit 8, nat_lit 1⟩, ⟨nat_lit 1, nat_lit 0, nat_lit 15, nat_lit 1⟩, ⟨nat_lit 1, nat_lit 1, nat_lit 9, nat_lit 0⟩, ⟨nat_lit 0, nat_lit 1, nat_lit 2, nat_lit 0⟩]]

theorem div_eq : Best.bi3L1L2.div = 2 := by decide +kernel

theorem genus_eq : Best.bi3L1L2.genus = 4 := by decide +kernel

theorem okRows : DilFast.OkRows 2 frow := by decide +kernel

theorem rows : Rows Best.bi3L1L2 (DilFast.prowOf frow) := by decide +kernel

def tab_l1 : List DilFast.Bin := [
    ⟨nat_lit 25, [⟨nat_lit 0, nat_lit 0, nat_lit 0, nat_lit 1, nat_lit 1⟩]⟩,
    ⟨nat_lit 31, [⟨nat_lit 1, nat_lit 0, nat_lit 0, nat_lit 1, nat_lit 2⟩, ⟨nat_lit 0, nat_lit 1, nat_lit 0, nat_lit 1, nat_lit 2⟩]⟩,
    ⟨nat_lit 10, [⟨nat_lit 0, nat_lit 0, nat_lit 1, nat_lit 0, nat_lit 1⟩]⟩,
    ⟨nat_lit 28, [⟨nat_lit 0, nat_lit 1, nat_lit 1, nat_lit 0, nat_lit 2⟩, ⟨nat_lit 0, nat_lit 1, nat_lit 0, nat_lit 1, nat_lit 2⟩]⟩,
    ⟨nat_lit 21, [⟨nat_lit 0, nat_lit 1, nat_lit 0, nat_lit 0, nat_lit 1⟩]⟩,
    ⟨nat_lit 302, [⟨nat_lit 0, nat_lit 0, nat_lit 1, nat_lit 0, nat_lit 1⟩]⟩,
    ⟨nat_lit 258, [⟨nat_lit 1, nat_lit 0, nat_lit 1, nat_lit 0, nat_lit 2⟩]⟩,
    ⟨nat_lit 271, [⟨nat_lit 0, nat_lit 1, nat_lit 0, nat_lit 0, nat_lit 1⟩]⟩,
    ⟨nat_lit 277, [⟨nat_lit 0, nat_lit 1, nat_lit 1, nat_lit 0, nat_lit 2⟩]⟩,
    ⟨nat_lit 3, [⟨nat_lit 0, nat_lit 1, nat_lit 0, nat_lit 1, nat_lit 2⟩]⟩,
    ⟨nat_lit 26, [⟨nat_lit 0, nat_lit 1, nat_lit 0, nat_lit 0, nat_lit 1⟩]⟩,
    ⟨nat_lit 12, [⟨nat_lit 0, nat_lit 2, nat_lit 0, nat_lit 0, nat_lit 2⟩]⟩,
    ⟨nat_lit 6, [⟨nat_lit 0, nat_lit 2, nat_lit 0, nat_lit 1, nat_lit 3⟩, ⟨nat_lit 0, nat_lit 1, nat_lit 0, nat_lit 0, nat_lit 1⟩]⟩,
    ⟨nat_lit 22, [⟨nat_lit 0, nat_lit 1, nat_lit 2, nat_lit 0, nat_lit 3⟩, ⟨nat_lit 0, nat_lit 0, nat_lit 1, nat_lit 0, nat_lit 1⟩]⟩,
    ⟨nat_lit 15, [⟨nat_lit 0, nat_lit 2, nat_lit 0, nat_lit 0, nat_lit 2⟩]⟩,
    ⟨nat_lit 0, [⟨nat_lit 1, nat_lit 0, nat_lit 1, nat_lit 0, nat_lit 2⟩]⟩,
    ⟨nat_lit 14, [⟨nat_lit 0, nat_lit 1, nat_lit 1, nat_lit 0, nat_lit 1⟩, ⟨nat_lit 0, nat_lit 2, nat_lit 0, nat_lit 1, nat_lit 3⟩]⟩,
    ⟨nat_lit 2, [⟨nat_lit 0, nat_lit 1, nat_lit 0, nat_lit 2, nat_lit 3⟩]⟩,
    ⟨nat_lit 270, [⟨nat_lit 0, nat_lit 0, nat_lit 2, nat_lit 0, nat_lit 2⟩]⟩,
    ⟨nat_lit 276, [⟨nat_lit 0, nat_lit 0, nat_lit 3, nat_lit 0, nat_lit 3⟩]⟩,
    ⟨nat_lit 259, [⟨nat_lit 0, nat_lit 0, nat_lit 0, nat_lit 1, nat_lit 1⟩]⟩,
    ⟨nat_lit 281, [⟨nat_lit 0, nat_lit 0, nat_lit 0, nat_lit 2, nat_lit 2⟩]⟩,
    ⟨nat_lit 287, [⟨nat_lit 1, nat_lit 0, nat_lit 0, nat_lit 2, nat_lit 3⟩]⟩,
    ⟨nat_lit 19, [⟨nat_lit 0, nat_lit 2, nat_lit 0, nat_lit 0, nat_lit 2⟩]⟩,
    ⟨nat_lit 5, [⟨nat_lit 0, nat_lit 3, nat_lit 0, nat_lit 0, nat_lit 3⟩]⟩,
    ⟨nat_lit 16, [⟨nat_lit 0, nat_lit 0, nat_lit 2, nat_lit 0, nat_lit 2⟩]⟩,
    ⟨nat_lit 18, [⟨nat_lit 0, nat_lit 2, nat_lit 2, nat_lit 0, nat_lit 3⟩]⟩,
    ⟨nat_lit 4, [⟨nat_lit 0, nat_lit 3, nat_lit 2, nat_lit 0, nat_lit 4⟩]⟩,
    ⟨nat_lit 27, [⟨nat_lit 0, nat_lit 2, nat_lit 0, nat_lit 1, nat_lit 2⟩]⟩,
    ⟨nat_lit 13, [⟨nat_lit 0, nat_lit 3, nat_lit 0, nat_lit 1, nat_lit 3⟩]⟩,
    ⟨nat_lit 7, [⟨nat_lit 0, nat_lit 3, nat_lit 0, nat_lit 2, nat_lit 4⟩]⟩,
    ⟨nat_lit 20, [⟨nat_lit 0, nat_lit 1, nat_lit 2, nat_lit 0, nat_lit 2⟩]⟩,
    ⟨nat_lit 275, [⟨nat_lit 0, nat_lit 2, nat_lit 1, nat_lit 0, nat_lit 3⟩]⟩]

theorem form_l1 : formB Best.bi3L1L2.mult (DilFast.coreOf tab_l1) = true := by decide +kernel

theorem autos_l1 : DilFast.autosF .l1 12 1 tab_l1 frow = true := by decide +kernel

theorem closed_l1 : DilFast.closedF .l1 2 4 12 1 frow tab_l1 tab_l1 = true := by decide +kernel

def pt1_l1 : Pt := ⟨[0, 3], [1], 1 / 3, [0, 0]⟩
def pt2_l1 : Pt := ⟨[1, 0], [2], 2 / 3, [1, 1]⟩
theorem low_l1 : lowB .l1 Best.bi3L1L2 1 pt1_l1 pt2_l1 (12) := by decide +kernel

theorem cert_l1 : Cert .l1 Best.bi3L1L2 (12) (12) :=
  DilFast.cert (p := 1) (.inr (.inl rfl)) (vn := 12) (vd := 1) (by decide) rfl (by norm_num [bnd, Metric.sq]) div_eq genus_eq okRows rows form_l1 autos_l1 closed_l1
    (by norm_num [Metric.sq, Metric.ratio]; exact low_l1)

def tab_l2 : List DilFast.Bin := [
    ⟨nat_lit 25, [⟨nat_lit 0, nat_lit 0, nat_lit 0, nat_lit 1, nat_lit 1⟩]⟩,
    ⟨nat_lit 31, [⟨nat_lit 1, nat_lit 0, nat_lit 0, nat_lit 1, nat_lit 2⟩, ⟨nat_lit 0, nat_lit 1, nat_lit 0, nat_lit 1, nat_lit 2⟩]⟩,
    ⟨nat_lit 10, [⟨nat_lit 0, nat_lit 0, nat_lit 1, nat_lit 0, nat_lit 1⟩]⟩,
    ⟨nat_lit 28, [⟨nat_lit 0, nat_lit 1, nat_lit 1, nat_lit 0, nat_lit 2⟩, ⟨nat_lit 0, nat_lit 1, nat_lit 0, nat_lit 1, nat_lit 2⟩]⟩,
    ⟨nat_lit 21, [⟨nat_lit 0, nat_lit 1, nat_lit 0, nat_lit 0, nat_lit 1⟩]⟩,
    ⟨nat_lit 302, [⟨nat_lit 0, nat_lit 0, nat_lit 1, nat_lit 0, nat_lit 1⟩]⟩,
    ⟨nat_lit 258, [⟨nat_lit 1, nat_lit 0, nat_lit 1, nat_lit 0, nat_lit 2⟩]⟩,
    ⟨nat_lit 271, [⟨nat_lit 0, nat_lit 1, nat_lit 0, nat_lit 0, nat_lit 1⟩]⟩,
    ⟨nat_lit 277, [⟨nat_lit 0, nat_lit 1, nat_lit 1, nat_lit 0, nat_lit 2⟩]⟩,
    ⟨nat_lit 16, [⟨nat_lit 0, nat_lit 1, nat_lit 3, nat_lit 0, nat_lit 4⟩, ⟨nat_lit 0, nat_lit 0, nat_lit 2, nat_lit 0, nat_lit 2⟩]⟩,
    ⟨nat_lit 3, [⟨nat_lit 0, nat_lit 1, nat_lit 0, nat_lit 1, nat_lit 2⟩]⟩,
    ⟨nat_lit 26, [⟨nat_lit 0, nat_lit 1, nat_lit 0, nat_lit 0, nat_lit 1⟩]⟩,
    ⟨nat_lit 12, [⟨nat_lit 0, nat_lit 2, nat_lit 0, nat_lit 0, nat_lit 2⟩]⟩,
    ⟨nat_lit 6, [⟨nat_lit 0, nat_lit 2, nat_lit 0, nat_lit 1, nat_lit 3⟩, ⟨nat_lit 0, nat_lit 1, nat_lit 0, nat_lit 0, nat_lit 1⟩]⟩,
    ⟨nat_lit 22, [⟨nat_lit 0, nat_lit 1, nat_lit 2, nat_lit 0, nat_lit 3⟩, ⟨nat_lit 0, nat_lit 0, nat_lit 1, nat_lit 0, nat_lit 1⟩]⟩,
    ⟨nat_lit 15, [⟨nat_lit 0, nat_lit 2, nat_lit 0, nat_lit 0, nat_lit 2⟩]⟩,
    ⟨nat_lit 19, [⟨nat_lit 0, nat_lit 3, nat_lit 1, nat_lit 0, nat_lit 4⟩, ⟨nat_lit 0, nat_lit 2, nat_lit 0, nat_lit 0, nat_lit 2⟩]⟩,
    ⟨nat_lit 0, [⟨nat_lit 1, nat_lit 0, nat_lit 1, nat_lit 0, nat_lit 2⟩]⟩,
    ⟨nat_lit 14, [⟨nat_lit 0, nat_lit 1, nat_lit 1, nat_lit 0, nat_lit 1⟩]⟩,
    ⟨nat_lit 2, [⟨nat_lit 0, nat_lit 1, nat_lit 0, nat_lit 2, nat_lit 3⟩]⟩,
    ⟨nat_lit 24, [⟨nat_lit 0, nat_lit 1, nat_lit 0, nat_lit 3, nat_lit 4⟩]⟩,
    ⟨nat_lit 270, [⟨nat_lit 0, nat_lit 0, nat_lit 2, nat_lit 0, nat_lit 2⟩]⟩,
    ⟨nat_lit 276, [⟨nat_lit 0, nat_lit 0, nat_lit 3, nat_lit 0, nat_lit 3⟩]⟩,
    ⟨nat_lit 274, [⟨nat_lit 0, nat_lit 1, nat_lit 3, nat_lit 0, nat_lit 4⟩]⟩,
    ⟨nat_lit 259, [⟨nat_lit 0, nat_lit 0, nat_lit 0, nat_lit 1, nat_lit 1⟩]⟩,
    ⟨nat_lit 281, [⟨nat_lit 0, nat_lit 0, nat_lit 0, nat_lit 2, nat_lit 2⟩]⟩,
    ⟨nat_lit 287, [⟨nat_lit 1, nat_lit 0, nat_lit 0, nat_lit 2, nat_lit 3⟩]⟩,
    ⟨nat_lit 5, [⟨nat_lit 0, nat_lit 5, nat_lit 0, nat_lit 0, nat_lit 7⟩, ⟨nat_lit 0, nat_lit 3, nat_lit 0, nat_lit 0, nat_lit 3⟩]⟩,
    ⟨nat_lit 18, [⟨nat_lit 0, nat_lit 2, nat_lit 2, nat_lit 0, nat_lit 3⟩]⟩,
    ⟨nat_lit 4, [⟨nat_lit 0, nat_lit 3, nat_lit 2, nat_lit 0, nat_lit 4⟩]⟩,
    ⟨nat_lit 27, [⟨nat_lit 0, nat_lit 2, nat_lit 0, nat_lit 1, nat_lit 2⟩]⟩,
    ⟨nat_lit 13, [⟨nat_lit 0, nat_lit 3, nat_lit 0, nat_lit 1, nat_lit 3⟩]⟩,
    ⟨nat_lit 7, [⟨nat_lit 0, nat_lit 3, nat_lit 0, nat_lit 2, nat_lit 4⟩]⟩,
    ⟨nat_lit 20, [⟨nat_lit 0, nat_lit 1, nat_lit 2, nat_lit 0, nat_lit 2⟩]⟩,
    ⟨nat_lit 275, [⟨nat_lit 0, nat_lit 2, nat_lit 1, nat_lit 0, nat_lit 3⟩]⟩]

theorem form_l2 : formB Best.bi3L1L2.mult (DilFast.coreOf tab_l2) = true := by decide +kernel

theorem autos_l2 : DilFast.autosF .plane 6 1 tab_l2 frow = true := by decide +kernel

theorem closed_l2 : DilFast.closedF .plane 2 4 6 1 frow tab_l2 tab_l2 = true := by decide +kernel

def pt1_l2 : Pt := ⟨[0, 3, 2], [2], 2 / 3, [1, 0]⟩
def pt2_l2 : Pt := ⟨[1, 0, 1], [1], 1 / 3, [0, 1]⟩
theorem low_l2 : lowB .l2sq Best.bi3L1L2 1 pt1_l2 pt2_l2 (36) := by decide +kernel

theorem cert_l2 : Cert .l2 Best.bi3L1L2 (6) (6) :=
  DilFast.cert (p := 1) (.inr (.inr rfl)) (vn := 6) (vd := 1) (by decide) rfl (by norm_num [bnd, Metric.sq]) div_eq genus_eq okRows rows form_l2 autos_l2 closed_l2
    (by norm_num [Metric.sq, Metric.ratio]; exact low_l2)

end Peano.BestDil.Bi3L1L2

namespace Peano.BestDil.Bi3Linf
open DilCert Zoo

def frow : List (List DilFast.Row) := [
    [⟨nat_lit 0, nat_lit 0, nat_lit 8, nat_lit 1⟩, ⟨nat_lit 1, nat_lit 0, nat_lit 15, nat_lit 1⟩, ⟨nat_lit 1, nat_lit 1, nat_lit 10, nat_lit 1⟩, ⟨nat_lit 0, nat_lit 1, nat_lit 13, nat_lit 1⟩],
    [⟨nat_lit 0, nat_lit 0, nat_lit 8, nat_lit 1⟩, ⟨nat_lit 1, nat_lit 0, nat_lit 15, nat_lit 1⟩, ⟨nat_lit 1, nat_lit 1, nat_lit 10, nat_lit 0⟩, ⟨nat_lit 0, nat_lit 1, nat_lit 7, nat_lit 0⟩]]

theorem div_eq : Best.bi3Linf.div = 2 := by decide +kernel

theorem genus_eq : Best.bi3Linf.genus = 4 := by decide +kernel

theorem okRows : DilFast.OkRows 2 frow := by decide +kernel

theorem rows : Rows Best.bi3Linf (DilFast.prowOf frow) := by decide +kernel

def tab_linf : List DilFast.Bin := [
    ⟨nat_lit 302, [⟨nat_lit 0, nat_lit 0, nat_lit 1, nat_lit 0, nat_lit 1⟩, ⟨nat_lit 1, nat_lit 0, nat_lit 3, nat_lit 0, nat_lit 3⟩]⟩,
    ⟨nat_lit 293, [⟨nat_lit 0, nat_lit 1, nat_lit 0, nat_lit 0, nat_lit 1⟩]⟩,
    ⟨nat_lit 261, [⟨nat_lit 0, nat_lit 1, nat_lit 0, nat_lit 0, nat_lit 1⟩]⟩,
    ⟨nat_lit 22, [⟨nat_lit 0, nat_lit 0, nat_lit 1, nat_lit 0, nat_lit 1⟩]⟩,
    ⟨nat_lit 13, [⟨nat_lit 0, nat_lit 1, nat_lit 0, nat_lit 1, nat_lit 1⟩]⟩,
    ⟨nat_lit 47, [⟨nat_lit 0, nat_lit 1, nat_lit 3, nat_lit 0, nat_lit 4⟩]⟩,
    ⟨nat_lit 292, [⟨nat_lit 0, nat_lit 0, nat_lit 2, nat_lit 0, nat_lit 2⟩]⟩,
    ⟨nat_lit 298, [⟨nat_lit 0, nat_lit 0, nat_lit 3, nat_lit 0, nat_lit 3⟩]⟩,
    ⟨nat_lit 268, [⟨nat_lit 0, nat_lit 1, nat_lit 3, nat_lit 0, nat_lit 4⟩]⟩,
    ⟨nat_lit 297, [⟨nat_lit 0, nat_lit 0, nat_lit 0, nat_lit 1, nat_lit 1⟩]⟩,
    ⟨nat_lit 295, [⟨nat_lit 0, nat_lit 0, nat_lit 0, nat_lit 2, nat_lit 2⟩]⟩,
    ⟨nat_lit 300, [⟨nat_lit 0, nat_lit 1, nat_lit 3, nat_lit 0, nat_lit 4⟩]⟩,
    ⟨nat_lit 307, [⟨nat_lit 0, nat_lit 3, nat_lit 1, nat_lit 0, nat_lit 4⟩]⟩,
    ⟨nat_lit 309, [⟨nat_lit 0, nat_lit 1, nat_lit 0, nat_lit 0, nat_lit 1⟩]⟩,
    ⟨nat_lit 315, [⟨nat_lit 0, nat_lit 2, nat_lit 0, nat_lit 0, nat_lit 2⟩]⟩,
    ⟨nat_lit 299, [⟨nat_lit 0, nat_lit 2, nat_lit 3, nat_lit 0, nat_lit 4⟩]⟩,
    ⟨nat_lit 288, [⟨nat_lit 1, nat_lit 0, nat_lit 2, nat_lit 0, nat_lit 2⟩]⟩,
    ⟨nat_lit 296, [⟨nat_lit 2, nat_lit 0, nat_lit 3, nat_lit 0, nat_lit 4⟩]⟩,
    ⟨nat_lit 301, [⟨nat_lit 0, nat_lit 1, nat_lit 0, nat_lit 1, nat_lit 1⟩]⟩,
    ⟨nat_lit 291, [⟨nat_lit 0, nat_lit 1, nat_lit 0, nat_lit 2, nat_lit 2⟩]⟩,
    ⟨nat_lit 308, [⟨nat_lit 0, nat_lit 0, nat_lit 2, nat_lit 0, nat_lit 2⟩]⟩,
    ⟨nat_lit 272, [⟨nat_lit 0, nat_lit 1, nat_lit 3, nat_lit 0, nat_lit 4⟩]⟩,
    ⟨nat_lit 313, [⟨nat_lit 0, nat_lit 0, nat_lit 0, nat_lit 1, nat_lit 1⟩]⟩,
    ⟨nat_lit 43, [⟨nat_lit 0, nat_lit 2, nat_lit 3, nat_lit 0, nat_lit 4⟩]⟩,
    ⟨nat_lit 264, [⟨nat_lit 2, nat_lit 0, nat_lit 3, nat_lit 0, nat_lit 4⟩]⟩,
    ⟨nat_lit 51, [⟨nat_lit 0, nat_lit 3, nat_lit 1, nat_lit 0, nat_lit 4⟩]⟩]

theorem form_linf : formB Best.bi3Linf.mult (DilFast.coreOf tab_linf) = true := by decide +kernel

theorem autos_linf : DilFast.autosF .linf 5 1 tab_linf frow = true := by decide +kernel

theorem closed_linf : DilFast.closedF .linf 2 4 5 1 frow tab_linf tab_linf = true := by decide +kernel

def pt1_linf : Pt := ⟨[0, 3, 2], [1, 2], 2 / 5, [1, 0]⟩
def pt2_linf : Pt := ⟨[1, 0, 1], [2, 1], 3 / 5, [0, 1]⟩
theorem low_linf : lowB .linf Best.bi3Linf 0 pt1_linf pt2_linf (5) := by decide +kernel

theorem cert_linf : Cert .linf Best.bi3Linf (5) (5) :=
  DilFast.cert (p := 0) (.inl rfl) (vn := 5) (vd := 1) (by decide) rfl (by norm_num [bnd, Metric.sq]) div_eq genus_eq okRows rows form_linf autos_linf closed_linf
    (by norm_num [Metric.sq, Metric.ratio]; exact low_linf)

end Peano.BestDil.Bi3Linf

namespace Peano.BestDil.Bi4L1L2
open DilCert Zoo

def frow : List (List DilFast.Row) := [
    [⟨nat_lit 0, nat_lit 0, nat_lit 11, nat_lit 0⟩, ⟨nat_lit 1, nat_lit 0, nat_lit 0, nat_lit 0⟩, ⟨nat_lit 1, nat_lit 1, nat_lit 5, nat_lit 0⟩, ⟨nat_lit 0, nat_lit 1, nat_lit 14, nat_lit 0⟩],
    [⟨nat_lit 0, nat_lit 0, nat_lit 5, nat_lit 0⟩, ⟨nat_lit 0, nat_lit 1, nat_lit 11, nat_lit 0⟩, ⟨nat_lit 1, nat_lit 0, nat_lit 12, nat_lit 0⟩, ⟨nat_lit 1, nat_lit 1, nat_lit 2, nat_lit 1⟩]]

theorem div_eq : Best.bi4L1L2.div = 2 := by decide +kernel

theorem genus_eq : Best.bi4L1L2.genus = 4 := by decide +kernel

theorem okRows : DilFast.OkRows 2 frow := by decide +kernel

theorem rows : Rows Best.bi4L1L2 (DilFast.prowOf frow) := by decide +kernel

def tab_l1 : List DilFast.Bin := [
    ⟨nat_lit 25, [⟨nat_lit 0, nat_lit 0, nat_lit 0, nat_lit 1, nat_lit 1⟩]⟩,
    ⟨nat_lit 31, [⟨nat_lit 1, nat_lit 0, nat_lit 0, nat_lit 1, nat_lit 2⟩, ⟨nat_lit 0, nat_lit 0, nat_lit 0, nat_lit 1, nat_lit 1⟩]⟩,
    ⟨nat_lit 10, [⟨nat_lit 0, nat_lit 0, nat_lit 1, nat_lit 0, nat_lit 1⟩]⟩,
    ⟨nat_lit 28, [⟨nat_lit 0, nat_lit 1, nat_lit 1, nat_lit 0, nat_lit 2⟩, ⟨nat_lit 0, nat_lit 1, nat_lit 0, nat_lit 1, nat_lit 2⟩]⟩,
    ⟨nat_lit 21, [⟨nat_lit 0, nat_lit 1, nat_lit 0, nat_lit 0, nat_lit 1⟩]⟩,
    ⟨nat_lit 13, [⟨nat_lit 0, nat_lit 1, nat_lit 0, nat_lit 1, nat_lit 1⟩]⟩,
    ⟨nat_lit 60, [⟨nat_lit 0, nat_lit 1, nat_lit 0, nat_lit 0, nat_lit 1⟩]⟩,
    ⟨nat_lit 3, [⟨nat_lit 0, nat_lit 1, nat_lit 0, nat_lit 1, nat_lit 2⟩]⟩,
    ⟨nat_lit 26, [⟨nat_lit 0, nat_lit 1, nat_lit 0, nat_lit 0, nat_lit 1⟩]⟩,
    ⟨nat_lit 12, [⟨nat_lit 0, nat_lit 2, nat_lit 0, nat_lit 0, nat_lit 2⟩]⟩,
    ⟨nat_lit 6, [⟨nat_lit 0, nat_lit 2, nat_lit 0, nat_lit 1, nat_lit 3⟩, ⟨nat_lit 0, nat_lit 1, nat_lit 0, nat_lit 0, nat_lit 1⟩]⟩,
    ⟨nat_lit 22, [⟨nat_lit 0, nat_lit 1, nat_lit 2, nat_lit 0, nat_lit 3⟩, ⟨nat_lit 0, nat_lit 0, nat_lit 1, nat_lit 0, nat_lit 1⟩]⟩,
    ⟨nat_lit 15, [⟨nat_lit 0, nat_lit 2, nat_lit 0, nat_lit 0, nat_lit 2⟩]⟩,
    ⟨nat_lit 0, [⟨nat_lit 1, nat_lit 0, nat_lit 1, nat_lit 0, nat_lit 2⟩]⟩,
    ⟨nat_lit 18, [⟨nat_lit 0, nat_lit 2, nat_lit 2, nat_lit 0, nat_lit 3⟩]⟩,
    ⟨nat_lit 4, [⟨nat_lit 0, nat_lit 3, nat_lit 2, nat_lit 0, nat_lit 4⟩]⟩,
    ⟨nat_lit 14, [⟨nat_lit 0, nat_lit 3, nat_lit 3, nat_lit 0, nat_lit 5⟩, ⟨nat_lit 0, nat_lit 1, nat_lit 1, nat_lit 0, nat_lit 1⟩]⟩,
    ⟨nat_lit 27, [⟨nat_lit 0, nat_lit 2, nat_lit 0, nat_lit 1, nat_lit 2⟩]⟩,
    ⟨nat_lit 7, [⟨nat_lit 0, nat_lit 3, nat_lit 0, nat_lit 2, nat_lit 4⟩]⟩,
    ⟨nat_lit 20, [⟨nat_lit 0, nat_lit 1, nat_lit 2, nat_lit 0, nat_lit 2⟩]⟩,
    ⟨nat_lit 19, [⟨nat_lit 0, nat_lit 2, nat_lit 0, nat_lit 0, nat_lit 2⟩]⟩,
    ⟨nat_lit 5, [⟨nat_lit 0, nat_lit 3, nat_lit 0, nat_lit 0, nat_lit 3⟩]⟩,
    ⟨nat_lit 16, [⟨nat_lit 0, nat_lit 0, nat_lit 2, nat_lit 0, nat_lit 2⟩]⟩]

theorem form_l1 : formB Best.bi4L1L2.mult (DilFast.coreOf tab_l1) = true := by decide +kernel

theorem autos_l1 : DilFast.autosF .l1 12 1 tab_l1 frow = true := by decide +kernel

theorem closed_l1 : DilFast.closedF .l1 2 4 12 1 frow tab_l1 tab_l1 = true := by decide +kernel

def pt1_l1 : Pt := ⟨[1, 1], [1], 1 / 3, [0, 1]⟩
def pt2_l1 : Pt := ⟨[2, 2], [2], 2 / 3, [1, 0]⟩
theorem low_l1 : lowB .l1 Best.bi4L1L2 1 pt1_l1 pt2_l1 (12) := by decide +kernel

theorem cert_l1 : Cert .l1 Best.bi4L1L2 (12) (12) :=
  DilFast.cert (p := 1) (.inr (.inl rfl)) (vn := 12) (vd := 1) (by decide) rfl (by norm_num [bnd, Metric.sq]) div_eq genus_eq okRows rows form_l1 autos_l1 closed_l1
    (by norm_num [Metric.sq, Metric.ratio]; exact low_l1)

def tab_l2 : List DilFast.Bin := [
    ⟨nat_lit 25, [⟨nat_lit 0, nat_lit 0, nat_lit 0, nat_lit 1, nat_lit 1⟩]⟩,
    ⟨nat_lit 31, [⟨nat_lit 1, nat_lit 0, nat_lit 0, nat_lit 1, nat_lit 2⟩, ⟨nat_lit 0, nat_lit 0, nat_lit 0, nat_lit 1, nat_lit 1⟩]⟩,
    ⟨nat_lit 10, [⟨nat_lit 0, nat_lit 0, nat_lit 1, nat_lit 0, nat_lit 1⟩]⟩,
    ⟨nat_lit 28, [⟨nat_lit 0, nat_lit 1, nat_lit 1, nat_lit 0, nat_lit 2⟩, ⟨nat_lit 0, nat_lit 1, nat_lit 0, nat_lit 1, nat_lit 2⟩]⟩,
    ⟨nat_lit 21, [⟨nat_lit 0, nat_lit 1, nat_lit 0, nat_lit 0, nat_lit 1⟩]⟩,
    ⟨nat_lit 13, [⟨nat_lit 0, nat_lit 1, nat_lit 0, nat_lit 1, nat_lit 1⟩]⟩,
    ⟨nat_lit 60, [⟨nat_lit 0, nat_lit 1, nat_lit 0, nat_lit 0, nat_lit 1⟩]⟩,
    ⟨nat_lit 16, [⟨nat_lit 0, nat_lit 1, nat_lit 3, nat_lit 0, nat_lit 4⟩, ⟨nat_lit 0, nat_lit 0, nat_lit 2, nat_lit 0, nat_lit 2⟩]⟩,
    ⟨nat_lit 3, [⟨nat_lit 0, nat_lit 1, nat_lit 0, nat_lit 1, nat_lit 2⟩]⟩,
    ⟨nat_lit 26, [⟨nat_lit 0, nat_lit 1, nat_lit 0, nat_lit 0, nat_lit 1⟩]⟩,
    ⟨nat_lit 12, [⟨nat_lit 0, nat_lit 2, nat_lit 0, nat_lit 0, nat_lit 2⟩]⟩,
    ⟨nat_lit 6, [⟨nat_lit 0, nat_lit 2, nat_lit 0, nat_lit 1, nat_lit 3⟩, ⟨nat_lit 0, nat_lit 1, nat_lit 0, nat_lit 0, nat_lit 1⟩]⟩,
    ⟨nat_lit 22, [⟨nat_lit 0, nat_lit 1, nat_lit 2, nat_lit 0, nat_lit 3⟩, ⟨nat_lit 0, nat_lit 0, nat_lit 1, nat_lit 0, nat_lit 1⟩]⟩,
    ⟨nat_lit 15, [⟨nat_lit 0, nat_lit 2, nat_lit 0, nat_lit 0, nat_lit 2⟩, ⟨nat_lit 0, nat_lit 3, nat_lit 0, nat_lit 0, nat_lit 3⟩]⟩,
    ⟨nat_lit 19, [⟨nat_lit 0, nat_lit 3, nat_lit 1, nat_lit 0, nat_lit 4⟩, ⟨nat_lit 0, nat_lit 2, nat_lit 0, nat_lit 0, nat_lit 2⟩]⟩,
    ⟨nat_lit 0, [⟨nat_lit 1, nat_lit 0, nat_lit 1, nat_lit 0, nat_lit 2⟩]⟩,
    ⟨nat_lit 18, [⟨nat_lit 0, nat_lit 2, nat_lit 2, nat_lit 0, nat_lit 3⟩]⟩,
    ⟨nat_lit 4, [⟨nat_lit 0, nat_lit 3, nat_lit 2, nat_lit 0, nat_lit 4⟩]⟩,
    ⟨nat_lit 14, [⟨nat_lit 0, nat_lit 3, nat_lit 3, nat_lit 0, nat_lit 5⟩, ⟨nat_lit 0, nat_lit 1, nat_lit 1, nat_lit 0, nat_lit 1⟩]⟩,
    ⟨nat_lit 27, [⟨nat_lit 0, nat_lit 2, nat_lit 0, nat_lit 1, nat_lit 2⟩]⟩,
    ⟨nat_lit 7, [⟨nat_lit 0, nat_lit 3, nat_lit 0, nat_lit 2, nat_lit 4⟩]⟩,
    ⟨nat_lit 20, [⟨nat_lit 0, nat_lit 1, nat_lit 2, nat_lit 0, nat_lit 2⟩]⟩,
    ⟨nat_lit 5, [⟨nat_lit 0, nat_lit 5, nat_lit 0, nat_lit 0, nat_lit 7⟩, ⟨nat_lit 0, nat_lit 3, nat_lit 0, nat_lit 0, nat_lit 3⟩]⟩]

theorem form_l2 : formB Best.bi4L1L2.mult (DilFast.coreOf tab_l2) = true := by decide +kernel

theorem autos_l2 : DilFast.autosF .plane 6 1 tab_l2 frow = true := by decide +kernel

theorem closed_l2 : DilFast.closedF .plane 2 4 6 1 frow tab_l2 tab_l2 = true := by decide +kernel

def pt1_l2 : Pt := ⟨[1, 1], [1], 1 / 3, [0, 1]⟩
def pt2_l2 : Pt := ⟨[2, 2], [2], 2 / 3, [1, 0]⟩
theorem low_l2 : lowB .l2sq Best.bi4L1L2 1 pt1_l2 pt2_l2 (36) := by decide +kernel

theorem cert_l2 : Cert .l2 Best.bi4L1L2 (6) (6) :=
  DilFast.cert (p := 1) (.inr (.inr rfl)) (vn := 6) (vd := 1) (by decide) rfl (by norm_num [bnd, Metric.sq]) div_eq genus_eq okRows rows form_l2 autos_l2 closed_l2
    (by norm_num [Metric.sq, Metric.ratio]; exact low_l2)

end Peano.BestDil.Bi4L1L2

namespace Peano.BestDil.Bi4Linf
open DilCert Zoo

def frow : List (List DilFast.Row) := [
    [⟨nat_lit 0, nat_lit 0, nat_lit 8, nat_lit 0⟩, ⟨nat_lit 1, nat_lit 0, nat_lit 0, nat_lit 1⟩, ⟨nat_lit 1, nat_lit 1, nat_lit 5, nat_lit 1⟩, ⟨nat_lit 0, nat_lit 1, nat_lit 14, nat_lit 0⟩],
    [⟨nat_lit 0, nat_lit 0, nat_lit 5, nat_lit 0⟩, ⟨nat_lit 0, nat_lit 1, nat_lit 11, nat_lit 0⟩, ⟨nat_lit 1, nat_lit 0, nat_lit 12, nat_lit 0⟩, ⟨nat_lit 1, nat_lit 1, nat_lit 2, nat_lit 1⟩]]

theorem div_eq : Best.bi4Linf.div = 2 := by decide +kernel

theorem genus_eq : Best.bi4Linf.genus = 4 := by decide +kernel

theorem okRows : DilFast.OkRows 2 frow := by decide +kernel

theorem rows : Rows Best.bi4Linf (DilFast.prowOf frow) := by decide +kernel

def tab_linf : List DilFast.Bin := [
    ⟨nat_lit 48, [⟨nat_lit 0, nat_lit 0, nat_lit 1, nat_lit 0, nat_lit 1⟩]⟩,
    ⟨nat_lit 298, [⟨nat_lit 0, nat_lit 0, nat_lit 1, nat_lit 0, nat_lit 1⟩]⟩,
    ⟨nat_lit 277, [⟨nat_lit 0, nat_lit 1, nat_lit 0, nat_lit 0, nat_lit 1⟩]⟩,
    ⟨nat_lit 31, [⟨nat_lit 0, nat_lit 0, nat_lit 0, nat_lit 1, nat_lit 1⟩]⟩,
    ⟨nat_lit 13, [⟨nat_lit 0, nat_lit 1, nat_lit 0, nat_lit 1, nat_lit 1⟩]⟩,
    ⟨nat_lit 60, [⟨nat_lit 0, nat_lit 1, nat_lit 0, nat_lit 0, nat_lit 1⟩]⟩,
    ⟨nat_lit 6, [⟨nat_lit 0, nat_lit 1, nat_lit 0, nat_lit 0, nat_lit 1⟩, ⟨nat_lit 0, nat_lit 3, nat_lit 0, nat_lit 0, nat_lit 3⟩]⟩,
    ⟨nat_lit 58, [⟨nat_lit 0, nat_lit 2, nat_lit 0, nat_lit 0, nat_lit 2⟩]⟩,
    ⟨nat_lit 278, [⟨nat_lit 0, nat_lit 0, nat_lit 2, nat_lit 0, nat_lit 2⟩]⟩,
    ⟨nat_lit 12, [⟨nat_lit 0, nat_lit 1, nat_lit 0, nat_lit 0, nat_lit 1⟩]⟩,
    ⟨nat_lit 19, [⟨nat_lit 0, nat_lit 1, nat_lit 0, nat_lit 0, nat_lit 1⟩]⟩,
    ⟨nat_lit 37, [⟨nat_lit 0, nat_lit 2, nat_lit 0, nat_lit 0, nat_lit 2⟩]⟩,
    ⟨nat_lit 285, [⟨nat_lit 0, nat_lit 2, nat_lit 0, nat_lit 1, nat_lit 2⟩]⟩,
    ⟨nat_lit 301, [⟨nat_lit 0, nat_lit 3, nat_lit 0, nat_lit 1, nat_lit 3⟩]⟩,
    ⟨nat_lit 61, [⟨nat_lit 0, nat_lit 1, nat_lit 0, nat_lit 2, nat_lit 2⟩]⟩,
    ⟨nat_lit 275, [⟨nat_lit 0, nat_lit 2, nat_lit 0, nat_lit 0, nat_lit 2⟩]⟩,
    ⟨nat_lit 271, [⟨nat_lit 0, nat_lit 3, nat_lit 0, nat_lit 0, nat_lit 3⟩, ⟨nat_lit 0, nat_lit 2, nat_lit 0, nat_lit 0, nat_lit 2⟩]⟩,
    ⟨nat_lit 10, [⟨nat_lit 0, nat_lit 0, nat_lit 1, nat_lit 0, nat_lit 1⟩]⟩,
    ⟨nat_lit 22, [⟨nat_lit 0, nat_lit 0, nat_lit 2, nat_lit 0, nat_lit 2⟩]⟩,
    ⟨nat_lit 293, [⟨nat_lit 0, nat_lit 3, nat_lit 0, nat_lit 0, nat_lit 3⟩, ⟨nat_lit 0, nat_lit 7, nat_lit 0, nat_lit 0, nat_lit 11⟩]⟩,
    ⟨nat_lit 263, [⟨nat_lit 0, nat_lit 5, nat_lit 1, nat_lit 0, nat_lit 7⟩]⟩,
    ⟨nat_lit 300, [⟨nat_lit 0, nat_lit 7, nat_lit 1, nat_lit 0, nat_lit 12⟩]⟩,
    ⟨nat_lit 303, [⟨nat_lit 0, nat_lit 7, nat_lit 1, nat_lit 0, nat_lit 12⟩]⟩,
    ⟨nat_lit 36, [⟨nat_lit 0, nat_lit 5, nat_lit 0, nat_lit 1, nat_lit 7⟩]⟩,
    ⟨nat_lit 0, [⟨nat_lit 0, nat_lit 0, nat_lit 1, nat_lit 0, nat_lit 1⟩]⟩,
    ⟨nat_lit 281, [⟨nat_lit 15, nat_lit 0, nat_lit 0, nat_lit 1, nat_lit 46⟩]⟩,
    ⟨nat_lit 9, [⟨nat_lit 0, nat_lit 0, nat_lit 0, nat_lit 15, nat_lit 45⟩]⟩,
    ⟨nat_lit 53, [⟨nat_lit 0, nat_lit 1, nat_lit 0, nat_lit 15, nat_lit 46⟩]⟩]

theorem form_linf : formB Best.bi4Linf.mult (DilFast.coreOf tab_linf) = true := by decide +kernel

theorem autos_linf : DilFast.autosF .linf 17 3 tab_linf frow = true := by decide +kernel

theorem closed_linf : DilFast.closedF .linf 2 4 17 3 frow tab_linf tab_linf = true := by decide +kernel

def pt1_linf : Pt := ⟨[1], [2, 2, 1, 1], 11 / 17, [1, 0]⟩
def pt2_linf : Pt := ⟨[2], [1, 1, 2, 2], 6 / 17, [1, 1]⟩
theorem low_linf : lowB .linf Best.bi4Linf 0 pt1_linf pt2_linf (17 / 3) := by decide +kernel

theorem cert_linf : Cert .linf Best.bi4Linf (17 / 3) (17 / 3) :=
  DilFast.cert (p := 0) (.inl rfl) (vn := 17) (vd := 3) (by decide) rfl (by norm_num [bnd, Metric.sq]) div_eq genus_eq okRows rows form_linf autos_linf closed_linf
    (by norm_num [Metric.sq, Metric.ratio]; exact low_linf)

end Peano.BestDil.Bi4Linf

namespace Peano.BestDil.Bi5L1L2
open DilCert Zoo

def frow : List (List DilFast.Row) := [
    [⟨nat_lit 0, nat_lit 0, nat_lit 11, nat_lit 0⟩, ⟨nat_lit 1, nat_lit 0, nat_lit 0, nat_lit 0⟩, ⟨nat_lit 1, nat_lit 1, nat_lit 5, nat_lit 0⟩, ⟨nat_lit 0, nat_lit 1, nat_lit 14, nat_lit 0⟩],
    [⟨nat_lit 0, nat_lit 0, nat_lit 5, nat_lit 0⟩, ⟨nat_lit 0, nat_lit 1, nat_lit 11, nat_lit 0⟩, ⟨nat_lit 1, nat_lit 0, nat_lit 12, nat_lit 0⟩, ⟨nat_lit 1, nat_lit 1, nat_lit 2, nat_lit 0⟩]]

theorem div_eq : Best.bi5L1L2.div = 2 := by decide +kernel

theorem genus_eq : Best.bi5L1L2.genus = 4 := by decide +kernel

theorem okRows : DilFast.OkRows 2 frow := by decide +kernel

theorem rows : Rows Best.bi5L1L2 (DilFast.prowOf frow) := by decide +kernel

def tab_l1 : List DilFast.Bin := [
    ⟨nat_lit 25, [⟨nat_lit 0, nat_lit 0, nat_lit 0, nat_lit 1, nat_lit 1⟩]⟩,
    ⟨nat_lit 31, [⟨nat_lit 1, nat_lit 0, nat_lit 0, nat_lit 1, nat_lit 2⟩, ⟨nat_lit 0, nat_lit 0, nat_lit 0, nat_lit 1, nat_lit 1⟩]⟩,
    ⟨nat_lit 10, [⟨nat_lit 0, nat_lit 0, nat_lit 1, nat_lit 0, nat_lit 1⟩]⟩,
    ⟨nat_lit 28, [⟨nat_lit 0, nat_lit 1, nat_lit 1, nat_lit 0, nat_lit 2⟩, ⟨nat_lit 0, nat_lit 1, nat_lit 0, nat_lit 0, nat_lit 1⟩]⟩,
    ⟨nat_lit 21, [⟨nat_lit 0, nat_lit 1, nat_lit 0, nat_lit 0, nat_lit 1⟩]⟩,
    ⟨nat_lit 13, [⟨nat_lit 0, nat_lit 1, nat_lit 0, nat_lit 1, nat_lit 1⟩]⟩,
    ⟨nat_lit 3, [⟨nat_lit 0, nat_lit 1, nat_lit 0, nat_lit 1, nat_lit 2⟩]⟩,
    ⟨nat_lit 26, [⟨nat_lit 0, nat_lit 1, nat_lit 0, nat_lit 0, nat_lit 1⟩]⟩,
    ⟨nat_lit 12, [⟨nat_lit 0, nat_lit 2, nat_lit 0, nat_lit 0, nat_lit 2⟩]⟩,
    ⟨nat_lit 6, [⟨nat_lit 0, nat_lit 2, nat_lit 0, nat_lit 1, nat_lit 3⟩, ⟨nat_lit 0, nat_lit 1, nat_lit 0, nat_lit 0, nat_lit 1⟩]⟩,
    ⟨nat_lit 22, [⟨nat_lit 0, nat_lit 1, nat_lit 2, nat_lit 0, nat_lit 3⟩, ⟨nat_lit 0, nat_lit 0, nat_lit 1, nat_lit 0, nat_lit 1⟩]⟩,
    ⟨nat_lit 15, [⟨nat_lit 0, nat_lit 2, nat_lit 0, nat_lit 0, nat_lit 2⟩]⟩,
    ⟨nat_lit 0, [⟨nat_lit 1, nat_lit 0, nat_lit 1, nat_lit 0, nat_lit 2⟩]⟩,
    ⟨nat_lit 18, [⟨nat_lit 0, nat_lit 2, nat_lit 2, nat_lit 0, nat_lit 3⟩]⟩,
    ⟨nat_lit 4, [⟨nat_lit 0, nat_lit 3, nat_lit 2, nat_lit 0, nat_lit 4⟩]⟩,
    ⟨nat_lit 14, [⟨nat_lit 0, nat_lit 3, nat_lit 3, nat_lit 0, nat_lit 5⟩, ⟨nat_lit 0, nat_lit 1, nat_lit 1, nat_lit 0, nat_lit 1⟩]⟩,
    ⟨nat_lit 27, [⟨nat_lit 0, nat_lit 2, nat_lit 0, nat_lit 1, nat_lit 2⟩]⟩,
    ⟨nat_lit 7, [⟨nat_lit 0, nat_lit 3, nat_lit 0, nat_lit 2, nat_lit 4⟩]⟩,
    ⟨nat_lit 20, [⟨nat_lit 0, nat_lit 1, nat_lit 2, nat_lit 0, nat_lit 2⟩]⟩,
    ⟨nat_lit 19, [⟨nat_lit 0, nat_lit 2, nat_lit 0, nat_lit 0, nat_lit 2⟩]⟩,
    ⟨nat_lit 5, [⟨nat_lit 0, nat_lit 3, nat_lit 0, nat_lit 0, nat_lit 3⟩]⟩,
    ⟨nat_lit 16, [⟨nat_lit 0, nat_lit 0, nat_lit 2, nat_lit 0, nat_lit 2⟩]⟩]

theorem form_l1 : formB Best.bi5L1L2.mult (DilFast.coreOf tab_l1) = true := by decide +kernel

theorem autos_l1 : DilFast.autosF .l1 12 1 tab_l1 frow = true := by decide +kernel

theorem closed_l1 : DilFast.closedF .l1 2 4 12 1 frow tab_l1 tab_l1 = true := by decide +kernel

def pt1_l1 : Pt := ⟨[1, 1], [1], 1 / 3, [0, 1]⟩
def pt2_l1 : Pt := ⟨[2, 2], [2], 2 / 3, [1, 0]⟩
theorem low_l1 : lowB .l1 Best.bi5L1L2 1 pt1_l1 pt2_l1 (12) := by decide +kernel

theorem cert_l1 : Cert .l1 Best.bi5L1L2 (12) (12) :=
  DilFast.cert (p := 1) (.inr (.inl rfl)) (vn := 12) (vd := 1) (by decide) rfl (by norm_num [bnd, Metric.sq]) div_eq genus_eq okRows rows form_l1 autos_l1 closed_l1
    (by norm_num [Metric.sq, Metric.ratio]; exact low_l1)

def tab_l2 : List DilFast.Bin := [
    ⟨nat_lit 25, [⟨nat_lit 0, nat_lit 0, nat_lit 0, nat_lit 1, nat_lit 1⟩]⟩,
    ⟨nat_lit 31, [⟨nat_lit 1, nat_lit 0, nat_lit 0, nat_lit 1, nat_lit 2⟩, ⟨nat_lit 0, nat_lit 0, nat_lit 0, nat_lit 1, nat_lit 1⟩]⟩,
    ⟨nat_lit 10, [⟨nat_lit 0, nat_lit 0, nat_lit 1, nat_lit 0, nat_lit 1⟩]⟩,
    ⟨nat_lit 28, [⟨nat_lit 0, nat_lit 1, nat_lit 1, nat_lit 0, nat_lit 2⟩, ⟨nat_lit 0, nat_lit 1, nat_lit 0, nat_lit 0, nat_lit 1⟩]⟩,
    ⟨nat_lit 21, [⟨nat_lit 0, nat_lit 1, nat_lit 0, nat_lit 0, nat_lit 1⟩]⟩,
    ⟨nat_lit 13, [⟨nat_lit 0, nat_lit 1, nat_lit 0, nat_lit 1, nat_lit 1⟩]⟩,
    ⟨nat_lit 16, [⟨nat_lit 0, nat_lit 1, nat_lit 3, nat_lit 0, nat_lit 4⟩, ⟨nat_lit 0, nat_lit 0, nat_lit 2, nat_lit 0, nat_lit 2⟩]⟩,
    ⟨nat_lit 3, [⟨nat_lit 0, nat_lit 1, nat_lit 0, nat_lit 1, nat_lit 2⟩]⟩,
    ⟨nat_lit 26, [⟨nat_lit 0, nat_lit 1, nat_lit 0, nat_lit 0, nat_lit 1⟩]⟩,
    ⟨nat_lit 12, [⟨nat_lit 0, nat_lit 2, nat_lit 0, nat_lit 0, nat_lit 2⟩]⟩,
    ⟨nat_lit 6, [⟨nat_lit 0, nat_lit 2, nat_lit 0, nat_lit 1, nat_lit 3⟩, ⟨nat_lit 0, nat_lit 1, nat_lit 0, nat_lit 0, nat_lit 1⟩]⟩,
    ⟨nat_lit 22, [⟨nat_lit 0, nat_lit 1, nat_lit 2, nat_lit 0, nat_lit 3⟩, ⟨nat_lit 0, nat_lit 0, nat_lit 1, nat_lit 0, nat_lit 1⟩]⟩,
    ⟨nat_lit 15, [⟨nat_lit 0, nat_lit 2, nat_lit 0, nat_lit 0, nat_lit 2⟩]⟩,
    ⟨nat_lit 19, [⟨nat_lit 0, nat_lit 3, nat_lit 1, nat_lit 0, nat_lit 4⟩, ⟨nat_lit 0, nat_lit 2, nat_lit 0, nat_lit 0, nat_lit 2⟩]⟩,
    ⟨nat_lit 0, [⟨nat_lit 1, nat_lit 0, nat_lit 1, nat_lit 0, nat_lit 2⟩]⟩,
    ⟨nat_lit 18, [⟨nat_lit 0, nat_lit 2, nat_lit 2, nat_lit 0, nat_lit 3⟩]⟩,
    ⟨nat_lit 4, [⟨nat_lit 0, nat_lit 3, nat_lit 2, nat_lit 0, nat_lit 4⟩]⟩,
    ⟨nat_lit 14, [⟨nat_lit 0, nat_lit 3, nat_lit 3, nat_lit 0, nat_lit 5⟩, ⟨nat_lit 0, nat_lit 1, nat_lit 1, nat_lit 0, nat_lit 1⟩]⟩,
    ⟨nat_lit 27, [⟨nat_lit 0, nat_lit 2, nat_lit 0, nat_lit 1, nat_lit 2⟩]⟩,
    ⟨nat_lit 7, [⟨nat_lit 0, nat_lit 3, nat_lit 0, nat_lit 2, nat_lit 4⟩]⟩,
    ⟨nat_lit 20, [⟨nat_lit 0, nat_lit 1, nat_lit 2, nat_lit 0, nat_lit 2⟩]⟩,
    ⟨nat_lit 5, [⟨nat_lit 0, nat_lit 5, nat_lit 0, nat_lit 0, nat_lit 7⟩, ⟨nat_lit 0, nat_lit 3, nat_lit 0, nat_lit 0, nat_lit 3⟩]⟩]

theorem form_l2 : formB Best.bi5L1L2.mult (DilFast.coreOf tab_l2) = true := by decide +kernel

theorem autos_l2 : DilFast.autosF .plane 6 1 tab_l2 frow = true := by decide +kernel

theorem closed_l2 : DilFast.closedF .plane 2 4 6 1 frow tab_l2 tab_l2 = true := by decide +kernel

def pt1_l2 : Pt := ⟨[1, 1], [1], 1 / 3, [0, 1]⟩
def pt2_l2 : Pt := ⟨[2, 2], [2], 2 / 3, [1, 0]⟩
theorem low_l2 : lowB .l2sq Best.bi5L1L2 1 pt1_l2 pt2_l2 (36) := by decide +kernel

theorem cert_l2 : Cert .l2 Best.bi5L1L2 (6) (6) :=
  DilFast.cert (p := 1) (.inr (.inr rfl)) (vn := 6) (vd := 1) (by decide) rfl (by norm_num [bnd, Metric.sq]) div_eq genus_eq okRows rows form_l2 autos_l2 closed_l2
    (by norm_num [Metric.sq, Metric.ratio]; exact low_l2)

end Peano.BestDil.Bi5L1L2

namespace Peano.BestDil.Bi5Linf
open DilCert Zoo

def frow : List (List DilFast.Row) := [
    [⟨nat_lit 0, nat_lit 0, nat_lit 11, nat_lit 0⟩, ⟨nat_lit 1, nat_lit 0, nat_lit 8, nat_lit 1⟩, ⟨nat_lit 1, nat_lit 1, nat_lit 2, nat_lit 1⟩, ⟨nat_lit 0, nat_lit 1, nat_lit 14, nat_lit 0⟩],
    [⟨nat_lit 0, nat_lit 0, nat_lit 0, nat_lit 0⟩, ⟨nat_lit 0, nat_lit 1, nat_lit 8, nat_lit 0⟩, ⟨nat_lit 1, nat_lit 0, nat_lit 15, nat_lit 0⟩, ⟨nat_lit 1, nat_lit 1, nat_lit 2, nat_lit 0⟩]]

theorem div_eq : Best.bi5Linf.div = 2 := by decide +kernel

theorem genus_eq : Best.bi5Linf.genus = 4 := by decide +kernel

theorem okRows : DilFast.OkRows 2 frow := by decide +kernel

theorem rows : Rows Best.bi5Linf (DilFast.prowOf frow) := by decide +kernel

def tab_linf : List DilFast.Bin := [
    ⟨nat_lit 41, [⟨nat_lit 0, nat_lit 0, nat_lit 0, nat_lit 1, nat_lit 1⟩]⟩,
    ⟨nat_lit 312, [⟨nat_lit 1, nat_lit 0, nat_lit 0, nat_lit 0, nat_lit 1⟩, ⟨nat_lit 5, nat_lit 0, nat_lit 0, nat_lit 0, nat_lit 7⟩]⟩,
    ⟨nat_lit 280, [⟨nat_lit 1, nat_lit 0, nat_lit 0, nat_lit 0, nat_lit 1⟩]⟩,
    ⟨nat_lit 16, [⟨nat_lit 0, nat_lit 0, nat_lit 1, nat_lit 0, nat_lit 1⟩]⟩,
    ⟨nat_lit 14, [⟨nat_lit 0, nat_lit 1, nat_lit 1, nat_lit 0, nat_lit 1⟩]⟩,
    ⟨nat_lit 21, [⟨nat_lit 0, nat_lit 1, nat_lit 0, nat_lit 0, nat_lit 1⟩]⟩,
    ⟨nat_lit 285, [⟨nat_lit 1, nat_lit 0, nat_lit 0, nat_lit 3, nat_lit 4⟩]⟩,
    ⟨nat_lit 28, [⟨nat_lit 0, nat_lit 1, nat_lit 0, nat_lit 0, nat_lit 1⟩]⟩,
    ⟨nat_lit 12, [⟨nat_lit 0, nat_lit 2, nat_lit 0, nat_lit 0, nat_lit 2⟩]⟩,
    ⟨nat_lit 20, [⟨nat_lit 0, nat_lit 0, nat_lit 3, nat_lit 0, nat_lit 4⟩, ⟨nat_lit 0, nat_lit 0, nat_lit 11, nat_lit 0, nat_lit 28⟩]⟩,
    ⟨nat_lit 6, [⟨nat_lit 0, nat_lit 1, nat_lit 0, nat_lit 0, nat_lit 1⟩]⟩,
    ⟨nat_lit 304, [⟨nat_lit 3, nat_lit 0, nat_lit 0, nat_lit 1, nat_lit 4⟩]⟩,
    ⟨nat_lit 26, [⟨nat_lit 0, nat_lit 1, nat_lit 0, nat_lit 0, nat_lit 1⟩]⟩,
    ⟨nat_lit 60, [⟨nat_lit 0, nat_lit 2, nat_lit 0, nat_lit 0, nat_lit 2⟩]⟩,
    ⟨nat_lit 310, [⟨nat_lit 2, nat_lit 0, nat_lit 0, nat_lit 3, nat_lit 4⟩]⟩,
    ⟨nat_lit 278, [⟨nat_lit 2, nat_lit 0, nat_lit 1, nat_lit 0, nat_lit 2⟩]⟩,
    ⟨nat_lit 302, [⟨nat_lit 3, nat_lit 0, nat_lit 1, nat_lit 0, nat_lit 3⟩, ⟨nat_lit 3, nat_lit 0, nat_lit 0, nat_lit 1, nat_lit 4⟩]⟩,
    ⟨nat_lit 314, [⟨nat_lit 3, nat_lit 0, nat_lit 2, nat_lit 0, nat_lit 4⟩]⟩,
    ⟨nat_lit 58, [⟨nat_lit 0, nat_lit 1, nat_lit 2, nat_lit 0, nat_lit 2⟩]⟩,
    ⟨nat_lit 287, [⟨nat_lit 0, nat_lit 0, nat_lit 0, nat_lit 2, nat_lit 2⟩]⟩,
    ⟨nat_lit 301, [⟨nat_lit 1, nat_lit 0, nat_lit 0, nat_lit 3, nat_lit 4⟩]⟩,
    ⟨nat_lit 22, [⟨nat_lit 0, nat_lit 0, nat_lit 1, nat_lit 0, nat_lit 1⟩]⟩,
    ⟨nat_lit 258, [⟨nat_lit 2, nat_lit 0, nat_lit 0, nat_lit 0, nat_lit 2⟩]⟩,
    ⟨nat_lit 306, [⟨nat_lit 1, nat_lit 0, nat_lit 0, nat_lit 3, nat_lit 4⟩, ⟨nat_lit 3, nat_lit 0, nat_lit 0, nat_lit 1, nat_lit 4⟩]⟩,
    ⟨nat_lit 286, [⟨nat_lit 2, nat_lit 0, nat_lit 0, nat_lit 0, nat_lit 2⟩]⟩,
    ⟨nat_lit 294, [⟨nat_lit 3, nat_lit 0, nat_lit 0, nat_lit 0, nat_lit 3⟩]⟩,
    ⟨nat_lit 10, [⟨nat_lit 0, nat_lit 0, nat_lit 1, nat_lit 0, nat_lit 1⟩]⟩,
    ⟨nat_lit 62, [⟨nat_lit 0, nat_lit 0, nat_lit 2, nat_lit 0, nat_lit 2⟩]⟩,
    ⟨nat_lit 264, [⟨nat_lit 5, nat_lit 0, nat_lit 0, nat_lit 0, nat_lit 7⟩]⟩,
    ⟨nat_lit 43, [⟨nat_lit 0, nat_lit 5, nat_lit 0, nat_lit 0, nat_lit 7⟩]⟩,
    ⟨nat_lit 34, [⟨nat_lit 0, nat_lit 2, nat_lit 0, nat_lit 0, nat_lit 2⟩]⟩,
    ⟨nat_lit 36, [⟨nat_lit 0, nat_lit 0, nat_lit 11, nat_lit 0, nat_lit 28⟩]⟩,
    ⟨nat_lit 263, [⟨nat_lit 0, nat_lit 0, nat_lit 0, nat_lit 11, nat_lit 28⟩]⟩]

theorem form_linf : formB Best.bi5Linf.mult (DilFast.coreOf tab_linf) = true := by decide +kernel

theorem autos_linf : DilFast.autosF .linf 36 7 tab_linf frow = true := by decide +kernel

theorem closed_linf : DilFast.closedF .linf 2 4 36 7 frow tab_linf tab_linf = true := by decide +kernel

def pt1_linf : Pt := ⟨[0, 3, 2], [1, 1], 1 / 3, [0, 0]⟩
def pt2_linf : Pt := ⟨[1, 1], [1, 1], 1 / 3, [1, 0]⟩
theorem low_linf : lowB .linf Best.bi5Linf 0 pt1_linf pt2_linf (36 / 7) := by decide +kernel

theorem cert_linf : Cert .linf Best.bi5Linf (36 / 7) (36 / 7) :=
  DilFast.cert (p := 0) (.inl rfl) (vn := 36) (vd := 7) (by decide) rfl (by norm_num [bnd, Metric.sq]) div_eq genus_eq okRows rows form_linf autos_linf closed_linf
    (by norm_num [Metric.sq, Metric.ratio]; exact low_linf)

end Peano.BestDil.Bi5Linf

namespace Peano.BestDil.Bi6L1L2Linf
open DilCert Zoo

def frow : List (List DilFast.Row) := [
    [⟨nat_lit 0, nat_lit 0, nat_lit 11, nat_lit 0⟩, ⟨nat_lit 1, nat_lit 0, nat_lit 0, nat_lit 0⟩, ⟨nat_lit 1, nat_lit 1, nat_lit 5, nat_lit 0⟩, ⟨nat_lit 0, nat_lit 1, nat_lit 14, nat_lit 0⟩],
    [⟨nat_lit 0, nat_lit 0, nat_lit 15, nat_lit 0⟩, ⟨nat_lit 1, nat_lit 0, nat_lit 15, nat_lit 0⟩, ⟨nat_lit 1, nat_lit 1, nat_lit 9, nat_lit 0⟩, ⟨nat_lit 0, nat_lit 1, nat_lit 9, nat_lit 0⟩]]

theorem div_eq : Best.bi6L1L2Linf.div = 2 := by decide +kernel

theorem genus_eq : Best.bi6L1L2Linf.genus = 4 := by decide +kernel

theorem okRows : DilFast.OkRows 2 frow := by decide +kernel

theorem rows : Rows Best.bi6L1L2Linf (DilFast.prowOf frow) := by decide +kernel

def tab_l1 : List DilFast.Bin := [
    ⟨nat_lit 25, [⟨nat_lit 0, nat_lit 0, nat_lit 0, nat_lit 1, nat_lit 1⟩]⟩,
    ⟨nat_lit 31, [⟨nat_lit 1, nat_lit 0, nat_lit 0, nat_lit 1, nat_lit 2⟩, ⟨nat_lit 0, nat_lit 1, nat_lit 0, nat_lit 1, nat_lit 2⟩]⟩,
    ⟨nat_lit 10, [⟨nat_lit 0, nat_lit 0, nat_lit 1, nat_lit 0, nat_lit 1⟩]⟩,
    ⟨nat_lit 28, [⟨nat_lit 0, nat_lit 1, nat_lit 1, nat_lit 0, nat_lit 2⟩, ⟨nat_lit 0, nat_lit 1, nat_lit 0, nat_lit 1, nat_lit 2⟩]⟩,
    ⟨nat_lit 21, [⟨nat_lit 0, nat_lit 1, nat_lit 0, nat_lit 0, nat_lit 1⟩]⟩,
    ⟨nat_lit 3, [⟨nat_lit 0, nat_lit 0, nat_lit 0, nat_lit 1, nat_lit 1⟩]⟩,
    ⟨nat_lit 15, [⟨nat_lit 0, nat_lit 1, nat_lit 0, nat_lit 1, nat_lit 2⟩, ⟨nat_lit 0, nat_lit 1, nat_lit 0, nat_lit 0, nat_lit 1⟩]⟩,
    ⟨nat_lit 16, [⟨nat_lit 0, nat_lit 1, nat_lit 3, nat_lit 0, nat_lit 4⟩, ⟨nat_lit 0, nat_lit 0, nat_lit 2, nat_lit 0, nat_lit 2⟩]⟩,
    ⟨nat_lit 26, [⟨nat_lit 0, nat_lit 1, nat_lit 0, nat_lit 0, nat_lit 1⟩]⟩,
    ⟨nat_lit 12, [⟨nat_lit 0, nat_lit 2, nat_lit 0, nat_lit 0, nat_lit 2⟩, ⟨nat_lit 0, nat_lit 3, nat_lit 1, nat_lit 0, nat_lit 4⟩]⟩,
    ⟨nat_lit 6, [⟨nat_lit 0, nat_lit 2, nat_lit 0, nat_lit 1, nat_lit 3⟩, ⟨nat_lit 0, nat_lit 1, nat_lit 0, nat_lit 0, nat_lit 1⟩]⟩,
    ⟨nat_lit 22, [⟨nat_lit 0, nat_lit 1, nat_lit 2, nat_lit 0, nat_lit 3⟩, ⟨nat_lit 0, nat_lit 0, nat_lit 1, nat_lit 0, nat_lit 1⟩]⟩,
    ⟨nat_lit 19, [⟨nat_lit 0, nat_lit 3, nat_lit 1, nat_lit 0, nat_lit 4⟩, ⟨nat_lit 0, nat_lit 2, nat_lit 0, nat_lit 0, nat_lit 2⟩]⟩,
    ⟨nat_lit 0, [⟨nat_lit 1, nat_lit 0, nat_lit 1, nat_lit 0, nat_lit 2⟩]⟩,
    ⟨nat_lit 5, [⟨nat_lit 0, nat_lit 3, nat_lit 0, nat_lit 0, nat_lit 3⟩]⟩]

theorem form_l1 : formB Best.bi6L1L2Linf.mult (DilFast.coreOf tab_l1) = true := by decide +kernel

theorem autos_l1 : DilFast.autosF .l1 9 1 tab_l1 frow = true := by decide +kernel

theorem closed_l1 : DilFast.closedF .l1 2 4 9 1 frow tab_l1 tab_l1 = true := by decide +kernel

def pt1_l1 : Pt := ⟨[0, 1], [1], 1 / 3, [0, 1]⟩
def pt2_l1 : Pt := ⟨[1], [1], 1 / 3, [1, 0]⟩
theorem low_l1 : lowB .l1 Best.bi6L1L2Linf 0 pt1_l1 pt2_l1 (9) := by decide +kernel

theorem cert_l1 : Cert .l1 Best.bi6L1L2Linf (9) (9) :=
  DilFast.cert (p := 0) (.inr (.inl rfl)) (vn := 9) (vd := 1) (by decide) rfl (by norm_num [bnd, Metric.sq]) div_eq genus_eq okRows rows form_l1 autos_l1 closed_l1
    (by norm_num [Metric.sq, Metric.ratio]; exact low_l1)

def tab_l2 : List DilFast.Bin := [
    ⟨nat_lit 25, [⟨nat_lit 0, nat_lit 0, nat_lit 0, nat_lit 1, nat_lit 1⟩]⟩,
    ⟨nat_lit 31, [⟨nat_lit 1, nat_lit 0, nat_lit 0, nat_lit 1, nat_lit 2⟩, ⟨nat_lit 0, nat_lit 1, nat_lit 0, nat_lit 1, nat_lit 2⟩]⟩,
    ⟨nat_lit 10, [⟨nat_lit 0, nat_lit 0, nat_lit 1, nat_lit 0, nat_lit 1⟩]⟩,
    ⟨nat_lit 28, [⟨nat_lit 0, nat_lit 1, nat_lit 1, nat_lit 0, nat_lit 2⟩, ⟨nat_lit 0, nat_lit 1, nat_lit 0, nat_lit 1, nat_lit 2⟩]⟩,
    ⟨nat_lit 21, [⟨nat_lit 0, nat_lit 1, nat_lit 0, nat_lit 0, nat_lit 1⟩]⟩,
    ⟨nat_lit 3, [⟨nat_lit 0, nat_lit 0, nat_lit 0, nat_lit 1, nat_lit 1⟩]⟩,
    ⟨nat_lit 15, [⟨nat_lit 0, nat_lit 1, nat_lit 0, nat_lit 1, nat_lit 2⟩, ⟨nat_lit 0, nat_lit 1, nat_lit 0, nat_lit 0, nat_lit 1⟩]⟩,
    ⟨nat_lit 16, [⟨nat_lit 0, nat_lit 1, nat_lit 3, nat_lit 0, nat_lit 4⟩, ⟨nat_lit 0, nat_lit 0, nat_lit 2, nat_lit 0, nat_lit 2⟩]⟩,
    ⟨nat_lit 26, [⟨nat_lit 0, nat_lit 1, nat_lit 0, nat_lit 0, nat_lit 1⟩]⟩,
    ⟨nat_lit 12, [⟨nat_lit 0, nat_lit 2, nat_lit 0, nat_lit 0, nat_lit 2⟩]⟩,
    ⟨nat_lit 6, [⟨nat_lit 0, nat_lit 2, nat_lit 0, nat_lit 1, nat_lit 3⟩, ⟨nat_lit 0, nat_lit 1, nat_lit 0, nat_lit 0, nat_lit 1⟩]⟩,
    ⟨nat_lit 22, [⟨nat_lit 0, nat_lit 1, nat_lit 2, nat_lit 0, nat_lit 3⟩, ⟨nat_lit 0, nat_lit 0, nat_lit 1, nat_lit 0, nat_lit 1⟩]⟩,
    ⟨nat_lit 19, [⟨nat_lit 0, nat_lit 3, nat_lit 1, nat_lit 0, nat_lit 4⟩, ⟨nat_lit 0, nat_lit 2, nat_lit 0, nat_lit 0, nat_lit 2⟩]⟩,
    ⟨nat_lit 0, [⟨nat_lit 1, nat_lit 0, nat_lit 1, nat_lit 0, nat_lit 2⟩]⟩,
    ⟨nat_lit 5, [⟨nat_lit 0, nat_lit 3, nat_lit 0, nat_lit 0, nat_lit 3⟩]⟩]

theorem form_l2 : formB Best.bi6L1L2Linf.mult (DilFast.coreOf tab_l2) = true := by decide +kernel

theorem autos_l2 : DilFast.autosF .plane 6 1 tab_l2 frow = true := by decide +kernel

theorem closed_l2 : DilFast.closedF .plane 2 4 6 1 frow tab_l2 tab_l2 = true := by decide +kernel

def pt1_l2 : Pt := ⟨[1], [2], 2 / 3, [1, 0]⟩
def pt2_l2 : Pt := ⟨[2, 1], [1], 1 / 3, [1, 1]⟩
theorem low_l2 : lowB .l2sq Best.bi6L1L2Linf 1 pt1_l2 pt2_l2 (36) := by decide +kernel

theorem cert_l2 : Cert .l2 Best.bi6L1L2Linf (6) (6) :=
  DilFast.cert (p := 1) (.inr (.inr rfl)) (vn := 6) (vd := 1) (by decide) rfl (by norm_num [bnd, Metric.sq]) div_eq genus_eq okRows rows form_l2 autos_l2 closed_l2
    (by norm_num [Metric.sq, Metric.ratio]; exact low_l2)

def tab_linf : List DilFast.Bin := [
    ⟨nat_lit 25, [⟨nat_lit 0, nat_lit 0, nat_lit 0, nat_lit 1, nat_lit 1⟩]⟩,
    ⟨nat_lit 10, [⟨nat_lit 0, nat_lit 0, nat_lit 1, nat_lit 0, nat_lit 1⟩]⟩,
    ⟨nat_lit 21, [⟨nat_lit 0, nat_lit 1, nat_lit 0, nat_lit 0, nat_lit 1⟩]⟩,
    ⟨nat_lit 3, [⟨nat_lit 0, nat_lit 0, nat_lit 0, nat_lit 1, nat_lit 1⟩]⟩,
    ⟨nat_lit 15, [⟨nat_lit 0, nat_lit 1, nat_lit 0, nat_lit 0, nat_lit 1⟩]⟩,
    ⟨nat_lit 26, [⟨nat_lit 0, nat_lit 1, nat_lit 0, nat_lit 0, nat_lit 1⟩]⟩,
    ⟨nat_lit 12, [⟨nat_lit 0, nat_lit 2, nat_lit 0, nat_lit 0, nat_lit 2⟩]⟩,
    ⟨nat_lit 6, [⟨nat_lit 0, nat_lit 1, nat_lit 0, nat_lit 0, nat_lit 1⟩]⟩,
    ⟨nat_lit 22, [⟨nat_lit 0, nat_lit 0, nat_lit 1, nat_lit 0, nat_lit 1⟩]⟩,
    ⟨nat_lit 19, [⟨nat_lit 0, nat_lit 2, nat_lit 0, nat_lit 0, nat_lit 2⟩]⟩,
    ⟨nat_lit 5, [⟨nat_lit 0, nat_lit 3, nat_lit 0, nat_lit 0, nat_lit 3⟩]⟩,
    ⟨nat_lit 16, [⟨nat_lit 0, nat_lit 0, nat_lit 2, nat_lit 0, nat_lit 2⟩]⟩]

theorem form_linf : formB Best.bi6L1L2Linf.mult (DilFast.coreOf tab_linf) = true := by decide +kernel

theorem autos_linf : DilFast.autosF .linf 6 1 tab_linf frow = true := by decide +kernel

theorem closed_linf : DilFast.closedF .linf 2 4 6 1 frow tab_linf tab_linf = true := by decide +kernel

def pt1_linf : Pt := ⟨[1], [2], 2 / 3, [1, 0]⟩
def pt2_linf : Pt := ⟨[2, 1], [1], 1 / 3, [1, 1]⟩
theorem low_linf : lowB .linf Best.bi6L1L2Linf 1 pt1_linf pt2_linf (6) := by decide +kernel

theorem cert_linf : Cert .linf Best.bi6L1L2Linf (6) (6) :=
  DilFast.cert (p := 1) (.inl rfl) (vn := 6) (vd := 1) (by decide) rfl (by norm_num [bnd, Metric.sq]) div_eq genus_eq okRows rows form_linf autos_linf closed_linf
    (by norm_num [Metric.sq, Metric.ratio]; exact low_linf)

end Peano.BestDil.Bi6L1L2Linf

namespace Peano.BestDil.Bi7L1L2Linf
open DilCert Zoo

def frow : List (List DilFast.Row) := [
    [⟨nat_lit 0, nat_lit 0, nat_lit 11, nat_lit 0⟩, ⟨nat_lit 1, nat_lit 0, nat_lit 0, nat_lit 0⟩, ⟨nat_lit 1, nat_lit 1, nat_lit 5, nat_lit 0⟩, ⟨nat_lit 0, nat_lit 1, nat_lit 14, nat_lit 0⟩],
    [⟨nat_lit 0, nat_lit 0, nat_lit 15, nat_lit 0⟩, ⟨nat_lit 0, nat_lit 1, nat_lit 7, nat_lit 0⟩, ⟨nat_lit 1, nat_lit 1, nat_lit 1, nat_lit 0⟩, ⟨nat_lit 1, nat_lit 0, nat_lit 1, nat_lit 0⟩]]

theorem div_eq : Best.bi7L1L2Linf.div = 2 := by decide +kernel

theorem genus_eq : Best.bi7L1L2Linf.genus = 4 := by decide +kernel

theorem okRows : DilFast.OkRows 2 frow := by decide +kernel

theorem rows : Rows Best.bi7L1L2Linf (DilFast.prowOf frow) := by decide +kernel

def tab_l1 : List DilFast.Bin := [
    ⟨nat_lit 25, [⟨nat_lit 0, nat_lit 0, nat_lit 0, nat_lit 1, nat_lit 1⟩]⟩,
    ⟨nat_lit 31, [⟨nat_lit 1, nat_lit 0, nat_lit 0, nat_lit 1, nat_lit 2⟩, ⟨nat_lit 0, nat_lit 1, nat_lit 0, nat_lit 1, nat_lit 2⟩]⟩,
    ⟨nat_lit 10, [⟨nat_lit 0, nat_lit 0, nat_lit 1, nat_lit 0, nat_lit 1⟩]⟩,
    ⟨nat_lit 28, [⟨nat_lit 0, nat_lit 1, nat_lit 1, nat_lit 0, nat_lit 2⟩, ⟨nat_lit 0, nat_lit 1, nat_lit 0, nat_lit 1, nat_lit 2⟩]⟩,
    ⟨nat_lit 21, [⟨nat_lit 0, nat_lit 1, nat_lit 0, nat_lit 0, nat_lit 1⟩]⟩,
    ⟨nat_lit 19, [⟨nat_lit 0, nat_lit 1, nat_lit 0, nat_lit 0, nat_lit 1⟩]⟩,
    ⟨nat_lit 15, [⟨nat_lit 0, nat_lit 1, nat_lit 0, nat_lit 0, nat_lit 1⟩]⟩,
    ⟨nat_lit 3, [⟨nat_lit 0, nat_lit 0, nat_lit 0, nat_lit 1, nat_lit 1⟩]⟩,
    ⟨nat_lit 16, [⟨nat_lit 0, nat_lit 1, nat_lit 3, nat_lit 0, nat_lit 4⟩, ⟨nat_lit 0, nat_lit 0, nat_lit 2, nat_lit 0, nat_lit 2⟩]⟩,
    ⟨nat_lit 26, [⟨nat_lit 0, nat_lit 1, nat_lit 0, nat_lit 0, nat_lit 1⟩]⟩,
    ⟨nat_lit 12, [⟨nat_lit 0, nat_lit 2, nat_lit 0, nat_lit 0, nat_lit 2⟩, ⟨nat_lit 0, nat_lit 3, nat_lit 1, nat_lit 0, nat_lit 4⟩]⟩,
    ⟨nat_lit 6, [⟨nat_lit 0, nat_lit 2, nat_lit 0, nat_lit 1, nat_lit 3⟩, ⟨nat_lit 0, nat_lit 1, nat_lit 0, nat_lit 0, nat_lit 1⟩]⟩,
    ⟨nat_lit 22, [⟨nat_lit 0, nat_lit 1, nat_lit 2, nat_lit 0, nat_lit 3⟩, ⟨nat_lit 0, nat_lit 0, nat_lit 1, nat_lit 0, nat_lit 1⟩]⟩,
    ⟨nat_lit 0, [⟨nat_lit 1, nat_lit 0, nat_lit 1, nat_lit 0, nat_lit 2⟩]⟩,
    ⟨nat_lit 5, [⟨nat_lit 0, nat_lit 3, nat_lit 0, nat_lit 0, nat_lit 3⟩]⟩]

theorem form_l1 : formB Best.bi7L1L2Linf.mult (DilFast.coreOf tab_l1) = true := by decide +kernel

theorem autos_l1 : DilFast.autosF .l1 9 1 tab_l1 frow = true := by decide +kernel

theorem closed_l1 : DilFast.closedF .l1 2 4 9 1 frow tab_l1 tab_l1 = true := by decide +kernel

def pt1_l1 : Pt := ⟨[0, 1], [1], 1 / 3, [0, 1]⟩
def pt2_l1 : Pt := ⟨[1], [1], 1 / 3, [1, 0]⟩
theorem low_l1 : lowB .l1 Best.bi7L1L2Linf 0 pt1_l1 pt2_l1 (9) := by decide +kernel

theorem cert_l1 : Cert .l1 Best.bi7L1L2Linf (9) (9) :=
  DilFast.cert (p := 0) (.inr (.inl rfl)) (vn := 9) (vd := 1) (by decide) rfl (by norm_num [bnd, Metric.sq]) div_eq genus_eq okRows rows form_l1 autos_l1 closed_l1
    (by norm_num [Metric.sq, Metric.ratio]; exact low_l1)

def tab_l2 : List DilFast.Bin := [
    ⟨nat_lit 25, [⟨nat_lit 0, nat_lit 0, nat_lit 0, nat_lit 1, nat_lit 1⟩]⟩,
    ⟨nat_lit 31, [⟨nat_lit 1, nat_lit 0, nat_lit 0, nat_lit 1, nat_lit 2⟩, ⟨nat_lit 0, nat_lit 1, nat_lit 0, nat_lit 1, nat_lit 2⟩]⟩,
    ⟨nat_lit 10, [⟨nat_lit 0, nat_lit 0, nat_lit 1, nat_lit 0, nat_lit 1⟩]⟩,
    ⟨nat_lit 28, [⟨nat_lit 0, nat_lit 1, nat_lit 1, nat_lit 0, nat_lit 2⟩, ⟨nat_lit 0, nat_lit 1, nat_lit 0, nat_lit 1, nat_lit 2⟩]⟩,
    ⟨nat_lit 21, [⟨nat_lit 0, nat_lit 1, nat_lit 0, nat_lit 0, nat_lit 1⟩]⟩,
    ⟨nat_lit 19, [⟨nat_lit 0, nat_lit 1, nat_lit 0, nat_lit 0, nat_lit 1⟩]⟩,
    ⟨nat_lit 15, [⟨nat_lit 0, nat_lit 1, nat_lit 0, nat_lit 0, nat_lit 1⟩]⟩,
    ⟨nat_lit 3, [⟨nat_lit 0, nat_lit 0, nat_lit 0, nat_lit 1, nat_lit 1⟩]⟩,
    ⟨nat_lit 16, [⟨nat_lit 0, nat_lit 1, nat_lit 3, nat_lit 0, nat_lit 4⟩, ⟨nat_lit 0, nat_lit 0, nat_lit 2, nat_lit 0, nat_lit 2⟩]⟩,
    ⟨nat_lit 26, [⟨nat_lit 0, nat_lit 1, nat_lit 0, nat_lit 0, nat_lit 1⟩]⟩,
    ⟨nat_lit 12, [⟨nat_lit 0, nat_lit 2, nat_lit 0, nat_lit 0, nat_lit 2⟩]⟩,
    ⟨nat_lit 6, [⟨nat_lit 0, nat_lit 2, nat_lit 0, nat_lit 1, nat_lit 3⟩, ⟨nat_lit 0, nat_lit 1, nat_lit 0, nat_lit 0, nat_lit 1⟩]⟩,
    ⟨nat_lit 22, [⟨nat_lit 0, nat_lit 1, nat_lit 2, nat_lit 0, nat_lit 3⟩, ⟨nat_lit 0, nat_lit 0, nat_lit 1, nat_lit 0, nat_lit 1⟩]⟩,
    ⟨nat_lit 0, [⟨nat_lit 1, nat_lit 0, nat_lit 1, nat_lit 0, nat_lit 2⟩]⟩,
    ⟨nat_lit 5, [⟨nat_lit 0, nat_lit 3, nat_lit 0, nat_lit 0, nat_lit 3⟩]⟩]

theorem form_l2 : formB Best.bi7L1L2Linf.mult (DilFast.coreOf tab_l2) = true := by decide +kernel

theorem autos_l2 : DilFast.autosF .plane 6 1 tab_l2 frow = true := by decide +kernel

theorem closed_l2 : DilFast.closedF .plane 2 4 6 1 frow tab_l2 tab_l2 = true := by decide +kernel

def pt1_l2 : Pt := ⟨[1], [2], 2 / 3, [0, 1]⟩
def pt2_l2 : Pt := ⟨[2, 1], [1], 1 / 3, [1, 1]⟩
theorem low_l2 : lowB .l2sq Best.bi7L1L2Linf 1 pt1_l2 pt2_l2 (36) := by decide +kernel

theorem cert_l2 : Cert .l2 Best.bi7L1L2Linf (6) (6) :=
  DilFast.cert (p := 1) (.inr (.inr rfl)) (vn := 6) (vd := 1) (by decide) rfl (by norm_num [bnd, Metric.sq]) div_eq genus_eq okRows rows form_l2 autos_l2 closed_l2
    (by norm_num [Metric.sq, Metric.ratio]; exact low_l2)

def tab_linf : List DilFast.Bin := [
    ⟨nat_lit 25, [⟨nat_lit 0, nat_lit 0, nat_lit 0, nat_lit 1, nat_lit 1⟩]⟩,
    ⟨nat_lit 10, [⟨nat_lit 0, nat_lit 0, nat_lit 1, nat_lit 0, nat_lit 1⟩]⟩,
    ⟨nat_lit 21, [⟨nat_lit 0, nat_lit 1, nat_lit 0, nat_lit 0, nat_lit 1⟩]⟩,
    ⟨nat_lit 19, [⟨nat_lit 0, nat_lit 1, nat_lit 0, nat_lit 0, nat_lit 1⟩]⟩,
    ⟨nat_lit 15, [⟨nat_lit 0, nat_lit 1, nat_lit 0, nat_lit 0, nat_lit 1⟩]⟩,
    ⟨nat_lit 3, [⟨nat_lit 0, nat_lit 0, nat_lit 0, nat_lit 1, nat_lit 1⟩]⟩,
    ⟨nat_lit 26, [⟨nat_lit 0, nat_lit 1, nat_lit 0, nat_lit 0, nat_lit 1⟩]⟩,
    ⟨nat_lit 12, [⟨nat_lit 0, nat_lit 2, nat_lit 0, nat_lit 0, nat_lit 2⟩]⟩,
    ⟨nat_lit 6, [⟨nat_lit 0, nat_lit 1, nat_lit 0, nat_lit 0, nat_lit 1⟩]⟩,
    ⟨nat_lit 22, [⟨nat_lit 0, nat_lit 0, nat_lit 1, nat_lit 0, nat_lit 1⟩]⟩,
    ⟨nat_lit 5, [⟨nat_lit 0, nat_lit 3, nat_lit 0, nat_lit 0, nat_lit 3⟩]⟩,
    ⟨nat_lit 16, [⟨nat_lit 0, nat_lit 0, nat_lit 2, nat_lit 0, nat_lit 2⟩]⟩]

theorem form_linf : formB Best.bi7L1L2Linf.mult (DilFast.coreOf tab_linf) = true := by decide +kernel

theorem autos_linf : DilFast.autosF .linf 6 1 tab_linf frow = true := by decide +kernel

theorem closed_linf : DilFast.closedF .linf 2 4 6 1 frow tab_linf tab_linf = true := by decide +kernel

def pt1_linf : Pt := ⟨[1], [2], 2 / 3, [0, 1]⟩
def pt2_linf : Pt := ⟨[2, 1], [1], 1 / 3, [1, 1]⟩
theorem low_linf : lowB .linf Best.bi7L1L2Linf 1 pt1_linf pt2_linf (6) := by decide +kernel

theorem cert_linf : Cert .linf Best.bi7L1L2Linf (6) (6) :=
  DilFast.cert (p := 1) (.inl rfl) (vn := 6) (vd := 1) (by decide) rfl (by norm_num [bnd, Metric.sq]) div_eq genus_eq okRows rows form_linf autos_linf closed_linf
    (by norm_num [Metric.sq, Metric.ratio]; exact low_linf)

end Peano.BestDil.Bi7L1L2Linf

namespace Peano.BestDil.Bi8L1L2Linf
open DilCert Zoo

def frow : List (List DilFast.Row) := [
    [⟨nat_lit 0, nat_lit 0, nat_lit 11, nat_lit 0⟩, ⟨nat_lit 1, nat_lit 0, nat_lit 0, nat_lit 0⟩, ⟨nat_lit 1, nat_lit 1, nat_lit 5, nat_lit 0⟩, ⟨nat_lit 0, nat_lit 1, nat_lit 14, nat_lit 0⟩],
    [⟨nat_lit 0, nat_lit 0, nat_lit 15, nat_lit 0⟩, ⟨nat_lit 0, nat_lit 1, nat_lit 7, nat_lit 0⟩, ⟨nat_lit 1, nat_lit 1, nat_lit 1, nat_lit 0⟩, ⟨nat_lit 1, nat_lit 0, nat_lit 12, nat_lit 0⟩]]

theorem div_eq : Best.bi8L1L2Linf.div = 2 := by decide +kernel

theorem genus_eq : Best.bi8L1L2Linf.genus = 4 := by decide +kernel

theorem okRows : DilFast.OkRows 2 frow := by decide +kernel

theorem rows : Rows Best.bi8L1L2Linf (DilFast.prowOf frow) := by decide +kernel

def tab_l1 : List DilFast.Bin := [
    ⟨nat_lit 25, [⟨nat_lit 0, nat_lit 0, nat_lit 0, nat_lit 1, nat_lit 1⟩]⟩,
    ⟨nat_lit 31, [⟨nat_lit 1, nat_lit 0, nat_lit 0, nat_lit 1, nat_lit 2⟩, ⟨nat_lit 0, nat_lit 1, nat_lit 0, nat_lit 1, nat_lit 2⟩]⟩,
    ⟨nat_lit 10, [⟨nat_lit 0, nat_lit 0, nat_lit 1, nat_lit 0, nat_lit 1⟩]⟩,
    ⟨nat_lit 28, [⟨nat_lit 0, nat_lit 1, nat_lit 1, nat_lit 0, nat_lit 2⟩, ⟨nat_lit 0, nat_lit 1, nat_lit 0, nat_lit 1, nat_lit 2⟩]⟩,
    ⟨nat_lit 21, [⟨nat_lit 0, nat_lit 1, nat_lit 0, nat_lit 0, nat_lit 1⟩]⟩,
    ⟨nat_lit 19, [⟨nat_lit 0, nat_lit 1, nat_lit 0, nat_lit 0, nat_lit 1⟩]⟩,
    ⟨nat_lit 15, [⟨nat_lit 0, nat_lit 1, nat_lit 0, nat_lit 0, nat_lit 1⟩]⟩,
    ⟨nat_lit 16, [⟨nat_lit 0, nat_lit 1, nat_lit 3, nat_lit 0, nat_lit 4⟩, ⟨nat_lit 0, nat_lit 0, nat_lit 2, nat_lit 0, nat_lit 2⟩]⟩,
    ⟨nat_lit 3, [⟨nat_lit 0, nat_lit 1, nat_lit 0, nat_lit 1, nat_lit 2⟩]⟩,
    ⟨nat_lit 26, [⟨nat_lit 0, nat_lit 1, nat_lit 0, nat_lit 0, nat_lit 1⟩]⟩,
    ⟨nat_lit 12, [⟨nat_lit 0, nat_lit 2, nat_lit 0, nat_lit 0, nat_lit 2⟩, ⟨nat_lit 0, nat_lit 3, nat_lit 1, nat_lit 0, nat_lit 4⟩]⟩,
    ⟨nat_lit 6, [⟨nat_lit 0, nat_lit 2, nat_lit 0, nat_lit 1, nat_lit 3⟩, ⟨nat_lit 0, nat_lit 1, nat_lit 0, nat_lit 0, nat_lit 1⟩]⟩,
    ⟨nat_lit 22, [⟨nat_lit 0, nat_lit 1, nat_lit 2, nat_lit 0, nat_lit 3⟩, ⟨nat_lit 0, nat_lit 0, nat_lit 1, nat_lit 0, nat_lit 1⟩]⟩,
    ⟨nat_lit 0, [⟨nat_lit 1, nat_lit 0, nat_lit 1, nat_lit 0, nat_lit 2⟩]⟩,
    ⟨nat_lit 5, [⟨nat_lit 0, nat_lit 3, nat_lit 0, nat_lit 0, nat_lit 3⟩]⟩]

theorem form_l1 : formB Best.bi8L1L2Linf.mult (DilFast.coreOf tab_l1) = true := by decide +kernel

theorem autos_l1 : DilFast.autosF .l1 9 1 tab_l1 frow = true := by decide +kernel

theorem closed_l1 : DilFast.closedF .l1 2 4 9 1 frow tab_l1 tab_l1 = true := by decide +kernel

def pt1_l1 : Pt := ⟨[0, 1], [1], 1 / 3, [0, 1]⟩
def pt2_l1 : Pt := ⟨[1], [1], 1 / 3, [1, 0]⟩
theorem low_l1 : lowB .l1 Best.bi8L1L2Linf 0 pt1_l1 pt2_l1 (9) := by decide +kernel

theorem cert_l1 : Cert .l1 Best.bi8L1L2Linf (9) (9) :=
  DilFast.cert (p := 0) (.inr (.inl rfl)) (vn := 9) (vd := 1) (by decide) rfl (by norm_num [bnd, Metric.sq]) div_eq genus_eq okRows rows form_l1 autos_l1 closed_l1
    (by norm_num [Metric.sq, Metric.ratio]; exact low_l1)

def tab_l2 : List DilFast.Bin := [
    ⟨nat_lit 25, [⟨nat_lit 0, nat_lit 0, nat_lit 0, nat_lit 1, nat_lit 1⟩]⟩,
    ⟨nat_lit 31, [⟨nat_lit 1, nat_lit 0, nat_lit 0, nat_lit 1, nat_lit 2⟩, ⟨nat_lit 0, nat_lit 1, nat_lit 0, nat_lit 1, nat_lit 2⟩]⟩,
    ⟨nat_lit 10, [⟨nat_lit 0, nat_lit 0, nat_lit 1, nat_lit 0, nat_lit 1⟩]⟩,
    ⟨nat_lit 28, [⟨nat_lit 0, nat_lit 1, nat_lit 1, nat_lit 0, nat_lit 2⟩, ⟨nat_lit 0, nat_lit 1, nat_lit 0, nat_lit 1, nat_lit 2⟩]⟩,
    ⟨nat_lit 21, [⟨nat_lit 0, nat_lit 1, nat_lit 0, nat_lit 0, nat_lit 1⟩]⟩,
    ⟨nat_lit 19, [⟨nat_lit 0, nat_lit 1, nat_lit 0, nat_lit 0, nat_lit 1⟩]⟩,
    ⟨nat_lit 15, [⟨nat_lit 0, nat_lit 1, nat_lit 0, nat_lit 0, nat_lit 1⟩]⟩,
    ⟨nat_lit 16, [⟨nat_lit 0, nat_lit 1, nat_lit 3, nat_lit 0, nat_lit 4⟩, ⟨nat_lit 0, nat_lit 0, nat_lit 2, nat_lit 0, nat_lit 2⟩]⟩,
    ⟨nat_lit 3, [⟨nat_lit 0, nat_lit 1, nat_lit 0, nat_lit 1, nat_lit 2⟩]⟩,
    ⟨nat_lit 26, [⟨nat_lit 0, nat_lit 1, nat_lit 0, nat_lit 0, nat_lit 1⟩]⟩,
    ⟨nat_lit 12, [⟨nat_lit 0, nat_lit 2, nat_lit 0, nat_lit 0, nat_lit 2⟩]⟩,
    ⟨nat_lit 6, [⟨nat_lit 0, nat_lit 2, nat_lit 0, nat_lit 1, nat_lit 3⟩, ⟨nat_lit 0, nat_lit 1, nat_lit 0, nat_lit 0, nat_lit 1⟩]⟩,
    ⟨nat_lit 22, [⟨nat_lit 0, nat_lit 1, nat_lit 2, nat_lit 0, nat_lit 3⟩, ⟨nat_lit 0, nat_lit 0, nat_lit 1, nat_lit 0, nat_lit 1⟩]⟩,
    ⟨nat_lit 0, [⟨nat_lit 1, nat_lit 0, nat_lit 1, nat_lit 0, nat_lit 2⟩]⟩,
    ⟨nat_lit 5, [⟨nat_lit 0, nat_lit 3, nat_lit 0, nat_lit 0, nat_lit 3⟩]⟩]

theorem form_l2 : formB Best.bi8L1L2Linf.mult (DilFast.coreOf tab_l2) = true := by decide +kernel

theorem autos_l2 : DilFast.autosF .plane 6 1 tab_l2 frow = true := by decide +kernel

theorem closed_l2 : DilFast.closedF .plane 2 4 6 1 frow tab_l2 tab_l2 = true := by decide +kernel

def pt1_l2 : Pt := ⟨[1], [2], 2 / 3, [0, 1]⟩
def pt2_l2 : Pt := ⟨[2, 1], [1], 1 / 3, [1, 1]⟩
theorem low_l2 : lowB .l2sq Best.bi8L1L2Linf 1 pt1_l2 pt2_l2 (36) := by decide +kernel

theorem cert_l2 : Cert .l2 Best.bi8L1L2Linf (6) (6) :=
  DilFast.cert (p := 1) (.inr (.inr rfl)) (vn := 6) (vd := 1) (by decide) rfl (by norm_num [bnd, Metric.sq]) div_eq genus_eq okRows rows form_l2 autos_l2 closed_l2
    (by norm_num [Metric.sq, Metric.ratio]; exact low_l2)

def tab_linf : List DilFast.Bin := [
    ⟨nat_lit 25, [⟨nat_lit 0, nat_lit 0, nat_lit 0, nat_lit 1, nat_lit 1⟩]⟩,
    ⟨nat_lit 10, [⟨nat_lit 0, nat_lit 0, nat_lit 1, nat_lit 0, nat_lit 1⟩]⟩,
    ⟨nat_lit 21, [⟨nat_lit 0, nat_lit 1, nat_lit 0, nat_lit 0, nat_lit 1⟩]⟩,
    ⟨nat_lit 19, [⟨nat_lit 0, nat_lit 1, nat_lit 0, nat_lit 0, nat_lit 1⟩]⟩,
    ⟨nat_lit 15, [⟨nat_lit 0, nat_lit 1, nat_lit 0, nat_lit 0, nat_lit 1⟩]⟩,
    ⟨nat_lit 26, [⟨nat_lit 0, nat_lit 1, nat_lit 0, nat_lit 0, nat_lit 1⟩]⟩,
    ⟨nat_lit 12, [⟨nat_lit 0, nat_lit 2, nat_lit 0, nat_lit 0, nat_lit 2⟩]⟩,
    ⟨nat_lit 6, [⟨nat_lit 0, nat_lit 1, nat_lit 0, nat_lit 0, nat_lit 1⟩]⟩,
    ⟨nat_lit 22, [⟨nat_lit 0, nat_lit 0, nat_lit 1, nat_lit 0, nat_lit 1⟩]⟩,
    ⟨nat_lit 5, [⟨nat_lit 0, nat_lit 3, nat_lit 0, nat_lit 0, nat_lit 3⟩]⟩,
    ⟨nat_lit 16, [⟨nat_lit 0, nat_lit 0, nat_lit 2, nat_lit 0, nat_lit 2⟩]⟩]

theorem form_linf : formB Best.bi8L1L2Linf.mult (DilFast.coreOf tab_linf) = true := by decide +kernel

theorem autos_linf : DilFast.autosF .linf 6 1 tab_linf frow = true := by decide +kernel

theorem closed_linf : DilFast.closedF .linf 2 4 6 1 frow tab_linf tab_linf = true := by decide +kernel

def pt1_linf : Pt := ⟨[1], [2], 2 / 3, [0, 1]⟩
def pt2_linf : Pt := ⟨[2, 1], [1], 1 / 3, [1, 1]⟩
theorem low_linf : lowB .linf Best.bi8L1L2Linf 1 pt1_linf pt2_linf (6) := by decide +kernel

theorem cert_linf : Cert .linf Best.bi8L1L2Linf (6) (6) :=
  DilFast.cert (p := 1) (.inl rfl) (vn := 6) (vd := 1) (by decide) rfl (by norm_num [bnd, Metric.sq]) div_eq genus_eq okRows rows form_linf autos_linf closed_linf
    (by norm_num [Metric.sq, Metric.ratio]; exact low_linf)

end Peano.BestDil.Bi8L1L2Linf

namespace Peano.BestDil.Bi9L1L2Linf
open DilCert Zoo

def frow : List (List DilFast.Row) := [
    [⟨nat_lit 0, nat_lit 0, nat_lit 7, nat_lit 1⟩, ⟨nat_lit 1, nat_lit 0, nat_lit 15, nat_lit 0⟩, ⟨nat_lit 1, nat_lit 1, nat_lit 10, nat_lit 0⟩, ⟨nat_lit 0, nat_lit 1, nat_lit 2, nat_lit 0⟩],
    [⟨nat_lit 0, nat_lit 0, nat_lit 15, nat_lit 0⟩, ⟨nat_lit 0, nat_lit 1, nat_lit 7, nat_lit 0⟩, ⟨nat_lit 1, nat_lit 1, nat_lit 4, nat_lit 0⟩, ⟨nat_lit 1, nat_lit 0, nat_lit 12, nat_lit 0⟩]]

theorem div_eq : Best.bi9L1L2Linf.div = 2 := by decide +kernel

theorem genus_eq : Best.bi9L1L2Linf.genus = 4 := by decide +kernel

theorem okRows : DilFast.OkRows 2 frow := by decide +kernel

theorem rows : Rows Best.bi9L1L2Linf (DilFast.prowOf frow) := by decide +kernel

def tab_l1 : List DilFast.Bin := [
    ⟨nat_lit 275, [⟨nat_lit 0, nat_lit 1, nat_lit 0, nat_lit 0, nat_lit 1⟩]⟩,
    ⟨nat_lit 281, [⟨nat_lit 0, nat_lit 1, nat_lit 0, nat_lit 1, nat_lit 2⟩]⟩,
    ⟨nat_lit 5, [⟨nat_lit 0, nat_lit 1, nat_lit 0, nat_lit 0, nat_lit 1⟩]⟩,
    ⟨nat_lit 21, [⟨nat_lit 0, nat_lit 1, nat_lit 1, nat_lit 0, nat_lit 2⟩]⟩,
    ⟨nat_lit 16, [⟨nat_lit 0, nat_lit 0, nat_lit 1, nat_lit 0, nat_lit 1⟩]⟩,
    ⟨nat_lit 19, [⟨nat_lit 0, nat_lit 1, nat_lit 0, nat_lit 0, nat_lit 1⟩]⟩,
    ⟨nat_lit 25, [⟨nat_lit 0, nat_lit 1, nat_lit 0, nat_lit 1, nat_lit 2⟩]⟩,
    ⟨nat_lit 22, [⟨nat_lit 1, nat_lit 0, nat_lit 1, nat_lit 0, nat_lit 2⟩]⟩,
    ⟨nat_lit 10, [⟨nat_lit 0, nat_lit 0, nat_lit 1, nat_lit 0, nat_lit 1⟩]⟩,
    ⟨nat_lit 26, [⟨nat_lit 0, nat_lit 1, nat_lit 1, nat_lit 0, nat_lit 2⟩]⟩,
    ⟨nat_lit 15, [⟨nat_lit 0, nat_lit 3, nat_lit 3, nat_lit 0, nat_lit 8⟩, ⟨nat_lit 0, nat_lit 1, nat_lit 3, nat_lit 0, nat_lit 4⟩, ⟨nat_lit 0, nat_lit 1, nat_lit 2, nat_lit 0, nat_lit 3⟩]⟩,
    ⟨nat_lit 63, [⟨nat_lit 0, nat_lit 1, nat_lit 2, nat_lit 0, nat_lit 3⟩]⟩,
    ⟨nat_lit 58, [⟨nat_lit 0, nat_lit 0, nat_lit 2, nat_lit 0, nat_lit 2⟩, ⟨nat_lit 0, nat_lit 0, nat_lit 1, nat_lit 0, nat_lit 1⟩]⟩,
    ⟨nat_lit 12, [⟨nat_lit 0, nat_lit 1, nat_lit 3, nat_lit 0, nat_lit 4⟩, ⟨nat_lit 0, nat_lit 1, nat_lit 2, nat_lit 0, nat_lit 3⟩]⟩,
    ⟨nat_lit 294, [⟨nat_lit 1, nat_lit 0, nat_lit 0, nat_lit 0, nat_lit 1⟩]⟩,
    ⟨nat_lit 278, [⟨nat_lit 2, nat_lit 0, nat_lit 0, nat_lit 0, nat_lit 2⟩, ⟨nat_lit 1, nat_lit 0, nat_lit 0, nat_lit 0, nat_lit 1⟩]⟩,
    ⟨nat_lit 284, [⟨nat_lit 2, nat_lit 0, nat_lit 0, nat_lit 1, nat_lit 3⟩]⟩,
    ⟨nat_lit 35, [⟨nat_lit 0, nat_lit 2, nat_lit 1, nat_lit 0, nat_lit 3⟩]⟩,
    ⟨nat_lit 38, [⟨nat_lit 1, nat_lit 0, nat_lit 1, nat_lit 0, nat_lit 2⟩]⟩,
    ⟨nat_lit 262, [⟨nat_lit 1, nat_lit 0, nat_lit 0, nat_lit 1, nat_lit 2⟩]⟩,
    ⟨nat_lit 256, [⟨nat_lit 2, nat_lit 0, nat_lit 0, nat_lit 1, nat_lit 3⟩]⟩]

theorem form_l1 : formB Best.bi9L1L2Linf.mult (DilFast.coreOf tab_l1) = true := by decide +kernel

theorem autos_l1 : DilFast.autosF .l1 9 1 tab_l1 frow = true := by decide +kernel

theorem closed_l1 : DilFast.closedF .l1 2 4 9 1 frow tab_l1 tab_l1 = true := by decide +kernel

def pt1_l1 : Pt := ⟨[1, 1], [2, 1], 3 / 5, [0, 0]⟩
def pt2_l1 : Pt := ⟨[2], [1, 2], 2 / 5, [1, 1]⟩
theorem low_l1 : lowB .l1 Best.bi9L1L2Linf 0 pt1_l1 pt2_l1 (9) := by decide +kernel

theorem cert_l1 : Cert .l1 Best.bi9L1L2Linf (9) (9) :=
  DilFast.cert (p := 0) (.inr (.inl rfl)) (vn := 9) (vd := 1) (by decide) rfl (by norm_num [bnd, Metric.sq]) div_eq genus_eq okRows rows form_l1 autos_l1 closed_l1
    (by norm_num [Metric.sq, Metric.ratio]; exact low_l1)

def tab_l2 : List DilFast.Bin := [
    ⟨nat_lit 275, [⟨nat_lit 0, nat_lit 1, nat_lit 0, nat_lit 0, nat_lit 1⟩]⟩,
    ⟨nat_lit 281, [⟨nat_lit 0, nat_lit 1, nat_lit 0, nat_lit 1, nat_lit 2⟩]⟩,
    ⟨nat_lit 5, [⟨nat_lit 0, nat_lit 1, nat_lit 0, nat_lit 0, nat_lit 1⟩]⟩,
    ⟨nat_lit 21, [⟨nat_lit 0, nat_lit 1, nat_lit 1, nat_lit 0, nat_lit 2⟩]⟩,
    ⟨nat_lit 16, [⟨nat_lit 0, nat_lit 0, nat_lit 1, nat_lit 0, nat_lit 1⟩]⟩,
    ⟨nat_lit 19, [⟨nat_lit 0, nat_lit 1, nat_lit 0, nat_lit 0, nat_lit 1⟩]⟩,
    ⟨nat_lit 25, [⟨nat_lit 0, nat_lit 1, nat_lit 0, nat_lit 1, nat_lit 2⟩]⟩,
    ⟨nat_lit 22, [⟨nat_lit 1, nat_lit 0, nat_lit 1, nat_lit 0, nat_lit 2⟩]⟩,
    ⟨nat_lit 10, [⟨nat_lit 0, nat_lit 0, nat_lit 1, nat_lit 0, nat_lit 1⟩, ⟨nat_lit 0, nat_lit 0, nat_lit 3, nat_lit 0, nat_lit 3⟩]⟩,
    ⟨nat_lit 26, [⟨nat_lit 0, nat_lit 1, nat_lit 1, nat_lit 0, nat_lit 2⟩]⟩,
    ⟨nat_lit 63, [⟨nat_lit 0, nat_lit 1, nat_lit 2, nat_lit 0, nat_lit 3⟩]⟩,
    ⟨nat_lit 15, [⟨nat_lit 0, nat_lit 1, nat_lit 3, nat_lit 0, nat_lit 4⟩, ⟨nat_lit 0, nat_lit 1, nat_lit 2, nat_lit 0, nat_lit 3⟩]⟩,
    ⟨nat_lit 58, [⟨nat_lit 0, nat_lit 0, nat_lit 2, nat_lit 0, nat_lit 2⟩, ⟨nat_lit 0, nat_lit 0, nat_lit 1, nat_lit 0, nat_lit 1⟩]⟩,
    ⟨nat_lit 12, [⟨nat_lit 0, nat_lit 1, nat_lit 3, nat_lit 0, nat_lit 4⟩, ⟨nat_lit 0, nat_lit 1, nat_lit 2, nat_lit 0, nat_lit 3⟩]⟩,
    ⟨nat_lit 294, [⟨nat_lit 1, nat_lit 0, nat_lit 0, nat_lit 0, nat_lit 1⟩]⟩,
    ⟨nat_lit 278, [⟨nat_lit 2, nat_lit 0, nat_lit 0, nat_lit 0, nat_lit 2⟩, ⟨nat_lit 1, nat_lit 0, nat_lit 0, nat_lit 0, nat_lit 1⟩]⟩,
    ⟨nat_lit 284, [⟨nat_lit 2, nat_lit 0, nat_lit 0, nat_lit 1, nat_lit 3⟩]⟩,
    ⟨nat_lit 35, [⟨nat_lit 0, nat_lit 2, nat_lit 1, nat_lit 0, nat_lit 3⟩]⟩,
    ⟨nat_lit 38, [⟨nat_lit 1, nat_lit 0, nat_lit 1, nat_lit 0, nat_lit 2⟩]⟩,
    ⟨nat_lit 262, [⟨nat_lit 1, nat_lit 0, nat_lit 0, nat_lit 1, nat_lit 2⟩]⟩,
    ⟨nat_lit 256, [⟨nat_lit 2, nat_lit 0, nat_lit 0, nat_lit 1, nat_lit 3⟩]⟩,
    ⟨nat_lit 53, [⟨nat_lit 0, nat_lit 7, nat_lit 1, nat_lit 0, nat_lit 14⟩]⟩]

theorem form_l2 : formB Best.bi9L1L2Linf.mult (DilFast.coreOf tab_l2) = true := by decide +kernel

theorem autos_l2 : DilFast.autosF .plane 5 1 tab_l2 frow = true := by decide +kernel

theorem closed_l2 : DilFast.closedF .plane 2 4 5 1 frow tab_l2 tab_l2 = true := by decide +kernel

def pt1_l2 : Pt := ⟨[1, 1], [2, 1], 3 / 5, [0, 0]⟩
def pt2_l2 : Pt := ⟨[2], [1, 2], 2 / 5, [1, 1]⟩
theorem low_l2 : lowB .l2sq Best.bi9L1L2Linf 0 pt1_l2 pt2_l2 (25) := by decide +kernel

theorem cert_l2 : Cert .l2 Best.bi9L1L2Linf (5) (5) :=
  DilFast.cert (p := 0) (.inr (.inr rfl)) (vn := 5) (vd := 1) (by decide) rfl (by norm_num [bnd, Metric.sq]) div_eq genus_eq okRows rows form_l2 autos_l2 closed_l2
    (by norm_num [Metric.sq, Metric.ratio]; exact low_l2)

def tab_linf : List DilFast.Bin := [
    ⟨nat_lit 275, [⟨nat_lit 0, nat_lit 1, nat_lit 0, nat_lit 0, nat_lit 1⟩]⟩,
    ⟨nat_lit 5, [⟨nat_lit 0, nat_lit 1, nat_lit 0, nat_lit 0, nat_lit 1⟩]⟩,
    ⟨nat_lit 16, [⟨nat_lit 0, nat_lit 0, nat_lit 1, nat_lit 0, nat_lit 1⟩]⟩,
    ⟨nat_lit 19, [⟨nat_lit 0, nat_lit 1, nat_lit 0, nat_lit 0, nat_lit 1⟩]⟩,
    ⟨nat_lit 10, [⟨nat_lit 0, nat_lit 0, nat_lit 1, nat_lit 0, nat_lit 1⟩, ⟨nat_lit 0, nat_lit 0, nat_lit 3, nat_lit 0, nat_lit 3⟩]⟩,
    ⟨nat_lit 15, [⟨nat_lit 0, nat_lit 1, nat_lit 3, nat_lit 0, nat_lit 4⟩]⟩,
    ⟨nat_lit 58, [⟨nat_lit 0, nat_lit 0, nat_lit 2, nat_lit 0, nat_lit 2⟩, ⟨nat_lit 0, nat_lit 0, nat_lit 1, nat_lit 0, nat_lit 1⟩]⟩,
    ⟨nat_lit 12, [⟨nat_lit 0, nat_lit 1, nat_lit 3, nat_lit 0, nat_lit 4⟩]⟩,
    ⟨nat_lit 294, [⟨nat_lit 1, nat_lit 0, nat_lit 0, nat_lit 0, nat_lit 1⟩]⟩,
    ⟨nat_lit 278, [⟨nat_lit 2, nat_lit 0, nat_lit 0, nat_lit 0, nat_lit 2⟩, ⟨nat_lit 1, nat_lit 0, nat_lit 0, nat_lit 0, nat_lit 1⟩]⟩]

theorem form_linf : formB Best.bi9L1L2Linf.mult (DilFast.coreOf tab_linf) = true := by decide +kernel

theorem autos_linf : DilFast.autosF .linf 5 1 tab_linf frow = true := by decide +kernel

theorem closed_linf : DilFast.closedF .linf 2 4 5 1 frow tab_linf tab_linf = true := by decide +kernel

def pt1_linf : Pt := ⟨[1], [2, 1], 3 / 5, [1, 0]⟩
def pt2_linf : Pt := ⟨[2], [1, 2], 2 / 5, [1, 1]⟩
theorem low_linf : lowB .linf Best.bi9L1L2Linf 0 pt1_linf pt2_linf (5) := by decide +kernel

theorem cert_linf : Cert .linf Best.bi9L1L2Linf (5) (5) :=
  DilFast.cert (p := 0) (.inl rfl) (vn := 5) (vd := 1) (by decide) rfl (by norm_num [bnd, Metric.sq]) div_eq genus_eq okRows rows form_linf autos_linf closed_linf
    (by norm_num [Metric.sq, Metric.ratio]; exact low_linf)

end Peano.BestDil.Bi9L1L2Linf
