import Verif.Lemmas.DilFast
import Verif.MinCerts.Curves

set_option autoImplicit false
set_option maxRecDepth 100000
set_option linter.dupNamespace false

/-
Certificates for the dilations of the best monofractal curves (side).  This file is generated.
-/

namespace Peano.BestDil.Side3L1
open DilCert Zoo

def frow : List (List DilFast.Row) := [
    [⟨nat_lit 0, nat_lit 0, nat_lit 0, nat_lit 0⟩, ⟨nat_lit 1, nat_lit 0, nat_lit 8, nat_lit 0⟩, ⟨nat_lit 1, nat_lit 1, nat_lit 13, nat_lit 0⟩, ⟨nat_lit 0, nat_lit 1, nat_lit 5, nat_lit 0⟩, ⟨nat_lit 0, nat_lit 2, nat_lit 3, nat_lit 0⟩, ⟨nat_lit 1, nat_lit 2, nat_lit 0, nat_lit 0⟩, ⟨nat_lit 2, nat_lit 2, nat_lit 3, nat_lit 0⟩, ⟨nat_lit 2, nat_lit 1, nat_lit 14, nat_lit 0⟩, ⟨nat_lit 2, nat_lit 0, nat_lit 11, nat_lit 0⟩]]

theorem div_eq : Best.side3L1.div = 3 := by decide +kernel

theorem genus_eq : Best.side3L1.genus = 9 := by decide +kernel

theorem okRows : DilFast.OkRows 3 frow := by decide +kernel

theorem rows : Rows Best.side3L1 (DilFast.prowOf frow) := by decide +kernel

def tab_l1 : List DilFast.Bin := [
    ⟨nat_lit 16, [⟨nat_lit 1, nat_lit 0, nat_lit 0, nat_lit 0, nat_lit 1⟩, ⟨nat_lit 4, nat_lit 0, nat_lit 0, nat_lit 1, nat_lit 5⟩]⟩,
    ⟨nat_lit 26, [⟨nat_lit 1, nat_lit 0, nat_lit 1, nat_lit 0, nat_lit 2⟩, ⟨nat_lit 2, nat_lit 0, nat_lit 0, nat_lit 1, nat_lit 3⟩]⟩,
    ⟨nat_lit 6, [⟨nat_lit 1, nat_lit 0, nat_lit 0, nat_lit 0, nat_lit 1⟩]⟩,
    ⟨nat_lit 22, [⟨nat_lit 1, nat_lit 0, nat_lit 0, nat_lit 1, nat_lit 2⟩]⟩,
    ⟨nat_lit 19, [⟨nat_lit 0, nat_lit 0, nat_lit 0, nat_lit 1, nat_lit 1⟩]⟩,
    ⟨nat_lit 31, [⟨nat_lit 0, nat_lit 1, nat_lit 0, nat_lit 1, nat_lit 2⟩, ⟨nat_lit 0, nat_lit 2, nat_lit 1, nat_lit 0, nat_lit 3⟩, ⟨nat_lit 0, nat_lit 14, nat_lit 0, nat_lit 5, nat_lit 45⟩]⟩,
    ⟨nat_lit 15, [⟨nat_lit 0, nat_lit 0, nat_lit 0, nat_lit 1, nat_lit 1⟩]⟩,
    ⟨nat_lit 9, [⟨nat_lit 1, nat_lit 0, nat_lit 0, nat_lit 1, nat_lit 2⟩, ⟨nat_lit 0, nat_lit 0, nat_lit 0, nat_lit 1, nat_lit 1⟩, ⟨nat_lit 2, nat_lit 0, nat_lit 0, nat_lit 3, nat_lit 5⟩]⟩,
    ⟨nat_lit 5, [⟨nat_lit 0, nat_lit 1, nat_lit 0, nat_lit 0, nat_lit 1⟩]⟩,
    ⟨nat_lit 3, [⟨nat_lit 0, nat_lit 2, nat_lit 0, nat_lit 0, nat_lit 2⟩]⟩,
    ⟨nat_lit 25, [⟨nat_lit 0, nat_lit 2, nat_lit 0, nat_lit 1, nat_lit 3⟩, ⟨nat_lit 0, nat_lit 0, nat_lit 0, nat_lit 1, nat_lit 1⟩, ⟨nat_lit 2, nat_lit 0, nat_lit 0, nat_lit 3, nat_lit 5⟩]⟩,
    ⟨nat_lit 28, [⟨nat_lit 1, nat_lit 0, nat_lit 0, nat_lit 1, nat_lit 2⟩, ⟨nat_lit 0, nat_lit 2, nat_lit 0, nat_lit 5, nat_lit 9⟩]⟩,
    ⟨nat_lit 21, [⟨nat_lit 0, nat_lit 3, nat_lit 0, nat_lit 2, nat_lit 5⟩, ⟨nat_lit 0, nat_lit 1, nat_lit 0, nat_lit 2, nat_lit 3⟩, ⟨nat_lit 0, nat_lit 1, nat_lit 0, nat_lit 1, nat_lit 2⟩, ⟨nat_lit 0, nat_lit 3, nat_lit 0, nat_lit 1, nat_lit 4⟩, ⟨nat_lit 0, nat_lit 2, nat_lit 0, nat_lit 0, nat_lit 2⟩]⟩,
    ⟨nat_lit 12, [⟨nat_lit 1, nat_lit 0, nat_lit 0, nat_lit 1, nat_lit 2⟩, ⟨nat_lit 0, nat_lit 2, nat_lit 0, nat_lit 5, nat_lit 9⟩, ⟨nat_lit 1, nat_lit 0, nat_lit 0, nat_lit 3, nat_lit 4⟩]⟩,
    ⟨nat_lit 0, [⟨nat_lit 2, nat_lit 0, nat_lit 0, nat_lit 1, nat_lit 3⟩]⟩]

theorem form_l1 : formB Best.side3L1.mult (DilFast.coreOf tab_l1) = true := by decide +kernel

theorem autos_l1 : DilFast.autosF .l1 49 5 tab_l1 frow = true := by decide +kernel

theorem closed_l1 : DilFast.closedF .l1 3 9 49 5 frow tab_l1 tab_l1 = true := by decide +kernel

def pt1_l1 : Pt := ⟨[3, 6], [4, 2], 19 / 40, [1, 0]⟩
def pt2_l1 : Pt := ⟨[4, 2], [4, 2], 19 / 40, [0, 1]⟩
theorem low_l1 : lowB .l1 Best.side3L1 0 pt1_l1 pt2_l1 (49 / 5) := by decide +kernel

theorem cert_l1 : Cert .l1 Best.side3L1 (49 / 5) (49 / 5) :=
  DilFast.cert (p := 0) (.inr (.inl rfl)) (vn := 49) (vd := 5) (by decide) rfl (by norm_num [bnd, Metric.sq]) div_eq genus_eq okRows rows form_l1 autos_l1 closed_l1
    (by norm_num [Metric.sq, Metric.ratio]; exact low_l1)

end Peano.BestDil.Side3L1

namespace Peano.BestDil.Side3L2Linf
open DilCert Zoo

def frow : List (List DilFast.Row) := [
    [⟨nat_lit 0, nat_lit 0, nat_lit 0, nat_lit 0⟩, ⟨nat_lit 1, nat_lit 0, nat_lit 8, nat_lit 0⟩, ⟨nat_lit 1, nat_lit 1, nat_lit 13, nat_lit 0⟩, ⟨nat_lit 0, nat_lit 1, nat_lit 5, nat_lit 0⟩, ⟨nat_lit 0, nat_lit 2, nat_lit 0, nat_lit 0⟩, ⟨nat_lit 1, nat_lit 2, nat_lit 3, nat_lit 0⟩, ⟨nat_lit 2, nat_lit 2, nat_lit 3, nat_lit 0⟩, ⟨nat_lit 2, nat_lit 1, nat_lit 14, nat_lit 0⟩, ⟨nat_lit 2, nat_lit 0, nat_lit 11, nat_lit 0⟩]]

theorem div_eq : Best.side3L2Linf.div = 3 := by decide +kernel

theorem genus_eq : Best.side3L2Linf.genus = 9 := by decide +kernel

theorem okRows : DilFast.OkRows 3 frow := by decide +kernel

theorem rows : Rows Best.side3L2Linf (DilFast.prowOf frow) := by decide +kernel

def tab_l2 : List DilFast.Bin := [
    ⟨nat_lit 16, [⟨nat_lit 1, nat_lit 0, nat_lit 0, nat_lit 0, nat_lit 1⟩]⟩,
    ⟨nat_lit 26, [⟨nat_lit 1, nat_lit 0, nat_lit 1, nat_lit 0, nat_lit 2⟩]⟩,
    ⟨nat_lit 6, [⟨nat_lit 1, nat_lit 0, nat_lit 0, nat_lit 0, nat_lit 1⟩]⟩,
    ⟨nat_lit 22, [⟨nat_lit 1, nat_lit 0, nat_lit 0, nat_lit 1, nat_lit 2⟩]⟩,
    ⟨nat_lit 19, [⟨nat_lit 0, nat_lit 0, nat_lit 0, nat_lit 1, nat_lit 1⟩, ⟨nat_lit 2, nat_lit 0, nat_lit 0, nat_lit 4, nat_lit 6⟩]⟩,
    ⟨nat_lit 21, [⟨nat_lit 0, nat_lit 1, nat_lit 0, nat_lit 1, nat_lit 2⟩, ⟨nat_lit 0, nat_lit 1, nat_lit 0, nat_lit 0, nat_lit 1⟩]⟩,
    ⟨nat_lit 9, [⟨nat_lit 0, nat_lit 0, nat_lit 0, nat_lit 1, nat_lit 1⟩]⟩,
    ⟨nat_lit 15, [⟨nat_lit 1, nat_lit 0, nat_lit 0, nat_lit 1, nat_lit 2⟩]⟩,
    ⟨nat_lit 28, [⟨nat_lit 2, nat_lit 0, nat_lit 0, nat_lit 1, nat_lit 3⟩]⟩,
    ⟨nat_lit 3, [⟨nat_lit 0, nat_lit 1, nat_lit 0, nat_lit 0, nat_lit 1⟩]⟩,
    ⟨nat_lit 25, [⟨nat_lit 0, nat_lit 1, nat_lit 0, nat_lit 1, nat_lit 2⟩, ⟨nat_lit 0, nat_lit 0, nat_lit 0, nat_lit 1, nat_lit 1⟩]⟩,
    ⟨nat_lit 12, [⟨nat_lit 1, nat_lit 0, nat_lit 0, nat_lit 1, nat_lit 2⟩]⟩,
    ⟨nat_lit 31, [⟨nat_lit 0, nat_lit 1, nat_lit 1, nat_lit 0, nat_lit 2⟩]⟩,
    ⟨nat_lit 5, [⟨nat_lit 0, nat_lit 1, nat_lit 2, nat_lit 0, nat_lit 3⟩, ⟨nat_lit 0, nat_lit 1, nat_lit 0, nat_lit 1, nat_lit 2⟩, ⟨nat_lit 0, nat_lit 1, nat_lit 1, nat_lit 0, nat_lit 2⟩]⟩,
    ⟨nat_lit 0, [⟨nat_lit 2, nat_lit 0, nat_lit 0, nat_lit 1, nat_lit 3⟩]⟩]

theorem form_l2 : formB Best.side3L2Linf.mult (DilFast.coreOf tab_l2) = true := by decide +kernel

theorem autos_l2 : DilFast.autosF .plane 17 3 tab_l2 frow = true := by decide +kernel

theorem closed_l2 : DilFast.closedF .plane 3 9 17 3 frow tab_l2 tab_l2 = true := by decide +kernel

def pt1_l2 : Pt := ⟨[5, 7], [4], 1 / 2, [0, 0]⟩
def pt2_l2 : Pt := ⟨[6, 4], [4], 1 / 2, [1, 1]⟩
theorem low_l2 : lowB .l2sq Best.side3L2Linf 0 pt1_l2 pt2_l2 (289 / 9) := by decide +kernel

theorem cert_l2 : Cert .l2 Best.side3L2Linf (17 / 3) (17 / 3) :=
  DilFast.cert (p := 0) (.inr (.inr rfl)) (vn := 17) (vd := 3) (by decide) rfl (by norm_num [bnd, Metric.sq]) div_eq genus_eq okRows rows form_l2 autos_l2 closed_l2
    (by norm_num [Metric.sq, Metric.ratio]; exact low_l2)

def tab_linf : List DilFast.Bin := [
    ⟨nat_lit 16, [⟨nat_lit 1, nat_lit 0, nat_lit 0, nat_lit 0, nat_lit 1⟩]⟩,
    ⟨nat_lit 6, [⟨nat_lit 1, nat_lit 0, nat_lit 0, nat_lit 0, nat_lit 1⟩, ⟨nat_lit 2, nat_lit 0, nat_lit 0, nat_lit 0, nat_lit 2⟩]⟩,
    ⟨nat_lit 19, [⟨nat_lit 0, nat_lit 0, nat_lit 0, nat_lit 1, nat_lit 1⟩, ⟨nat_lit 0, nat_lit 0, nat_lit 0, nat_lit 2, nat_lit 2⟩]⟩,
    ⟨nat_lit 9, [⟨nat_lit 0, nat_lit 0, nat_lit 0, nat_lit 1, nat_lit 1⟩, ⟨nat_lit 0, nat_lit 0, nat_lit 0, nat_lit 2, nat_lit 2⟩]⟩,
    ⟨nat_lit 3, [⟨nat_lit 0, nat_lit 1, nat_lit 0, nat_lit 0, nat_lit 1⟩]⟩,
    ⟨nat_lit 25, [⟨nat_lit 0, nat_lit 0, nat_lit 0, nat_lit 1, nat_lit 1⟩]⟩,
    ⟨nat_lit 21, [⟨nat_lit 0, nat_lit 1, nat_lit 0, nat_lit 0, nat_lit 1⟩]⟩]

theorem form_linf : formB Best.side3L2Linf.mult (DilFast.coreOf tab_linf) = true := by decide +kernel

theorem autos_linf : DilFast.autosF .linf 9 2 tab_linf frow = true := by decide +kernel

theorem closed_linf : DilFast.closedF .linf 3 9 9 2 frow tab_linf tab_linf = true := by decide +kernel

def pt1_linf : Pt := ⟨[4], [4], 1 / 2, [0, 1]⟩
def pt2_linf : Pt := ⟨[6], [4], 1 / 2, [1, 1]⟩
theorem low_linf : lowB .linf Best.side3L2Linf 0 pt1_linf pt2_linf (9 / 2) := by decide +kernel

theorem cert_linf : Cert .linf Best.side3L2Linf (9 / 2) (9 / 2) :=
  DilFast.cert (p := 0) (.inl rfl) (vn := 9) (vd := 2) (by decide) rfl (by norm_num [bnd, Metric.sq]) div_eq genus_eq okRows rows form_linf autos_linf closed_linf
    (by norm_num [Metric.sq, Metric.ratio]; exact low_linf)

end Peano.BestDil.Side3L2Linf

namespace Peano.BestDil.Side4Linf
open DilCert Zoo

def frow : List (List DilFast.Row) := [
    [⟨nat_lit 0, nat_lit 0, nat_lit 13, nat_lit 0⟩, ⟨nat_lit 0, nat_lit 1, nat_lit 0, nat_lit 0⟩, ⟨nat_lit 1, nat_lit 0, nat_lit 4, nat_lit 0⟩, ⟨nat_lit 1, nat_lit 1, nat_lit 15, nat_lit 0⟩, ⟨nat_lit 2, nat_lit 2, nat_lit 13, nat_lit 0⟩, ⟨nat_lit 1, nat_lit 2, nat_lit 6, nat_lit 0⟩, ⟨nat_lit 0, nat_lit 2, nat_lit 6, nat_lit 0⟩, ⟨nat_lit 0, nat_lit 3, nat_lit 0, nat_lit 0⟩, ⟨nat_lit 1, nat_lit 3, nat_lit 0, nat_lit 0⟩, ⟨nat_lit 2, nat_lit 3, nat_lit 0, nat_lit 0⟩, ⟨nat_lit 3, nat_lit 3, nat_lit 0, nat_lit 0⟩, ⟨nat_lit 3, nat_lit 2, nat_lit 11, nat_lit 0⟩, ⟨nat_lit 3, nat_lit 1, nat_lit 6, nat_lit 0⟩, ⟨nat_lit 2, nat_lit 1, nat_lit 11, nat_lit 0⟩, ⟨nat_lit 2, nat_lit 0, nat_lit 11, nat_lit 0⟩, ⟨nat_lit 3, nat_lit 0, nat_lit 0, nat_lit 0⟩]]

theorem div_eq : Best.side4Linf.div = 4 := by decide +kernel

theorem genus_eq : Best.side4Linf.genus = 16 := by decide +kernel

theorem okRows : DilFast.OkRows 4 frow := by decide +kernel

theorem rows : Rows Best.side4Linf (DilFast.prowOf frow) := by decide +kernel

def tab_linf : List DilFast.Bin := [
    ⟨nat_lit 21, [⟨nat_lit 0, nat_lit 1, nat_lit 0, nat_lit 0, nat_lit 1⟩]⟩,
    ⟨nat_lit 8, [⟨nat_lit 1, nat_lit 0, nat_lit 0, nat_lit 1, nat_lit 1⟩, ⟨nat_lit 1, nat_lit 0, nat_lit 0, nat_lit 5, nat_lit 7⟩]⟩,
    ⟨nat_lit 22, [⟨nat_lit 0, nat_lit 0, nat_lit 0, nat_lit 1, nat_lit 1⟩, ⟨nat_lit 3, nat_lit 0, nat_lit 0, nat_lit 1, nat_lit 4⟩]⟩,
    ⟨nat_lit 18, [⟨nat_lit 1, nat_lit 0, nat_lit 0, nat_lit 2, nat_lit 2⟩, ⟨nat_lit 1, nat_lit 0, nat_lit 0, nat_lit 1, nat_lit 1⟩]⟩,
    ⟨nat_lit 11, [⟨nat_lit 0, nat_lit 1, nat_lit 0, nat_lit 1, nat_lit 1⟩, ⟨nat_lit 0, nat_lit 1, nat_lit 0, nat_lit 5, nat_lit 7⟩]⟩,
    ⟨nat_lit 25, [⟨nat_lit 0, nat_lit 0, nat_lit 0, nat_lit 1, nat_lit 1⟩]⟩,
    ⟨nat_lit 0, [⟨nat_lit 1, nat_lit 0, nat_lit 0, nat_lit 0, nat_lit 1⟩, ⟨nat_lit 3, nat_lit 0, nat_lit 0, nat_lit 0, nat_lit 3⟩]⟩,
    ⟨nat_lit 12, [⟨nat_lit 0, nat_lit 0, nat_lit 0, nat_lit 1, nat_lit 1⟩, ⟨nat_lit 0, nat_lit 3, nat_lit 0, nat_lit 1, nat_lit 4⟩, ⟨nat_lit 0, nat_lit 0, nat_lit 0, nat_lit 5, nat_lit 7⟩]⟩,
    ⟨nat_lit 26, [⟨nat_lit 1, nat_lit 0, nat_lit 0, nat_lit 0, nat_lit 1⟩]⟩,
    ⟨nat_lit 3, [⟨nat_lit 0, nat_lit 1, nat_lit 0, nat_lit 0, nat_lit 1⟩]⟩,
    ⟨nat_lit 29, [⟨nat_lit 0, nat_lit 3, nat_lit 0, nat_lit 0, nat_lit 4⟩, ⟨nat_lit 0, nat_lit 3, nat_lit 0, nat_lit 2, nat_lit 4⟩, ⟨nat_lit 0, nat_lit 2, nat_lit 0, nat_lit 3, nat_lit 4⟩, ⟨nat_lit 0, nat_lit 0, nat_lit 0, nat_lit 3, nat_lit 4⟩]⟩,
    ⟨nat_lit 15, [⟨nat_lit 0, nat_lit 0, nat_lit 0, nat_lit 2, nat_lit 2⟩, ⟨nat_lit 0, nat_lit 0, nat_lit 0, nat_lit 5, nat_lit 7⟩]⟩]

theorem form_linf : formB Best.side4Linf.mult (DilFast.coreOf tab_linf) = true := by decide +kernel

theorem autos_linf : DilFast.autosF .linf 90 17 tab_linf frow = true := by decide +kernel

theorem closed_linf : DilFast.closedF .linf 4 16 90 17 frow tab_linf tab_linf = true := by decide +kernel

def pt1_linf : Pt := ⟨[1, 10], [10], 2 / 3, [1, 1]⟩
def pt2_linf : Pt := ⟨[2, 1], [7], 7 / 15, [0, 0]⟩
theorem low_linf : lowB .linf Best.side4Linf 0 pt1_linf pt2_linf (90 / 17) := by decide +kernel

theorem cert_linf : Cert .linf Best.side4Linf (90 / 17) (90 / 17) :=
  DilFast.cert (p := 0) (.inl rfl) (vn := 90) (vd := 17) (by decide) rfl (by norm_num [bnd, Metric.sq]) div_eq genus_eq okRows rows form_linf autos_linf closed_linf
    (by norm_num [Metric.sq, Metric.ratio]; exact low_linf)

end Peano.BestDil.Side4Linf

namespace Peano.BestDil.Side4aL1
open DilCert Zoo

def frow : List (List DilFast.Row) := [
    [⟨nat_lit 0, nat_lit 0, nat_lit 3, nat_lit 0⟩, ⟨nat_lit 1, nat_lit 0, nat_lit 8, nat_lit 0⟩, ⟨nat_lit 1, nat_lit 1, nat_lit 13, nat_lit 0⟩, ⟨nat_lit 0, nat_lit 1, nat_lit 6, nat_lit 0⟩, ⟨nat_lit 0, nat_lit 2, nat_lit 8, nat_lit 0⟩, ⟨nat_lit 0, nat_lit 3, nat_lit 3, nat_lit 0⟩, ⟨nat_lit 1, nat_lit 3, nat_lit 3, nat_lit 0⟩, ⟨nat_lit 1, nat_lit 2, nat_lit 14, nat_lit 0⟩, ⟨nat_lit 2, nat_lit 2, nat_lit 13, nat_lit 0⟩, ⟨nat_lit 2, nat_lit 3, nat_lit 3, nat_lit 0⟩, ⟨nat_lit 3, nat_lit 3, nat_lit 0, nat_lit 0⟩, ⟨nat_lit 3, nat_lit 2, nat_lit 11, nat_lit 0⟩, ⟨nat_lit 3, nat_lit 1, nat_lit 6, nat_lit 0⟩, ⟨nat_lit 2, nat_lit 1, nat_lit 14, nat_lit 0⟩, ⟨nat_lit 2, nat_lit 0, nat_lit 14, nat_lit 0⟩, ⟨nat_lit 3, nat_lit 0, nat_lit 3, nat_lit 0⟩]]

theorem div_eq : Best.side4aL1.div = 4 := by decide +kernel

theorem genus_eq : Best.side4aL1.genus = 16 := by decide +kernel

theorem okRows : DilFast.OkRows 4 frow := by decide +kernel

theorem rows : Rows Best.side4aL1 (DilFast.prowOf frow) := by decide +kernel

def tab_l1 : List DilFast.Bin := [
    ⟨nat_lit 21, [⟨nat_lit 0, nat_lit 1, nat_lit 0, nat_lit 0, nat_lit 1⟩]⟩,
    ⟨nat_lit 31, [⟨nat_lit 0, nat_lit 1, nat_lit 1, nat_lit 0, nat_lit 2⟩, ⟨nat_lit 0, nat_lit 2, nat_lit 0, nat_lit 1, nat_lit 3⟩, ⟨nat_lit 0, nat_lit 1, nat_lit 0, nat_lit 1, nat_lit 2⟩, ⟨nat_lit 0, nat_lit 1, nat_lit 0, nat_lit 0, nat_lit 1⟩]⟩,
    ⟨nat_lit 6, [⟨nat_lit 1, nat_lit 0, nat_lit 0, nat_lit 0, nat_lit 1⟩]⟩,
    ⟨nat_lit 28, [⟨nat_lit 1, nat_lit 0, nat_lit 0, nat_lit 1, nat_lit 2⟩, ⟨nat_lit 0, nat_lit 0, nat_lit 0, nat_lit 1, nat_lit 1⟩]⟩,
    ⟨nat_lit 0, [⟨nat_lit 2, nat_lit 0, nat_lit 0, nat_lit 1, nat_lit 3⟩, ⟨nat_lit 1, nat_lit 0, nat_lit 0, nat_lit 0, nat_lit 1⟩]⟩,
    ⟨nat_lit 26, [⟨nat_lit 3, nat_lit 0, nat_lit 0, nat_lit 1, nat_lit 4⟩, ⟨nat_lit 1, nat_lit 0, nat_lit 0, nat_lit 0, nat_lit 1⟩]⟩,
    ⟨nat_lit 25, [⟨nat_lit 0, nat_lit 0, nat_lit 0, nat_lit 1, nat_lit 1⟩]⟩,
    ⟨nat_lit 5, [⟨nat_lit 0, nat_lit 1, nat_lit 0, nat_lit 1, nat_lit 2⟩, ⟨nat_lit 0, nat_lit 1, nat_lit 0, nat_lit 0, nat_lit 1⟩]⟩,
    ⟨nat_lit 10, [⟨nat_lit 0, nat_lit 0, nat_lit 0, nat_lit 2, nat_lit 2⟩, ⟨nat_lit 0, nat_lit 0, nat_lit 0, nat_lit 1, nat_lit 1⟩]⟩,
    ⟨nat_lit 3, [⟨nat_lit 0, nat_lit 1, nat_lit 0, nat_lit 0, nat_lit 1⟩]⟩,
    ⟨nat_lit 22, [⟨nat_lit 0, nat_lit 1, nat_lit 0, nat_lit 1, nat_lit 2⟩, ⟨nat_lit 0, nat_lit 0, nat_lit 0, nat_lit 1, nat_lit 1⟩]⟩,
    ⟨nat_lit 19, [⟨nat_lit 0, nat_lit 1, nat_lit 0, nat_lit 1, nat_lit 2⟩, ⟨nat_lit 1, nat_lit 0, nat_lit 0, nat_lit 3, nat_lit 4⟩, ⟨nat_lit 0, nat_lit 0, nat_lit 0, nat_lit 1, nat_lit 1⟩]⟩,
    ⟨nat_lit 9, [⟨nat_lit 0, nat_lit 1, nat_lit 0, nat_lit 2, nat_lit 3⟩, ⟨nat_lit 3, nat_lit 0, nat_lit 0, nat_lit 5, nat_lit 12⟩, ⟨nat_lit 0, nat_lit 0, nat_lit 0, nat_lit 2, nat_lit 2⟩, ⟨nat_lit 0, nat_lit 0, nat_lit 0, nat_lit 1, nat_lit 1⟩]⟩,
    ⟨nat_lit 12, [⟨nat_lit 0, nat_lit 0, nat_lit 0, nat_lit 2, nat_lit 2⟩, ⟨nat_lit 0, nat_lit 3, nat_lit 0, nat_lit 7, nat_lit 16⟩, ⟨nat_lit 1, nat_lit 0, nat_lit 0, nat_lit 3, nat_lit 4⟩]⟩,
    ⟨nat_lit 16, [⟨nat_lit 1, nat_lit 0, nat_lit 0, nat_lit 0, nat_lit 1⟩]⟩,
    ⟨nat_lit 15, [⟨nat_lit 0, nat_lit 0, nat_lit 0, nat_lit 2, nat_lit 2⟩, ⟨nat_lit 1, nat_lit 0, nat_lit 0, nat_lit 3, nat_lit 4⟩, ⟨nat_lit 0, nat_lit 3, nat_lit 0, nat_lit 7, nat_lit 16⟩]⟩]

theorem form_l1 : formB Best.side4aL1.mult (DilFast.coreOf tab_l1) = true := by decide +kernel

theorem autos_l1 : DilFast.autosF .l1 9 1 tab_l1 frow = true := by decide +kernel

theorem closed_l1 : DilFast.closedF .l1 4 16 9 1 frow tab_l1 tab_l1 = true := by decide +kernel

def pt1_l1 : Pt := ⟨[0], [5], 1 / 3, [0, 1]⟩
def pt2_l1 : Pt := ⟨[1, 5], [5], 1 / 3, [1, 0]⟩
theorem low_l1 : lowB .l1 Best.side4aL1 0 pt1_l1 pt2_l1 (9) := by decide +kernel

theorem cert_l1 : Cert .l1 Best.side4aL1 (9) (9) :=
  DilFast.cert (p := 0) (.inr (.inl rfl)) (vn := 9) (vd := 1) (by decide) rfl (by norm_num [bnd, Metric.sq]) div_eq genus_eq okRows rows form_l1 autos_l1 closed_l1
    (by norm_num [Metric.sq, Metric.ratio]; exact low_l1)

end Peano.BestDil.Side4aL1

namespace Peano.BestDil.Side4aL2
open DilCert Zoo

def frow : List (List DilFast.Row) := [
    [⟨nat_lit 0, nat_lit 0, nat_lit 13, nat_lit 0⟩, ⟨nat_lit 0, nat_lit 1, nat_lit 8, nat_lit 0⟩, ⟨nat_lit 0, nat_lit 2, nat_lit 8, nat_lit 0⟩, ⟨nat_lit 0, nat_lit 3, nat_lit 3, nat_lit 0⟩, ⟨nat_lit 1, nat_lit 3, nat_lit 0, nat_lit 0⟩, ⟨nat_lit 1, nat_lit 2, nat_lit 14, nat_lit 0⟩, ⟨nat_lit 2, nat_lit 2, nat_lit 13, nat_lit 0⟩, ⟨nat_lit 2, nat_lit 3, nat_lit 3, nat_lit 0⟩, ⟨nat_lit 3, nat_lit 3, nat_lit 0, nat_lit 0⟩, ⟨nat_lit 3, nat_lit 2, nat_lit 14, nat_lit 0⟩, ⟨nat_lit 3, nat_lit 1, nat_lit 5, nat_lit 0⟩, ⟨nat_lit 2, nat_lit 1, nat_lit 6, nat_lit 0⟩, ⟨nat_lit 1, nat_lit 1, nat_lit 11, nat_lit 0⟩, ⟨nat_lit 1, nat_lit 0, nat_lit 14, nat_lit 0⟩, ⟨nat_lit 2, nat_lit 0, nat_lit 0, nat_lit 0⟩, ⟨nat_lit 3, nat_lit 0, nat_lit 0, nat_lit 0⟩]]

theorem div_eq : Best.side4aL2.div = 4 := by decide +kernel

theorem genus_eq : Best.side4aL2.genus = 16 := by decide +kernel

theorem okRows : DilFast.OkRows 4 frow := by decide +kernel

theorem rows : Rows Best.side4aL2 (DilFast.prowOf frow) := by decide +kernel

def tab_l2 : List DilFast.Bin := [
    ⟨nat_lit 5, [⟨nat_lit 0, nat_lit 1, nat_lit 0, nat_lit 0, nat_lit 1⟩]⟩,
    ⟨nat_lit 31, [⟨nat_lit 0, nat_lit 3, nat_lit 0, nat_lit 0, nat_lit 3⟩, ⟨nat_lit 0, nat_lit 1, nat_lit 0, nat_lit 0, nat_lit 1⟩]⟩,
    ⟨nat_lit 21, [⟨nat_lit 0, nat_lit 3, nat_lit 1, nat_lit 0, nat_lit 4⟩, ⟨nat_lit 0, nat_lit 1, nat_lit 1, nat_lit 0, nat_lit 2⟩]⟩,
    ⟨nat_lit 0, [⟨nat_lit 1, nat_lit 0, nat_lit 0, nat_lit 0, nat_lit 1⟩]⟩,
    ⟨nat_lit 26, [⟨nat_lit 2, nat_lit 0, nat_lit 0, nat_lit 0, nat_lit 2⟩, ⟨nat_lit 1, nat_lit 0, nat_lit 0, nat_lit 0, nat_lit 1⟩]⟩,
    ⟨nat_lit 16, [⟨nat_lit 2, nat_lit 0, nat_lit 1, nat_lit 0, nat_lit 3⟩, ⟨nat_lit 1, nat_lit 0, nat_lit 1, nat_lit 0, nat_lit 2⟩]⟩,
    ⟨nat_lit 25, [⟨nat_lit 0, nat_lit 1, nat_lit 0, nat_lit 1, nat_lit 2⟩]⟩,
    ⟨nat_lit 28, [⟨nat_lit 0, nat_lit 0, nat_lit 0, nat_lit 1, nat_lit 1⟩, ⟨nat_lit 0, nat_lit 3, nat_lit 0, nat_lit 4, nat_lit 7⟩, ⟨nat_lit 0, nat_lit 3, nat_lit 0, nat_lit 6, nat_lit 11⟩]⟩,
    ⟨nat_lit 10, [⟨nat_lit 0, nat_lit 0, nat_lit 0, nat_lit 1, nat_lit 1⟩, ⟨nat_lit 0, nat_lit 0, nat_lit 0, nat_lit 3, nat_lit 3⟩]⟩,
    ⟨nat_lit 22, [⟨nat_lit 0, nat_lit 1, nat_lit 0, nat_lit 1, nat_lit 2⟩, ⟨nat_lit 0, nat_lit 3, nat_lit 0, nat_lit 1, nat_lit 4⟩, ⟨nat_lit 0, nat_lit 3, nat_lit 0, nat_lit 3, nat_lit 6⟩]⟩,
    ⟨nat_lit 15, [⟨nat_lit 0, nat_lit 1, nat_lit 0, nat_lit 2, nat_lit 3⟩, ⟨nat_lit 0, nat_lit 2, nat_lit 0, nat_lit 1, nat_lit 3⟩, ⟨nat_lit 0, nat_lit 1, nat_lit 0, nat_lit 1, nat_lit 2⟩, ⟨nat_lit 0, nat_lit 1, nat_lit 0, nat_lit 3, nat_lit 4⟩]⟩,
    ⟨nat_lit 12, [⟨nat_lit 0, nat_lit 1, nat_lit 0, nat_lit 2, nat_lit 3⟩, ⟨nat_lit 0, nat_lit 1, nat_lit 0, nat_lit 1, nat_lit 2⟩, ⟨nat_lit 0, nat_lit 1, nat_lit 0, nat_lit 3, nat_lit 4⟩]⟩,
    ⟨nat_lit 6, [⟨nat_lit 1, nat_lit 0, nat_lit 2, nat_lit 0, nat_lit 3⟩, ⟨nat_lit 2, nat_lit 0, nat_lit 3, nat_lit 0, nat_lit 5⟩, ⟨nat_lit 1, nat_lit 0, nat_lit 3, nat_lit 0, nat_lit 4⟩]⟩]

theorem form_l2 : formB Best.side4aL2.mult (DilFast.coreOf tab_l2) = true := by decide +kernel

theorem autos_l2 : DilFast.autosF .plane 65 11 tab_l2 frow = true := by decide +kernel

theorem closed_l2 : DilFast.closedF .plane 4 16 65 11 frow tab_l2 tab_l2 = true := by decide +kernel

def pt1_l2 : Pt := ⟨[1, 13], [8], 8 / 15, [0, 0]⟩
def pt2_l2 : Pt := ⟨[2, 8], [8], 8 / 15, [1, 1]⟩
theorem low_l2 : lowB .l2sq Best.side4aL2 0 pt1_l2 pt2_l2 (4225 / 121) := by decide +kernel

theorem cert_l2 : Cert .l2 Best.side4aL2 (65 / 11) (65 / 11) :=
  DilFast.cert (p := 0) (.inr (.inr rfl)) (vn := 65) (vd := 11) (by decide) rfl (by norm_num [bnd, Metric.sq]) div_eq genus_eq okRows rows form_l2 autos_l2 closed_l2
    (by norm_num [Metric.sq, Metric.ratio]; exact low_l2)

end Peano.BestDil.Side4aL2

namespace Peano.BestDil.Side4aLinf
open DilCert Zoo

def frow : List (List DilFast.Row) := [
    [⟨nat_lit 0, nat_lit 0, nat_lit 13, nat_lit 0⟩, ⟨nat_lit 0, nat_lit 1, nat_lit 8, nat_lit 0⟩, ⟨nat_lit 0, nat_lit 2, nat_lit 8, nat_lit 0⟩, ⟨nat_lit 0, nat_lit 3, nat_lit 3, nat_lit 0⟩, ⟨nat_lit 1, nat_lit 3, nat_lit 0, nat_lit 0⟩, ⟨nat_lit 1, nat_lit 2, nat_lit 14, nat_lit 0⟩, ⟨nat_lit 2, nat_lit 2, nat_lit 13, nat_lit 0⟩, ⟨nat_lit 2, nat_lit 3, nat_lit 3, nat_lit 0⟩, ⟨nat_lit 3, nat_lit 3, nat_lit 0, nat_lit 0⟩, ⟨nat_lit 3, nat_lit 2, nat_lit 14, nat_lit 0⟩, ⟨nat_lit 3, nat_lit 1, nat_lit 5, nat_lit 0⟩, ⟨nat_lit 2, nat_lit 1, nat_lit 5, nat_lit 0⟩, ⟨nat_lit 1, nat_lit 1, nat_lit 11, nat_lit 0⟩, ⟨nat_lit 1, nat_lit 0, nat_lit 14, nat_lit 0⟩, ⟨nat_lit 2, nat_lit 0, nat_lit 3, nat_lit 0⟩, ⟨nat_lit 3, nat_lit 0, nat_lit 0, nat_lit 0⟩]]

theorem div_eq : Best.side4aLinf.div = 4 := by decide +kernel

theorem genus_eq : Best.side4aLinf.genus = 16 := by decide +kernel

theorem okRows : DilFast.OkRows 4 frow := by decide +kernel

theorem rows : Rows Best.side4aLinf (DilFast.prowOf frow) := by decide +kernel

def tab_linf : List DilFast.Bin := [
    ⟨nat_lit 5, [⟨nat_lit 0, nat_lit 1, nat_lit 0, nat_lit 0, nat_lit 1⟩]⟩,
    ⟨nat_lit 31, [⟨nat_lit 0, nat_lit 3, nat_lit 0, nat_lit 0, nat_lit 3⟩, ⟨nat_lit 0, nat_lit 1, nat_lit 0, nat_lit 0, nat_lit 1⟩]⟩,
    ⟨nat_lit 0, [⟨nat_lit 1, nat_lit 0, nat_lit 0, nat_lit 0, nat_lit 1⟩]⟩,
    ⟨nat_lit 26, [⟨nat_lit 2, nat_lit 0, nat_lit 0, nat_lit 0, nat_lit 2⟩, ⟨nat_lit 1, nat_lit 0, nat_lit 0, nat_lit 0, nat_lit 1⟩]⟩,
    ⟨nat_lit 28, [⟨nat_lit 0, nat_lit 0, nat_lit 0, nat_lit 1, nat_lit 1⟩]⟩,
    ⟨nat_lit 10, [⟨nat_lit 0, nat_lit 0, nat_lit 0, nat_lit 1, nat_lit 1⟩, ⟨nat_lit 0, nat_lit 0, nat_lit 0, nat_lit 3, nat_lit 3⟩]⟩,
    ⟨nat_lit 3, [⟨nat_lit 0, nat_lit 1, nat_lit 0, nat_lit 0, nat_lit 1⟩]⟩,
    ⟨nat_lit 22, [⟨nat_lit 0, nat_lit 0, nat_lit 0, nat_lit 1, nat_lit 1⟩]⟩]

theorem form_linf : formB Best.side4aLinf.mult (DilFast.coreOf tab_linf) = true := by decide +kernel

theorem autos_linf : DilFast.autosF .linf 60 11 tab_linf frow = true := by decide +kernel

theorem closed_linf : DilFast.closedF .linf 4 16 60 11 frow tab_linf tab_linf = true := by decide +kernel

def pt1_linf : Pt := ⟨[1, 13], [8], 8 / 15, [0, 0]⟩
def pt2_linf : Pt := ⟨[2, 0], [7], 7 / 15, [0, 1]⟩
theorem low_linf : lowB .linf Best.side4aLinf 0 pt1_linf pt2_linf (60 / 11) := by decide +kernel

theorem cert_linf : Cert .linf Best.side4aLinf (60 / 11) (60 / 11) :=
  DilFast.cert (p := 0) (.inl rfl) (vn := 60) (vd := 11) (by decide) rfl (by norm_num [bnd, Metric.sq]) div_eq genus_eq okRows rows form_linf autos_linf closed_linf
    (by norm_num [Metric.sq, Metric.ratio]; exact low_linf)

end Peano.BestDil.Side4aLinf

namespace Peano.BestDil.Side5aL1
open DilCert Zoo

def frow : List (List DilFast.Row) := [
    [⟨nat_lit 0, nat_lit 0, nat_lit 3, nat_lit 0⟩, ⟨nat_lit 1, nat_lit 0, nat_lit 13, nat_lit 0⟩, ⟨nat_lit 1, nat_lit 1, nat_lit 13, nat_lit 0⟩, ⟨nat_lit 0, nat_lit 1, nat_lit 5, nat_lit 0⟩, ⟨nat_lit 0, nat_lit 2, nat_lit 13, nat_lit 0⟩, ⟨nat_lit 0, nat_lit 3, nat_lit 13, nat_lit 0⟩, ⟨nat_lit 0, nat_lit 4, nat_lit 3, nat_lit 0⟩, ⟨nat_lit 1, nat_lit 4, nat_lit 3, nat_lit 0⟩, ⟨nat_lit 1, nat_lit 3, nat_lit 11, nat_lit 0⟩, ⟨nat_lit 1, nat_lit 2, nat_lit 11, nat_lit 0⟩, ⟨nat_lit 2, nat_lit 2, nat_lit 13, nat_lit 0⟩, ⟨nat_lit 2, nat_lit 3, nat_lit 13, nat_lit 0⟩, ⟨nat_lit 2, nat_lit 4, nat_lit 3, nat_lit 0⟩, ⟨nat_lit 3, nat_lit 4, nat_lit 3, nat_lit 0⟩, ⟨nat_lit 4, nat_lit 4, nat_lit 3, nat_lit 0⟩, ⟨nat_lit 4, nat_lit 3, nat_lit 5, nat_lit 0⟩, ⟨nat_lit 3, nat_lit 3, nat_lit 11, nat_lit 0⟩, ⟨nat_lit 3, nat_lit 2, nat_lit 11, nat_lit 0⟩, ⟨nat_lit 4, nat_lit 2, nat_lit 3, nat_lit 0⟩, ⟨nat_lit 4, nat_lit 1, nat_lit 5, nat_lit 0⟩, ⟨nat_lit 3, nat_lit 1, nat_lit 5, nat_lit 0⟩, ⟨nat_lit 2, nat_lit 1, nat_lit 11, nat_lit 0⟩, ⟨nat_lit 2, nat_lit 0, nat_lit 11, nat_lit 0⟩, ⟨nat_lit 3, nat_lit 0, nat_lit 3, nat_lit 0⟩, ⟨nat_lit 4, nat_lit 0, nat_lit 3, nat_lit 0⟩]]

theorem div_eq : Best.side5aL1.div = 5 := by decide +kernel

theorem genus_eq : Best.side5aL1.genus = 25 := by decide +kernel

theorem okRows : DilFast.OkRows 5 frow := by decide +kernel

theorem rows : Rows Best.side5aL1 (DilFast.prowOf frow) := by decide +kernel

def tab_l1 : List DilFast.Bin := [
    ⟨nat_lit 31, [⟨nat_lit 0, nat_lit 1, nat_lit 0, nat_lit 0, nat_lit 1⟩, ⟨nat_lit 0, nat_lit 24, nat_lit 0, nat_lit 24, nat_lit 250⟩, ⟨nat_lit 0, nat_lit 6, nat_lit 0, nat_lit 2, nat_lit 10⟩]⟩,
    ⟨nat_lit 3, [⟨nat_lit 0, nat_lit 1, nat_lit 0, nat_lit 0, nat_lit 1⟩]⟩,
    ⟨nat_lit 19, [⟨nat_lit 0, nat_lit 1, nat_lit 0, nat_lit 1, nat_lit 2⟩, ⟨nat_lit 0, nat_lit 0, nat_lit 0, nat_lit 1, nat_lit 1⟩, ⟨nat_lit 4, nat_lit 0, nat_lit 0, nat_lit 4, nat_lit 10⟩]⟩,
    ⟨nat_lit 15, [⟨nat_lit 0, nat_lit 0, nat_lit 0, nat_lit 3, nat_lit 3⟩, ⟨nat_lit 1, nat_lit 0, nat_lit 0, nat_lit 3, nat_lit 4⟩, ⟨nat_lit 0, nat_lit 1, nat_lit 0, nat_lit 1, nat_lit 2⟩, ⟨nat_lit 0, nat_lit 0, nat_lit 0, nat_lit 1, nat_lit 1⟩, ⟨nat_lit 0, nat_lit 1, nat_lit 0, nat_lit 7, nat_lit 10⟩, ⟨nat_lit 1, nat_lit 0, nat_lit 0, nat_lit 7, nat_lit 10⟩]⟩,
    ⟨nat_lit 12, [⟨nat_lit 1, nat_lit 0, nat_lit 0, nat_lit 2, nat_lit 3⟩, ⟨nat_lit 0, nat_lit 0, nat_lit 0, nat_lit 2, nat_lit 2⟩, ⟨nat_lit 1, nat_lit 0, nat_lit 0, nat_lit 4, nat_lit 5⟩, ⟨nat_lit 0, nat_lit 1, nat_lit 0, nat_lit 4, nat_lit 5⟩, ⟨nat_lit 1, nat_lit 0, nat_lit 0, nat_lit 7, nat_lit 10⟩, ⟨nat_lit 0, nat_lit 1, nat_lit 0, nat_lit 7, nat_lit 10⟩, ⟨nat_lit 0, nat_lit 0, nat_lit 0, nat_lit 1, nat_lit 1⟩]⟩,
    ⟨nat_lit 28, [⟨nat_lit 0, nat_lit 2, nat_lit 0, nat_lit 2, nat_lit 4⟩, ⟨nat_lit 0, nat_lit 2, nat_lit 0, nat_lit 3, nat_lit 5⟩, ⟨nat_lit 1, nat_lit 0, nat_lit 0, nat_lit 2, nat_lit 3⟩, ⟨nat_lit 1, nat_lit 0, nat_lit 0, nat_lit 3, nat_lit 4⟩, ⟨nat_lit 0, nat_lit 0, nat_lit 0, nat_lit 2, nat_lit 2⟩, ⟨nat_lit 0, nat_lit 0, nat_lit 0, nat_lit 1, nat_lit 1⟩, ⟨nat_lit 0, nat_lit 2, nat_lit 0, nat_lit 6, nat_lit 10⟩]⟩,
    ⟨nat_lit 16, [⟨nat_lit 1, nat_lit 0, nat_lit 0, nat_lit 0, nat_lit 1⟩, ⟨nat_lit 4, nat_lit 0, nat_lit 0, nat_lit 4, nat_lit 10⟩]⟩,
    ⟨nat_lit 0, [⟨nat_lit 1, nat_lit 0, nat_lit 2, nat_lit 0, nat_lit 3⟩, ⟨nat_lit 2, nat_lit 0, nat_lit 2, nat_lit 0, nat_lit 4⟩, ⟨nat_lit 3, nat_lit 0, nat_lit 0, nat_lit 4, nat_lit 9⟩, ⟨nat_lit 1, nat_lit 0, nat_lit 0, nat_lit 0, nat_lit 1⟩]⟩]

theorem form_l1 : formB Best.side5aL1.mult (DilFast.coreOf tab_l1) = true := by decide +kernel

theorem autos_l1 : DilFast.autosF .l1 10 1 tab_l1 frow = true := by decide +kernel

theorem closed_l1 : DilFast.closedF .l1 5 25 10 1 frow tab_l1 tab_l1 = true := by decide +kernel

def pt1_l1 : Pt := ⟨[1, 17], [6, 10], 10 / 39, [1, 0]⟩
def pt2_l1 : Pt := ⟨[2, 2], [6, 10], 10 / 39, [0, 1]⟩
theorem low_l1 : lowB .l1 Best.side5aL1 0 pt1_l1 pt2_l1 (10) := by decide +kernel

theorem cert_l1 : Cert .l1 Best.side5aL1 (10) (10) :=
  DilFast.cert (p := 0) (.inr (.inl rfl)) (vn := 10) (vd := 1) (by decide) rfl (by norm_num [bnd, Metric.sq]) div_eq genus_eq okRows rows form_l1 autos_l1 closed_l1
    (by norm_num [Metric.sq, Metric.ratio]; exact low_l1)

end Peano.BestDil.Side5aL1

namespace Peano.BestDil.Side6aL1
open DilCert Zoo

def frow : List (List DilFast.Row) := [
    [⟨nat_lit 0, nat_lit 0, nat_lit 13, nat_lit 0⟩, ⟨nat_lit 0, nat_lit 1, nat_lit 3, nat_lit 0⟩, ⟨nat_lit 1, nat_lit 1, nat_lit 0, nat_lit 0⟩, ⟨nat_lit 1, nat_lit 0, nat_lit 14, nat_lit 0⟩, ⟨nat_lit 2, nat_lit 0, nat_lit 13, nat_lit 0⟩, ⟨nat_lit 2, nat_lit 1, nat_lit 8, nat_lit 0⟩, ⟨nat_lit 2, nat_lit 2, nat_lit 13, nat_lit 0⟩, ⟨nat_lit 2, nat_lit 3, nat_lit 8, nat_lit 0⟩, ⟨nat_lit 1, nat_lit 3, nat_lit 11, nat_lit 0⟩, ⟨nat_lit 1, nat_lit 2, nat_lit 6, nat_lit 0⟩, ⟨nat_lit 0, nat_lit 2, nat_lit 6, nat_lit 0⟩, ⟨nat_lit 0, nat_lit 3, nat_lit 8, nat_lit 0⟩, ⟨nat_lit 0, nat_lit 4, nat_lit 13, nat_lit 0⟩, ⟨nat_lit 0, nat_lit 5, nat_lit 3, nat_lit 0⟩, ⟨nat_lit 1, nat_lit 5, nat_lit 0, nat_lit 0⟩, ⟨nat_lit 1, nat_lit 4, nat_lit 14, nat_lit 0⟩, ⟨nat_lit 2, nat_lit 4, nat_lit 13, nat_lit 0⟩, ⟨nat_lit 2, nat_lit 5, nat_lit 0, nat_lit 0⟩, ⟨nat_lit 3, nat_lit 5, nat_lit 3, nat_lit 0⟩, ⟨nat_lit 3, nat_lit 4, nat_lit 11, nat_lit 0⟩, ⟨nat_lit 4, nat_lit 4, nat_lit 8, nat_lit 0⟩, ⟨nat_lit 4, nat_lit 5, nat_lit 0, nat_lit 0⟩, ⟨nat_lit 5, nat_lit 5, nat_lit 0, nat_lit 0⟩, ⟨nat_lit 5, nat_lit 4, nat_lit 14, nat_lit 0⟩, ⟨nat_lit 5, nat_lit 3, nat_lit 11, nat_lit 0⟩, ⟨nat_lit 5, nat_lit 2, nat_lit 6, nat_lit 0⟩, ⟨nat_lit 4, nat_lit 2, nat_lit 5, nat_lit 0⟩, ⟨nat_lit 4, nat_lit 3, nat_lit 8, nat_lit 0⟩, ⟨nat_lit 3, nat_lit 3, nat_lit 14, nat_lit 0⟩, ⟨nat_lit 3, nat_lit 2, nat_lit 11, nat_lit 0⟩, ⟨nat_lit 3, nat_lit 1, nat_lit 11, nat_lit 0⟩, ⟨nat_lit 3, nat_lit 0, nat_lit 11, nat_lit 0⟩, ⟨nat_lit 4, nat_lit 0, nat_lit 13, nat_lit 0⟩, ⟨nat_lit 4, nat_lit 1, nat_lit 0, nat_lit 0⟩, ⟨nat_lit 5, nat_lit 1, nat_lit 0, nat_lit 0⟩, ⟨nat_lit 5, nat_lit 0, nat_lit 11, nat_lit 0⟩]]

theorem div_eq : Best.side6aL1.div = 6 := by decide +kernel

theorem genus_eq : Best.side6aL1.genus = 36 := by decide +kernel

theorem okRows : DilFast.OkRows 6 frow := by decide +kernel

theorem rows : Rows Best.side6aL1 (DilFast.prowOf frow) := by decide +kernel

def tab_l1 : List DilFast.Bin := [
    ⟨nat_lit 31, [⟨nat_lit 0, nat_lit 1, nat_lit 0, nat_lit 0, nat_lit 1⟩]⟩,
    ⟨nat_lit 21, [⟨nat_lit 0, nat_lit 1, nat_lit 1, nat_lit 0, nat_lit 2⟩, ⟨nat_lit 0, nat_lit 1, nat_lit 0, nat_lit 0, nat_lit 1⟩]⟩,
    ⟨nat_lit 5, [⟨nat_lit 0, nat_lit 1, nat_lit 0, nat_lit 0, nat_lit 1⟩]⟩,
    ⟨nat_lit 25, [⟨nat_lit 0, nat_lit 1, nat_lit 0, nat_lit 1, nat_lit 2⟩, ⟨nat_lit 1, nat_lit 0, nat_lit 0, nat_lit 1, nat_lit 2⟩, ⟨nat_lit 0, nat_lit 0, nat_lit 0, nat_lit 1, nat_lit 1⟩]⟩,
    ⟨nat_lit 28, [⟨nat_lit 0, nat_lit 0, nat_lit 0, nat_lit 1, nat_lit 1⟩]⟩,
    ⟨nat_lit 26, [⟨nat_lit 1, nat_lit 0, nat_lit 0, nat_lit 1, nat_lit 2⟩, ⟨nat_lit 2, nat_lit 0, nat_lit 0, nat_lit 0, nat_lit 2⟩, ⟨nat_lit 5, nat_lit 0, nat_lit 0, nat_lit 2, nat_lit 9⟩, ⟨nat_lit 3, nat_lit 0, nat_lit 0, nat_lit 1, nat_lit 4⟩, ⟨nat_lit 1, nat_lit 0, nat_lit 0, nat_lit 0, nat_lit 1⟩]⟩,
    ⟨nat_lit 10, [⟨nat_lit 0, nat_lit 0, nat_lit 0, nat_lit 1, nat_lit 1⟩]⟩,
    ⟨nat_lit 12, [⟨nat_lit 0, nat_lit 1, nat_lit 0, nat_lit 1, nat_lit 2⟩, ⟨nat_lit 0, nat_lit 3, nat_lit 0, nat_lit 1, nat_lit 4⟩, ⟨nat_lit 0, nat_lit 1, nat_lit 0, nat_lit 3, nat_lit 4⟩, ⟨nat_lit 3, nat_lit 0, nat_lit 0, nat_lit 3, nat_lit 8⟩, ⟨nat_lit 1, nat_lit 0, nat_lit 0, nat_lit 3, nat_lit 4⟩, ⟨nat_lit 0, nat_lit 0, nat_lit 0, nat_lit 3, nat_lit 3⟩, ⟨nat_lit 0, nat_lit 0, nat_lit 0, nat_lit 1, nat_lit 1⟩]⟩,
    ⟨nat_lit 3, [⟨nat_lit 0, nat_lit 2, nat_lit 0, nat_lit 0, nat_lit 2⟩, ⟨nat_lit 0, nat_lit 1, nat_lit 0, nat_lit 0, nat_lit 1⟩]⟩,
    ⟨nat_lit 15, [⟨nat_lit 0, nat_lit 3, nat_lit 0, nat_lit 1, nat_lit 4⟩, ⟨nat_lit 0, nat_lit 1, nat_lit 0, nat_lit 1, nat_lit 2⟩, ⟨nat_lit 0, nat_lit 0, nat_lit 0, nat_lit 1, nat_lit 1⟩]⟩,
    ⟨nat_lit 6, [⟨nat_lit 1, nat_lit 0, nat_lit 0, nat_lit 0, nat_lit 1⟩]⟩,
    ⟨nat_lit 0, [⟨nat_lit 2, nat_lit 0, nat_lit 0, nat_lit 0, nat_lit 2⟩, ⟨nat_lit 1, nat_lit 0, nat_lit 0, nat_lit 0, nat_lit 1⟩]⟩,
    ⟨nat_lit 22, [⟨nat_lit 1, nat_lit 0, nat_lit 0, nat_lit 2, nat_lit 3⟩, ⟨nat_lit 0, nat_lit 0, nat_lit 0, nat_lit 2, nat_lit 2⟩, ⟨nat_lit 1, nat_lit 0, nat_lit 0, nat_lit 1, nat_lit 2⟩, ⟨nat_lit 0, nat_lit 2, nat_lit 0, nat_lit 5, nat_lit 9⟩, ⟨nat_lit 0, nat_lit 0, nat_lit 0, nat_lit 1, nat_lit 1⟩]⟩,
    ⟨nat_lit 16, [⟨nat_lit 2, nat_lit 0, nat_lit 1, nat_lit 0, nat_lit 3⟩, ⟨nat_lit 2, nat_lit 0, nat_lit 0, nat_lit 1, nat_lit 3⟩, ⟨nat_lit 1, nat_lit 0, nat_lit 0, nat_lit 0, nat_lit 1⟩]⟩,
    ⟨nat_lit 9, [⟨nat_lit 0, nat_lit 5, nat_lit 0, nat_lit 3, nat_lit 12⟩, ⟨nat_lit 0, nat_lit 0, nat_lit 0, nat_lit 1, nat_lit 1⟩]⟩,
    ⟨nat_lit 19, [⟨nat_lit 0, nat_lit 0, nat_lit 0, nat_lit 1, nat_lit 1⟩]⟩]

theorem form_l1 : formB Best.side6aL1.mult (DilFast.coreOf tab_l1) = true := by decide +kernel

theorem autos_l1 : DilFast.autosF .l1 9 1 tab_l1 frow = true := by decide +kernel

theorem closed_l1 : DilFast.closedF .l1 6 36 9 1 frow tab_l1 tab_l1 = true := by decide +kernel

def pt1_l1 : Pt := ⟨[0], [13], 13 / 35, [1, 0]⟩
def pt2_l1 : Pt := ⟨[1], [13], 13 / 35, [0, 1]⟩
theorem low_l1 : lowB .l1 Best.side6aL1 0 pt1_l1 pt2_l1 (9) := by decide +kernel

theorem cert_l1 : Cert .l1 Best.side6aL1 (9) (9) :=
  DilFast.cert (p := 0) (.inr (.inl rfl)) (vn := 9) (vd := 1) (by decide) rfl (by norm_num [bnd, Metric.sq]) div_eq genus_eq okRows rows form_l1 autos_l1 closed_l1
    (by norm_num [Metric.sq, Metric.ratio]; exact low_l1)

end Peano.BestDil.Side6aL1

namespace Peano.BestDil.Side6aL2
open DilCert Zoo

def frow : List (List DilFast.Row) := [
    [⟨nat_lit 0, nat_lit 0, nat_lit 13, nat_lit 0⟩, ⟨nat_lit 0, nat_lit 1, nat_lit 0, nat_lit 0⟩, ⟨nat_lit 1, nat_lit 1, nat_lit 0, nat_lit 0⟩, ⟨nat_lit 1, nat_lit 0, nat_lit 11, nat_lit 0⟩, ⟨nat_lit 2, nat_lit 0, nat_lit 0, nat_lit 0⟩, ⟨nat_lit 3, nat_lit 0, nat_lit 13, nat_lit 0⟩, ⟨nat_lit 3, nat_lit 1, nat_lit 13, nat_lit 0⟩, ⟨nat_lit 2, nat_lit 1, nat_lit 6, nat_lit 0⟩, ⟨nat_lit 2, nat_lit 2, nat_lit 13, nat_lit 0⟩, ⟨nat_lit 2, nat_lit 3, nat_lit 13, nat_lit 0⟩, ⟨nat_lit 1, nat_lit 3, nat_lit 14, nat_lit 0⟩, ⟨nat_lit 1, nat_lit 2, nat_lit 5, nat_lit 0⟩, ⟨nat_lit 0, nat_lit 2, nat_lit 5, nat_lit 0⟩, ⟨nat_lit 0, nat_lit 3, nat_lit 8, nat_lit 0⟩, ⟨nat_lit 0, nat_lit 4, nat_lit 13, nat_lit 0⟩, ⟨nat_lit 0, nat_lit 5, nat_lit 0, nat_lit 0⟩, ⟨nat_lit 1, nat_lit 5, nat_lit 3, nat_lit 0⟩, ⟨nat_lit 1, nat_lit 4, nat_lit 11, nat_lit 0⟩, ⟨nat_lit 2, nat_lit 4, nat_lit 8, nat_lit 0⟩, ⟨nat_lit 2, nat_lit 5, nat_lit 0, nat_lit 0⟩, ⟨nat_lit 3, nat_lit 5, nat_lit 3, nat_lit 0⟩, ⟨nat_lit 3, nat_lit 4, nat_lit 11, nat_lit 0⟩, ⟨nat_lit 4, nat_lit 4, nat_lit 8, nat_lit 0⟩, ⟨nat_lit 4, nat_lit 5, nat_lit 3, nat_lit 0⟩, ⟨nat_lit 5, nat_lit 5, nat_lit 3, nat_lit 0⟩, ⟨nat_lit 5, nat_lit 4, nat_lit 14, nat_lit 0⟩, ⟨nat_lit 5, nat_lit 3, nat_lit 5, nat_lit 0⟩, ⟨nat_lit 4, nat_lit 3, nat_lit 5, nat_lit 0⟩, ⟨nat_lit 3, nat_lit 3, nat_lit 14, nat_lit 0⟩, ⟨nat_lit 3, nat_lit 2, nat_lit 11, nat_lit 0⟩, ⟨nat_lit 4, nat_lit 2, nat_lit 0, nat_lit 0⟩, ⟨nat_lit 5, nat_lit 2, nat_lit 3, nat_lit 0⟩, ⟨nat_lit 5, nat_lit 1, nat_lit 6, nat_lit 0⟩, ⟨nat_lit 4, nat_lit 1, nat_lit 14, nat_lit 0⟩, ⟨nat_lit 4, nat_lit 0, nat_lit 11, nat_lit 0⟩, ⟨nat_lit 5, nat_lit 0, nat_lit 0, nat_lit 0⟩]]

theorem div_eq : Best.side6aL2.div = 6 := by decide +kernel

theorem genus_eq : Best.side6aL2.genus = 36 := by decide +kernel

theorem okRows : DilFast.OkRows 6 frow := by decide +kernel

theorem rows : Rows Best.side6aL2 (DilFast.prowOf frow) := by decide +kernel

def tab_l2 : List DilFast.Bin := [
    ⟨nat_lit 21, [⟨nat_lit 0, nat_lit 1, nat_lit 0, nat_lit 0, nat_lit 1⟩]⟩,
    ⟨nat_lit 0, [⟨nat_lit 1, nat_lit 0, nat_lit 0, nat_lit 0, nat_lit 1⟩]⟩,
    ⟨nat_lit 22, [⟨nat_lit 1, nat_lit 0, nat_lit 0, nat_lit 1, nat_lit 2⟩, ⟨nat_lit 0, nat_lit 0, nat_lit 0, nat_lit 1, nat_lit 1⟩]⟩,
    ⟨nat_lit 26, [⟨nat_lit 3, nat_lit 0, nat_lit 0, nat_lit 1, nat_lit 4⟩, ⟨nat_lit 2, nat_lit 0, nat_lit 0, nat_lit 1, nat_lit 3⟩, ⟨nat_lit 1, nat_lit 0, nat_lit 0, nat_lit 0, nat_lit 1⟩]⟩,
    ⟨nat_lit 25, [⟨nat_lit 0, nat_lit 0, nat_lit 0, nat_lit 1, nat_lit 1⟩]⟩,
    ⟨nat_lit 15, [⟨nat_lit 0, nat_lit 0, nat_lit 0, nat_lit 2, nat_lit 2⟩]⟩,
    ⟨nat_lit 3, [⟨nat_lit 0, nat_lit 1, nat_lit 0, nat_lit 0, nat_lit 1⟩]⟩,
    ⟨nat_lit 9, [⟨nat_lit 0, nat_lit 3, nat_lit 0, nat_lit 2, nat_lit 5⟩, ⟨nat_lit 0, nat_lit 2, nat_lit 0, nat_lit 2, nat_lit 4⟩, ⟨nat_lit 0, nat_lit 1, nat_lit 0, nat_lit 1, nat_lit 2⟩, ⟨nat_lit 0, nat_lit 0, nat_lit 0, nat_lit 1, nat_lit 1⟩, ⟨nat_lit 0, nat_lit 0, nat_lit 0, nat_lit 3, nat_lit 3⟩]⟩,
    ⟨nat_lit 16, [⟨nat_lit 1, nat_lit 0, nat_lit 0, nat_lit 2, nat_lit 3⟩, ⟨nat_lit 2, nat_lit 0, nat_lit 0, nat_lit 0, nat_lit 2⟩, ⟨nat_lit 1, nat_lit 0, nat_lit 0, nat_lit 0, nat_lit 1⟩, ⟨nat_lit 11, nat_lit 0, nat_lit 0, nat_lit 5, nat_lit 32⟩]⟩,
    ⟨nat_lit 19, [⟨nat_lit 1, nat_lit 0, nat_lit 0, nat_lit 1, nat_lit 2⟩, ⟨nat_lit 0, nat_lit 1, nat_lit 0, nat_lit 2, nat_lit 3⟩, ⟨nat_lit 0, nat_lit 0, nat_lit 0, nat_lit 2, nat_lit 2⟩, ⟨nat_lit 0, nat_lit 0, nat_lit 0, nat_lit 1, nat_lit 1⟩, ⟨nat_lit 5, nat_lit 0, nat_lit 0, nat_lit 11, nat_lit 32⟩]⟩,
    ⟨nat_lit 6, [⟨nat_lit 1, nat_lit 0, nat_lit 0, nat_lit 0, nat_lit 1⟩]⟩,
    ⟨nat_lit 31, [⟨nat_lit 0, nat_lit 1, nat_lit 1, nat_lit 0, nat_lit 2⟩]⟩,
    ⟨nat_lit 28, [⟨nat_lit 1, nat_lit 0, nat_lit 0, nat_lit 1, nat_lit 2⟩]⟩,
    ⟨nat_lit 12, [⟨nat_lit 1, nat_lit 0, nat_lit 0, nat_lit 1, nat_lit 2⟩, ⟨nat_lit 0, nat_lit 0, nat_lit 0, nat_lit 5, nat_lit 7⟩, ⟨nat_lit 0, nat_lit 0, nat_lit 0, nat_lit 2, nat_lit 2⟩]⟩,
    ⟨nat_lit 10, [⟨nat_lit 1, nat_lit 0, nat_lit 0, nat_lit 2, nat_lit 3⟩, ⟨nat_lit 0, nat_lit 1, nat_lit 0, nat_lit 2, nat_lit 3⟩]⟩]

theorem form_l2 : formB Best.side6aL2.mult (DilFast.coreOf tab_l2) = true := by decide +kernel

theorem autos_l2 : DilFast.autosF .plane 45 8 tab_l2 frow = true := by decide +kernel

theorem closed_l2 : DilFast.closedF .plane 6 36 45 8 frow tab_l2 tab_l2 = true := by decide +kernel

def pt1_l2 : Pt := ⟨[2, 24], [20], 4 / 7, [1, 1]⟩
def pt2_l2 : Pt := ⟨[3], [20], 4 / 7, [0, 0]⟩
theorem low_l2 : lowB .l2sq Best.side6aL2 0 pt1_l2 pt2_l2 (2025 / 64) := by decide +kernel

theorem cert_l2 : Cert .l2 Best.side6aL2 (45 / 8) (45 / 8) :=
  DilFast.cert (p := 0) (.inr (.inr rfl)) (vn := 45) (vd := 8) (by decide) rfl (by norm_num [bnd, Metric.sq]) div_eq genus_eq okRows rows form_l2 autos_l2 closed_l2
    (by norm_num [Metric.sq, Metric.ratio]; exact low_l2)

end Peano.BestDil.Side6aL2

namespace Peano.BestDil.Side6aLinf
open DilCert Zoo

def frow : List (List DilFast.Row) := [
    [⟨nat_lit 0, nat_lit 0, nat_lit 13, nat_lit 0⟩, ⟨nat_lit 0, nat_lit 1, nat_lit 0, nat_lit 0⟩, ⟨nat_lit 1, nat_lit 1, nat_lit 0, nat_lit 0⟩, ⟨nat_lit 1, nat_lit 0, nat_lit 11, nat_lit 0⟩, ⟨nat_lit 2, nat_lit 0, nat_lit 0, nat_lit 0⟩, ⟨nat_lit 3, nat_lit 0, nat_lit 13, nat_lit 0⟩, ⟨nat_lit 3, nat_lit 1, nat_lit 13, nat_lit 0⟩, ⟨nat_lit 2, nat_lit 1, nat_lit 6, nat_lit 0⟩, ⟨nat_lit 2, nat_lit 2, nat_lit 13, nat_lit 0⟩, ⟨nat_lit 1, nat_lit 2, nat_lit 6, nat_lit 0⟩, ⟨nat_lit 0, nat_lit 2, nat_lit 6, nat_lit 0⟩, ⟨nat_lit 0, nat_lit 3, nat_lit 0, nat_lit 0⟩, ⟨nat_lit 1, nat_lit 3, nat_lit 0, nat_lit 0⟩, ⟨nat_lit 2, nat_lit 3, nat_lit 13, nat_lit 0⟩, ⟨nat_lit 2, nat_lit 4, nat_lit 13, nat_lit 0⟩, ⟨nat_lit 1, nat_lit 4, nat_lit 6, nat_lit 0⟩, ⟨nat_lit 0, nat_lit 4, nat_lit 6, nat_lit 0⟩, ⟨nat_lit 0, nat_lit 5, nat_lit 0, nat_lit 0⟩, ⟨nat_lit 1, nat_lit 5, nat_lit 0, nat_lit 0⟩, ⟨nat_lit 2, nat_lit 5, nat_lit 0, nat_lit 0⟩, ⟨nat_lit 3, nat_lit 5, nat_lit 0, nat_lit 0⟩, ⟨nat_lit 3, nat_lit 4, nat_lit 11, nat_lit 0⟩, ⟨nat_lit 4, nat_lit 4, nat_lit 13, nat_lit 0⟩, ⟨nat_lit 4, nat_lit 5, nat_lit 0, nat_lit 0⟩, ⟨nat_lit 5, nat_lit 5, nat_lit 0, nat_lit 0⟩, ⟨nat_lit 5, nat_lit 4, nat_lit 11, nat_lit 0⟩, ⟨nat_lit 5, nat_lit 3, nat_lit 6, nat_lit 0⟩, ⟨nat_lit 4, nat_lit 3, nat_lit 6, nat_lit 0⟩, ⟨nat_lit 3, nat_lit 3, nat_lit 11, nat_lit 0⟩, ⟨nat_lit 3, nat_lit 2, nat_lit 11, nat_lit 0⟩, ⟨nat_lit 4, nat_lit 2, nat_lit 0, nat_lit 0⟩, ⟨nat_lit 5, nat_lit 2, nat_lit 0, nat_lit 0⟩, ⟨nat_lit 5, nat_lit 1, nat_lit 6, nat_lit 0⟩, ⟨nat_lit 4, nat_lit 1, nat_lit 11, nat_lit 0⟩, ⟨nat_lit 4, nat_lit 0, nat_lit 11, nat_lit 0⟩, ⟨nat_lit 5, nat_lit 0, nat_lit 0, nat_lit 0⟩]]

theorem div_eq : Best.side6aLinf.div = 6 := by decide +kernel

theorem genus_eq : Best.side6aLinf.genus = 36 := by decide +kernel

theorem okRows : DilFast.OkRows 6 frow := by decide +kernel

theorem rows : Rows Best.side6aLinf (DilFast.prowOf frow) := by decide +kernel

def tab_linf : List DilFast.Bin := [
    ⟨nat_lit 21, [⟨nat_lit 0, nat_lit 1, nat_lit 0, nat_lit 0, nat_lit 1⟩]⟩,
    ⟨nat_lit 0, [⟨nat_lit 1, nat_lit 0, nat_lit 0, nat_lit 0, nat_lit 1⟩, ⟨nat_lit 3, nat_lit 0, nat_lit 0, nat_lit 0, nat_lit 3⟩]⟩,
    ⟨nat_lit 26, [⟨nat_lit 3, nat_lit 0, nat_lit 0, nat_lit 1, nat_lit 4⟩, ⟨nat_lit 1, nat_lit 0, nat_lit 0, nat_lit 0, nat_lit 1⟩]⟩,
    ⟨nat_lit 22, [⟨nat_lit 0, nat_lit 0, nat_lit 0, nat_lit 1, nat_lit 1⟩, ⟨nat_lit 3, nat_lit 0, nat_lit 0, nat_lit 1, nat_lit 4⟩]⟩,
    ⟨nat_lit 25, [⟨nat_lit 0, nat_lit 0, nat_lit 0, nat_lit 1, nat_lit 1⟩]⟩,
    ⟨nat_lit 15, [⟨nat_lit 0, nat_lit 0, nat_lit 0, nat_lit 2, nat_lit 2⟩, ⟨nat_lit 0, nat_lit 0, nat_lit 0, nat_lit 1, nat_lit 1⟩, ⟨nat_lit 0, nat_lit 0, nat_lit 0, nat_lit 5, nat_lit 7⟩]⟩,
    ⟨nat_lit 3, [⟨nat_lit 0, nat_lit 1, nat_lit 0, nat_lit 0, nat_lit 1⟩]⟩,
    ⟨nat_lit 12, [⟨nat_lit 0, nat_lit 0, nat_lit 0, nat_lit 1, nat_lit 1⟩, ⟨nat_lit 0, nat_lit 3, nat_lit 0, nat_lit 1, nat_lit 4⟩, ⟨nat_lit 0, nat_lit 0, nat_lit 0, nat_lit 5, nat_lit 7⟩]⟩]

theorem form_linf : formB Best.side6aLinf.mult (DilFast.coreOf tab_linf) = true := by decide +kernel

theorem autos_linf : DilFast.autosF .linf 90 17 tab_linf frow = true := by decide +kernel

theorem closed_linf : DilFast.closedF .linf 6 36 90 17 frow tab_linf tab_linf = true := by decide +kernel

def pt1_linf : Pt := ⟨[0, 30], [24], 24 / 35, [0, 0]⟩
def pt2_linf : Pt := ⟨[1, 1], [17], 17 / 35, [0, 1]⟩
theorem low_linf : lowB .linf Best.side6aLinf 0 pt1_linf pt2_linf (90 / 17) := by decide +kernel

theorem cert_linf : Cert .linf Best.side6aLinf (90 / 17) (90 / 17) :=
  DilFast.cert (p := 0) (.inl rfl) (vn := 90) (vd := 17) (by decide) rfl (by norm_num [bnd, Metric.sq]) div_eq genus_eq okRows rows form_linf autos_linf closed_linf
    (by norm_num [Metric.sq, Metric.ratio]; exact low_linf)

end Peano.BestDil.Side6aLinf
