import Verif.Lemmas.DilFast
import Verif.MinCerts.CurvesLog

set_option autoImplicit false
set_option maxRecDepth 100000
set_option linter.dupNamespace false

/-
Certificates for the dilations of the curves of logs/ye-proof.log.  This file is generated.
-/

namespace Peano.YeLogDil.C0
open DilCert Zoo

def frow : List (List DilFast.Row) := [
    [⟨nat_lit 0, nat_lit 0, nat_lit 11, nat_lit 0⟩, ⟨nat_lit 1, nat_lit 0, nat_lit 0, nat_lit 0⟩, ⟨nat_lit 1, nat_lit 1, nat_lit 0, nat_lit 0⟩, ⟨nat_lit 0, nat_lit 1, nat_lit 14, nat_lit 0⟩]]

theorem div_eq : YeLog.c0.div = 2 := by decide +kernel

theorem genus_eq : YeLog.c0.genus = 4 := by decide +kernel

theorem okRows : DilFast.OkRows 2 frow := by decide +kernel

theorem rows : Rows YeLog.c0 (DilFast.prowOf frow) := by decide +kernel

def tab_l2 : List DilFast.Bin := [
    ⟨nat_lit 25, [⟨nat_lit 0, nat_lit 0, nat_lit 0, nat_lit 1, nat_lit 1⟩]⟩,
    ⟨nat_lit 0, [⟨nat_lit 0, nat_lit 0, nat_lit 1, nat_lit 0, nat_lit 1⟩]⟩,
    ⟨nat_lit 28, [⟨nat_lit 0, nat_lit 1, nat_lit 1, nat_lit 0, nat_lit 2⟩, ⟨nat_lit 0, nat_lit 1, nat_lit 0, nat_lit 0, nat_lit 1⟩]⟩,
    ⟨nat_lit 3, [⟨nat_lit 0, nat_lit 1, nat_lit 0, nat_lit 2, nat_lit 3⟩, ⟨nat_lit 0, nat_lit 1, nat_lit 0, nat_lit 1, nat_lit 2⟩]⟩,
    ⟨nat_lit 26, [⟨nat_lit 0, nat_lit 1, nat_lit 0, nat_lit 0, nat_lit 1⟩]⟩,
    ⟨nat_lit 12, [⟨nat_lit 0, nat_lit 2, nat_lit 0, nat_lit 0, nat_lit 2⟩]⟩,
    ⟨nat_lit 22, [⟨nat_lit 0, nat_lit 1, nat_lit 2, nat_lit 0, nat_lit 3⟩, ⟨nat_lit 0, nat_lit 1, nat_lit 1, nat_lit 0, nat_lit 2⟩, ⟨nat_lit 0, nat_lit 0, nat_lit 1, nat_lit 0, nat_lit 1⟩]⟩,
    ⟨nat_lit 6, [⟨nat_lit 0, nat_lit 1, nat_lit 0, nat_lit 0, nat_lit 1⟩]⟩,
    ⟨nat_lit 10, [⟨nat_lit 1, nat_lit 0, nat_lit 1, nat_lit 0, nat_lit 2⟩, ⟨nat_lit 0, nat_lit 0, nat_lit 1, nat_lit 0, nat_lit 1⟩]⟩]

theorem form_l2 : formB YeLog.c0.mult (DilFast.coreOf tab_l2) = true := by decide +kernel

theorem autos_l2 : DilFast.autosF .plane 6 1 tab_l2 frow = true := by decide +kernel

theorem closed_l2 : DilFast.closedF .plane 2 4 6 1 frow tab_l2 tab_l2 = true := by decide +kernel

def pt1_l2 : Pt := ⟨[1, 3], [2], 2 / 3, [0, 0]⟩
def pt2_l2 : Pt := ⟨[2, 0], [1], 1 / 3, [0, 1]⟩
theorem low_l2 : lowB .l2sq YeLog.c0 0 pt1_l2 pt2_l2 (36) := by decide +kernel

theorem cert_l2 : Cert .l2 YeLog.c0 (6) (6) :=
  DilFast.cert (p := 0) (.inr (.inr rfl)) (vn := 6) (vd := 1) (by decide) rfl (by norm_num [bnd, Metric.sq]) div_eq genus_eq okRows rows form_l2 autos_l2 closed_l2
    (by norm_num [Metric.sq, Metric.ratio]; exact low_l2)

end Peano.YeLogDil.C0

namespace Peano.YeLogDil.C2
open DilCert Zoo

def frow : List (List DilFast.Row) := [
    [⟨nat_lit 0, nat_lit 0, nat_lit 0, nat_lit 0⟩, ⟨nat_lit 0, nat_lit 1, nat_lit 8, nat_lit 0⟩, ⟨nat_lit 1, nat_lit 1, nat_lit 11, nat_lit 0⟩, ⟨nat_lit 1, nat_lit 0, nat_lit 3, nat_lit 0⟩, ⟨nat_lit 2, nat_lit 0, nat_lit 0, nat_lit 0⟩, ⟨nat_lit 2, nat_lit 1, nat_lit 5, nat_lit 0⟩, ⟨nat_lit 2, nat_lit 2, nat_lit 5, nat_lit 0⟩, ⟨nat_lit 1, nat_lit 2, nat_lit 14, nat_lit 0⟩, ⟨nat_lit 0, nat_lit 2, nat_lit 13, nat_lit 0⟩]]

theorem div_eq : YeLog.c2.div = 3 := by decide +kernel

theorem genus_eq : YeLog.c2.genus = 9 := by decide +kernel

theorem okRows : DilFast.OkRows 3 frow := by decide +kernel

theorem rows : Rows YeLog.c2 (DilFast.prowOf frow) := by decide +kernel

def tab_l2 : List DilFast.Bin := [
    ⟨nat_lit 16, [⟨nat_lit 0, nat_lit 0, nat_lit 1, nat_lit 0, nat_lit 1⟩]⟩,
    ⟨nat_lit 22, [⟨nat_lit 1, nat_lit 0, nat_lit 1, nat_lit 0, nat_lit 2⟩]⟩,
    ⟨nat_lit 10, [⟨nat_lit 0, nat_lit 0, nat_lit 1, nat_lit 0, nat_lit 1⟩]⟩,
    ⟨nat_lit 26, [⟨nat_lit 0, nat_lit 1, nat_lit 1, nat_lit 0, nat_lit 2⟩]⟩,
    ⟨nat_lit 19, [⟨nat_lit 0, nat_lit 1, nat_lit 0, nat_lit 0, nat_lit 1⟩, ⟨nat_lit 0, nat_lit 4, nat_lit 2, nat_lit 0, nat_lit 6⟩]⟩,
    ⟨nat_lit 25, [⟨nat_lit 0, nat_lit 1, nat_lit 0, nat_lit 1, nat_lit 2⟩, ⟨nat_lit 0, nat_lit 0, nat_lit 0, nat_lit 1, nat_lit 1⟩]⟩,
    ⟨nat_lit 5, [⟨nat_lit 0, nat_lit 1, nat_lit 0, nat_lit 0, nat_lit 1⟩]⟩,
    ⟨nat_lit 15, [⟨nat_lit 0, nat_lit 1, nat_lit 1, nat_lit 0, nat_lit 2⟩]⟩,
    ⟨nat_lit 28, [⟨nat_lit 0, nat_lit 1, nat_lit 2, nat_lit 0, nat_lit 3⟩]⟩,
    ⟨nat_lit 3, [⟨nat_lit 0, nat_lit 0, nat_lit 0, nat_lit 1, nat_lit 1⟩]⟩,
    ⟨nat_lit 21, [⟨nat_lit 0, nat_lit 1, nat_lit 0, nat_lit 1, nat_lit 2⟩, ⟨nat_lit 0, nat_lit 1, nat_lit 0, nat_lit 0, nat_lit 1⟩]⟩,
    ⟨nat_lit 12, [⟨nat_lit 0, nat_lit 1, nat_lit 1, nat_lit 0, nat_lit 2⟩]⟩,
    ⟨nat_lit 31, [⟨nat_lit 1, nat_lit 0, nat_lit 0, nat_lit 1, nat_lit 2⟩]⟩,
    ⟨nat_lit 9, [⟨nat_lit 2, nat_lit 0, nat_lit 0, nat_lit 1, nat_lit 3⟩, ⟨nat_lit 0, nat_lit 1, nat_lit 0, nat_lit 1, nat_lit 2⟩, ⟨nat_lit 1, nat_lit 0, nat_lit 0, nat_lit 1, nat_lit 2⟩]⟩,
    ⟨nat_lit 0, [⟨nat_lit 0, nat_lit 1, nat_lit 2, nat_lit 0, nat_lit 3⟩]⟩]

theorem form_l2 : formB YeLog.c2.mult (DilFast.coreOf tab_l2) = true := by decide +kernel

theorem autos_l2 : DilFast.autosF .plane 17 3 tab_l2 frow = true := by decide +kernel

theorem closed_l2 : DilFast.closedF .plane 3 9 17 3 frow tab_l2 tab_l2 = true := by decide +kernel

def pt1_l2 : Pt := ⟨[5, 7], [4], 1 / 2, [0, 0]⟩
def pt2_l2 : Pt := ⟨[6, 4], [4], 1 / 2, [1, 1]⟩
theorem low_l2 : lowB .l2sq YeLog.c2 0 pt1_l2 pt2_l2 (289 / 9) := by decide +kernel

theorem cert_l2 : Cert .l2 YeLog.c2 (17 / 3) (17 / 3) :=
  DilFast.cert (p := 0) (.inr (.inr rfl)) (vn := 17) (vd := 3) (by decide) rfl (by norm_num [bnd, Metric.sq]) div_eq genus_eq okRows rows form_l2 autos_l2 closed_l2
    (by norm_num [Metric.sq, Metric.ratio]; exact low_l2)

end Peano.YeLogDil.C2

namespace Peano.YeLogDil.C3
open DilCert Zoo

def frow : List (List DilFast.Row) := [
    [⟨nat_lit 0, nat_lit 0, nat_lit 0, nat_lit 0⟩, ⟨nat_lit 0, nat_lit 1, nat_lit 5, nat_lit 0⟩, ⟨nat_lit 0, nat_lit 2, nat_lit 8, nat_lit 0⟩, ⟨nat_lit 1, nat_lit 2, nat_lit 11, nat_lit 0⟩, ⟨nat_lit 1, nat_lit 1, nat_lit 3, nat_lit 0⟩, ⟨nat_lit 1, nat_lit 0, nat_lit 3, nat_lit 0⟩, ⟨nat_lit 2, nat_lit 0, nat_lit 8, nat_lit 0⟩, ⟨nat_lit 3, nat_lit 0, nat_lit 0, nat_lit 0⟩, ⟨nat_lit 3, nat_lit 1, nat_lit 5, nat_lit 0⟩, ⟨nat_lit 2, nat_lit 1, nat_lit 13, nat_lit 0⟩, ⟨nat_lit 2, nat_lit 2, nat_lit 8, nat_lit 0⟩, ⟨nat_lit 3, nat_lit 2, nat_lit 0, nat_lit 0⟩, ⟨nat_lit 3, nat_lit 3, nat_lit 5, nat_lit 0⟩, ⟨nat_lit 2, nat_lit 3, nat_lit 13, nat_lit 0⟩, ⟨nat_lit 1, nat_lit 3, nat_lit 13, nat_lit 0⟩, ⟨nat_lit 0, nat_lit 3, nat_lit 13, nat_lit 0⟩]]

theorem div_eq : YeLog.c3.div = 4 := by decide +kernel

theorem genus_eq : YeLog.c3.genus = 16 := by decide +kernel

theorem okRows : DilFast.OkRows 4 frow := by decide +kernel

theorem rows : Rows YeLog.c3 (DilFast.prowOf frow) := by decide +kernel

def tab_l2 : List DilFast.Bin := [
    ⟨nat_lit 10, [⟨nat_lit 0, nat_lit 0, nat_lit 1, nat_lit 0, nat_lit 1⟩]⟩,
    ⟨nat_lit 16, [⟨nat_lit 0, nat_lit 0, nat_lit 2, nat_lit 0, nat_lit 2⟩, ⟨nat_lit 0, nat_lit 0, nat_lit 1, nat_lit 0, nat_lit 1⟩]⟩,
    ⟨nat_lit 22, [⟨nat_lit 1, nat_lit 0, nat_lit 2, nat_lit 0, nat_lit 3⟩, ⟨nat_lit 1, nat_lit 0, nat_lit 1, nat_lit 0, nat_lit 2⟩]⟩,
    ⟨nat_lit 25, [⟨nat_lit 0, nat_lit 0, nat_lit 0, nat_lit 1, nat_lit 1⟩]⟩,
    ⟨nat_lit 31, [⟨nat_lit 1, nat_lit 0, nat_lit 0, nat_lit 1, nat_lit 2⟩]⟩,
    ⟨nat_lit 26, [⟨nat_lit 0, nat_lit 1, nat_lit 1, nat_lit 0, nat_lit 2⟩, ⟨nat_lit 0, nat_lit 3, nat_lit 1, nat_lit 0, nat_lit 4⟩]⟩,
    ⟨nat_lit 0, [⟨nat_lit 0, nat_lit 2, nat_lit 2, nat_lit 0, nat_lit 4⟩, ⟨nat_lit 2, nat_lit 0, nat_lit 2, nat_lit 0, nat_lit 4⟩, ⟨nat_lit 3, nat_lit 0, nat_lit 2, nat_lit 0, nat_lit 5⟩]⟩,
    ⟨nat_lit 19, [⟨nat_lit 0, nat_lit 1, nat_lit 0, nat_lit 0, nat_lit 1⟩, ⟨nat_lit 0, nat_lit 3, nat_lit 0, nat_lit 0, nat_lit 3⟩, ⟨nat_lit 0, nat_lit 4, nat_lit 3, nat_lit 0, nat_lit 7⟩, ⟨nat_lit 0, nat_lit 6, nat_lit 3, nat_lit 0, nat_lit 11⟩]⟩,
    ⟨nat_lit 9, [⟨nat_lit 0, nat_lit 2, nat_lit 0, nat_lit 1, nat_lit 3⟩, ⟨nat_lit 2, nat_lit 0, nat_lit 0, nat_lit 1, nat_lit 3⟩, ⟨nat_lit 3, nat_lit 0, nat_lit 0, nat_lit 1, nat_lit 4⟩]⟩,
    ⟨nat_lit 3, [⟨nat_lit 0, nat_lit 0, nat_lit 0, nat_lit 1, nat_lit 1⟩]⟩,
    ⟨nat_lit 21, [⟨nat_lit 0, nat_lit 1, nat_lit 0, nat_lit 1, nat_lit 2⟩, ⟨nat_lit 0, nat_lit 1, nat_lit 0, nat_lit 0, nat_lit 1⟩]⟩,
    ⟨nat_lit 5, [⟨nat_lit 0, nat_lit 2, nat_lit 0, nat_lit 1, nat_lit 3⟩, ⟨nat_lit 0, nat_lit 2, nat_lit 0, nat_lit 0, nat_lit 2⟩, ⟨nat_lit 0, nat_lit 1, nat_lit 0, nat_lit 0, nat_lit 1⟩, ⟨nat_lit 0, nat_lit 3, nat_lit 0, nat_lit 0, nat_lit 3⟩]⟩,
    ⟨nat_lit 15, [⟨nat_lit 0, nat_lit 2, nat_lit 1, nat_lit 0, nat_lit 3⟩, ⟨nat_lit 0, nat_lit 3, nat_lit 1, nat_lit 0, nat_lit 4⟩, ⟨nat_lit 0, nat_lit 1, nat_lit 1, nat_lit 0, nat_lit 2⟩]⟩,
    ⟨nat_lit 12, [⟨nat_lit 0, nat_lit 3, nat_lit 1, nat_lit 0, nat_lit 4⟩, ⟨nat_lit 0, nat_lit 1, nat_lit 1, nat_lit 0, nat_lit 2⟩]⟩,
    ⟨nat_lit 28, [⟨nat_lit 0, nat_lit 1, nat_lit 1, nat_lit 0, nat_lit 2⟩]⟩]

theorem form_l2 : formB YeLog.c3.mult (DilFast.coreOf tab_l2) = true := by decide +kernel

theorem autos_l2 : DilFast.autosF .plane 65 11 tab_l2 frow = true := by decide +kernel

theorem closed_l2 : DilFast.closedF .plane 4 16 65 11 frow tab_l2 tab_l2 = true := by decide +kernel

def pt1_l2 : Pt := ⟨[4, 13], [8], 8 / 15, [1, 1]⟩
def pt2_l2 : Pt := ⟨[5, 8], [8], 8 / 15, [0, 0]⟩
theorem low_l2 : lowB .l2sq YeLog.c3 0 pt1_l2 pt2_l2 (4225 / 121) := by decide +kernel

theorem cert_l2 : Cert .l2 YeLog.c3 (65 / 11) (65 / 11) :=
  DilFast.cert (p := 0) (.inr (.inr rfl)) (vn := 65) (vd := 11) (by decide) rfl (by norm_num [bnd, Metric.sq]) div_eq genus_eq okRows rows form_l2 autos_l2 closed_l2
    (by norm_num [Metric.sq, Metric.ratio]; exact low_l2)

end Peano.YeLogDil.C3

namespace Peano.YeLogDil.C4
open DilCert Zoo

def frow : List (List DilFast.Row) := [
    [⟨nat_lit 0, nat_lit 0, nat_lit 0, nat_lit 0⟩, ⟨nat_lit 1, nat_lit 0, nat_lit 13, nat_lit 0⟩, ⟨nat_lit 1, nat_lit 1, nat_lit 8, nat_lit 0⟩, ⟨nat_lit 0, nat_lit 1, nat_lit 6, nat_lit 0⟩, ⟨nat_lit 0, nat_lit 2, nat_lit 0, nat_lit 0⟩, ⟨nat_lit 1, nat_lit 2, nat_lit 0, nat_lit 0⟩, ⟨nat_lit 2, nat_lit 2, nat_lit 13, nat_lit 0⟩, ⟨nat_lit 2, nat_lit 3, nat_lit 8, nat_lit 0⟩, ⟨nat_lit 1, nat_lit 3, nat_lit 5, nat_lit 0⟩, ⟨nat_lit 0, nat_lit 3, nat_lit 6, nat_lit 0⟩, ⟨nat_lit 0, nat_lit 4, nat_lit 13, nat_lit 0⟩, ⟨nat_lit 0, nat_lit 5, nat_lit 3, nat_lit 0⟩, ⟨nat_lit 1, nat_lit 5, nat_lit 0, nat_lit 0⟩, ⟨nat_lit 1, nat_lit 4, nat_lit 14, nat_lit 0⟩, ⟨nat_lit 2, nat_lit 4, nat_lit 13, nat_lit 0⟩, ⟨nat_lit 2, nat_lit 5, nat_lit 3, nat_lit 0⟩, ⟨nat_lit 3, nat_lit 5, nat_lit 0, nat_lit 0⟩, ⟨nat_lit 3, nat_lit 4, nat_lit 14, nat_lit 0⟩, ⟨nat_lit 4, nat_lit 4, nat_lit 13, nat_lit 0⟩, ⟨nat_lit 4, nat_lit 5, nat_lit 3, nat_lit 0⟩, ⟨nat_lit 5, nat_lit 5, nat_lit 0, nat_lit 0⟩, ⟨nat_lit 5, nat_lit 4, nat_lit 11, nat_lit 0⟩, ⟨nat_lit 5, nat_lit 3, nat_lit 14, nat_lit 0⟩, ⟨nat_lit 5, nat_lit 2, nat_lit 5, nat_lit 0⟩, ⟨nat_lit 4, nat_lit 2, nat_lit 6, nat_lit 0⟩, ⟨nat_lit 4, nat_lit 3, nat_lit 8, nat_lit 0⟩, ⟨nat_lit 3, nat_lit 3, nat_lit 11, nat_lit 0⟩, ⟨nat_lit 3, nat_lit 2, nat_lit 14, nat_lit 0⟩, ⟨nat_lit 3, nat_lit 1, nat_lit 5, nat_lit 0⟩, ⟨nat_lit 2, nat_lit 1, nat_lit 11, nat_lit 0⟩, ⟨nat_lit 2, nat_lit 0, nat_lit 11, nat_lit 0⟩, ⟨nat_lit 3, nat_lit 0, nat_lit 0, nat_lit 0⟩, ⟨nat_lit 4, nat_lit 0, nat_lit 13, nat_lit 0⟩, ⟨nat_lit 4, nat_lit 1, nat_lit 0, nat_lit 0⟩, ⟨nat_lit 5, nat_lit 1, nat_lit 0, nat_lit 0⟩, ⟨nat_lit 5, nat_lit 0, nat_lit 11, nat_lit 0⟩]]

theorem div_eq : YeLog.c4.div = 6 := by decide +kernel

theorem genus_eq : YeLog.c4.genus = 36 := by decide +kernel

theorem okRows : DilFast.OkRows 6 frow := by decide +kernel

theorem rows : Rows YeLog.c4 (DilFast.prowOf frow) := by decide +kernel

def tab_l2 : List DilFast.Bin := [
    ⟨nat_lit 26, [⟨nat_lit 1, nat_lit 0, nat_lit 0, nat_lit 0, nat_lit 1⟩]⟩,
    ⟨nat_lit 16, [⟨nat_lit 1, nat_lit 0, nat_lit 1, nat_lit 0, nat_lit 2⟩, ⟨nat_lit 1, nat_lit 0, nat_lit 0, nat_lit 1, nat_lit 2⟩]⟩,
    ⟨nat_lit 5, [⟨nat_lit 0, nat_lit 1, nat_lit 0, nat_lit 0, nat_lit 1⟩]⟩,
    ⟨nat_lit 25, [⟨nat_lit 0, nat_lit 1, nat_lit 0, nat_lit 1, nat_lit 2⟩, ⟨nat_lit 0, nat_lit 0, nat_lit 0, nat_lit 1, nat_lit 1⟩]⟩,
    ⟨nat_lit 21, [⟨nat_lit 0, nat_lit 2, nat_lit 0, nat_lit 1, nat_lit 3⟩, ⟨nat_lit 0, nat_lit 1, nat_lit 1, nat_lit 0, nat_lit 2⟩, ⟨nat_lit 0, nat_lit 1, nat_lit 0, nat_lit 0, nat_lit 1⟩]⟩,
    ⟨nat_lit 28, [⟨nat_lit 0, nat_lit 0, nat_lit 0, nat_lit 1, nat_lit 1⟩, ⟨nat_lit 0, nat_lit 5, nat_lit 0, nat_lit 11, nat_lit 32⟩]⟩,
    ⟨nat_lit 12, [⟨nat_lit 0, nat_lit 0, nat_lit 0, nat_lit 1, nat_lit 1⟩]⟩,
    ⟨nat_lit 22, [⟨nat_lit 0, nat_lit 2, nat_lit 0, nat_lit 1, nat_lit 3⟩, ⟨nat_lit 0, nat_lit 0, nat_lit 0, nat_lit 1, nat_lit 1⟩]⟩,
    ⟨nat_lit 0, [⟨nat_lit 1, nat_lit 0, nat_lit 0, nat_lit 0, nat_lit 1⟩]⟩,
    ⟨nat_lit 19, [⟨nat_lit 0, nat_lit 1, nat_lit 0, nat_lit 1, nat_lit 2⟩]⟩,
    ⟨nat_lit 3, [⟨nat_lit 0, nat_lit 2, nat_lit 0, nat_lit 2, nat_lit 4⟩, ⟨nat_lit 0, nat_lit 2, nat_lit 1, nat_lit 0, nat_lit 3⟩, ⟨nat_lit 0, nat_lit 3, nat_lit 1, nat_lit 0, nat_lit 4⟩, ⟨nat_lit 0, nat_lit 1, nat_lit 0, nat_lit 0, nat_lit 1⟩]⟩,
    ⟨nat_lit 31, [⟨nat_lit 0, nat_lit 3, nat_lit 0, nat_lit 2, nat_lit 5⟩, ⟨nat_lit 0, nat_lit 1, nat_lit 0, nat_lit 0, nat_lit 1⟩, ⟨nat_lit 0, nat_lit 11, nat_lit 0, nat_lit 5, nat_lit 32⟩]⟩,
    ⟨nat_lit 6, [⟨nat_lit 1, nat_lit 0, nat_lit 0, nat_lit 2, nat_lit 3⟩, ⟨nat_lit 1, nat_lit 0, nat_lit 1, nat_lit 0, nat_lit 2⟩]⟩,
    ⟨nat_lit 15, [⟨nat_lit 0, nat_lit 1, nat_lit 0, nat_lit 2, nat_lit 3⟩, ⟨nat_lit 0, nat_lit 1, nat_lit 0, nat_lit 3, nat_lit 4⟩, ⟨nat_lit 0, nat_lit 0, nat_lit 0, nat_lit 2, nat_lit 2⟩]⟩,
    ⟨nat_lit 10, [⟨nat_lit 0, nat_lit 0, nat_lit 0, nat_lit 2, nat_lit 2⟩, ⟨nat_lit 0, nat_lit 0, nat_lit 0, nat_lit 1, nat_lit 1⟩, ⟨nat_lit 0, nat_lit 0, nat_lit 0, nat_lit 3, nat_lit 3⟩]⟩,
    ⟨nat_lit 9, [⟨nat_lit 1, nat_lit 0, nat_lit 0, nat_lit 5, nat_lit 8⟩, ⟨nat_lit 1, nat_lit 0, nat_lit 0, nat_lit 2, nat_lit 3⟩, ⟨nat_lit 0, nat_lit 1, nat_lit 0, nat_lit 2, nat_lit 3⟩]⟩]

theorem form_l2 : formB YeLog.c4.mult (DilFast.coreOf tab_l2) = true := by decide +kernel

theorem autos_l2 : DilFast.autosF .plane 45 8 tab_l2 frow = true := by decide +kernel

theorem closed_l2 : DilFast.closedF .plane 6 36 45 8 frow tab_l2 tab_l2 = true := by decide +kernel

def pt1_l2 : Pt := ⟨[30, 24], [20], 4 / 7, [0, 0]⟩
def pt2_l2 : Pt := ⟨[31], [20], 4 / 7, [1, 1]⟩
theorem low_l2 : lowB .l2sq YeLog.c4 0 pt1_l2 pt2_l2 (2025 / 64) := by decide +kernel

theorem cert_l2 : Cert .l2 YeLog.c4 (45 / 8) (45 / 8) :=
  DilFast.cert (p := 0) (.inr (.inr rfl)) (vn := 45) (vd := 8) (by decide) rfl (by norm_num [bnd, Metric.sq]) div_eq genus_eq okRows rows form_l2 autos_l2 closed_l2
    (by norm_num [Metric.sq, Metric.ratio]; exact low_l2)

end Peano.YeLogDil.C4

namespace Peano.YeLogDil.C5
open DilCert Zoo

def frow : List (List DilFast.Row) := [
    [⟨nat_lit 0, nat_lit 0, nat_lit 8, nat_lit 0⟩, ⟨nat_lit 0, nat_lit 1, nat_lit 15, nat_lit 0⟩, ⟨nat_lit 1, nat_lit 1, nat_lit 12, nat_lit 0⟩, ⟨nat_lit 1, nat_lit 0, nat_lit 11, nat_lit 0⟩, ⟨nat_lit 2, nat_lit 0, nat_lit 8, nat_lit 0⟩, ⟨nat_lit 2, nat_lit 1, nat_lit 15, nat_lit 0⟩, ⟨nat_lit 2, nat_lit 2, nat_lit 2, nat_lit 0⟩, ⟨nat_lit 1, nat_lit 2, nat_lit 1, nat_lit 0⟩, ⟨nat_lit 0, nat_lit 2, nat_lit 10, nat_lit 0⟩, ⟨nat_lit 0, nat_lit 3, nat_lit 15, nat_lit 0⟩, ⟨nat_lit 1, nat_lit 3, nat_lit 4, nat_lit 0⟩, ⟨nat_lit 2, nat_lit 3, nat_lit 7, nat_lit 0⟩, ⟨nat_lit 2, nat_lit 4, nat_lit 2, nat_lit 0⟩, ⟨nat_lit 1, nat_lit 4, nat_lit 1, nat_lit 0⟩, ⟨nat_lit 0, nat_lit 4, nat_lit 10, nat_lit 0⟩, ⟨nat_lit 0, nat_lit 5, nat_lit 15, nat_lit 0⟩, ⟨nat_lit 1, nat_lit 5, nat_lit 4, nat_lit 0⟩, ⟨nat_lit 2, nat_lit 5, nat_lit 7, nat_lit 0⟩, ⟨nat_lit 3, nat_lit 5, nat_lit 12, nat_lit 0⟩, ⟨nat_lit 3, nat_lit 4, nat_lit 11, nat_lit 0⟩, ⟨nat_lit 4, nat_lit 4, nat_lit 8, nat_lit 0⟩, ⟨nat_lit 4, nat_lit 5, nat_lit 15, nat_lit 0⟩, ⟨nat_lit 5, nat_lit 5, nat_lit 12, nat_lit 0⟩, ⟨nat_lit 5, nat_lit 4, nat_lit 11, nat_lit 0⟩, ⟨nat_lit 5, nat_lit 3, nat_lit 6, nat_lit 0⟩, ⟨nat_lit 4, nat_lit 3, nat_lit 5, nat_lit 0⟩, ⟨nat_lit 3, nat_lit 3, nat_lit 14, nat_lit 0⟩, ⟨nat_lit 3, nat_lit 2, nat_lit 11, nat_lit 0⟩, ⟨nat_lit 3, nat_lit 1, nat_lit 14, nat_lit 0⟩, ⟨nat_lit 3, nat_lit 0, nat_lit 11, nat_lit 0⟩, ⟨nat_lit 4, nat_lit 0, nat_lit 0, nat_lit 0⟩, ⟨nat_lit 5, nat_lit 0, nat_lit 7, nat_lit 0⟩, ⟨nat_lit 5, nat_lit 1, nat_lit 2, nat_lit 0⟩, ⟨nat_lit 4, nat_lit 1, nat_lit 5, nat_lit 0⟩, ⟨nat_lit 4, nat_lit 2, nat_lit 0, nat_lit 0⟩, ⟨nat_lit 5, nat_lit 2, nat_lit 7, nat_lit 0⟩]]

theorem div_eq : YeLog.c5.div = 6 := by decide +kernel

theorem genus_eq : YeLog.c5.genus = 36 := by decide +kernel

theorem okRows : DilFast.OkRows 6 frow := by decide +kernel

theorem rows : Rows YeLog.c5 (DilFast.prowOf frow) := by decide +kernel

def tab_l2 : List DilFast.Bin := [
    ⟨nat_lit 14, [⟨nat_lit 1, nat_lit 0, nat_lit 0, nat_lit 0, nat_lit 1⟩, ⟨nat_lit 5, nat_lit 0, nat_lit 0, nat_lit 2, nat_lit 7⟩, ⟨nat_lit 3, nat_lit 0, nat_lit 1, nat_lit 0, nat_lit 3⟩, ⟨nat_lit 23, nat_lit 0, nat_lit 0, nat_lit 23, nat_lit 175⟩]⟩,
    ⟨nat_lit 4, [⟨nat_lit 1, nat_lit 0, nat_lit 1, nat_lit 0, nat_lit 2⟩, ⟨nat_lit 3, nat_lit 0, nat_lit 2, nat_lit 0, nat_lit 4⟩]⟩,
    ⟨nat_lit 9, [⟨nat_lit 0, nat_lit 0, nat_lit 0, nat_lit 1, nat_lit 1⟩]⟩,
    ⟨nat_lit 7, [⟨nat_lit 1, nat_lit 0, nat_lit 0, nat_lit 1, nat_lit 2⟩, ⟨nat_lit 3, nat_lit 0, nat_lit 0, nat_lit 2, nat_lit 4⟩]⟩,
    ⟨nat_lit 24, [⟨nat_lit 2, nat_lit 0, nat_lit 0, nat_lit 0, nat_lit 2⟩]⟩,
    ⟨nat_lit 21, [⟨nat_lit 0, nat_lit 1, nat_lit 0, nat_lit 0, nat_lit 1⟩]⟩,
    ⟨nat_lit 31, [⟨nat_lit 0, nat_lit 1, nat_lit 1, nat_lit 0, nat_lit 2⟩]⟩,
    ⟨nat_lit 6, [⟨nat_lit 1, nat_lit 0, nat_lit 0, nat_lit 0, nat_lit 1⟩]⟩,
    ⟨nat_lit 16, [⟨nat_lit 2, nat_lit 0, nat_lit 0, nat_lit 0, nat_lit 2⟩]⟩,
    ⟨nat_lit 28, [⟨nat_lit 1, nat_lit 0, nat_lit 0, nat_lit 1, nat_lit 2⟩]⟩,
    ⟨nat_lit 25, [⟨nat_lit 0, nat_lit 0, nat_lit 0, nat_lit 1, nat_lit 1⟩]⟩,
    ⟨nat_lit 19, [⟨nat_lit 0, nat_lit 0, nat_lit 0, nat_lit 2, nat_lit 2⟩]⟩,
    ⟨nat_lit 12, [⟨nat_lit 1, nat_lit 0, nat_lit 0, nat_lit 1, nat_lit 2⟩]⟩,
    ⟨nat_lit 15, [⟨nat_lit 1, nat_lit 0, nat_lit 0, nat_lit 1, nat_lit 2⟩]⟩,
    ⟨nat_lit 13, [⟨nat_lit 1, nat_lit 0, nat_lit 0, nat_lit 4, nat_lit 5⟩, ⟨nat_lit 3, nat_lit 0, nat_lit 0, nat_lit 3, nat_lit 5⟩, ⟨nat_lit 0, nat_lit 1, nat_lit 0, nat_lit 1, nat_lit 1⟩]⟩,
    ⟨nat_lit 27, [⟨nat_lit 0, nat_lit 1, nat_lit 1, nat_lit 0, nat_lit 2⟩]⟩,
    ⟨nat_lit 8, [⟨nat_lit 4, nat_lit 0, nat_lit 0, nat_lit 2, nat_lit 6⟩, ⟨nat_lit 2, nat_lit 0, nat_lit 0, nat_lit 0, nat_lit 2⟩]⟩,
    ⟨nat_lit 3, [⟨nat_lit 0, nat_lit 4, nat_lit 2, nat_lit 0, nat_lit 6⟩, ⟨nat_lit 0, nat_lit 2, nat_lit 0, nat_lit 0, nat_lit 2⟩, ⟨nat_lit 0, nat_lit 2, nat_lit 0, nat_lit 1, nat_lit 2⟩]⟩,
    ⟨nat_lit 0, [⟨nat_lit 2, nat_lit 0, nat_lit 0, nat_lit 0, nat_lit 2⟩, ⟨nat_lit 2, nat_lit 0, nat_lit 1, nat_lit 0, nat_lit 2⟩]⟩,
    ⟨nat_lit 5, [⟨nat_lit 0, nat_lit 1, nat_lit 0, nat_lit 0, nat_lit 1⟩]⟩,
    ⟨nat_lit 23, [⟨nat_lit 0, nat_lit 0, nat_lit 0, nat_lit 2, nat_lit 2⟩]⟩,
    ⟨nat_lit 11, [⟨nat_lit 0, nat_lit 2, nat_lit 0, nat_lit 0, nat_lit 2⟩]⟩,
    ⟨nat_lit 20, [⟨nat_lit 1, nat_lit 0, nat_lit 1, nat_lit 0, nat_lit 2⟩]⟩]

theorem form_l2 : formB YeLog.c5.mult (DilFast.coreOf tab_l2) = true := by decide +kernel

theorem autos_l2 : DilFast.autosF .plane 296 45 tab_l2 frow = true := by decide +kernel

theorem closed_l2 : DilFast.closedF .plane 6 36 296 45 frow tab_l2 tab_l2 = true := by decide +kernel

def pt1_l2 : Pt := ⟨[0, 33], [20, 15], 21 / 37, [0, 0]⟩
def pt2_l2 : Pt := ⟨[1, 2], [15, 20], 16 / 37, [1, 1]⟩
theorem low_l2 : lowB .l2sq YeLog.c5 0 pt1_l2 pt2_l2 (87616 / 2025) := by decide +kernel

theorem cert_l2 : Cert .l2 YeLog.c5 (296 / 45) (296 / 45) :=
  DilFast.cert (p := 0) (.inr (.inr rfl)) (vn := 296) (vd := 45) (by decide) rfl (by norm_num [bnd, Metric.sq]) div_eq genus_eq okRows rows form_l2 autos_l2 closed_l2
    (by norm_num [Metric.sq, Metric.ratio]; exact low_l2)

end Peano.YeLogDil.C5

namespace Peano.YeLogDil.C7
open DilCert Zoo

def frow : List (List DilFast.Row) := [
    [⟨nat_lit 0, nat_lit 0, nat_lit 0, nat_lit 0⟩, ⟨nat_lit 1, nat_lit 0, nat_lit 12, nat_lit 0⟩, ⟨nat_lit 2, nat_lit 0, nat_lit 0, nat_lit 0⟩, ⟨nat_lit 2, nat_lit 1, nat_lit 10, nat_lit 0⟩, ⟨nat_lit 1, nat_lit 1, nat_lit 6, nat_lit 0⟩, ⟨nat_lit 0, nat_lit 1, nat_lit 10, nat_lit 0⟩, ⟨nat_lit 0, nat_lit 2, nat_lit 0, nat_lit 0⟩, ⟨nat_lit 0, nat_lit 3, nat_lit 10, nat_lit 0⟩, ⟨nat_lit 0, nat_lit 4, nat_lit 0, nat_lit 0⟩, ⟨nat_lit 1, nat_lit 4, nat_lit 12, nat_lit 0⟩, ⟨nat_lit 1, nat_lit 3, nat_lit 6, nat_lit 0⟩, ⟨nat_lit 1, nat_lit 2, nat_lit 12, nat_lit 0⟩, ⟨nat_lit 2, nat_lit 2, nat_lit 0, nat_lit 0⟩, ⟨nat_lit 3, nat_lit 2, nat_lit 12, nat_lit 0⟩, ⟨nat_lit 3, nat_lit 1, nat_lit 6, nat_lit 0⟩, ⟨nat_lit 3, nat_lit 0, nat_lit 12, nat_lit 0⟩, ⟨nat_lit 4, nat_lit 0, nat_lit 0, nat_lit 0⟩, ⟨nat_lit 4, nat_lit 1, nat_lit 10, nat_lit 0⟩, ⟨nat_lit 4, nat_lit 2, nat_lit 0, nat_lit 0⟩, ⟨nat_lit 4, nat_lit 3, nat_lit 10, nat_lit 0⟩, ⟨nat_lit 3, nat_lit 3, nat_lit 6, nat_lit 0⟩, ⟨nat_lit 2, nat_lit 3, nat_lit 10, nat_lit 0⟩, ⟨nat_lit 2, nat_lit 4, nat_lit 0, nat_lit 0⟩, ⟨nat_lit 3, nat_lit 4, nat_lit 12, nat_lit 0⟩, ⟨nat_lit 4, nat_lit 4, nat_lit 0, nat_lit 0⟩]]

theorem div_eq : YeLog.c7.div = 5 := by decide +kernel

theorem genus_eq : YeLog.c7.genus = 25 := by decide +kernel

theorem okRows : DilFast.OkRows 5 frow := by decide +kernel

theorem rows : Rows YeLog.c7 (DilFast.prowOf frow) := by decide +kernel

def tab_l2 : List DilFast.Bin := [
    ⟨nat_lit 24, [⟨nat_lit 1, nat_lit 0, nat_lit 0, nat_lit 0, nat_lit 1⟩]⟩,
    ⟨nat_lit 0, [⟨nat_lit 2, nat_lit 0, nat_lit 0, nat_lit 0, nat_lit 2⟩, ⟨nat_lit 0, nat_lit 2, nat_lit 4, nat_lit 0, nat_lit 6⟩, ⟨nat_lit 0, nat_lit 0, nat_lit 2, nat_lit 0, nat_lit 2⟩, ⟨nat_lit 4, nat_lit 0, nat_lit 0, nat_lit 4, nat_lit 8⟩]⟩,
    ⟨nat_lit 20, [⟨nat_lit 2, nat_lit 0, nat_lit 1, nat_lit 0, nat_lit 3⟩, ⟨nat_lit 0, nat_lit 0, nat_lit 1, nat_lit 0, nat_lit 1⟩]⟩,
    ⟨nat_lit 12, [⟨nat_lit 0, nat_lit 1, nat_lit 1, nat_lit 0, nat_lit 2⟩, ⟨nat_lit 1, nat_lit 0, nat_lit 0, nat_lit 1, nat_lit 2⟩]⟩]

theorem form_l2 : formB YeLog.c7.mult (DilFast.coreOf tab_l2) = true := by decide +kernel

theorem autos_l2 : DilFast.autosF .plane 6 1 tab_l2 frow = true := by decide +kernel

theorem closed_l2 : DilFast.closedF .plane 5 25 6 1 frow tab_l2 tab_l2 = true := by decide +kernel

def pt1_l2 : Pt := ⟨[2], [16], 2 / 3, [1, 0]⟩
def pt2_l2 : Pt := ⟨[8], [8], 1 / 3, [0, 1]⟩
theorem low_l2 : lowB .l2sq YeLog.c7 0 pt1_l2 pt2_l2 (36) := by decide +kernel

theorem cert_l2 : Cert .l2 YeLog.c7 (6) (6) :=
  DilFast.cert (p := 0) (.inr (.inr rfl)) (vn := 6) (vd := 1) (by decide) rfl (by norm_num [bnd, Metric.sq]) div_eq genus_eq okRows rows form_l2 autos_l2 closed_l2
    (by norm_num [Metric.sq, Metric.ratio]; exact low_l2)

end Peano.YeLogDil.C7

namespace Peano.YeLogDil.C8
open DilCert Zoo

def frow : List (List DilFast.Row) := [
    [⟨nat_lit 0, nat_lit 0, nat_lit 15, nat_lit 0⟩, ⟨nat_lit 1, nat_lit 0, nat_lit 12, nat_lit 0⟩, ⟨nat_lit 2, nat_lit 0, nat_lit 8, nat_lit 0⟩, ⟨nat_lit 3, nat_lit 0, nat_lit 12, nat_lit 0⟩, ⟨nat_lit 4, nat_lit 0, nat_lit 8, nat_lit 0⟩, ⟨nat_lit 4, nat_lit 1, nat_lit 2, nat_lit 0⟩, ⟨nat_lit 3, nat_lit 1, nat_lit 9, nat_lit 0⟩, ⟨nat_lit 2, nat_lit 1, nat_lit 5, nat_lit 0⟩, ⟨nat_lit 2, nat_lit 2, nat_lit 7, nat_lit 0⟩, ⟨nat_lit 2, nat_lit 3, nat_lit 13, nat_lit 0⟩, ⟨nat_lit 1, nat_lit 3, nat_lit 14, nat_lit 0⟩, ⟨nat_lit 1, nat_lit 2, nat_lit 3, nat_lit 0⟩, ⟨nat_lit 1, nat_lit 1, nat_lit 6, nat_lit 0⟩, ⟨nat_lit 0, nat_lit 1, nat_lit 5, nat_lit 0⟩, ⟨nat_lit 0, nat_lit 2, nat_lit 0, nat_lit 0⟩, ⟨nat_lit 0, nat_lit 3, nat_lit 2, nat_lit 0⟩, ⟨nat_lit 0, nat_lit 4, nat_lit 0, nat_lit 0⟩, ⟨nat_lit 1, nat_lit 4, nat_lit 11, nat_lit 0⟩, ⟨nat_lit 2, nat_lit 4, nat_lit 8, nat_lit 0⟩, ⟨nat_lit 3, nat_lit 4, nat_lit 12, nat_lit 0⟩, ⟨nat_lit 3, nat_lit 3, nat_lit 6, nat_lit 0⟩, ⟨nat_lit 3, nat_lit 2, nat_lit 4, nat_lit 0⟩, ⟨nat_lit 4, nat_lit 2, nat_lit 7, nat_lit 0⟩, ⟨nat_lit 4, nat_lit 3, nat_lit 5, nat_lit 0⟩, ⟨nat_lit 4, nat_lit 4, nat_lit 0, nat_lit 0⟩]]

theorem div_eq : YeLog.c8.div = 5 := by decide +kernel

theorem genus_eq : YeLog.c8.genus = 25 := by decide +kernel

theorem okRows : DilFast.OkRows 5 frow := by decide +kernel

theorem rows : Rows YeLog.c8 (DilFast.prowOf frow) := by decide +kernel

def tab_l2 : List DilFast.Bin := [
    ⟨nat_lit 9, [⟨nat_lit 0, nat_lit 0, nat_lit 0, nat_lit 1, nat_lit 1⟩]⟩,
    ⟨nat_lit 13, [⟨nat_lit 0, nat_lit 0, nat_lit 0, nat_lit 2, nat_lit 2⟩, ⟨nat_lit 0, nat_lit 0, nat_lit 0, nat_lit 4, nat_lit 4⟩]⟩,
    ⟨nat_lit 21, [⟨nat_lit 0, nat_lit 1, nat_lit 0, nat_lit 4, nat_lit 5⟩, ⟨nat_lit 0, nat_lit 1, nat_lit 0, nat_lit 2, nat_lit 3⟩]⟩,
    ⟨nat_lit 4, [⟨nat_lit 0, nat_lit 0, nat_lit 1, nat_lit 0, nat_lit 1⟩]⟩,
    ⟨nat_lit 0, [⟨nat_lit 0, nat_lit 0, nat_lit 2, nat_lit 0, nat_lit 2⟩]⟩,
    ⟨nat_lit 28, [⟨nat_lit 0, nat_lit 1, nat_lit 3, nat_lit 0, nat_lit 4⟩, ⟨nat_lit 0, nat_lit 1, nat_lit 1, nat_lit 0, nat_lit 2⟩]⟩,
    ⟨nat_lit 24, [⟨nat_lit 1, nat_lit 0, nat_lit 2, nat_lit 0, nat_lit 3⟩, ⟨nat_lit 1, nat_lit 0, nat_lit 0, nat_lit 0, nat_lit 1⟩]⟩,
    ⟨nat_lit 2, [⟨nat_lit 1, nat_lit 0, nat_lit 0, nat_lit 1, nat_lit 2⟩, ⟨nat_lit 0, nat_lit 1, nat_lit 1, nat_lit 0, nat_lit 2⟩]⟩,
    ⟨nat_lit 22, [⟨nat_lit 1, nat_lit 0, nat_lit 0, nat_lit 2, nat_lit 3⟩, ⟨nat_lit 1, nat_lit 0, nat_lit 0, nat_lit 0, nat_lit 1⟩]⟩,
    ⟨nat_lit 6, [⟨nat_lit 3, nat_lit 0, nat_lit 0, nat_lit 2, nat_lit 5⟩, ⟨nat_lit 1, nat_lit 0, nat_lit 0, nat_lit 0, nat_lit 1⟩]⟩,
    ⟨nat_lit 12, [⟨nat_lit 3, nat_lit 0, nat_lit 0, nat_lit 3, nat_lit 6⟩, ⟨nat_lit 1, nat_lit 0, nat_lit 0, nat_lit 1, nat_lit 2⟩]⟩,
    ⟨nat_lit 14, [⟨nat_lit 2, nat_lit 0, nat_lit 0, nat_lit 0, nat_lit 2⟩]⟩,
    ⟨nat_lit 10, [⟨nat_lit 2, nat_lit 0, nat_lit 1, nat_lit 0, nat_lit 3⟩]⟩,
    ⟨nat_lit 23, [⟨nat_lit 0, nat_lit 0, nat_lit 0, nat_lit 1, nat_lit 1⟩]⟩,
    ⟨nat_lit 31, [⟨nat_lit 1, nat_lit 0, nat_lit 0, nat_lit 1, nat_lit 2⟩]⟩,
    ⟨nat_lit 7, [⟨nat_lit 2, nat_lit 0, nat_lit 0, nat_lit 1, nat_lit 3⟩, ⟨nat_lit 0, nat_lit 0, nat_lit 0, nat_lit 1, nat_lit 1⟩]⟩,
    ⟨nat_lit 19, [⟨nat_lit 0, nat_lit 0, nat_lit 0, nat_lit 2, nat_lit 2⟩]⟩,
    ⟨nat_lit 17, [⟨nat_lit 1, nat_lit 0, nat_lit 0, nat_lit 1, nat_lit 2⟩]⟩,
    ⟨nat_lit 25, [⟨nat_lit 2, nat_lit 0, nat_lit 0, nat_lit 1, nat_lit 3⟩, ⟨nat_lit 4, nat_lit 0, nat_lit 0, nat_lit 3, nat_lit 7⟩]⟩,
    ⟨nat_lit 16, [⟨nat_lit 2, nat_lit 0, nat_lit 0, nat_lit 0, nat_lit 2⟩]⟩,
    ⟨nat_lit 26, [⟨nat_lit 2, nat_lit 0, nat_lit 1, nat_lit 0, nat_lit 3⟩, ⟨nat_lit 0, nat_lit 0, nat_lit 1, nat_lit 0, nat_lit 1⟩]⟩,
    ⟨nat_lit 15, [⟨nat_lit 1, nat_lit 0, nat_lit 0, nat_lit 1, nat_lit 2⟩]⟩,
    ⟨nat_lit 8, [⟨nat_lit 1, nat_lit 0, nat_lit 0, nat_lit 2, nat_lit 3⟩, ⟨nat_lit 1, nat_lit 0, nat_lit 0, nat_lit 4, nat_lit 5⟩]⟩,
    ⟨nat_lit 18, [⟨nat_lit 0, nat_lit 1, nat_lit 1, nat_lit 0, nat_lit 2⟩, ⟨nat_lit 1, nat_lit 0, nat_lit 0, nat_lit 3, nat_lit 4⟩, ⟨nat_lit 7, nat_lit 0, nat_lit 0, nat_lit 1, nat_lit 12⟩, ⟨nat_lit 3, nat_lit 0, nat_lit 0, nat_lit 1, nat_lit 4⟩]⟩,
    ⟨nat_lit 20, [⟨nat_lit 0, nat_lit 2, nat_lit 1, nat_lit 0, nat_lit 3⟩, ⟨nat_lit 0, nat_lit 4, nat_lit 1, nat_lit 0, nat_lit 5⟩]⟩,
    ⟨nat_lit 11, [⟨nat_lit 0, nat_lit 1, nat_lit 0, nat_lit 4, nat_lit 5⟩, ⟨nat_lit 0, nat_lit 1, nat_lit 0, nat_lit 2, nat_lit 3⟩]⟩,
    ⟨nat_lit 29, [⟨nat_lit 0, nat_lit 4, nat_lit 0, nat_lit 2, nat_lit 6⟩, ⟨nat_lit 0, nat_lit 2, nat_lit 0, nat_lit 4, nat_lit 6⟩]⟩,
    ⟨nat_lit 27, [⟨nat_lit 0, nat_lit 1, nat_lit 0, nat_lit 2, nat_lit 3⟩, ⟨nat_lit 0, nat_lit 1, nat_lit 0, nat_lit 4, nat_lit 5⟩]⟩,
    ⟨nat_lit 3, [⟨nat_lit 4, nat_lit 0, nat_lit 0, nat_lit 2, nat_lit 6⟩]⟩]

theorem form_l2 : formB YeLog.c8.mult (DilFast.coreOf tab_l2) = true := by decide +kernel

theorem autos_l2 : DilFast.autosF .plane 6 1 tab_l2 frow = true := by decide +kernel

theorem closed_l2 : DilFast.closedF .plane 5 25 6 1 frow tab_l2 tab_l2 = true := by decide +kernel

def pt1_l2 : Pt := ⟨[0], [8], 1 / 3, [0, 1]⟩
def pt2_l2 : Pt := ⟨[4], [16], 2 / 3, [1, 0]⟩
theorem low_l2 : lowB .l2sq YeLog.c8 0 pt1_l2 pt2_l2 (36) := by decide +kernel

theorem cert_l2 : Cert .l2 YeLog.c8 (6) (6) :=
  DilFast.cert (p := 0) (.inr (.inr rfl)) (vn := 6) (vd := 1) (by decide) rfl (by norm_num [bnd, Metric.sq]) div_eq genus_eq okRows rows form_l2 autos_l2 closed_l2
    (by norm_num [Metric.sq, Metric.ratio]; exact low_l2)

end Peano.YeLogDil.C8

namespace Peano.YeLogDil.C10
open DilCert Zoo

def frow : List (List DilFast.Row) := [
    [⟨nat_lit 0, nat_lit 0, nat_lit 0, nat_lit 0⟩, ⟨nat_lit 1, nat_lit 0, nat_lit 7, nat_lit 0⟩, ⟨nat_lit 1, nat_lit 1, nat_lit 2, nat_lit 0⟩, ⟨nat_lit 0, nat_lit 1, nat_lit 5, nat_lit 0⟩, ⟨nat_lit 0, nat_lit 2, nat_lit 0, nat_lit 0⟩, ⟨nat_lit 1, nat_lit 2, nat_lit 7, nat_lit 0⟩, ⟨nat_lit 1, nat_lit 3, nat_lit 2, nat_lit 0⟩, ⟨nat_lit 0, nat_lit 3, nat_lit 5, nat_lit 0⟩, ⟨nat_lit 0, nat_lit 4, nat_lit 0, nat_lit 0⟩, ⟨nat_lit 1, nat_lit 4, nat_lit 7, nat_lit 0⟩, ⟨nat_lit 2, nat_lit 4, nat_lit 4, nat_lit 0⟩, ⟨nat_lit 3, nat_lit 4, nat_lit 7, nat_lit 0⟩, ⟨nat_lit 4, nat_lit 4, nat_lit 12, nat_lit 0⟩, ⟨nat_lit 4, nat_lit 3, nat_lit 9, nat_lit 0⟩, ⟨nat_lit 3, nat_lit 3, nat_lit 2, nat_lit 0⟩, ⟨nat_lit 2, nat_lit 3, nat_lit 1, nat_lit 0⟩, ⟨nat_lit 2, nat_lit 2, nat_lit 4, nat_lit 0⟩, ⟨nat_lit 3, nat_lit 2, nat_lit 3, nat_lit 0⟩, ⟨nat_lit 3, nat_lit 1, nat_lit 6, nat_lit 0⟩, ⟨nat_lit 2, nat_lit 1, nat_lit 1, nat_lit 0⟩, ⟨nat_lit 2, nat_lit 0, nat_lit 4, nat_lit 0⟩, ⟨nat_lit 3, nat_lit 0, nat_lit 3, nat_lit 0⟩, ⟨nat_lit 4, nat_lit 0, nat_lit 8, nat_lit 0⟩, ⟨nat_lit 4, nat_lit 1, nat_lit 13, nat_lit 0⟩, ⟨nat_lit 4, nat_lit 2, nat_lit 0, nat_lit 0⟩]]

theorem div_eq : YeLog.c10.div = 5 := by decide +kernel

theorem genus_eq : YeLog.c10.genus = 25 := by decide +kernel

theorem okRows : DilFast.OkRows 5 frow := by decide +kernel

theorem rows : Rows YeLog.c10 (DilFast.prowOf frow) := by decide +kernel

def tab_l2 : List DilFast.Bin := [
    ⟨nat_lit 14, [⟨nat_lit 1, nat_lit 0, nat_lit 0, nat_lit 0, nat_lit 1⟩, ⟨nat_lit 5, nat_lit 0, nat_lit 0, nat_lit 4, nat_lit 9⟩]⟩,
    ⟨nat_lit 4, [⟨nat_lit 1, nat_lit 0, nat_lit 1, nat_lit 0, nat_lit 2⟩]⟩,
    ⟨nat_lit 9, [⟨nat_lit 0, nat_lit 0, nat_lit 0, nat_lit 1, nat_lit 1⟩]⟩,
    ⟨nat_lit 7, [⟨nat_lit 1, nat_lit 0, nat_lit 0, nat_lit 1, nat_lit 2⟩]⟩,
    ⟨nat_lit 17, [⟨nat_lit 4, nat_lit 0, nat_lit 0, nat_lit 1, nat_lit 5⟩]⟩,
    ⟨nat_lit 8, [⟨nat_lit 2, nat_lit 0, nat_lit 0, nat_lit 0, nat_lit 2⟩]⟩,
    ⟨nat_lit 24, [⟨nat_lit 4, nat_lit 0, nat_lit 0, nat_lit 0, nat_lit 4⟩, ⟨nat_lit 2, nat_lit 0, nat_lit 0, nat_lit 0, nat_lit 2⟩]⟩,
    ⟨nat_lit 18, [⟨nat_lit 4, nat_lit 0, nat_lit 0, nat_lit 1, nat_lit 5⟩]⟩,
    ⟨nat_lit 5, [⟨nat_lit 0, nat_lit 1, nat_lit 0, nat_lit 0, nat_lit 1⟩]⟩,
    ⟨nat_lit 3, [⟨nat_lit 0, nat_lit 2, nat_lit 0, nat_lit 0, nat_lit 2⟩, ⟨nat_lit 0, nat_lit 4, nat_lit 4, nat_lit 0, nat_lit 8⟩]⟩,
    ⟨nat_lit 21, [⟨nat_lit 0, nat_lit 3, nat_lit 0, nat_lit 0, nat_lit 3⟩, ⟨nat_lit 0, nat_lit 1, nat_lit 0, nat_lit 0, nat_lit 1⟩]⟩,
    ⟨nat_lit 31, [⟨nat_lit 0, nat_lit 3, nat_lit 1, nat_lit 0, nat_lit 4⟩, ⟨nat_lit 0, nat_lit 1, nat_lit 1, nat_lit 0, nat_lit 2⟩]⟩,
    ⟨nat_lit 6, [⟨nat_lit 1, nat_lit 0, nat_lit 0, nat_lit 0, nat_lit 1⟩]⟩,
    ⟨nat_lit 16, [⟨nat_lit 2, nat_lit 0, nat_lit 0, nat_lit 0, nat_lit 2⟩]⟩,
    ⟨nat_lit 28, [⟨nat_lit 1, nat_lit 0, nat_lit 0, nat_lit 1, nat_lit 2⟩]⟩,
    ⟨nat_lit 25, [⟨nat_lit 0, nat_lit 0, nat_lit 0, nat_lit 1, nat_lit 1⟩]⟩,
    ⟨nat_lit 19, [⟨nat_lit 0, nat_lit 0, nat_lit 0, nat_lit 2, nat_lit 2⟩]⟩,
    ⟨nat_lit 12, [⟨nat_lit 1, nat_lit 0, nat_lit 0, nat_lit 1, nat_lit 2⟩]⟩,
    ⟨nat_lit 22, [⟨nat_lit 3, nat_lit 0, nat_lit 0, nat_lit 4, nat_lit 7⟩]⟩,
    ⟨nat_lit 0, [⟨nat_lit 4, nat_lit 0, nat_lit 0, nat_lit 4, nat_lit 8⟩]⟩,
    ⟨nat_lit 27, [⟨nat_lit 0, nat_lit 2, nat_lit 4, nat_lit 0, nat_lit 6⟩, ⟨nat_lit 0, nat_lit 1, nat_lit 1, nat_lit 0, nat_lit 2⟩]⟩,
    ⟨nat_lit 13, [⟨nat_lit 0, nat_lit 3, nat_lit 4, nat_lit 0, nat_lit 7⟩]⟩,
    ⟨nat_lit 20, [⟨nat_lit 4, nat_lit 0, nat_lit 2, nat_lit 0, nat_lit 6⟩, ⟨nat_lit 1, nat_lit 0, nat_lit 1, nat_lit 0, nat_lit 2⟩]⟩,
    ⟨nat_lit 26, [⟨nat_lit 4, nat_lit 0, nat_lit 3, nat_lit 0, nat_lit 7⟩]⟩,
    ⟨nat_lit 11, [⟨nat_lit 0, nat_lit 3, nat_lit 1, nat_lit 0, nat_lit 4⟩, ⟨nat_lit 0, nat_lit 2, nat_lit 0, nat_lit 0, nat_lit 2⟩]⟩,
    ⟨nat_lit 15, [⟨nat_lit 3, nat_lit 0, nat_lit 0, nat_lit 1, nat_lit 4⟩]⟩,
    ⟨nat_lit 23, [⟨nat_lit 0, nat_lit 0, nat_lit 0, nat_lit 2, nat_lit 2⟩]⟩]

theorem form_l2 : formB YeLog.c10.mult (DilFast.coreOf tab_l2) = true := by decide +kernel

theorem autos_l2 : DilFast.autosF .plane 183 28 tab_l2 frow = true := by decide +kernel

theorem closed_l2 : DilFast.closedF .plane 5 25 183 28 frow tab_l2 tab_l2 = true := by decide +kernel

def pt1_l2 : Pt := ⟨[0, 20], [8], 1 / 3, [0, 0]⟩
def pt2_l2 : Pt := ⟨[1, 4], [16], 2 / 3, [1, 1]⟩
theorem low_l2 : lowB .l2sq YeLog.c10 0 pt1_l2 pt2_l2 (33489 / 784) := by decide +kernel

theorem cert_l2 : Cert .l2 YeLog.c10 (183 / 28) (183 / 28) :=
  DilFast.cert (p := 0) (.inr (.inr rfl)) (vn := 183) (vd := 28) (by decide) rfl (by norm_num [bnd, Metric.sq]) div_eq genus_eq okRows rows form_l2 autos_l2 closed_l2
    (by norm_num [Metric.sq, Metric.ratio]; exact low_l2)

end Peano.YeLogDil.C10
