import Verif.Lemmas.DilFast
import Verif.MinCerts.CurvesYeNext

set_option autoImplicit false
set_option maxRecDepth 100000
set_option linter.dupNamespace false

/-
Certificates for the dilations of the best side curves on the grid 5 after YE.  This file is generated.
-/

namespace Peano.YeNextDil.Same
open DilCert Zoo

def frow : List (List DilFast.Row) := [
    [⟨nat_lit 0, nat_lit 0, nat_lit 13, nat_lit 0⟩, ⟨nat_lit 0, nat_lit 1, nat_lit 0, nat_lit 0⟩, ⟨nat_lit 1, nat_lit 1, nat_lit 3, nat_lit 0⟩, ⟨nat_lit 1, nat_lit 0, nat_lit 11, nat_lit 0⟩, ⟨nat_lit 2, nat_lit 0, nat_lit 13, nat_lit 0⟩, ⟨nat_lit 2, nat_lit 1, nat_lit 13, nat_lit 0⟩, ⟨nat_lit 2, nat_lit 2, nat_lit 13, nat_lit 0⟩, ⟨nat_lit 1, nat_lit 2, nat_lit 5, nat_lit 0⟩, ⟨nat_lit 0, nat_lit 2, nat_lit 5, nat_lit 0⟩, ⟨nat_lit 0, nat_lit 3, nat_lit 13, nat_lit 0⟩, ⟨nat_lit 0, nat_lit 4, nat_lit 0, nat_lit 0⟩, ⟨nat_lit 1, nat_lit 4, nat_lit 0, nat_lit 0⟩, ⟨nat_lit 1, nat_lit 3, nat_lit 11, nat_lit 0⟩, ⟨nat_lit 2, nat_lit 3, nat_lit 8, nat_lit 0⟩, ⟨nat_lit 2, nat_lit 4, nat_lit 3, nat_lit 0⟩, ⟨nat_lit 3, nat_lit 4, nat_lit 3, nat_lit 0⟩, ⟨nat_lit 4, nat_lit 4, nat_lit 3, nat_lit 0⟩, ⟨nat_lit 4, nat_lit 3, nat_lit 6, nat_lit 0⟩, ⟨nat_lit 3, nat_lit 3, nat_lit 11, nat_lit 0⟩, ⟨nat_lit 3, nat_lit 2, nat_lit 11, nat_lit 0⟩, ⟨nat_lit 4, nat_lit 2, nat_lit 0, nat_lit 0⟩, ⟨nat_lit 4, nat_lit 1, nat_lit 6, nat_lit 0⟩, ⟨nat_lit 3, nat_lit 1, nat_lit 11, nat_lit 0⟩, ⟨nat_lit 3, nat_lit 0, nat_lit 11, nat_lit 0⟩, ⟨nat_lit 4, nat_lit 0, nat_lit 0, nat_lit 0⟩]]

theorem div_eq : YeNext.same.div = 5 := by decide +kernel

theorem genus_eq : YeNext.same.genus = 25 := by decide +kernel

theorem okRows : DilFast.OkRows 5 frow := by decide +kernel

theorem rows : Rows YeNext.same (DilFast.prowOf frow) := by decide +kernel

def tab_l2 : List DilFast.Bin := [
    ⟨nat_lit 21, [⟨nat_lit 0, nat_lit 1, nat_lit 0, nat_lit 0, nat_lit 1⟩, ⟨nat_lit 0, nat_lit 4, nat_lit 0, nat_lit 2, nat_lit 6⟩]⟩,
    ⟨nat_lit 31, [⟨nat_lit 0, nat_lit 1, nat_lit 1, nat_lit 0, nat_lit 2⟩, ⟨nat_lit 0, nat_lit 1, nat_lit 0, nat_lit 1, nat_lit 2⟩]⟩,
    ⟨nat_lit 6, [⟨nat_lit 1, nat_lit 0, nat_lit 0, nat_lit 0, nat_lit 1⟩]⟩,
    ⟨nat_lit 22, [⟨nat_lit 1, nat_lit 0, nat_lit 0, nat_lit 1, nat_lit 2⟩, ⟨nat_lit 0, nat_lit 0, nat_lit 0, nat_lit 1, nat_lit 1⟩]⟩,
    ⟨nat_lit 26, [⟨nat_lit 2, nat_lit 0, nat_lit 0, nat_lit 1, nat_lit 3⟩, ⟨nat_lit 1, nat_lit 0, nat_lit 0, nat_lit 0, nat_lit 1⟩]⟩,
    ⟨nat_lit 19, [⟨nat_lit 0, nat_lit 0, nat_lit 0, nat_lit 1, nat_lit 1⟩]⟩,
    ⟨nat_lit 15, [⟨nat_lit 0, nat_lit 0, nat_lit 0, nat_lit 1, nat_lit 1⟩]⟩,
    ⟨nat_lit 3, [⟨nat_lit 0, nat_lit 1, nat_lit 0, nat_lit 0, nat_lit 1⟩]⟩,
    ⟨nat_lit 9, [⟨nat_lit 0, nat_lit 1, nat_lit 0, nat_lit 2, nat_lit 3⟩, ⟨nat_lit 0, nat_lit 0, nat_lit 0, nat_lit 2, nat_lit 2⟩, ⟨nat_lit 0, nat_lit 0, nat_lit 0, nat_lit 1, nat_lit 1⟩, ⟨nat_lit 0, nat_lit 0, nat_lit 0, nat_lit 3, nat_lit 3⟩]⟩,
    ⟨nat_lit 0, [⟨nat_lit 1, nat_lit 0, nat_lit 0, nat_lit 0, nat_lit 1⟩]⟩,
    ⟨nat_lit 16, [⟨nat_lit 2, nat_lit 0, nat_lit 0, nat_lit 1, nat_lit 3⟩, ⟨nat_lit 1, nat_lit 0, nat_lit 0, nat_lit 1, nat_lit 2⟩, ⟨nat_lit 3, nat_lit 0, nat_lit 0, nat_lit 1, nat_lit 4⟩, ⟨nat_lit 2, nat_lit 0, nat_lit 0, nat_lit 0, nat_lit 2⟩]⟩,
    ⟨nat_lit 25, [⟨nat_lit 0, nat_lit 1, nat_lit 0, nat_lit 1, nat_lit 2⟩, ⟨nat_lit 0, nat_lit 0, nat_lit 0, nat_lit 1, nat_lit 1⟩]⟩,
    ⟨nat_lit 12, [⟨nat_lit 0, nat_lit 0, nat_lit 0, nat_lit 1, nat_lit 1⟩]⟩,
    ⟨nat_lit 10, [⟨nat_lit 0, nat_lit 1, nat_lit 0, nat_lit 2, nat_lit 3⟩, ⟨nat_lit 1, nat_lit 0, nat_lit 0, nat_lit 2, nat_lit 3⟩]⟩]

theorem form_l2 : formB YeNext.same.mult (DilFast.coreOf tab_l2) = true := by decide +kernel

theorem autos_l2 : DilFast.autosF .plane 96 17 tab_l2 frow = true := by decide +kernel

theorem closed_l2 : DilFast.closedF .plane 5 25 96 17 frow tab_l2 tab_l2 = true := by decide +kernel

def pt1_l2 : Pt := ⟨[1, 23], [14], 7 / 12, [0, 0]⟩
def pt2_l2 : Pt := ⟨[2, 1], [10], 5 / 12, [1, 0]⟩
theorem low_l2 : lowB .l2sq YeNext.same 0 pt1_l2 pt2_l2 (9216 / 289) := by decide +kernel

theorem cert_l2 : Cert .l2 YeNext.same (96 / 17) (96 / 17) :=
  DilFast.cert (p := 0) (.inr (.inr rfl)) (vn := 96) (vd := 17) (by decide) rfl (by norm_num [bnd, Metric.sq]) div_eq genus_eq okRows rows form_l2 autos_l2 closed_l2
    (by norm_num [Metric.sq, Metric.ratio]; exact low_l2)

end Peano.YeNextDil.Same

namespace Peano.YeNextDil.Other
open DilCert Zoo

def frow : List (List DilFast.Row) := [
    [⟨nat_lit 0, nat_lit 0, nat_lit 8, nat_lit 0⟩, ⟨nat_lit 0, nat_lit 1, nat_lit 0, nat_lit 0⟩, ⟨nat_lit 1, nat_lit 1, nat_lit 3, nat_lit 0⟩, ⟨nat_lit 1, nat_lit 0, nat_lit 14, nat_lit 0⟩, ⟨nat_lit 2, nat_lit 0, nat_lit 8, nat_lit 0⟩, ⟨nat_lit 2, nat_lit 1, nat_lit 8, nat_lit 0⟩, ⟨nat_lit 2, nat_lit 2, nat_lit 8, nat_lit 0⟩, ⟨nat_lit 2, nat_lit 3, nat_lit 13, nat_lit 0⟩, ⟨nat_lit 1, nat_lit 3, nat_lit 14, nat_lit 0⟩, ⟨nat_lit 1, nat_lit 2, nat_lit 6, nat_lit 0⟩, ⟨nat_lit 0, nat_lit 2, nat_lit 5, nat_lit 0⟩, ⟨nat_lit 0, nat_lit 3, nat_lit 13, nat_lit 0⟩, ⟨nat_lit 0, nat_lit 4, nat_lit 3, nat_lit 0⟩, ⟨nat_lit 1, nat_lit 4, nat_lit 3, nat_lit 0⟩, ⟨nat_lit 2, nat_lit 4, nat_lit 0, nat_lit 0⟩, ⟨nat_lit 3, nat_lit 4, nat_lit 0, nat_lit 0⟩, ⟨nat_lit 4, nat_lit 4, nat_lit 0, nat_lit 0⟩, ⟨nat_lit 4, nat_lit 3, nat_lit 6, nat_lit 0⟩, ⟨nat_lit 3, nat_lit 3, nat_lit 14, nat_lit 0⟩, ⟨nat_lit 3, nat_lit 2, nat_lit 11, nat_lit 0⟩, ⟨nat_lit 4, nat_lit 2, nat_lit 0, nat_lit 0⟩, ⟨nat_lit 4, nat_lit 1, nat_lit 6, nat_lit 0⟩, ⟨nat_lit 3, nat_lit 1, nat_lit 14, nat_lit 0⟩, ⟨nat_lit 3, nat_lit 0, nat_lit 11, nat_lit 0⟩, ⟨nat_lit 4, nat_lit 0, nat_lit 3, nat_lit 0⟩]]

theorem div_eq : YeNext.other.div = 5 := by decide +kernel

theorem genus_eq : YeNext.other.genus = 25 := by decide +kernel

theorem okRows : DilFast.OkRows 5 frow := by decide +kernel

theorem rows : Rows YeNext.other (DilFast.prowOf frow) := by decide +kernel

def tab_l2 : List DilFast.Bin := [
    ⟨nat_lit 16, [⟨nat_lit 1, nat_lit 0, nat_lit 0, nat_lit 0, nat_lit 1⟩]⟩,
    ⟨nat_lit 26, [⟨nat_lit 1, nat_lit 0, nat_lit 1, nat_lit 0, nat_lit 2⟩]⟩,
    ⟨nat_lit 6, [⟨nat_lit 1, nat_lit 0, nat_lit 0, nat_lit 0, nat_lit 1⟩, ⟨nat_lit 3, nat_lit 0, nat_lit 0, nat_lit 0, nat_lit 3⟩]⟩,
    ⟨nat_lit 28, [⟨nat_lit 1, nat_lit 0, nat_lit 0, nat_lit 1, nat_lit 2⟩, ⟨nat_lit 0, nat_lit 1, nat_lit 0, nat_lit 1, nat_lit 2⟩]⟩,
    ⟨nat_lit 25, [⟨nat_lit 0, nat_lit 0, nat_lit 0, nat_lit 1, nat_lit 1⟩, ⟨nat_lit 4, nat_lit 0, nat_lit 0, nat_lit 22, nat_lit 96⟩]⟩,
    ⟨nat_lit 21, [⟨nat_lit 0, nat_lit 1, nat_lit 0, nat_lit 1, nat_lit 2⟩, ⟨nat_lit 0, nat_lit 1, nat_lit 2, nat_lit 0, nat_lit 3⟩, ⟨nat_lit 0, nat_lit 1, nat_lit 3, nat_lit 0, nat_lit 4⟩, ⟨nat_lit 0, nat_lit 1, nat_lit 4, nat_lit 0, nat_lit 5⟩, ⟨nat_lit 0, nat_lit 2, nat_lit 0, nat_lit 0, nat_lit 2⟩, ⟨nat_lit 0, nat_lit 1, nat_lit 0, nat_lit 0, nat_lit 1⟩, ⟨nat_lit 0, nat_lit 22, nat_lit 0, nat_lit 4, nat_lit 96⟩]⟩,
    ⟨nat_lit 12, [⟨nat_lit 0, nat_lit 0, nat_lit 0, nat_lit 1, nat_lit 1⟩]⟩,
    ⟨nat_lit 10, [⟨nat_lit 0, nat_lit 3, nat_lit 0, nat_lit 1, nat_lit 4⟩, ⟨nat_lit 1, nat_lit 0, nat_lit 0, nat_lit 2, nat_lit 3⟩]⟩,
    ⟨nat_lit 0, [⟨nat_lit 1, nat_lit 0, nat_lit 0, nat_lit 0, nat_lit 1⟩]⟩,
    ⟨nat_lit 9, [⟨nat_lit 0, nat_lit 0, nat_lit 0, nat_lit 1, nat_lit 1⟩, ⟨nat_lit 4, nat_lit 0, nat_lit 0, nat_lit 2, nat_lit 6⟩, ⟨nat_lit 0, nat_lit 4, nat_lit 0, nat_lit 1, nat_lit 5⟩, ⟨nat_lit 0, nat_lit 0, nat_lit 0, nat_lit 3, nat_lit 3⟩, ⟨nat_lit 24, nat_lit 0, nat_lit 0, nat_lit 1, nat_lit 109⟩]⟩,
    ⟨nat_lit 19, [⟨nat_lit 1, nat_lit 0, nat_lit 0, nat_lit 2, nat_lit 3⟩, ⟨nat_lit 0, nat_lit 0, nat_lit 0, nat_lit 1, nat_lit 1⟩]⟩,
    ⟨nat_lit 22, [⟨nat_lit 1, nat_lit 0, nat_lit 0, nat_lit 1, nat_lit 2⟩, ⟨nat_lit 0, nat_lit 1, nat_lit 0, nat_lit 2, nat_lit 3⟩, ⟨nat_lit 0, nat_lit 2, nat_lit 0, nat_lit 8, nat_lit 16⟩]⟩,
    ⟨nat_lit 15, [⟨nat_lit 0, nat_lit 0, nat_lit 0, nat_lit 2, nat_lit 2⟩]⟩,
    ⟨nat_lit 31, [⟨nat_lit 0, nat_lit 1, nat_lit 0, nat_lit 0, nat_lit 1⟩]⟩,
    ⟨nat_lit 3, [⟨nat_lit 0, nat_lit 1, nat_lit 0, nat_lit 0, nat_lit 1⟩]⟩,
    ⟨nat_lit 5, [⟨nat_lit 0, nat_lit 2, nat_lit 0, nat_lit 0, nat_lit 2⟩, ⟨nat_lit 0, nat_lit 3, nat_lit 0, nat_lit 0, nat_lit 3⟩, ⟨nat_lit 0, nat_lit 4, nat_lit 0, nat_lit 0, nat_lit 4⟩, ⟨nat_lit 0, nat_lit 1, nat_lit 0, nat_lit 0, nat_lit 1⟩]⟩]

theorem form_l2 : formB YeNext.other.mult (DilFast.coreOf tab_l2) = true := by decide +kernel

theorem autos_l2 : DilFast.autosF .plane 75 13 tab_l2 frow = true := by decide +kernel

theorem closed_l2 : DilFast.closedF .plane 5 25 75 13 frow tab_l2 tab_l2 = true := by decide +kernel

def pt1_l2 : Pt := ⟨[12], [8], 1 / 3, [0, 1]⟩
def pt2_l2 : Pt := ⟨[16], [16], 2 / 3, [1, 1]⟩
theorem low_l2 : lowB .l2sq YeNext.other 0 pt1_l2 pt2_l2 (5625 / 169) := by decide +kernel

theorem cert_l2 : Cert .l2 YeNext.other (75 / 13) (75 / 13) :=
  DilFast.cert (p := 0) (.inr (.inr rfl)) (vn := 75) (vd := 13) (by decide) rfl (by norm_num [bnd, Metric.sq]) div_eq genus_eq okRows rows form_l2 autos_l2 closed_l2
    (by norm_num [Metric.sq, Metric.ratio]; exact low_l2)

end Peano.YeNextDil.Other
