import Verif.Lemmas.DilFast

set_option autoImplicit false
set_option maxRecDepth 100000
set_option linter.dupNamespace false

/-
Certificates for the dilations of the plane curves of the zoo.  This file is generated.
-/

namespace Peano.ZooDil.Arw
open DilCert Zoo

def frow : List (List DilFast.Row) := [
    [⟨nat_lit 0, nat_lit 0, nat_lit 0, nat_lit 3⟩, ⟨nat_lit 1, nat_lit 0, nat_lit 13, nat_lit 1⟩, ⟨nat_lit 0, nat_lit 1, nat_lit 10, nat_lit 2⟩, ⟨nat_lit 1, nat_lit 1, nat_lit 4, nat_lit 1⟩],
    [⟨nat_lit 0, nat_lit 0, nat_lit 8, nat_lit 3⟩, ⟨nat_lit 0, nat_lit 1, nat_lit 3, nat_lit 2⟩, ⟨nat_lit 1, nat_lit 1, nat_lit 0, nat_lit 1⟩, ⟨nat_lit 1, nat_lit 0, nat_lit 14, nat_lit 1⟩],
    [⟨nat_lit 0, nat_lit 0, nat_lit 8, nat_lit 0⟩, ⟨nat_lit 0, nat_lit 1, nat_lit 10, nat_lit 1⟩, ⟨nat_lit 1, nat_lit 1, nat_lit 12, nat_lit 0⟩, ⟨nat_lit 1, nat_lit 0, nat_lit 14, nat_lit 1⟩],
    [⟨nat_lit 0, nat_lit 0, nat_lit 0, nat_lit 0⟩, ⟨nat_lit 0, nat_lit 1, nat_lit 10, nat_lit 2⟩, ⟨nat_lit 1, nat_lit 1, nat_lit 12, nat_lit 0⟩, ⟨nat_lit 1, nat_lit 0, nat_lit 11, nat_lit 3⟩]]

theorem lit : Zoo.arw = DilFast.curve 2 frow := by decide +kernel

theorem div_eq : Zoo.arw.div = 2 := by rw [lit]; decide +kernel

theorem genus_eq : Zoo.arw.genus = 4 := by rw [lit]; decide +kernel

theorem okRows : DilFast.OkRows 2 frow := by decide +kernel

theorem rows : Rows Zoo.arw (DilFast.prowOf frow) := by rw [lit]; decide +kernel

def tab_l1 : List DilFast.Bin := [
    ⟨nat_lit 826, [⟨nat_lit 1, nat_lit 0, nat_lit 0, nat_lit 0, nat_lit 1⟩]⟩,
    ⟨nat_lit 333, [⟨nat_lit 0, nat_lit 1, nat_lit 0, nat_lit 1, nat_lit 1⟩]⟩,
    ⟨nat_lit 572, [⟨nat_lit 0, nat_lit 0, nat_lit 0, nat_lit 1, nat_lit 1⟩, ⟨nat_lit 1, nat_lit 0, nat_lit 0, nat_lit 3, nat_lit 3⟩]⟩,
    ⟨nat_lit 858, [⟨nat_lit 1, nat_lit 0, nat_lit 0, nat_lit 0, nat_lit 1⟩]⟩,
    ⟨nat_lit 816, [⟨nat_lit 1, nat_lit 0, nat_lit 1, nat_lit 0, nat_lit 2⟩]⟩,
    ⟨nat_lit 549, [⟨nat_lit 0, nat_lit 1, nat_lit 0, nat_lit 0, nat_lit 1⟩]⟩,
    ⟨nat_lit 569, [⟨nat_lit 0, nat_lit 1, nat_lit 0, nat_lit 1, nat_lit 2⟩]⟩,
    ⟨nat_lit 316, [⟨nat_lit 0, nat_lit 0, nat_lit 0, nat_lit 1, nat_lit 1⟩]⟩,
    ⟨nat_lit 40, [⟨nat_lit 1, nat_lit 0, nat_lit 0, nat_lit 0, nat_lit 1⟩]⟩,
    ⟨nat_lit 4, [⟨nat_lit 1, nat_lit 0, nat_lit 1, nat_lit 0, nat_lit 2⟩]⟩,
    ⟨nat_lit 268, [⟨nat_lit 0, nat_lit 0, nat_lit 0, nat_lit 1, nat_lit 1⟩, ⟨nat_lit 2, nat_lit 0, nat_lit 0, nat_lit 3, nat_lit 4⟩]⟩,
    ⟨nat_lit 292, [⟨nat_lit 0, nat_lit 1, nat_lit 0, nat_lit 1, nat_lit 2⟩]⟩,
    ⟨nat_lit 84, [⟨nat_lit 0, nat_lit 0, nat_lit 1, nat_lit 0, nat_lit 1⟩]⟩,
    ⟨nat_lit 24, [⟨nat_lit 1, nat_lit 0, nat_lit 1, nat_lit 0, nat_lit 2⟩]⟩,
    ⟨nat_lit 524, [⟨nat_lit 0, nat_lit 0, nat_lit 0, nat_lit 1, nat_lit 1⟩]⟩,
    ⟨nat_lit 610, [⟨nat_lit 0, nat_lit 1, nat_lit 0, nat_lit 1, nat_lit 2⟩]⟩,
    ⟨nat_lit 110, [⟨nat_lit 1, nat_lit 0, nat_lit 0, nat_lit 0, nat_lit 1⟩]⟩,
    ⟨nat_lit 562, [⟨nat_lit 0, nat_lit 1, nat_lit 0, nat_lit 2, nat_lit 3⟩]⟩,
    ⟨nat_lit 62, [⟨nat_lit 1, nat_lit 0, nat_lit 1, nat_lit 0, nat_lit 2⟩]⟩,
    ⟨nat_lit 34, [⟨nat_lit 1, nat_lit 0, nat_lit 2, nat_lit 0, nat_lit 3⟩]⟩,
    ⟨nat_lit 819, [⟨nat_lit 0, nat_lit 0, nat_lit 0, nat_lit 1, nat_lit 1⟩]⟩,
    ⟨nat_lit 815, [⟨nat_lit 0, nat_lit 0, nat_lit 0, nat_lit 2, nat_lit 2⟩]⟩,
    ⟨nat_lit 841, [⟨nat_lit 1, nat_lit 0, nat_lit 0, nat_lit 2, nat_lit 3⟩]⟩,
    ⟨nat_lit 285, [⟨nat_lit 0, nat_lit 2, nat_lit 0, nat_lit 2, nat_lit 3⟩, ⟨nat_lit 0, nat_lit 3, nat_lit 3, nat_lit 0, nat_lit 6⟩]⟩,
    ⟨nat_lit 313, [⟨nat_lit 0, nat_lit 2, nat_lit 0, nat_lit 3, nat_lit 4⟩]⟩,
    ⟨nat_lit 277, [⟨nat_lit 0, nat_lit 3, nat_lit 0, nat_lit 3, nat_lit 5⟩]⟩,
    ⟨nat_lit 536, [⟨nat_lit 1, nat_lit 0, nat_lit 0, nat_lit 2, nat_lit 2⟩]⟩,
    ⟨nat_lit 528, [⟨nat_lit 2, nat_lit 0, nat_lit 0, nat_lit 3, nat_lit 4⟩, ⟨nat_lit 1, nat_lit 0, nat_lit 0, nat_lit 1, nat_lit 2⟩]⟩,
    ⟨nat_lit 781, [⟨nat_lit 0, nat_lit 1, nat_lit 0, nat_lit 1, nat_lit 1⟩, ⟨nat_lit 5, nat_lit 0, nat_lit 0, nat_lit 4, nat_lit 11⟩]⟩,
    ⟨nat_lit 805, [⟨nat_lit 0, nat_lit 2, nat_lit 0, nat_lit 1, nat_lit 2⟩]⟩,
    ⟨nat_lit 777, [⟨nat_lit 0, nat_lit 2, nat_lit 0, nat_lit 2, nat_lit 3⟩, ⟨nat_lit 0, nat_lit 0, nat_lit 0, nat_lit 1, nat_lit 1⟩]⟩,
    ⟨nat_lit 372, [⟨nat_lit 0, nat_lit 2, nat_lit 0, nat_lit 1, nat_lit 3⟩]⟩,
    ⟨nat_lit 120, [⟨nat_lit 2, nat_lit 0, nat_lit 0, nat_lit 0, nat_lit 2⟩]⟩,
    ⟨nat_lit 78, [⟨nat_lit 2, nat_lit 0, nat_lit 0, nat_lit 1, nat_lit 3⟩]⟩,
    ⟨nat_lit 368, [⟨nat_lit 1, nat_lit 0, nat_lit 0, nat_lit 0, nat_lit 1⟩]⟩,
    ⟨nat_lit 326, [⟨nat_lit 1, nat_lit 0, nat_lit 1, nat_lit 0, nat_lit 2⟩]⟩,
    ⟨nat_lit 288, [⟨nat_lit 2, nat_lit 0, nat_lit 1, nat_lit 0, nat_lit 3⟩]⟩,
    ⟨nat_lit 26, [⟨nat_lit 1, nat_lit 0, nat_lit 2, nat_lit 0, nat_lit 3⟩]⟩,
    ⟨nat_lit 791, [⟨nat_lit 0, nat_lit 0, nat_lit 0, nat_lit 2, nat_lit 2⟩]⟩,
    ⟨nat_lit 827, [⟨nat_lit 1, nat_lit 0, nat_lit 0, nat_lit 2, nat_lit 3⟩]⟩,
    ⟨nat_lit 109, [⟨nat_lit 1, nat_lit 0, nat_lit 0, nat_lit 2, nat_lit 3⟩, ⟨nat_lit 0, nat_lit 1, nat_lit 0, nat_lit 1, nat_lit 1⟩, ⟨nat_lit 3, nat_lit 0, nat_lit 0, nat_lit 4, nat_lit 7⟩]⟩,
    ⟨nat_lit 353, [⟨nat_lit 0, nat_lit 1, nat_lit 1, nat_lit 0, nat_lit 2⟩]⟩,
    ⟨nat_lit 105, [⟨nat_lit 0, nat_lit 0, nat_lit 0, nat_lit 1, nat_lit 1⟩]⟩,
    ⟨nat_lit 83, [⟨nat_lit 1, nat_lit 0, nat_lit 0, nat_lit 1, nat_lit 2⟩]⟩,
    ⟨nat_lit 57, [⟨nat_lit 1, nat_lit 0, nat_lit 0, nat_lit 2, nat_lit 3⟩]⟩,
    ⟨nat_lit 617, [⟨nat_lit 0, nat_lit 1, nat_lit 0, nat_lit 2, nat_lit 3⟩]⟩,
    ⟨nat_lit 364, [⟨nat_lit 0, nat_lit 0, nat_lit 0, nat_lit 2, nat_lit 2⟩]⟩,
    ⟨nat_lit 342, [⟨nat_lit 0, nat_lit 1, nat_lit 0, nat_lit 2, nat_lit 3⟩]⟩,
    ⟨nat_lit 620, [⟨nat_lit 0, nat_lit 0, nat_lit 0, nat_lit 2, nat_lit 2⟩]⟩,
    ⟨nat_lit 598, [⟨nat_lit 0, nat_lit 1, nat_lit 0, nat_lit 2, nat_lit 3⟩]⟩,
    ⟨nat_lit 310, [⟨nat_lit 0, nat_lit 1, nat_lit 0, nat_lit 2, nat_lit 3⟩]⟩,
    ⟨nat_lit 294, [⟨nat_lit 1, nat_lit 0, nat_lit 1, nat_lit 0, nat_lit 2⟩, ⟨nat_lit 1, nat_lit 0, nat_lit 0, nat_lit 1, nat_lit 2⟩]⟩,
    ⟨nat_lit 264, [⟨nat_lit 0, nat_lit 1, nat_lit 0, nat_lit 2, nat_lit 3⟩]⟩,
    ⟨nat_lit 46, [⟨nat_lit 2, nat_lit 0, nat_lit 0, nat_lit 1, nat_lit 3⟩]⟩,
    ⟨nat_lit 514, [⟨nat_lit 0, nat_lit 1, nat_lit 0, nat_lit 2, nat_lit 3⟩]⟩,
    ⟨nat_lit 286, [⟨nat_lit 1, nat_lit 0, nat_lit 1, nat_lit 0, nat_lit 2⟩]⟩,
    ⟨nat_lit 338, [⟨nat_lit 2, nat_lit 0, nat_lit 1, nat_lit 0, nat_lit 3⟩]⟩,
    ⟨nat_lit 59, [⟨nat_lit 2, nat_lit 0, nat_lit 0, nat_lit 1, nat_lit 3⟩]⟩,
    ⟨nat_lit 567, [⟨nat_lit 0, nat_lit 2, nat_lit 0, nat_lit 0, nat_lit 2⟩]⟩,
    ⟨nat_lit 555, [⟨nat_lit 0, nat_lit 2, nat_lit 0, nat_lit 1, nat_lit 3⟩]⟩,
    ⟨nat_lit 47, [⟨nat_lit 0, nat_lit 0, nat_lit 0, nat_lit 1, nat_lit 1⟩, ⟨nat_lit 2, nat_lit 0, nat_lit 0, nat_lit 3, nat_lit 4⟩]⟩,
    ⟨nat_lit 51, [⟨nat_lit 1, nat_lit 0, nat_lit 0, nat_lit 1, nat_lit 2⟩]⟩,
    ⟨nat_lit 89, [⟨nat_lit 1, nat_lit 0, nat_lit 0, nat_lit 2, nat_lit 3⟩, ⟨nat_lit 0, nat_lit 1, nat_lit 0, nat_lit 2, nat_lit 3⟩]⟩,
    ⟨nat_lit 361, [⟨nat_lit 0, nat_lit 5, nat_lit 0, nat_lit 6, nat_lit 15⟩]⟩,
    ⟨nat_lit 373, [⟨nat_lit 0, nat_lit 6, nat_lit 0, nat_lit 7, nat_lit 19⟩]⟩,
    ⟨nat_lit 360, [⟨nat_lit 0, nat_lit 7, nat_lit 0, nat_lit 4, nat_lit 15⟩]⟩,
    ⟨nat_lit 348, [⟨nat_lit 0, nat_lit 7, nat_lit 0, nat_lit 5, nat_lit 17⟩]⟩,
    ⟨nat_lit 121, [⟨nat_lit 2, nat_lit 0, nat_lit 0, nat_lit 2, nat_lit 3⟩]⟩,
    ⟨nat_lit 65, [⟨nat_lit 3, nat_lit 0, nat_lit 0, nat_lit 2, nat_lit 5⟩]⟩,
    ⟨nat_lit 61, [⟨nat_lit 3, nat_lit 0, nat_lit 0, nat_lit 3, nat_lit 6⟩]⟩,
    ⟨nat_lit 629, [⟨nat_lit 0, nat_lit 2, nat_lit 1, nat_lit 0, nat_lit 2⟩]⟩,
    ⟨nat_lit 547, [⟨nat_lit 0, nat_lit 2, nat_lit 2, nat_lit 0, nat_lit 3⟩]⟩,
    ⟨nat_lit 561, [⟨nat_lit 0, nat_lit 3, nat_lit 2, nat_lit 0, nat_lit 5⟩]⟩,
    ⟨nat_lit 55, [⟨nat_lit 0, nat_lit 2, nat_lit 0, nat_lit 1, nat_lit 2⟩]⟩,
    ⟨nat_lit 609, [⟨nat_lit 0, nat_lit 3, nat_lit 3, nat_lit 0, nat_lit 6⟩]⟩,
    ⟨nat_lit 117, [⟨nat_lit 0, nat_lit 3, nat_lit 0, nat_lit 2, nat_lit 5⟩]⟩,
    ⟨nat_lit 113, [⟨nat_lit 4, nat_lit 0, nat_lit 0, nat_lit 5, nat_lit 11⟩, ⟨nat_lit 2, nat_lit 0, nat_lit 0, nat_lit 1, nat_lit 3⟩]⟩,
    ⟨nat_lit 533, [⟨nat_lit 0, nat_lit 2, nat_lit 0, nat_lit 1, nat_lit 3⟩, ⟨nat_lit 0, nat_lit 2, nat_lit 1, nat_lit 0, nat_lit 3⟩]⟩,
    ⟨nat_lit 272, [⟨nat_lit 1, nat_lit 0, nat_lit 0, nat_lit 1, nat_lit 2⟩]⟩,
    ⟨nat_lit 328, [⟨nat_lit 2, nat_lit 0, nat_lit 0, nat_lit 1, nat_lit 3⟩]⟩,
    ⟨nat_lit 344, [⟨nat_lit 0, nat_lit 0, nat_lit 0, nat_lit 2, nat_lit 2⟩]⟩,
    ⟨nat_lit 276, [⟨nat_lit 0, nat_lit 1, nat_lit 0, nat_lit 2, nat_lit 3⟩]⟩,
    ⟨nat_lit 861, [⟨nat_lit 0, nat_lit 0, nat_lit 0, nat_lit 2, nat_lit 2⟩]⟩,
    ⟨nat_lit 785, [⟨nat_lit 1, nat_lit 0, nat_lit 0, nat_lit 2, nat_lit 3⟩]⟩,
    ⟨nat_lit 314, [⟨nat_lit 2, nat_lit 0, nat_lit 0, nat_lit 1, nat_lit 3⟩]⟩,
    ⟨nat_lit 605, [⟨nat_lit 0, nat_lit 7, nat_lit 0, nat_lit 5, nat_lit 17⟩, ⟨nat_lit 0, nat_lit 5, nat_lit 0, nat_lit 7, nat_lit 17⟩]⟩,
    ⟨nat_lit 9, [⟨nat_lit 2, nat_lit 0, nat_lit 0, nat_lit 3, nat_lit 5⟩, ⟨nat_lit 0, nat_lit 2, nat_lit 0, nat_lit 3, nat_lit 5⟩]⟩,
    ⟨nat_lit 93, [⟨nat_lit 2, nat_lit 0, nat_lit 0, nat_lit 4, nat_lit 6⟩]⟩,
    ⟨nat_lit 17, [⟨nat_lit 3, nat_lit 0, nat_lit 0, nat_lit 4, nat_lit 7⟩, ⟨nat_lit 4, nat_lit 0, nat_lit 0, nat_lit 3, nat_lit 7⟩]⟩,
    ⟨nat_lit 337, [⟨nat_lit 0, nat_lit 2, nat_lit 3, nat_lit 0, nat_lit 5⟩]⟩,
    ⟨nat_lit 513, [⟨nat_lit 0, nat_lit 3, nat_lit 2, nat_lit 0, nat_lit 5⟩]⟩,
    ⟨nat_lit 280, [⟨nat_lit 1, nat_lit 0, nat_lit 0, nat_lit 2, nat_lit 2⟩]⟩,
    ⟨nat_lit 320, [⟨nat_lit 2, nat_lit 0, nat_lit 0, nat_lit 2, nat_lit 3⟩]⟩,
    ⟨nat_lit 857, [⟨nat_lit 0, nat_lit 1, nat_lit 0, nat_lit 2, nat_lit 2⟩]⟩,
    ⟨nat_lit 789, [⟨nat_lit 0, nat_lit 2, nat_lit 0, nat_lit 2, nat_lit 3⟩]⟩,
    ⟨nat_lit 637, [⟨nat_lit 0, nat_lit 2, nat_lit 0, nat_lit 0, nat_lit 2⟩]⟩,
    ⟨nat_lit 541, [⟨nat_lit 0, nat_lit 4, nat_lit 2, nat_lit 0, nat_lit 6⟩]⟩]

theorem form_l1 : formB Zoo.arw.mult (DilFast.coreOf tab_l1) = true := by rw [lit]; decide +kernel

theorem autos_l1 : DilFast.autosF .l1 12 1 tab_l1 frow = true := by decide +kernel

theorem closed_l1 : DilFast.closedF .l1 2 4 12 1 frow tab_l1 tab_l1 = true := by decide +kernel

def pt1_l1 : Pt := ⟨[1], [1], 1 / 3, [1, 0]⟩
def pt2_l1 : Pt := ⟨[2], [2, 2], 2 / 3, [0, 1]⟩
theorem low_l1 : lowB .l1 Zoo.arw 0 pt1_l1 pt2_l1 (12) := by rw [lit]; decide +kernel

theorem cert_l1 : Cert .l1 Zoo.arw (12) (12) :=
  DilFast.cert (p := 0) (.inr (.inl rfl)) (vn := 12) (vd := 1) (by decide) rfl (by norm_num [bnd, Metric.sq]) div_eq genus_eq okRows rows form_l1 autos_l1 closed_l1
    (by norm_num [Metric.sq, Metric.ratio]; exact low_l1)

def tab_l2 : List DilFast.Bin := [
    ⟨nat_lit 826, [⟨nat_lit 1, nat_lit 0, nat_lit 0, nat_lit 0, nat_lit 1⟩]⟩,
    ⟨nat_lit 333, [⟨nat_lit 0, nat_lit 1, nat_lit 0, nat_lit 1, nat_lit 1⟩]⟩,
    ⟨nat_lit 572, [⟨nat_lit 0, nat_lit 0, nat_lit 0, nat_lit 1, nat_lit 1⟩, ⟨nat_lit 1, nat_lit 0, nat_lit 0, nat_lit 3, nat_lit 3⟩]⟩,
    ⟨nat_lit 858, [⟨nat_lit 1, nat_lit 0, nat_lit 0, nat_lit 0, nat_lit 1⟩]⟩,
    ⟨nat_lit 816, [⟨nat_lit 1, nat_lit 0, nat_lit 1, nat_lit 0, nat_lit 2⟩]⟩,
    ⟨nat_lit 549, [⟨nat_lit 0, nat_lit 1, nat_lit 0, nat_lit 0, nat_lit 1⟩]⟩,
    ⟨nat_lit 569, [⟨nat_lit 0, nat_lit 1, nat_lit 0, nat_lit 1, nat_lit 2⟩]⟩,
    ⟨nat_lit 316, [⟨nat_lit 0, nat_lit 0, nat_lit 0, nat_lit 1, nat_lit 1⟩]⟩,
    ⟨nat_lit 40, [⟨nat_lit 1, nat_lit 0, nat_lit 0, nat_lit 0, nat_lit 1⟩]⟩,
    ⟨nat_lit 4, [⟨nat_lit 1, nat_lit 0, nat_lit 1, nat_lit 0, nat_lit 2⟩]⟩,
    ⟨nat_lit 268, [⟨nat_lit 0, nat_lit 0, nat_lit 0, nat_lit 1, nat_lit 1⟩, ⟨nat_lit 2, nat_lit 0, nat_lit 0, nat_lit 3, nat_lit 4⟩]⟩,
    ⟨nat_lit 292, [⟨nat_lit 0, nat_lit 1, nat_lit 0, nat_lit 1, nat_lit 2⟩]⟩,
    ⟨nat_lit 84, [⟨nat_lit 0, nat_lit 0, nat_lit 1, nat_lit 0, nat_lit 1⟩]⟩,
    ⟨nat_lit 24, [⟨nat_lit 1, nat_lit 0, nat_lit 1, nat_lit 0, nat_lit 2⟩]⟩,
    ⟨nat_lit 524, [⟨nat_lit 0, nat_lit 0, nat_lit 0, nat_lit 1, nat_lit 1⟩]⟩,
    ⟨nat_lit 610, [⟨nat_lit 0, nat_lit 1, nat_lit 0, nat_lit 1, nat_lit 2⟩]⟩,
    ⟨nat_lit 110, [⟨nat_lit 1, nat_lit 0, nat_lit 0, nat_lit 0, nat_lit 1⟩]⟩,
    ⟨nat_lit 562, [⟨nat_lit 0, nat_lit 1, nat_lit 0, nat_lit 2, nat_lit 3⟩]⟩,
    ⟨nat_lit 558, [⟨nat_lit 0, nat_lit 1, nat_lit 0, nat_lit 3, nat_lit 4⟩]⟩,
    ⟨nat_lit 62, [⟨nat_lit 1, nat_lit 0, nat_lit 1, nat_lit 0, nat_lit 2⟩]⟩,
    ⟨nat_lit 34, [⟨nat_lit 1, nat_lit 0, nat_lit 2, nat_lit 0, nat_lit 3⟩]⟩,
    ⟨nat_lit 819, [⟨nat_lit 0, nat_lit 0, nat_lit 0, nat_lit 1, nat_lit 1⟩]⟩,
    ⟨nat_lit 815, [⟨nat_lit 0, nat_lit 0, nat_lit 0, nat_lit 2, nat_lit 2⟩]⟩,
    ⟨nat_lit 841, [⟨nat_lit 1, nat_lit 0, nat_lit 0, nat_lit 2, nat_lit 3⟩]⟩,
    ⟨nat_lit 285, [⟨nat_lit 0, nat_lit 2, nat_lit 0, nat_lit 2, nat_lit 3⟩, ⟨nat_lit 0, nat_lit 3, nat_lit 3, nat_lit 0, nat_lit 6⟩]⟩,
    ⟨nat_lit 313, [⟨nat_lit 0, nat_lit 2, nat_lit 0, nat_lit 3, nat_lit 4⟩]⟩,
    ⟨nat_lit 277, [⟨nat_lit 0, nat_lit 3, nat_lit 0, nat_lit 3, nat_lit 5⟩]⟩,
    ⟨nat_lit 536, [⟨nat_lit 1, nat_lit 0, nat_lit 0, nat_lit 2, nat_lit 2⟩]⟩,
    ⟨nat_lit 528, [⟨nat_lit 2, nat_lit 0, nat_lit 0, nat_lit 3, nat_lit 4⟩, ⟨nat_lit 1, nat_lit 0, nat_lit 0, nat_lit 1, nat_lit 2⟩]⟩,
    ⟨nat_lit 781, [⟨nat_lit 0, nat_lit 1, nat_lit 0, nat_lit 1, nat_lit 1⟩]⟩,
    ⟨nat_lit 805, [⟨nat_lit 0, nat_lit 2, nat_lit 0, nat_lit 1, nat_lit 2⟩]⟩,
    ⟨nat_lit 777, [⟨nat_lit 0, nat_lit 2, nat_lit 0, nat_lit 2, nat_lit 3⟩, ⟨nat_lit 0, nat_lit 0, nat_lit 0, nat_lit 1, nat_lit 1⟩]⟩,
    ⟨nat_lit 372, [⟨nat_lit 0, nat_lit 2, nat_lit 0, nat_lit 1, nat_lit 3⟩, ⟨nat_lit 0, nat_lit 6, nat_lit 0, nat_lit 3, nat_lit 11⟩]⟩,
    ⟨nat_lit 120, [⟨nat_lit 2, nat_lit 0, nat_lit 0, nat_lit 0, nat_lit 2⟩]⟩,
    ⟨nat_lit 78, [⟨nat_lit 2, nat_lit 0, nat_lit 0, nat_lit 1, nat_lit 3⟩]⟩,
    ⟨nat_lit 368, [⟨nat_lit 1, nat_lit 0, nat_lit 0, nat_lit 0, nat_lit 1⟩]⟩,
    ⟨nat_lit 326, [⟨nat_lit 1, nat_lit 0, nat_lit 1, nat_lit 0, nat_lit 2⟩]⟩,
    ⟨nat_lit 288, [⟨nat_lit 2, nat_lit 0, nat_lit 1, nat_lit 0, nat_lit 3⟩]⟩,
    ⟨nat_lit 534, [⟨nat_lit 0, nat_lit 1, nat_lit 0, nat_lit 3, nat_lit 4⟩]⟩,
    ⟨nat_lit 26, [⟨nat_lit 1, nat_lit 0, nat_lit 2, nat_lit 0, nat_lit 3⟩]⟩,
    ⟨nat_lit 791, [⟨nat_lit 0, nat_lit 0, nat_lit 0, nat_lit 2, nat_lit 2⟩]⟩,
    ⟨nat_lit 827, [⟨nat_lit 1, nat_lit 0, nat_lit 0, nat_lit 2, nat_lit 3⟩]⟩,
    ⟨nat_lit 109, [⟨nat_lit 1, nat_lit 0, nat_lit 0, nat_lit 2, nat_lit 3⟩, ⟨nat_lit 0, nat_lit 1, nat_lit 0, nat_lit 1, nat_lit 1⟩, ⟨nat_lit 3, nat_lit 0, nat_lit 0, nat_lit 4, nat_lit 7⟩]⟩,
    ⟨nat_lit 353, [⟨nat_lit 0, nat_lit 1, nat_lit 1, nat_lit 0, nat_lit 2⟩]⟩,
    ⟨nat_lit 105, [⟨nat_lit 0, nat_lit 0, nat_lit 0, nat_lit 1, nat_lit 1⟩]⟩,
    ⟨nat_lit 83, [⟨nat_lit 1, nat_lit 0, nat_lit 0, nat_lit 1, nat_lit 2⟩]⟩,
    ⟨nat_lit 57, [⟨nat_lit 1, nat_lit 0, nat_lit 0, nat_lit 2, nat_lit 3⟩]⟩,
    ⟨nat_lit 617, [⟨nat_lit 0, nat_lit 1, nat_lit 0, nat_lit 2, nat_lit 3⟩]⟩,
    ⟨nat_lit 364, [⟨nat_lit 0, nat_lit 0, nat_lit 0, nat_lit 2, nat_lit 2⟩]⟩,
    ⟨nat_lit 342, [⟨nat_lit 0, nat_lit 1, nat_lit 0, nat_lit 2, nat_lit 3⟩]⟩,
    ⟨nat_lit 620, [⟨nat_lit 0, nat_lit 0, nat_lit 0, nat_lit 2, nat_lit 2⟩]⟩,
    ⟨nat_lit 598, [⟨nat_lit 0, nat_lit 1, nat_lit 0, nat_lit 2, nat_lit 3⟩]⟩,
    ⟨nat_lit 310, [⟨nat_lit 0, nat_lit 1, nat_lit 0, nat_lit 2, nat_lit 3⟩, ⟨nat_lit 0, nat_lit 5, nat_lit 0, nat_lit 2, nat_lit 8⟩]⟩,
    ⟨nat_lit 294, [⟨nat_lit 1, nat_lit 0, nat_lit 1, nat_lit 0, nat_lit 2⟩, ⟨nat_lit 1, nat_lit 0, nat_lit 0, nat_lit 1, nat_lit 2⟩]⟩,
    ⟨nat_lit 264, [⟨nat_lit 0, nat_lit 1, nat_lit 0, nat_lit 2, nat_lit 3⟩, ⟨nat_lit 0, nat_lit 31, nat_lit 0, nat_lit 19, nat_lit 236⟩]⟩,
    ⟨nat_lit 46, [⟨nat_lit 2, nat_lit 0, nat_lit 0, nat_lit 1, nat_lit 3⟩]⟩,
    ⟨nat_lit 514, [⟨nat_lit 0, nat_lit 1, nat_lit 0, nat_lit 2, nat_lit 3⟩]⟩,
    ⟨nat_lit 590, [⟨nat_lit 0, nat_lit 1, nat_lit 0, nat_lit 3, nat_lit 4⟩]⟩,
    ⟨nat_lit 286, [⟨nat_lit 1, nat_lit 0, nat_lit 1, nat_lit 0, nat_lit 2⟩]⟩,
    ⟨nat_lit 338, [⟨nat_lit 2, nat_lit 0, nat_lit 1, nat_lit 0, nat_lit 3⟩]⟩,
    ⟨nat_lit 59, [⟨nat_lit 2, nat_lit 0, nat_lit 0, nat_lit 1, nat_lit 3⟩]⟩,
    ⟨nat_lit 567, [⟨nat_lit 0, nat_lit 2, nat_lit 0, nat_lit 0, nat_lit 2⟩]⟩,
    ⟨nat_lit 555, [⟨nat_lit 0, nat_lit 2, nat_lit 0, nat_lit 1, nat_lit 3⟩, ⟨nat_lit 0, nat_lit 2, nat_lit 0, nat_lit 5, nat_lit 8⟩]⟩,
    ⟨nat_lit 589, [⟨nat_lit 0, nat_lit 3, nat_lit 0, nat_lit 1, nat_lit 4⟩, ⟨nat_lit 0, nat_lit 3, nat_lit 1, nat_lit 0, nat_lit 4⟩]⟩,
    ⟨nat_lit 47, [⟨nat_lit 0, nat_lit 0, nat_lit 0, nat_lit 1, nat_lit 1⟩, ⟨nat_lit 2, nat_lit 0, nat_lit 0, nat_lit 3, nat_lit 4⟩]⟩,
    ⟨nat_lit 51, [⟨nat_lit 1, nat_lit 0, nat_lit 0, nat_lit 1, nat_lit 2⟩]⟩,
    ⟨nat_lit 89, [⟨nat_lit 1, nat_lit 0, nat_lit 0, nat_lit 2, nat_lit 3⟩, ⟨nat_lit 0, nat_lit 1, nat_lit 0, nat_lit 2, nat_lit 3⟩]⟩,
    ⟨nat_lit 361, [⟨nat_lit 0, nat_lit 5, nat_lit 0, nat_lit 6, nat_lit 15⟩]⟩,
    ⟨nat_lit 373, [⟨nat_lit 0, nat_lit 6, nat_lit 0, nat_lit 7, nat_lit 19⟩]⟩,
    ⟨nat_lit 58, [⟨nat_lit 5, nat_lit 0, nat_lit 1, nat_lit 0, nat_lit 7⟩]⟩,
    ⟨nat_lit 312, [⟨nat_lit 0, nat_lit 7, nat_lit 0, nat_lit 3, nat_lit 14⟩]⟩,
    ⟨nat_lit 52, [⟨nat_lit 7, nat_lit 0, nat_lit 2, nat_lit 0, nat_lit 13⟩]⟩,
    ⟨nat_lit 360, [⟨nat_lit 0, nat_lit 7, nat_lit 0, nat_lit 4, nat_lit 15⟩]⟩,
    ⟨nat_lit 348, [⟨nat_lit 0, nat_lit 7, nat_lit 0, nat_lit 5, nat_lit 17⟩, ⟨nat_lit 0, nat_lit 15, nat_lit 0, nat_lit 9, nat_lit 59⟩]⟩,
    ⟨nat_lit 100, [⟨nat_lit 7, nat_lit 0, nat_lit 3, nat_lit 0, nat_lit 14⟩]⟩,
    ⟨nat_lit 121, [⟨nat_lit 2, nat_lit 0, nat_lit 0, nat_lit 2, nat_lit 3⟩]⟩,
    ⟨nat_lit 65, [⟨nat_lit 3, nat_lit 0, nat_lit 0, nat_lit 2, nat_lit 5⟩]⟩,
    ⟨nat_lit 61, [⟨nat_lit 3, nat_lit 0, nat_lit 0, nat_lit 3, nat_lit 6⟩]⟩,
    ⟨nat_lit 629, [⟨nat_lit 0, nat_lit 2, nat_lit 1, nat_lit 0, nat_lit 2⟩]⟩,
    ⟨nat_lit 547, [⟨nat_lit 0, nat_lit 2, nat_lit 2, nat_lit 0, nat_lit 3⟩]⟩,
    ⟨nat_lit 561, [⟨nat_lit 0, nat_lit 3, nat_lit 2, nat_lit 0, nat_lit 5⟩]⟩,
    ⟨nat_lit 55, [⟨nat_lit 0, nat_lit 2, nat_lit 0, nat_lit 1, nat_lit 2⟩]⟩,
    ⟨nat_lit 609, [⟨nat_lit 0, nat_lit 3, nat_lit 3, nat_lit 0, nat_lit 6⟩]⟩,
    ⟨nat_lit 117, [⟨nat_lit 0, nat_lit 3, nat_lit 0, nat_lit 2, nat_lit 5⟩]⟩,
    ⟨nat_lit 113, [⟨nat_lit 4, nat_lit 0, nat_lit 0, nat_lit 5, nat_lit 11⟩, ⟨nat_lit 2, nat_lit 0, nat_lit 0, nat_lit 1, nat_lit 3⟩]⟩,
    ⟨nat_lit 600, [⟨nat_lit 0, nat_lit 0, nat_lit 0, nat_lit 5, nat_lit 7⟩]⟩,
    ⟨nat_lit 533, [⟨nat_lit 0, nat_lit 2, nat_lit 0, nat_lit 1, nat_lit 3⟩, ⟨nat_lit 0, nat_lit 2, nat_lit 1, nat_lit 0, nat_lit 3⟩]⟩,
    ⟨nat_lit 272, [⟨nat_lit 1, nat_lit 0, nat_lit 0, nat_lit 1, nat_lit 2⟩]⟩,
    ⟨nat_lit 328, [⟨nat_lit 2, nat_lit 0, nat_lit 0, nat_lit 1, nat_lit 3⟩, ⟨nat_lit 2, nat_lit 0, nat_lit 0, nat_lit 5, nat_lit 8⟩]⟩,
    ⟨nat_lit 344, [⟨nat_lit 0, nat_lit 0, nat_lit 0, nat_lit 2, nat_lit 2⟩]⟩,
    ⟨nat_lit 276, [⟨nat_lit 0, nat_lit 1, nat_lit 0, nat_lit 2, nat_lit 3⟩, ⟨nat_lit 0, nat_lit 27, nat_lit 0, nat_lit 15, nat_lit 172⟩]⟩,
    ⟨nat_lit 599, [⟨nat_lit 0, nat_lit 5, nat_lit 0, nat_lit 0, nat_lit 7⟩]⟩,
    ⟨nat_lit 861, [⟨nat_lit 0, nat_lit 0, nat_lit 0, nat_lit 2, nat_lit 2⟩]⟩,
    ⟨nat_lit 785, [⟨nat_lit 1, nat_lit 0, nat_lit 0, nat_lit 2, nat_lit 3⟩]⟩,
    ⟨nat_lit 64, [⟨nat_lit 5, nat_lit 0, nat_lit 0, nat_lit 0, nat_lit 7⟩]⟩,
    ⟨nat_lit 314, [⟨nat_lit 2, nat_lit 0, nat_lit 0, nat_lit 1, nat_lit 3⟩]⟩,
    ⟨nat_lit 332, [⟨nat_lit 0, nat_lit 13, nat_lit 0, nat_lit 7, nat_lit 43⟩]⟩,
    ⟨nat_lit 605, [⟨nat_lit 0, nat_lit 7, nat_lit 0, nat_lit 5, nat_lit 17⟩, ⟨nat_lit 0, nat_lit 5, nat_lit 0, nat_lit 7, nat_lit 17⟩]⟩,
    ⟨nat_lit 9, [⟨nat_lit 2, nat_lit 0, nat_lit 0, nat_lit 3, nat_lit 5⟩, ⟨nat_lit 0, nat_lit 2, nat_lit 0, nat_lit 3, nat_lit 5⟩]⟩,
    ⟨nat_lit 93, [⟨nat_lit 2, nat_lit 0, nat_lit 0, nat_lit 4, nat_lit 6⟩]⟩,
    ⟨nat_lit 17, [⟨nat_lit 3, nat_lit 0, nat_lit 0, nat_lit 4, nat_lit 7⟩, ⟨nat_lit 4, nat_lit 0, nat_lit 0, nat_lit 3, nat_lit 7⟩]⟩,
    ⟨nat_lit 337, [⟨nat_lit 0, nat_lit 2, nat_lit 3, nat_lit 0, nat_lit 5⟩]⟩,
    ⟨nat_lit 513, [⟨nat_lit 0, nat_lit 3, nat_lit 2, nat_lit 0, nat_lit 5⟩]⟩,
    ⟨nat_lit 280, [⟨nat_lit 1, nat_lit 0, nat_lit 0, nat_lit 2, nat_lit 2⟩]⟩,
    ⟨nat_lit 320, [⟨nat_lit 2, nat_lit 0, nat_lit 0, nat_lit 2, nat_lit 3⟩]⟩,
    ⟨nat_lit 857, [⟨nat_lit 0, nat_lit 1, nat_lit 0, nat_lit 2, nat_lit 2⟩]⟩,
    ⟨nat_lit 789, [⟨nat_lit 0, nat_lit 2, nat_lit 0, nat_lit 2, nat_lit 3⟩]⟩,
    ⟨nat_lit 302, [⟨nat_lit 1, nat_lit 0, nat_lit 0, nat_lit 5, nat_lit 7⟩]⟩,
    ⟨nat_lit 637, [⟨nat_lit 0, nat_lit 2, nat_lit 0, nat_lit 0, nat_lit 2⟩]⟩,
    ⟨nat_lit 541, [⟨nat_lit 0, nat_lit 4, nat_lit 2, nat_lit 0, nat_lit 6⟩]⟩]

theorem form_l2 : formB Zoo.arw.mult (DilFast.coreOf tab_l2) = true := by rw [lit]; decide +kernel

theorem autos_l2 : DilFast.autosF .plane 260 43 tab_l2 frow = true := by decide +kernel

theorem closed_l2 : DilFast.closedF .plane 2 4 260 43 frow tab_l2 tab_l2 = true := by decide +kernel

def pt1_l2 : Pt := ⟨[1, 2, 1], [2], 2 / 3, [1, 0]⟩
def pt2_l2 : Pt := ⟨[2, 1, 0, 1], [2, 2], 2 / 3, [0, 1]⟩
theorem low_l2 : lowB .l2sq Zoo.arw 0 pt1_l2 pt2_l2 (67600 / 1849) := by rw [lit]; decide +kernel

theorem cert_l2 : Cert .l2 Zoo.arw (260 / 43) (260 / 43) :=
  DilFast.cert (p := 0) (.inr (.inr rfl)) (vn := 260) (vd := 43) (by decide) rfl (by norm_num [bnd, Metric.sq]) div_eq genus_eq okRows rows form_l2 autos_l2 closed_l2
    (by norm_num [Metric.sq, Metric.ratio]; exact low_l2)

def tab_linf : List DilFast.Bin := [
    ⟨nat_lit 826, [⟨nat_lit 1, nat_lit 0, nat_lit 0, nat_lit 0, nat_lit 1⟩]⟩,
    ⟨nat_lit 333, [⟨nat_lit 0, nat_lit 1, nat_lit 0, nat_lit 1, nat_lit 1⟩]⟩,
    ⟨nat_lit 572, [⟨nat_lit 0, nat_lit 0, nat_lit 0, nat_lit 1, nat_lit 1⟩, ⟨nat_lit 1, nat_lit 0, nat_lit 0, nat_lit 3, nat_lit 3⟩]⟩,
    ⟨nat_lit 858, [⟨nat_lit 1, nat_lit 0, nat_lit 0, nat_lit 0, nat_lit 1⟩]⟩,
    ⟨nat_lit 549, [⟨nat_lit 0, nat_lit 1, nat_lit 0, nat_lit 0, nat_lit 1⟩]⟩,
    ⟨nat_lit 316, [⟨nat_lit 0, nat_lit 0, nat_lit 0, nat_lit 1, nat_lit 1⟩]⟩,
    ⟨nat_lit 40, [⟨nat_lit 1, nat_lit 0, nat_lit 0, nat_lit 0, nat_lit 1⟩, ⟨nat_lit 7, nat_lit 0, nat_lit 1, nat_lit 0, nat_lit 12⟩]⟩,
    ⟨nat_lit 268, [⟨nat_lit 0, nat_lit 0, nat_lit 0, nat_lit 1, nat_lit 1⟩]⟩,
    ⟨nat_lit 84, [⟨nat_lit 0, nat_lit 0, nat_lit 1, nat_lit 0, nat_lit 1⟩]⟩,
    ⟨nat_lit 524, [⟨nat_lit 0, nat_lit 0, nat_lit 0, nat_lit 1, nat_lit 1⟩]⟩,
    ⟨nat_lit 110, [⟨nat_lit 1, nat_lit 0, nat_lit 0, nat_lit 0, nat_lit 1⟩]⟩,
    ⟨nat_lit 819, [⟨nat_lit 0, nat_lit 0, nat_lit 0, nat_lit 1, nat_lit 1⟩]⟩,
    ⟨nat_lit 815, [⟨nat_lit 0, nat_lit 0, nat_lit 0, nat_lit 2, nat_lit 2⟩]⟩,
    ⟨nat_lit 536, [⟨nat_lit 1, nat_lit 0, nat_lit 0, nat_lit 2, nat_lit 2⟩]⟩,
    ⟨nat_lit 781, [⟨nat_lit 0, nat_lit 1, nat_lit 0, nat_lit 1, nat_lit 1⟩]⟩,
    ⟨nat_lit 805, [⟨nat_lit 0, nat_lit 2, nat_lit 0, nat_lit 1, nat_lit 2⟩]⟩,
    ⟨nat_lit 120, [⟨nat_lit 2, nat_lit 0, nat_lit 0, nat_lit 0, nat_lit 2⟩]⟩,
    ⟨nat_lit 368, [⟨nat_lit 1, nat_lit 0, nat_lit 0, nat_lit 0, nat_lit 1⟩]⟩,
    ⟨nat_lit 791, [⟨nat_lit 0, nat_lit 0, nat_lit 0, nat_lit 2, nat_lit 2⟩]⟩,
    ⟨nat_lit 105, [⟨nat_lit 0, nat_lit 0, nat_lit 0, nat_lit 1, nat_lit 1⟩]⟩,
    ⟨nat_lit 364, [⟨nat_lit 0, nat_lit 0, nat_lit 0, nat_lit 2, nat_lit 2⟩]⟩,
    ⟨nat_lit 620, [⟨nat_lit 0, nat_lit 0, nat_lit 0, nat_lit 2, nat_lit 2⟩]⟩,
    ⟨nat_lit 567, [⟨nat_lit 0, nat_lit 2, nat_lit 0, nat_lit 0, nat_lit 2⟩]⟩,
    ⟨nat_lit 47, [⟨nat_lit 0, nat_lit 0, nat_lit 0, nat_lit 1, nat_lit 1⟩]⟩,
    ⟨nat_lit 58, [⟨nat_lit 5, nat_lit 0, nat_lit 1, nat_lit 0, nat_lit 7⟩]⟩,
    ⟨nat_lit 629, [⟨nat_lit 0, nat_lit 2, nat_lit 1, nat_lit 0, nat_lit 2⟩]⟩,
    ⟨nat_lit 109, [⟨nat_lit 0, nat_lit 1, nat_lit 0, nat_lit 1, nat_lit 1⟩]⟩,
    ⟨nat_lit 55, [⟨nat_lit 0, nat_lit 2, nat_lit 0, nat_lit 1, nat_lit 2⟩]⟩,
    ⟨nat_lit 600, [⟨nat_lit 0, nat_lit 0, nat_lit 0, nat_lit 5, nat_lit 7⟩]⟩,
    ⟨nat_lit 344, [⟨nat_lit 0, nat_lit 0, nat_lit 0, nat_lit 2, nat_lit 2⟩]⟩,
    ⟨nat_lit 599, [⟨nat_lit 0, nat_lit 5, nat_lit 0, nat_lit 0, nat_lit 7⟩]⟩,
    ⟨nat_lit 777, [⟨nat_lit 0, nat_lit 0, nat_lit 0, nat_lit 1, nat_lit 1⟩]⟩,
    ⟨nat_lit 861, [⟨nat_lit 0, nat_lit 0, nat_lit 0, nat_lit 2, nat_lit 2⟩]⟩,
    ⟨nat_lit 64, [⟨nat_lit 5, nat_lit 0, nat_lit 0, nat_lit 0, nat_lit 7⟩]⟩,
    ⟨nat_lit 558, [⟨nat_lit 1, nat_lit 0, nat_lit 0, nat_lit 11, nat_lit 27⟩]⟩,
    ⟨nat_lit 280, [⟨nat_lit 1, nat_lit 0, nat_lit 0, nat_lit 2, nat_lit 2⟩]⟩,
    ⟨nat_lit 857, [⟨nat_lit 0, nat_lit 1, nat_lit 0, nat_lit 2, nat_lit 2⟩]⟩,
    ⟨nat_lit 302, [⟨nat_lit 1, nat_lit 0, nat_lit 0, nat_lit 5, nat_lit 7⟩]⟩,
    ⟨nat_lit 637, [⟨nat_lit 0, nat_lit 2, nat_lit 0, nat_lit 0, nat_lit 2⟩]⟩]

theorem form_linf : formB Zoo.arw.mult (DilFast.coreOf tab_linf) = true := by rw [lit]; decide +kernel

theorem autos_linf : DilFast.autosF .linf 27 5 tab_linf frow = true := by decide +kernel

theorem closed_linf : DilFast.closedF .linf 2 4 27 5 frow tab_linf tab_linf = true := by decide +kernel

def pt1_linf : Pt := ⟨[1, 2], [2, 2], 2 / 3, [1, 1]⟩
def pt2_linf : Pt := ⟨[2, 0, 1], [1], 1 / 3, [0, 0]⟩
theorem low_linf : lowB .linf Zoo.arw 0 pt1_linf pt2_linf (27 / 5) := by rw [lit]; decide +kernel

theorem cert_linf : Cert .linf Zoo.arw (27 / 5) (27 / 5) :=
  DilFast.cert (p := 0) (.inl rfl) (vn := 27) (vd := 5) (by decide) rfl (by norm_num [bnd, Metric.sq]) div_eq genus_eq okRows rows form_linf autos_linf closed_linf
    (by norm_num [Metric.sq, Metric.ratio]; exact low_linf)

end Peano.ZooDil.Arw

namespace Peano.ZooDil.Bauman
open DilCert Zoo

def frow : List (List DilFast.Row) := [
    [⟨nat_lit 0, nat_lit 0, nat_lit 0, nat_lit 0⟩, ⟨nat_lit 1, nat_lit 0, nat_lit 8, nat_lit 0⟩, ⟨nat_lit 1, nat_lit 1, nat_lit 13, nat_lit 0⟩, ⟨nat_lit 0, nat_lit 1, nat_lit 5, nat_lit 0⟩, ⟨nat_lit 0, nat_lit 2, nat_lit 0, nat_lit 0⟩, ⟨nat_lit 1, nat_lit 2, nat_lit 0, nat_lit 0⟩, ⟨nat_lit 2, nat_lit 2, nat_lit 3, nat_lit 0⟩, ⟨nat_lit 2, nat_lit 1, nat_lit 11, nat_lit 0⟩, ⟨nat_lit 2, nat_lit 0, nat_lit 11, nat_lit 0⟩]]

theorem lit : Zoo.bauman = DilFast.curve 3 frow := by decide +kernel

theorem div_eq : Zoo.bauman.div = 3 := by rw [lit]; decide +kernel

theorem genus_eq : Zoo.bauman.genus = 9 := by rw [lit]; decide +kernel

theorem okRows : DilFast.OkRows 3 frow := by decide +kernel

theorem rows : Rows Zoo.bauman (DilFast.prowOf frow) := by rw [lit]; decide +kernel

def tab_l2 : List DilFast.Bin := [
    ⟨nat_lit 16, [⟨nat_lit 1, nat_lit 0, nat_lit 0, nat_lit 0, nat_lit 1⟩, ⟨nat_lit 4, nat_lit 0, nat_lit 0, nat_lit 2, nat_lit 6⟩]⟩,
    ⟨nat_lit 26, [⟨nat_lit 1, nat_lit 0, nat_lit 1, nat_lit 0, nat_lit 2⟩]⟩,
    ⟨nat_lit 6, [⟨nat_lit 1, nat_lit 0, nat_lit 0, nat_lit 0, nat_lit 1⟩]⟩,
    ⟨nat_lit 22, [⟨nat_lit 1, nat_lit 0, nat_lit 0, nat_lit 1, nat_lit 2⟩]⟩,
    ⟨nat_lit 19, [⟨nat_lit 0, nat_lit 0, nat_lit 0, nat_lit 1, nat_lit 1⟩, ⟨nat_lit 2, nat_lit 0, nat_lit 0, nat_lit 4, nat_lit 6⟩]⟩,
    ⟨nat_lit 21, [⟨nat_lit 0, nat_lit 1, nat_lit 0, nat_lit 1, nat_lit 2⟩, ⟨nat_lit 0, nat_lit 1, nat_lit 0, nat_lit 0, nat_lit 1⟩]⟩,
    ⟨nat_lit 9, [⟨nat_lit 0, nat_lit 0, nat_lit 0, nat_lit 1, nat_lit 1⟩]⟩,
    ⟨nat_lit 15, [⟨nat_lit 2, nat_lit 0, nat_lit 0, nat_lit 1, nat_lit 3⟩, ⟨nat_lit 1, nat_lit 0, nat_lit 0, nat_lit 2, nat_lit 3⟩]⟩,
    ⟨nat_lit 0, [⟨nat_lit 1, nat_lit 0, nat_lit 0, nat_lit 0, nat_lit 1⟩]⟩,
    ⟨nat_lit 3, [⟨nat_lit 0, nat_lit 1, nat_lit 0, nat_lit 0, nat_lit 1⟩]⟩,
    ⟨nat_lit 25, [⟨nat_lit 1, nat_lit 0, nat_lit 0, nat_lit 1, nat_lit 2⟩, ⟨nat_lit 0, nat_lit 1, nat_lit 0, nat_lit 1, nat_lit 2⟩, ⟨nat_lit 0, nat_lit 0, nat_lit 0, nat_lit 1, nat_lit 1⟩]⟩,
    ⟨nat_lit 5, [⟨nat_lit 0, nat_lit 1, nat_lit 0, nat_lit 2, nat_lit 3⟩, ⟨nat_lit 0, nat_lit 1, nat_lit 2, nat_lit 0, nat_lit 3⟩, ⟨nat_lit 0, nat_lit 1, nat_lit 0, nat_lit 1, nat_lit 2⟩, ⟨nat_lit 0, nat_lit 1, nat_lit 1, nat_lit 0, nat_lit 2⟩]⟩,
    ⟨nat_lit 12, [⟨nat_lit 1, nat_lit 0, nat_lit 0, nat_lit 2, nat_lit 3⟩]⟩]

theorem form_l2 : formB Zoo.bauman.mult (DilFast.coreOf tab_l2) = true := by rw [lit]; decide +kernel

theorem autos_l2 : DilFast.autosF .plane 17 3 tab_l2 frow = true := by decide +kernel

theorem closed_l2 : DilFast.closedF .plane 3 9 17 3 frow tab_l2 tab_l2 = true := by decide +kernel

def pt1_l2 : Pt := ⟨[4, 4], [4], 1 / 2, [0, 1]⟩
def pt2_l2 : Pt := ⟨[5, 1], [4], 1 / 2, [1, 0]⟩
theorem low_l2 : lowB .l2sq Zoo.bauman 0 pt1_l2 pt2_l2 (289 / 9) := by rw [lit]; decide +kernel

theorem cert_l2 : Cert .l2 Zoo.bauman (17 / 3) (17 / 3) :=
  DilFast.cert (p := 0) (.inr (.inr rfl)) (vn := 17) (vd := 3) (by decide) rfl (by norm_num [bnd, Metric.sq]) div_eq genus_eq okRows rows form_l2 autos_l2 closed_l2
    (by norm_num [Metric.sq, Metric.ratio]; exact low_l2)

def tab_linf : List DilFast.Bin := [
    ⟨nat_lit 16, [⟨nat_lit 1, nat_lit 0, nat_lit 0, nat_lit 0, nat_lit 1⟩]⟩,
    ⟨nat_lit 6, [⟨nat_lit 1, nat_lit 0, nat_lit 0, nat_lit 0, nat_lit 1⟩, ⟨nat_lit 2, nat_lit 0, nat_lit 0, nat_lit 0, nat_lit 2⟩]⟩,
    ⟨nat_lit 19, [⟨nat_lit 0, nat_lit 0, nat_lit 0, nat_lit 1, nat_lit 1⟩, ⟨nat_lit 0, nat_lit 0, nat_lit 0, nat_lit 2, nat_lit 2⟩]⟩,
    ⟨nat_lit 9, [⟨nat_lit 0, nat_lit 0, nat_lit 0, nat_lit 1, nat_lit 1⟩, ⟨nat_lit 0, nat_lit 0, nat_lit 0, nat_lit 2, nat_lit 2⟩]⟩,
    ⟨nat_lit 0, [⟨nat_lit 1, nat_lit 0, nat_lit 0, nat_lit 0, nat_lit 1⟩]⟩,
    ⟨nat_lit 3, [⟨nat_lit 0, nat_lit 1, nat_lit 0, nat_lit 0, nat_lit 1⟩]⟩,
    ⟨nat_lit 25, [⟨nat_lit 0, nat_lit 0, nat_lit 0, nat_lit 1, nat_lit 1⟩]⟩,
    ⟨nat_lit 21, [⟨nat_lit 0, nat_lit 1, nat_lit 0, nat_lit 0, nat_lit 1⟩]⟩]

theorem form_linf : formB Zoo.bauman.mult (DilFast.coreOf tab_linf) = true := by rw [lit]; decide +kernel

theorem autos_linf : DilFast.autosF .linf 9 2 tab_linf frow = true := by decide +kernel

theorem closed_linf : DilFast.closedF .linf 3 9 9 2 frow tab_linf tab_linf = true := by decide +kernel

def pt1_linf : Pt := ⟨[4], [4], 1 / 2, [0, 1]⟩
def pt2_linf : Pt := ⟨[6], [4], 1 / 2, [1, 1]⟩
theorem low_linf : lowB .linf Zoo.bauman 0 pt1_linf pt2_linf (9 / 2) := by rw [lit]; decide +kernel

theorem cert_linf : Cert .linf Zoo.bauman (9 / 2) (9 / 2) :=
  DilFast.cert (p := 0) (.inl rfl) (vn := 9) (vd := 2) (by decide) rfl (by norm_num [bnd, Metric.sq]) div_eq genus_eq okRows rows form_linf autos_linf closed_linf
    (by norm_num [Metric.sq, Metric.ratio]; exact low_linf)

end Peano.ZooDil.Bauman

namespace Peano.ZooDil.BetaOmega
open DilCert Zoo

def frow : List (List DilFast.Row) := [
    [⟨nat_lit 0, nat_lit 0, nat_lit 4, nat_lit 1⟩, ⟨nat_lit 0, nat_lit 1, nat_lit 10, nat_lit 1⟩, ⟨nat_lit 1, nat_lit 1, nat_lit 9, nat_lit 1⟩, ⟨nat_lit 1, nat_lit 0, nat_lit 7, nat_lit 1⟩],
    [⟨nat_lit 0, nat_lit 0, nat_lit 4, nat_lit 1⟩, ⟨nat_lit 0, nat_lit 1, nat_lit 10, nat_lit 1⟩, ⟨nat_lit 1, nat_lit 1, nat_lit 9, nat_lit 1⟩, ⟨nat_lit 1, nat_lit 0, nat_lit 12, nat_lit 0⟩]]

theorem lit : Zoo.betaOmega = DilFast.curve 2 frow := by decide +kernel

theorem div_eq : Zoo.betaOmega.div = 2 := by rw [lit]; decide +kernel

theorem genus_eq : Zoo.betaOmega.genus = 4 := by rw [lit]; decide +kernel

theorem okRows : DilFast.OkRows 2 frow := by decide +kernel

theorem rows : Rows Zoo.betaOmega (DilFast.prowOf frow) := by rw [lit]; decide +kernel

def tab_l1 : List DilFast.Bin := [
    ⟨nat_lit 316, [⟨nat_lit 0, nat_lit 0, nat_lit 0, nat_lit 1, nat_lit 1⟩]⟩,
    ⟨nat_lit 314, [⟨nat_lit 1, nat_lit 0, nat_lit 0, nat_lit 1, nat_lit 2⟩]⟩,
    ⟨nat_lit 298, [⟨nat_lit 0, nat_lit 0, nat_lit 0, nat_lit 1, nat_lit 1⟩]⟩,
    ⟨nat_lit 310, [⟨nat_lit 0, nat_lit 1, nat_lit 0, nat_lit 1, nat_lit 2⟩]⟩,
    ⟨nat_lit 319, [⟨nat_lit 0, nat_lit 1, nat_lit 0, nat_lit 0, nat_lit 1⟩]⟩,
    ⟨nat_lit 268, [⟨nat_lit 0, nat_lit 1, nat_lit 0, nat_lit 1, nat_lit 2⟩]⟩,
    ⟨nat_lit 261, [⟨nat_lit 0, nat_lit 1, nat_lit 0, nat_lit 0, nat_lit 1⟩]⟩,
    ⟨nat_lit 300, [⟨nat_lit 0, nat_lit 2, nat_lit 0, nat_lit 1, nat_lit 3⟩, ⟨nat_lit 0, nat_lit 3, nat_lit 0, nat_lit 1, nat_lit 4⟩]⟩,
    ⟨nat_lit 293, [⟨nat_lit 0, nat_lit 2, nat_lit 0, nat_lit 0, nat_lit 2⟩, ⟨nat_lit 0, nat_lit 1, nat_lit 0, nat_lit 0, nat_lit 1⟩]⟩,
    ⟨nat_lit 313, [⟨nat_lit 0, nat_lit 2, nat_lit 0, nat_lit 1, nat_lit 3⟩, ⟨nat_lit 0, nat_lit 1, nat_lit 0, nat_lit 1, nat_lit 2⟩]⟩,
    ⟨nat_lit 32, [⟨nat_lit 1, nat_lit 0, nat_lit 0, nat_lit 0, nat_lit 1⟩]⟩,
    ⟨nat_lit 60, [⟨nat_lit 1, nat_lit 0, nat_lit 0, nat_lit 1, nat_lit 2⟩]⟩,
    ⟨nat_lit 58, [⟨nat_lit 2, nat_lit 0, nat_lit 0, nat_lit 1, nat_lit 3⟩]⟩,
    ⟨nat_lit 266, [⟨nat_lit 0, nat_lit 2, nat_lit 0, nat_lit 1, nat_lit 3⟩]⟩,
    ⟨nat_lit 259, [⟨nat_lit 0, nat_lit 2, nat_lit 0, nat_lit 0, nat_lit 2⟩, ⟨nat_lit 0, nat_lit 1, nat_lit 0, nat_lit 0, nat_lit 1⟩]⟩,
    ⟨nat_lit 303, [⟨nat_lit 0, nat_lit 3, nat_lit 0, nat_lit 1, nat_lit 4⟩, ⟨nat_lit 0, nat_lit 2, nat_lit 0, nat_lit 1, nat_lit 3⟩]⟩,
    ⟨nat_lit 6, [⟨nat_lit 1, nat_lit 0, nat_lit 0, nat_lit 0, nat_lit 1⟩]⟩,
    ⟨nat_lit 42, [⟨nat_lit 2, nat_lit 0, nat_lit 0, nat_lit 1, nat_lit 3⟩]⟩,
    ⟨nat_lit 278, [⟨nat_lit 0, nat_lit 1, nat_lit 0, nat_lit 2, nat_lit 3⟩]⟩,
    ⟨nat_lit 287, [⟨nat_lit 0, nat_lit 1, nat_lit 1, nat_lit 0, nat_lit 2⟩]⟩,
    ⟨nat_lit 309, [⟨nat_lit 0, nat_lit 1, nat_lit 2, nat_lit 0, nat_lit 3⟩, ⟨nat_lit 0, nat_lit 1, nat_lit 1, nat_lit 0, nat_lit 2⟩]⟩]

theorem form_l1 : formB Zoo.betaOmega.mult (DilFast.coreOf tab_l1) = true := by rw [lit]; decide +kernel

theorem autos_l1 : DilFast.autosF .l1 9 1 tab_l1 frow = true := by decide +kernel

theorem closed_l1 : DilFast.closedF .l1 2 4 9 1 frow tab_l1 tab_l1 = true := by decide +kernel

def pt1_l1 : Pt := ⟨[0], [2, 1], 3 / 5, [1, 0]⟩
def pt2_l1 : Pt := ⟨[1], [2, 1], 3 / 5, [0, 1]⟩
theorem low_l1 : lowB .l1 Zoo.betaOmega 0 pt1_l1 pt2_l1 (9) := by rw [lit]; decide +kernel

theorem cert_l1 : Cert .l1 Zoo.betaOmega (9) (9) :=
  DilFast.cert (p := 0) (.inr (.inl rfl)) (vn := 9) (vd := 1) (by decide) rfl (by norm_num [bnd, Metric.sq]) div_eq genus_eq okRows rows form_l1 autos_l1 closed_l1
    (by norm_num [Metric.sq, Metric.ratio]; exact low_l1)

def tab_l2 : List DilFast.Bin := [
    ⟨nat_lit 316, [⟨nat_lit 0, nat_lit 0, nat_lit 0, nat_lit 1, nat_lit 1⟩]⟩,
    ⟨nat_lit 314, [⟨nat_lit 1, nat_lit 0, nat_lit 0, nat_lit 1, nat_lit 2⟩]⟩,
    ⟨nat_lit 298, [⟨nat_lit 0, nat_lit 0, nat_lit 0, nat_lit 1, nat_lit 1⟩]⟩,
    ⟨nat_lit 310, [⟨nat_lit 0, nat_lit 1, nat_lit 0, nat_lit 1, nat_lit 2⟩]⟩,
    ⟨nat_lit 319, [⟨nat_lit 0, nat_lit 1, nat_lit 0, nat_lit 0, nat_lit 1⟩]⟩,
    ⟨nat_lit 268, [⟨nat_lit 0, nat_lit 1, nat_lit 0, nat_lit 1, nat_lit 2⟩]⟩,
    ⟨nat_lit 261, [⟨nat_lit 0, nat_lit 1, nat_lit 0, nat_lit 0, nat_lit 1⟩]⟩,
    ⟨nat_lit 300, [⟨nat_lit 0, nat_lit 2, nat_lit 0, nat_lit 1, nat_lit 3⟩, ⟨nat_lit 0, nat_lit 3, nat_lit 0, nat_lit 1, nat_lit 4⟩]⟩,
    ⟨nat_lit 293, [⟨nat_lit 0, nat_lit 2, nat_lit 0, nat_lit 0, nat_lit 2⟩, ⟨nat_lit 0, nat_lit 3, nat_lit 0, nat_lit 0, nat_lit 3⟩, ⟨nat_lit 0, nat_lit 1, nat_lit 0, nat_lit 0, nat_lit 1⟩]⟩,
    ⟨nat_lit 313, [⟨nat_lit 0, nat_lit 2, nat_lit 0, nat_lit 1, nat_lit 3⟩, ⟨nat_lit 0, nat_lit 1, nat_lit 0, nat_lit 1, nat_lit 2⟩]⟩,
    ⟨nat_lit 32, [⟨nat_lit 1, nat_lit 0, nat_lit 0, nat_lit 0, nat_lit 1⟩]⟩,
    ⟨nat_lit 60, [⟨nat_lit 1, nat_lit 0, nat_lit 0, nat_lit 1, nat_lit 2⟩]⟩,
    ⟨nat_lit 58, [⟨nat_lit 2, nat_lit 0, nat_lit 0, nat_lit 1, nat_lit 3⟩]⟩,
    ⟨nat_lit 266, [⟨nat_lit 0, nat_lit 2, nat_lit 0, nat_lit 1, nat_lit 3⟩]⟩,
    ⟨nat_lit 259, [⟨nat_lit 0, nat_lit 2, nat_lit 0, nat_lit 0, nat_lit 2⟩, ⟨nat_lit 0, nat_lit 1, nat_lit 0, nat_lit 0, nat_lit 1⟩]⟩,
    ⟨nat_lit 303, [⟨nat_lit 0, nat_lit 3, nat_lit 0, nat_lit 1, nat_lit 4⟩, ⟨nat_lit 0, nat_lit 2, nat_lit 0, nat_lit 1, nat_lit 3⟩]⟩,
    ⟨nat_lit 6, [⟨nat_lit 1, nat_lit 0, nat_lit 0, nat_lit 0, nat_lit 1⟩]⟩,
    ⟨nat_lit 42, [⟨nat_lit 2, nat_lit 0, nat_lit 0, nat_lit 1, nat_lit 3⟩]⟩,
    ⟨nat_lit 278, [⟨nat_lit 0, nat_lit 1, nat_lit 0, nat_lit 2, nat_lit 3⟩]⟩,
    ⟨nat_lit 287, [⟨nat_lit 0, nat_lit 1, nat_lit 1, nat_lit 0, nat_lit 2⟩]⟩,
    ⟨nat_lit 309, [⟨nat_lit 0, nat_lit 1, nat_lit 2, nat_lit 0, nat_lit 3⟩, ⟨nat_lit 0, nat_lit 1, nat_lit 1, nat_lit 0, nat_lit 2⟩]⟩,
    ⟨nat_lit 47, [⟨nat_lit 0, nat_lit 1, nat_lit 0, nat_lit 7, nat_lit 14⟩]⟩]

theorem form_l2 : formB Zoo.betaOmega.mult (DilFast.coreOf tab_l2) = true := by rw [lit]; decide +kernel

theorem autos_l2 : DilFast.autosF .plane 5 1 tab_l2 frow = true := by decide +kernel

theorem closed_l2 : DilFast.closedF .plane 2 4 5 1 frow tab_l2 tab_l2 = true := by decide +kernel

def pt1_l2 : Pt := ⟨[0], [2, 1], 3 / 5, [1, 0]⟩
def pt2_l2 : Pt := ⟨[1], [2, 1], 3 / 5, [0, 1]⟩
theorem low_l2 : lowB .l2sq Zoo.betaOmega 0 pt1_l2 pt2_l2 (25) := by rw [lit]; decide +kernel

theorem cert_l2 : Cert .l2 Zoo.betaOmega (5) (5) :=
  DilFast.cert (p := 0) (.inr (.inr rfl)) (vn := 5) (vd := 1) (by decide) rfl (by norm_num [bnd, Metric.sq]) div_eq genus_eq okRows rows form_l2 autos_l2 closed_l2
    (by norm_num [Metric.sq, Metric.ratio]; exact low_l2)

def tab_linf : List DilFast.Bin := [
    ⟨nat_lit 316, [⟨nat_lit 0, nat_lit 0, nat_lit 0, nat_lit 1, nat_lit 1⟩]⟩,
    ⟨nat_lit 298, [⟨nat_lit 0, nat_lit 0, nat_lit 0, nat_lit 1, nat_lit 1⟩]⟩,
    ⟨nat_lit 319, [⟨nat_lit 0, nat_lit 1, nat_lit 0, nat_lit 0, nat_lit 1⟩]⟩,
    ⟨nat_lit 261, [⟨nat_lit 0, nat_lit 1, nat_lit 0, nat_lit 0, nat_lit 1⟩]⟩,
    ⟨nat_lit 293, [⟨nat_lit 0, nat_lit 2, nat_lit 0, nat_lit 0, nat_lit 2⟩, ⟨nat_lit 0, nat_lit 3, nat_lit 0, nat_lit 0, nat_lit 3⟩, ⟨nat_lit 0, nat_lit 1, nat_lit 0, nat_lit 0, nat_lit 1⟩]⟩,
    ⟨nat_lit 32, [⟨nat_lit 1, nat_lit 0, nat_lit 0, nat_lit 0, nat_lit 1⟩]⟩,
    ⟨nat_lit 300, [⟨nat_lit 0, nat_lit 3, nat_lit 0, nat_lit 1, nat_lit 4⟩]⟩,
    ⟨nat_lit 259, [⟨nat_lit 0, nat_lit 2, nat_lit 0, nat_lit 0, nat_lit 2⟩, ⟨nat_lit 0, nat_lit 1, nat_lit 0, nat_lit 0, nat_lit 1⟩]⟩,
    ⟨nat_lit 303, [⟨nat_lit 0, nat_lit 3, nat_lit 0, nat_lit 1, nat_lit 4⟩]⟩,
    ⟨nat_lit 6, [⟨nat_lit 1, nat_lit 0, nat_lit 0, nat_lit 0, nat_lit 1⟩]⟩]

theorem form_linf : formB Zoo.betaOmega.mult (DilFast.coreOf tab_linf) = true := by rw [lit]; decide +kernel

theorem autos_linf : DilFast.autosF .linf 5 1 tab_linf frow = true := by decide +kernel

theorem closed_linf : DilFast.closedF .linf 2 4 5 1 frow tab_linf tab_linf = true := by decide +kernel

def pt1_linf : Pt := ⟨[1], [2, 1], 3 / 5, [0, 1]⟩
def pt2_linf : Pt := ⟨[2], [1, 2], 2 / 5, [1, 1]⟩
theorem low_linf : lowB .linf Zoo.betaOmega 0 pt1_linf pt2_linf (5) := by rw [lit]; decide +kernel

theorem cert_linf : Cert .linf Zoo.betaOmega (5) (5) :=
  DilFast.cert (p := 0) (.inl rfl) (vn := 5) (vd := 1) (by decide) rfl (by norm_num [bnd, Metric.sq]) div_eq genus_eq okRows rows form_linf autos_linf closed_linf
    (by norm_num [Metric.sq, Metric.ratio]; exact low_linf)

end Peano.ZooDil.BetaOmega

namespace Peano.ZooDil.Coil
open DilCert Zoo

def frow : List (List DilFast.Row) := [
    [⟨nat_lit 0, nat_lit 0, nat_lit 8, nat_lit 0⟩, ⟨nat_lit 0, nat_lit 1, nat_lit 10, nat_lit 0⟩, ⟨nat_lit 0, nat_lit 2, nat_lit 8, nat_lit 0⟩, ⟨nat_lit 1, nat_lit 2, nat_lit 12, nat_lit 0⟩, ⟨nat_lit 1, nat_lit 1, nat_lit 14, nat_lit 0⟩, ⟨nat_lit 1, nat_lit 0, nat_lit 12, nat_lit 0⟩, ⟨nat_lit 2, nat_lit 0, nat_lit 8, nat_lit 0⟩, ⟨nat_lit 2, nat_lit 1, nat_lit 10, nat_lit 0⟩, ⟨nat_lit 2, nat_lit 2, nat_lit 8, nat_lit 0⟩]]

theorem lit : Zoo.coil = DilFast.curve 3 frow := by decide +kernel

theorem div_eq : Zoo.coil.div = 3 := by rw [lit]; decide +kernel

theorem genus_eq : Zoo.coil.genus = 9 := by rw [lit]; decide +kernel

theorem okRows : DilFast.OkRows 3 frow := by decide +kernel

theorem rows : Rows Zoo.coil (DilFast.prowOf frow) := by rw [lit]; decide +kernel

def tab_l1 : List DilFast.Bin := [
    ⟨nat_lit 8, [⟨nat_lit 1, nat_lit 0, nat_lit 0, nat_lit 0, nat_lit 1⟩]⟩,
    ⟨nat_lit 0, [⟨nat_lit 2, nat_lit 0, nat_lit 0, nat_lit 0, nat_lit 2⟩, ⟨nat_lit 0, nat_lit 2, nat_lit 2, nat_lit 0, nat_lit 4⟩]⟩,
    ⟨nat_lit 4, [⟨nat_lit 2, nat_lit 0, nat_lit 1, nat_lit 0, nat_lit 3⟩, ⟨nat_lit 0, nat_lit 0, nat_lit 1, nat_lit 0, nat_lit 1⟩]⟩,
    ⟨nat_lit 12, [⟨nat_lit 1, nat_lit 0, nat_lit 0, nat_lit 1, nat_lit 2⟩, ⟨nat_lit 0, nat_lit 1, nat_lit 1, nat_lit 0, nat_lit 2⟩, ⟨nat_lit 0, nat_lit 5, nat_lit 1, nat_lit 0, nat_lit 6⟩, ⟨nat_lit 5, nat_lit 0, nat_lit 0, nat_lit 1, nat_lit 6⟩]⟩]

theorem form_l1 : formB Zoo.coil.mult (DilFast.coreOf tab_l1) = true := by rw [lit]; decide +kernel

theorem autos_l1 : DilFast.autosF .l1 32 3 tab_l1 frow = true := by decide +kernel

theorem closed_l1 : DilFast.closedF .l1 3 9 32 3 frow tab_l1 tab_l1 = true := by decide +kernel

def pt1_l1 : Pt := ⟨[2, 5], [6, 2], 7 / 10, [0, 0]⟩
def pt2_l1 : Pt := ⟨[3, 2], [6, 2], 7 / 10, [1, 1]⟩
theorem low_l1 : lowB .l1 Zoo.coil 0 pt1_l1 pt2_l1 (32 / 3) := by rw [lit]; decide +kernel

theorem cert_l1 : Cert .l1 Zoo.coil (32 / 3) (32 / 3) :=
  DilFast.cert (p := 0) (.inr (.inl rfl)) (vn := 32) (vd := 3) (by decide) rfl (by norm_num [bnd, Metric.sq]) div_eq genus_eq okRows rows form_l1 autos_l1 closed_l1
    (by norm_num [Metric.sq, Metric.ratio]; exact low_l1)

def tab_l2 : List DilFast.Bin := [
    ⟨nat_lit 8, [⟨nat_lit 1, nat_lit 0, nat_lit 0, nat_lit 0, nat_lit 1⟩, ⟨nat_lit 5, nat_lit 0, nat_lit 0, nat_lit 0, nat_lit 5⟩]⟩,
    ⟨nat_lit 0, [⟨nat_lit 2, nat_lit 0, nat_lit 0, nat_lit 0, nat_lit 2⟩, ⟨nat_lit 4, nat_lit 0, nat_lit 0, nat_lit 0, nat_lit 4⟩]⟩,
    ⟨nat_lit 12, [⟨nat_lit 1, nat_lit 0, nat_lit 0, nat_lit 1, nat_lit 2⟩, ⟨nat_lit 0, nat_lit 1, nat_lit 1, nat_lit 0, nat_lit 2⟩, ⟨nat_lit 0, nat_lit 5, nat_lit 1, nat_lit 0, nat_lit 6⟩, ⟨nat_lit 5, nat_lit 0, nat_lit 0, nat_lit 1, nat_lit 6⟩]⟩,
    ⟨nat_lit 4, [⟨nat_lit 0, nat_lit 0, nat_lit 1, nat_lit 0, nat_lit 1⟩]⟩]

theorem form_l2 : formB Zoo.coil.mult (DilFast.coreOf tab_l2) = true := by rw [lit]; decide +kernel

theorem autos_l2 : DilFast.autosF .plane 20 3 tab_l2 frow = true := by decide +kernel

theorem closed_l2 : DilFast.closedF .plane 3 9 20 3 frow tab_l2 tab_l2 = true := by decide +kernel

def pt1_l2 : Pt := ⟨[2], [6, 2], 7 / 10, [0, 1]⟩
def pt2_l2 : Pt := ⟨[3], [2, 6], 3 / 10, [1, 1]⟩
theorem low_l2 : lowB .l2sq Zoo.coil 0 pt1_l2 pt2_l2 (400 / 9) := by rw [lit]; decide +kernel

theorem cert_l2 : Cert .l2 Zoo.coil (20 / 3) (20 / 3) :=
  DilFast.cert (p := 0) (.inr (.inr rfl)) (vn := 20) (vd := 3) (by decide) rfl (by norm_num [bnd, Metric.sq]) div_eq genus_eq okRows rows form_l2 autos_l2 closed_l2
    (by norm_num [Metric.sq, Metric.ratio]; exact low_l2)

def tab_linf : List DilFast.Bin := [
    ⟨nat_lit 8, [⟨nat_lit 1, nat_lit 0, nat_lit 0, nat_lit 0, nat_lit 1⟩, ⟨nat_lit 5, nat_lit 0, nat_lit 0, nat_lit 0, nat_lit 5⟩]⟩,
    ⟨nat_lit 0, [⟨nat_lit 2, nat_lit 0, nat_lit 0, nat_lit 0, nat_lit 2⟩, ⟨nat_lit 4, nat_lit 0, nat_lit 0, nat_lit 0, nat_lit 4⟩]⟩,
    ⟨nat_lit 4, [⟨nat_lit 0, nat_lit 0, nat_lit 1, nat_lit 0, nat_lit 1⟩]⟩,
    ⟨nat_lit 12, [⟨nat_lit 0, nat_lit 5, nat_lit 1, nat_lit 0, nat_lit 6⟩, ⟨nat_lit 5, nat_lit 0, nat_lit 0, nat_lit 1, nat_lit 6⟩]⟩]

theorem form_linf : formB Zoo.coil.mult (DilFast.coreOf tab_linf) = true := by rw [lit]; decide +kernel

theorem autos_linf : DilFast.autosF .linf 20 3 tab_linf frow = true := by decide +kernel

theorem closed_linf : DilFast.closedF .linf 3 9 20 3 frow tab_linf tab_linf = true := by decide +kernel

def pt1_linf : Pt := ⟨[2], [6, 2], 7 / 10, [0, 1]⟩
def pt2_linf : Pt := ⟨[3], [2, 6], 3 / 10, [1, 1]⟩
theorem low_linf : lowB .linf Zoo.coil 0 pt1_linf pt2_linf (20 / 3) := by rw [lit]; decide +kernel

theorem cert_linf : Cert .linf Zoo.coil (20 / 3) (20 / 3) :=
  DilFast.cert (p := 0) (.inl rfl) (vn := 20) (vd := 3) (by decide) rfl (by norm_num [bnd, Metric.sq]) div_eq genus_eq okRows rows form_linf autos_linf closed_linf
    (by norm_num [Metric.sq, Metric.ratio]; exact low_linf)

end Peano.ZooDil.Coil

namespace Peano.ZooDil.Hilbert
open DilCert Zoo

def frow : List (List DilFast.Row) := [
    [⟨nat_lit 0, nat_lit 0, nat_lit 8, nat_lit 0⟩, ⟨nat_lit 0, nat_lit 1, nat_lit 0, nat_lit 0⟩, ⟨nat_lit 1, nat_lit 1, nat_lit 0, nat_lit 0⟩, ⟨nat_lit 1, nat_lit 0, nat_lit 14, nat_lit 0⟩]]

theorem lit : Zoo.hilbert = DilFast.curve 2 frow := by decide +kernel

theorem div_eq : Zoo.hilbert.div = 2 := by rw [lit]; decide +kernel

theorem genus_eq : Zoo.hilbert.genus = 4 := by rw [lit]; decide +kernel

theorem okRows : DilFast.OkRows 2 frow := by decide +kernel

theorem rows : Rows Zoo.hilbert (DilFast.prowOf frow) := by rw [lit]; decide +kernel

def tab_l1 : List DilFast.Bin := [
    ⟨nat_lit 16, [⟨nat_lit 1, nat_lit 0, nat_lit 0, nat_lit 0, nat_lit 1⟩]⟩,
    ⟨nat_lit 0, [⟨nat_lit 1, nat_lit 0, nat_lit 0, nat_lit 0, nat_lit 1⟩]⟩,
    ⟨nat_lit 28, [⟨nat_lit 1, nat_lit 0, nat_lit 0, nat_lit 1, nat_lit 2⟩, ⟨nat_lit 0, nat_lit 0, nat_lit 0, nat_lit 1, nat_lit 1⟩]⟩,
    ⟨nat_lit 12, [⟨nat_lit 0, nat_lit 0, nat_lit 0, nat_lit 2, nat_lit 2⟩, ⟨nat_lit 0, nat_lit 0, nat_lit 0, nat_lit 1, nat_lit 1⟩]⟩]

theorem form_l1 : formB Zoo.hilbert.mult (DilFast.coreOf tab_l1) = true := by rw [lit]; decide +kernel

theorem autos_l1 : DilFast.autosF .l1 9 1 tab_l1 frow = true := by decide +kernel

theorem closed_l1 : DilFast.closedF .l1 2 4 9 1 frow tab_l1 tab_l1 = true := by decide +kernel

def pt1_l1 : Pt := ⟨[0], [1], 1 / 3, [1, 0]⟩
def pt2_l1 : Pt := ⟨[1], [1], 1 / 3, [0, 1]⟩
theorem low_l1 : lowB .l1 Zoo.hilbert 0 pt1_l1 pt2_l1 (9) := by rw [lit]; decide +kernel

theorem cert_l1 : Cert .l1 Zoo.hilbert (9) (9) :=
  DilFast.cert (p := 0) (.inr (.inl rfl)) (vn := 9) (vd := 1) (by decide) rfl (by norm_num [bnd, Metric.sq]) div_eq genus_eq okRows rows form_l1 autos_l1 closed_l1
    (by norm_num [Metric.sq, Metric.ratio]; exact low_l1)

def tab_l2 : List DilFast.Bin := [
    ⟨nat_lit 16, [⟨nat_lit 1, nat_lit 0, nat_lit 0, nat_lit 0, nat_lit 1⟩]⟩,
    ⟨nat_lit 0, [⟨nat_lit 1, nat_lit 0, nat_lit 0, nat_lit 0, nat_lit 1⟩]⟩,
    ⟨nat_lit 28, [⟨nat_lit 1, nat_lit 0, nat_lit 0, nat_lit 1, nat_lit 2⟩, ⟨nat_lit 0, nat_lit 0, nat_lit 0, nat_lit 1, nat_lit 1⟩]⟩,
    ⟨nat_lit 12, [⟨nat_lit 0, nat_lit 0, nat_lit 0, nat_lit 2, nat_lit 2⟩, ⟨nat_lit 0, nat_lit 0, nat_lit 0, nat_lit 1, nat_lit 1⟩]⟩]

theorem form_l2 : formB Zoo.hilbert.mult (DilFast.coreOf tab_l2) = true := by rw [lit]; decide +kernel

theorem autos_l2 : DilFast.autosF .plane 6 1 tab_l2 frow = true := by decide +kernel

theorem closed_l2 : DilFast.closedF .plane 2 4 6 1 frow tab_l2 tab_l2 = true := by decide +kernel

def pt1_l2 : Pt := ⟨[1, 3], [2], 2 / 3, [0, 0]⟩
def pt2_l2 : Pt := ⟨[2, 0], [1], 1 / 3, [1, 0]⟩
theorem low_l2 : lowB .l2sq Zoo.hilbert 0 pt1_l2 pt2_l2 (36) := by rw [lit]; decide +kernel

theorem cert_l2 : Cert .l2 Zoo.hilbert (6) (6) :=
  DilFast.cert (p := 0) (.inr (.inr rfl)) (vn := 6) (vd := 1) (by decide) rfl (by norm_num [bnd, Metric.sq]) div_eq genus_eq okRows rows form_l2 autos_l2 closed_l2
    (by norm_num [Metric.sq, Metric.ratio]; exact low_l2)

def tab_linf : List DilFast.Bin := [
    ⟨nat_lit 16, [⟨nat_lit 1, nat_lit 0, nat_lit 0, nat_lit 0, nat_lit 1⟩]⟩,
    ⟨nat_lit 0, [⟨nat_lit 1, nat_lit 0, nat_lit 0, nat_lit 0, nat_lit 1⟩]⟩,
    ⟨nat_lit 28, [⟨nat_lit 0, nat_lit 0, nat_lit 0, nat_lit 1, nat_lit 1⟩]⟩,
    ⟨nat_lit 12, [⟨nat_lit 0, nat_lit 0, nat_lit 0, nat_lit 2, nat_lit 2⟩, ⟨nat_lit 0, nat_lit 0, nat_lit 0, nat_lit 1, nat_lit 1⟩]⟩]

theorem form_linf : formB Zoo.hilbert.mult (DilFast.coreOf tab_linf) = true := by rw [lit]; decide +kernel

theorem autos_linf : DilFast.autosF .linf 6 1 tab_linf frow = true := by decide +kernel

theorem closed_linf : DilFast.closedF .linf 2 4 6 1 frow tab_linf tab_linf = true := by decide +kernel

def pt1_linf : Pt := ⟨[1, 3], [2], 2 / 3, [0, 0]⟩
def pt2_linf : Pt := ⟨[2, 0], [1], 1 / 3, [1, 0]⟩
theorem low_linf : lowB .linf Zoo.hilbert 0 pt1_linf pt2_linf (6) := by rw [lit]; decide +kernel

theorem cert_linf : Cert .linf Zoo.hilbert (6) (6) :=
  DilFast.cert (p := 0) (.inl rfl) (vn := 6) (vd := 1) (by decide) rfl (by norm_num [bnd, Metric.sq]) div_eq genus_eq okRows rows form_linf autos_linf closed_linf
    (by norm_num [Metric.sq, Metric.ratio]; exact low_linf)

end Peano.ZooDil.Hilbert

namespace Peano.ZooDil.Meurthe
open DilCert Zoo

def frow : List (List DilFast.Row) := [
    [⟨nat_lit 0, nat_lit 0, nat_lit 8, nat_lit 0⟩, ⟨nat_lit 0, nat_lit 1, nat_lit 10, nat_lit 0⟩, ⟨nat_lit 0, nat_lit 2, nat_lit 0, nat_lit 0⟩, ⟨nat_lit 1, nat_lit 2, nat_lit 12, nat_lit 0⟩, ⟨nat_lit 1, nat_lit 1, nat_lit 14, nat_lit 0⟩, ⟨nat_lit 1, nat_lit 0, nat_lit 4, nat_lit 0⟩, ⟨nat_lit 2, nat_lit 0, nat_lit 8, nat_lit 0⟩, ⟨nat_lit 2, nat_lit 1, nat_lit 10, nat_lit 0⟩, ⟨nat_lit 2, nat_lit 2, nat_lit 0, nat_lit 0⟩]]

theorem lit : Zoo.meurthe = DilFast.curve 3 frow := by decide +kernel

theorem div_eq : Zoo.meurthe.div = 3 := by rw [lit]; decide +kernel

theorem genus_eq : Zoo.meurthe.genus = 9 := by rw [lit]; decide +kernel

theorem okRows : DilFast.OkRows 3 frow := by decide +kernel

theorem rows : Rows Zoo.meurthe (DilFast.prowOf frow) := by rw [lit]; decide +kernel

def tab_l1 : List DilFast.Bin := [
    ⟨nat_lit 8, [⟨nat_lit 1, nat_lit 0, nat_lit 0, nat_lit 0, nat_lit 1⟩]⟩,
    ⟨nat_lit 16, [⟨nat_lit 2, nat_lit 0, nat_lit 0, nat_lit 0, nat_lit 2⟩, ⟨nat_lit 4, nat_lit 0, nat_lit 0, nat_lit 2, nat_lit 6⟩]⟩,
    ⟨nat_lit 4, [⟨nat_lit 2, nat_lit 0, nat_lit 1, nat_lit 0, nat_lit 3⟩, ⟨nat_lit 2, nat_lit 0, nat_lit 3, nat_lit 0, nat_lit 5⟩]⟩,
    ⟨nat_lit 24, [⟨nat_lit 1, nat_lit 0, nat_lit 0, nat_lit 0, nat_lit 1⟩]⟩,
    ⟨nat_lit 12, [⟨nat_lit 1, nat_lit 0, nat_lit 0, nat_lit 1, nat_lit 2⟩]⟩,
    ⟨nat_lit 28, [⟨nat_lit 1, nat_lit 0, nat_lit 0, nat_lit 1, nat_lit 2⟩]⟩,
    ⟨nat_lit 0, [⟨nat_lit 2, nat_lit 0, nat_lit 0, nat_lit 2, nat_lit 4⟩, ⟨nat_lit 2, nat_lit 0, nat_lit 0, nat_lit 0, nat_lit 2⟩]⟩,
    ⟨nat_lit 20, [⟨nat_lit 2, nat_lit 0, nat_lit 1, nat_lit 0, nat_lit 3⟩]⟩]

theorem form_l1 : formB Zoo.meurthe.mult (DilFast.coreOf tab_l1) = true := by rw [lit]; decide +kernel

theorem autos_l1 : DilFast.autosF .l1 32 3 tab_l1 frow = true := by decide +kernel

theorem closed_l1 : DilFast.closedF .l1 3 9 32 3 frow tab_l1 tab_l1 = true := by decide +kernel

def pt1_l1 : Pt := ⟨[1, 5], [2], 1 / 4, [1, 0]⟩
def pt2_l1 : Pt := ⟨[2, 2], [2], 1 / 4, [0, 1]⟩
theorem low_l1 : lowB .l1 Zoo.meurthe 0 pt1_l1 pt2_l1 (32 / 3) := by rw [lit]; decide +kernel

theorem cert_l1 : Cert .l1 Zoo.meurthe (32 / 3) (32 / 3) :=
  DilFast.cert (p := 0) (.inr (.inl rfl)) (vn := 32) (vd := 3) (by decide) rfl (by norm_num [bnd, Metric.sq]) div_eq genus_eq okRows rows form_l1 autos_l1 closed_l1
    (by norm_num [Metric.sq, Metric.ratio]; exact low_l1)

def tab_l2 : List DilFast.Bin := [
    ⟨nat_lit 8, [⟨nat_lit 1, nat_lit 0, nat_lit 0, nat_lit 0, nat_lit 1⟩]⟩,
    ⟨nat_lit 16, [⟨nat_lit 2, nat_lit 0, nat_lit 0, nat_lit 0, nat_lit 2⟩, ⟨nat_lit 4, nat_lit 0, nat_lit 0, nat_lit 2, nat_lit 6⟩]⟩,
    ⟨nat_lit 4, [⟨nat_lit 2, nat_lit 0, nat_lit 1, nat_lit 0, nat_lit 3⟩, ⟨nat_lit 2, nat_lit 0, nat_lit 3, nat_lit 0, nat_lit 5⟩]⟩,
    ⟨nat_lit 24, [⟨nat_lit 1, nat_lit 0, nat_lit 0, nat_lit 0, nat_lit 1⟩, ⟨nat_lit 3, nat_lit 0, nat_lit 0, nat_lit 0, nat_lit 3⟩]⟩,
    ⟨nat_lit 12, [⟨nat_lit 1, nat_lit 0, nat_lit 0, nat_lit 1, nat_lit 2⟩, ⟨nat_lit 1, nat_lit 0, nat_lit 0, nat_lit 3, nat_lit 4⟩, ⟨nat_lit 3, nat_lit 0, nat_lit 0, nat_lit 1, nat_lit 4⟩]⟩,
    ⟨nat_lit 28, [⟨nat_lit 1, nat_lit 0, nat_lit 0, nat_lit 1, nat_lit 2⟩]⟩,
    ⟨nat_lit 0, [⟨nat_lit 2, nat_lit 0, nat_lit 0, nat_lit 2, nat_lit 4⟩, ⟨nat_lit 2, nat_lit 0, nat_lit 0, nat_lit 0, nat_lit 2⟩]⟩,
    ⟨nat_lit 20, [⟨nat_lit 2, nat_lit 0, nat_lit 1, nat_lit 0, nat_lit 3⟩]⟩]

theorem form_l2 : formB Zoo.meurthe.mult (DilFast.coreOf tab_l2) = true := by rw [lit]; decide +kernel

theorem autos_l2 : DilFast.autosF .plane 17 3 tab_l2 frow = true := by decide +kernel

theorem closed_l2 : DilFast.closedF .plane 3 9 17 3 frow tab_l2 tab_l2 = true := by decide +kernel

def pt1_l2 : Pt := ⟨[1, 5], [2], 1 / 4, [1, 0]⟩
def pt2_l2 : Pt := ⟨[2, 2], [2], 1 / 4, [0, 1]⟩
theorem low_l2 : lowB .l2sq Zoo.meurthe 0 pt1_l2 pt2_l2 (289 / 9) := by rw [lit]; decide +kernel

theorem cert_l2 : Cert .l2 Zoo.meurthe (17 / 3) (17 / 3) :=
  DilFast.cert (p := 0) (.inr (.inr rfl)) (vn := 17) (vd := 3) (by decide) rfl (by norm_num [bnd, Metric.sq]) div_eq genus_eq okRows rows form_l2 autos_l2 closed_l2
    (by norm_num [Metric.sq, Metric.ratio]; exact low_l2)

def tab_linf : List DilFast.Bin := [
    ⟨nat_lit 8, [⟨nat_lit 1, nat_lit 0, nat_lit 0, nat_lit 0, nat_lit 1⟩]⟩,
    ⟨nat_lit 16, [⟨nat_lit 2, nat_lit 0, nat_lit 0, nat_lit 0, nat_lit 2⟩]⟩,
    ⟨nat_lit 24, [⟨nat_lit 1, nat_lit 0, nat_lit 0, nat_lit 0, nat_lit 1⟩, ⟨nat_lit 3, nat_lit 0, nat_lit 0, nat_lit 0, nat_lit 3⟩]⟩,
    ⟨nat_lit 0, [⟨nat_lit 2, nat_lit 0, nat_lit 0, nat_lit 0, nat_lit 2⟩]⟩]

theorem form_linf : formB Zoo.meurthe.mult (DilFast.coreOf tab_linf) = true := by rw [lit]; decide +kernel

theorem autos_linf : DilFast.autosF .linf 16 3 tab_linf frow = true := by decide +kernel

theorem closed_linf : DilFast.closedF .linf 3 9 16 3 frow tab_linf tab_linf = true := by decide +kernel

def pt1_linf : Pt := ⟨[1, 8], [2], 1 / 4, [0, 0]⟩
def pt2_linf : Pt := ⟨[2, 2], [2], 1 / 4, [0, 1]⟩
theorem low_linf : lowB .linf Zoo.meurthe 0 pt1_linf pt2_linf (16 / 3) := by rw [lit]; decide +kernel

theorem cert_linf : Cert .linf Zoo.meurthe (16 / 3) (16 / 3) :=
  DilFast.cert (p := 0) (.inl rfl) (vn := 16) (vd := 3) (by decide) rfl (by norm_num [bnd, Metric.sq]) div_eq genus_eq okRows rows form_linf autos_linf closed_linf
    (by norm_num [Metric.sq, Metric.ratio]; exact low_linf)

end Peano.ZooDil.Meurthe

namespace Peano.ZooDil.Peano
open DilCert Zoo

def frow : List (List DilFast.Row) := [
    [⟨nat_lit 0, nat_lit 0, nat_lit 0, nat_lit 0⟩, ⟨nat_lit 0, nat_lit 1, nat_lit 2, nat_lit 0⟩, ⟨nat_lit 0, nat_lit 2, nat_lit 0, nat_lit 0⟩, ⟨nat_lit 1, nat_lit 2, nat_lit 4, nat_lit 0⟩, ⟨nat_lit 1, nat_lit 1, nat_lit 6, nat_lit 0⟩, ⟨nat_lit 1, nat_lit 0, nat_lit 4, nat_lit 0⟩, ⟨nat_lit 2, nat_lit 0, nat_lit 0, nat_lit 0⟩, ⟨nat_lit 2, nat_lit 1, nat_lit 2, nat_lit 0⟩, ⟨nat_lit 2, nat_lit 2, nat_lit 0, nat_lit 0⟩]]

theorem lit : Zoo.peano = DilFast.curve 3 frow := by decide +kernel

theorem div_eq : Zoo.peano.div = 3 := by rw [lit]; decide +kernel

theorem genus_eq : Zoo.peano.genus = 9 := by rw [lit]; decide +kernel

theorem okRows : DilFast.OkRows 3 frow := by decide +kernel

theorem rows : Rows Zoo.peano (DilFast.prowOf frow) := by rw [lit]; decide +kernel

def tab_l1 : List DilFast.Bin := [
    ⟨nat_lit 4, [⟨nat_lit 0, nat_lit 0, nat_lit 1, nat_lit 0, nat_lit 1⟩]⟩,
    ⟨nat_lit 0, [⟨nat_lit 0, nat_lit 0, nat_lit 2, nat_lit 0, nat_lit 2⟩, ⟨nat_lit 2, nat_lit 0, nat_lit 0, nat_lit 2, nat_lit 4⟩]⟩,
    ⟨nat_lit 8, [⟨nat_lit 1, nat_lit 0, nat_lit 2, nat_lit 0, nat_lit 3⟩, ⟨nat_lit 1, nat_lit 0, nat_lit 0, nat_lit 0, nat_lit 1⟩]⟩,
    ⟨nat_lit 12, [⟨nat_lit 0, nat_lit 1, nat_lit 1, nat_lit 0, nat_lit 2⟩, ⟨nat_lit 1, nat_lit 0, nat_lit 0, nat_lit 1, nat_lit 2⟩, ⟨nat_lit 1, nat_lit 0, nat_lit 0, nat_lit 5, nat_lit 6⟩, ⟨nat_lit 0, nat_lit 1, nat_lit 5, nat_lit 0, nat_lit 6⟩]⟩]

theorem form_l1 : formB Zoo.peano.mult (DilFast.coreOf tab_l1) = true := by rw [lit]; decide +kernel

theorem autos_l1 : DilFast.autosF .l1 32 3 tab_l1 frow = true := by decide +kernel

theorem closed_l1 : DilFast.closedF .l1 3 9 32 3 frow tab_l1 tab_l1 = true := by decide +kernel

def pt1_l1 : Pt := ⟨[0], [6], 3 / 4, [1, 0]⟩
def pt2_l1 : Pt := ⟨[2], [2], 1 / 4, [0, 1]⟩
theorem low_l1 : lowB .l1 Zoo.peano 0 pt1_l1 pt2_l1 (32 / 3) := by rw [lit]; decide +kernel

theorem cert_l1 : Cert .l1 Zoo.peano (32 / 3) (32 / 3) :=
  DilFast.cert (p := 0) (.inr (.inl rfl)) (vn := 32) (vd := 3) (by decide) rfl (by norm_num [bnd, Metric.sq]) div_eq genus_eq okRows rows form_l1 autos_l1 closed_l1
    (by norm_num [Metric.sq, Metric.ratio]; exact low_l1)

def tab_l2 : List DilFast.Bin := [
    ⟨nat_lit 4, [⟨nat_lit 0, nat_lit 0, nat_lit 1, nat_lit 0, nat_lit 1⟩]⟩,
    ⟨nat_lit 0, [⟨nat_lit 0, nat_lit 0, nat_lit 2, nat_lit 0, nat_lit 2⟩]⟩,
    ⟨nat_lit 8, [⟨nat_lit 1, nat_lit 0, nat_lit 0, nat_lit 0, nat_lit 1⟩]⟩]

theorem form_l2 : formB Zoo.peano.mult (DilFast.coreOf tab_l2) = true := by rw [lit]; decide +kernel

theorem autos_l2 : DilFast.autosF .plane 8 1 tab_l2 frow = true := by decide +kernel

theorem closed_l2 : DilFast.closedF .plane 3 9 8 1 frow tab_l2 tab_l2 = true := by decide +kernel

def pt1_l2 : Pt := ⟨[0], [6], 3 / 4, [1, 0]⟩
def pt2_l2 : Pt := ⟨[1], [2], 1 / 4, [1, 1]⟩
theorem low_l2 : lowB .l2sq Zoo.peano 0 pt1_l2 pt2_l2 (64) := by rw [lit]; decide +kernel

theorem cert_l2 : Cert .l2 Zoo.peano (8) (8) :=
  DilFast.cert (p := 0) (.inr (.inr rfl)) (vn := 8) (vd := 1) (by decide) rfl (by norm_num [bnd, Metric.sq]) div_eq genus_eq okRows rows form_l2 autos_l2 closed_l2
    (by norm_num [Metric.sq, Metric.ratio]; exact low_l2)

def tab_linf : List DilFast.Bin := [
    ⟨nat_lit 4, [⟨nat_lit 0, nat_lit 0, nat_lit 1, nat_lit 0, nat_lit 1⟩]⟩,
    ⟨nat_lit 0, [⟨nat_lit 0, nat_lit 0, nat_lit 2, nat_lit 0, nat_lit 2⟩]⟩,
    ⟨nat_lit 8, [⟨nat_lit 1, nat_lit 0, nat_lit 0, nat_lit 0, nat_lit 1⟩]⟩]

theorem form_linf : formB Zoo.peano.mult (DilFast.coreOf tab_linf) = true := by rw [lit]; decide +kernel

theorem autos_linf : DilFast.autosF .linf 8 1 tab_linf frow = true := by decide +kernel

theorem closed_linf : DilFast.closedF .linf 3 9 8 1 frow tab_linf tab_linf = true := by decide +kernel

def pt1_linf : Pt := ⟨[0], [6], 3 / 4, [1, 0]⟩
def pt2_linf : Pt := ⟨[1], [2], 1 / 4, [1, 1]⟩
theorem low_linf : lowB .linf Zoo.peano 0 pt1_linf pt2_linf (8) := by rw [lit]; decide +kernel

theorem cert_linf : Cert .linf Zoo.peano (8) (8) :=
  DilFast.cert (p := 0) (.inl rfl) (vn := 8) (vd := 1) (by decide) rfl (by norm_num [bnd, Metric.sq]) div_eq genus_eq okRows rows form_linf autos_linf closed_linf
    (by norm_num [Metric.sq, Metric.ratio]; exact low_linf)

end Peano.ZooDil.Peano

namespace Peano.ZooDil.RCurve
open DilCert Zoo

def frow : List (List DilFast.Row) := [
    [⟨nat_lit 0, nat_lit 0, nat_lit 8, nat_lit 0⟩, ⟨nat_lit 0, nat_lit 1, nat_lit 8, nat_lit 0⟩, ⟨nat_lit 0, nat_lit 2, nat_lit 0, nat_lit 0⟩, ⟨nat_lit 1, nat_lit 2, nat_lit 0, nat_lit 0⟩, ⟨nat_lit 2, nat_lit 2, nat_lit 0, nat_lit 0⟩, ⟨nat_lit 2, nat_lit 1, nat_lit 6, nat_lit 0⟩, ⟨nat_lit 1, nat_lit 1, nat_lit 14, nat_lit 0⟩, ⟨nat_lit 1, nat_lit 0, nat_lit 14, nat_lit 0⟩, ⟨nat_lit 2, nat_lit 0, nat_lit 0, nat_lit 0⟩]]

theorem lit : Zoo.rCurve = DilFast.curve 3 frow := by decide +kernel

theorem div_eq : Zoo.rCurve.div = 3 := by rw [lit]; decide +kernel

theorem genus_eq : Zoo.rCurve.genus = 9 := by rw [lit]; decide +kernel

theorem okRows : DilFast.OkRows 3 frow := by decide +kernel

theorem rows : Rows Zoo.rCurve (DilFast.prowOf frow) := by rw [lit]; decide +kernel

def tab_l1 : List DilFast.Bin := [
    ⟨nat_lit 0, [⟨nat_lit 1, nat_lit 0, nat_lit 0, nat_lit 0, nat_lit 1⟩]⟩,
    ⟨nat_lit 16, [⟨nat_lit 2, nat_lit 0, nat_lit 0, nat_lit 0, nat_lit 2⟩, ⟨nat_lit 1, nat_lit 0, nat_lit 0, nat_lit 0, nat_lit 1⟩]⟩,
    ⟨nat_lit 12, [⟨nat_lit 2, nat_lit 0, nat_lit 0, nat_lit 1, nat_lit 3⟩, ⟨nat_lit 1, nat_lit 0, nat_lit 0, nat_lit 1, nat_lit 2⟩, ⟨nat_lit 0, nat_lit 0, nat_lit 0, nat_lit 1, nat_lit 1⟩, ⟨nat_lit 0, nat_lit 2, nat_lit 0, nat_lit 4, nat_lit 6⟩]⟩,
    ⟨nat_lit 28, [⟨nat_lit 0, nat_lit 1, nat_lit 0, nat_lit 1, nat_lit 2⟩, ⟨nat_lit 1, nat_lit 0, nat_lit 0, nat_lit 1, nat_lit 2⟩, ⟨nat_lit 0, nat_lit 0, nat_lit 0, nat_lit 1, nat_lit 1⟩, ⟨nat_lit 0, nat_lit 2, nat_lit 0, nat_lit 4, nat_lit 6⟩]⟩]

theorem form_l1 : formB Zoo.rCurve.mult (DilFast.coreOf tab_l1) = true := by rw [lit]; decide +kernel

theorem autos_l1 : DilFast.autosF .l1 32 3 tab_l1 frow = true := by decide +kernel

theorem closed_l1 : DilFast.closedF .l1 3 9 32 3 frow tab_l1 tab_l1 = true := by decide +kernel

def pt1_l1 : Pt := ⟨[0, 7], [4], 1 / 2, [0, 0]⟩
def pt2_l1 : Pt := ⟨[1, 4], [4], 1 / 2, [1, 1]⟩
theorem low_l1 : lowB .l1 Zoo.rCurve 0 pt1_l1 pt2_l1 (32 / 3) := by rw [lit]; decide +kernel

theorem cert_l1 : Cert .l1 Zoo.rCurve (32 / 3) (32 / 3) :=
  DilFast.cert (p := 0) (.inr (.inl rfl)) (vn := 32) (vd := 3) (by decide) rfl (by norm_num [bnd, Metric.sq]) div_eq genus_eq okRows rows form_l1 autos_l1 closed_l1
    (by norm_num [Metric.sq, Metric.ratio]; exact low_l1)

def tab_l2 : List DilFast.Bin := [
    ⟨nat_lit 0, [⟨nat_lit 1, nat_lit 0, nat_lit 0, nat_lit 0, nat_lit 1⟩]⟩,
    ⟨nat_lit 16, [⟨nat_lit 2, nat_lit 0, nat_lit 0, nat_lit 0, nat_lit 2⟩, ⟨nat_lit 1, nat_lit 0, nat_lit 0, nat_lit 0, nat_lit 1⟩]⟩,
    ⟨nat_lit 12, [⟨nat_lit 1, nat_lit 0, nat_lit 0, nat_lit 1, nat_lit 2⟩, ⟨nat_lit 0, nat_lit 0, nat_lit 0, nat_lit 1, nat_lit 1⟩, ⟨nat_lit 0, nat_lit 0, nat_lit 0, nat_lit 4, nat_lit 4⟩]⟩,
    ⟨nat_lit 28, [⟨nat_lit 0, nat_lit 1, nat_lit 0, nat_lit 1, nat_lit 2⟩, ⟨nat_lit 1, nat_lit 0, nat_lit 0, nat_lit 1, nat_lit 2⟩, ⟨nat_lit 0, nat_lit 0, nat_lit 0, nat_lit 1, nat_lit 1⟩]⟩]

theorem form_l2 : formB Zoo.rCurve.mult (DilFast.coreOf tab_l2) = true := by rw [lit]; decide +kernel

theorem autos_l2 : DilFast.autosF .plane 20 3 tab_l2 frow = true := by decide +kernel

theorem closed_l2 : DilFast.closedF .plane 3 9 20 3 frow tab_l2 tab_l2 = true := by decide +kernel

def pt1_l2 : Pt := ⟨[1, 7], [4], 1 / 2, [0, 0]⟩
def pt2_l2 : Pt := ⟨[2, 2], [2], 1 / 4, [0, 1]⟩
theorem low_l2 : lowB .l2sq Zoo.rCurve 0 pt1_l2 pt2_l2 (400 / 9) := by rw [lit]; decide +kernel

theorem cert_l2 : Cert .l2 Zoo.rCurve (20 / 3) (20 / 3) :=
  DilFast.cert (p := 0) (.inr (.inr rfl)) (vn := 20) (vd := 3) (by decide) rfl (by norm_num [bnd, Metric.sq]) div_eq genus_eq okRows rows form_l2 autos_l2 closed_l2
    (by norm_num [Metric.sq, Metric.ratio]; exact low_l2)

def tab_linf : List DilFast.Bin := [
    ⟨nat_lit 0, [⟨nat_lit 1, nat_lit 0, nat_lit 0, nat_lit 0, nat_lit 1⟩]⟩,
    ⟨nat_lit 16, [⟨nat_lit 2, nat_lit 0, nat_lit 0, nat_lit 0, nat_lit 2⟩, ⟨nat_lit 1, nat_lit 0, nat_lit 0, nat_lit 0, nat_lit 1⟩]⟩,
    ⟨nat_lit 12, [⟨nat_lit 0, nat_lit 0, nat_lit 0, nat_lit 1, nat_lit 1⟩, ⟨nat_lit 0, nat_lit 0, nat_lit 0, nat_lit 4, nat_lit 4⟩]⟩,
    ⟨nat_lit 28, [⟨nat_lit 0, nat_lit 0, nat_lit 0, nat_lit 1, nat_lit 1⟩]⟩]

theorem form_linf : formB Zoo.rCurve.mult (DilFast.coreOf tab_linf) = true := by rw [lit]; decide +kernel

theorem autos_linf : DilFast.autosF .linf 20 3 tab_linf frow = true := by decide +kernel

theorem closed_linf : DilFast.closedF .linf 3 9 20 3 frow tab_linf tab_linf = true := by decide +kernel

def pt1_linf : Pt := ⟨[1, 7], [4], 1 / 2, [0, 0]⟩
def pt2_linf : Pt := ⟨[2, 2], [2], 1 / 4, [0, 1]⟩
theorem low_linf : lowB .linf Zoo.rCurve 0 pt1_linf pt2_linf (20 / 3) := by rw [lit]; decide +kernel

theorem cert_linf : Cert .linf Zoo.rCurve (20 / 3) (20 / 3) :=
  DilFast.cert (p := 0) (.inl rfl) (vn := 20) (vd := 3) (by decide) rfl (by norm_num [bnd, Metric.sq]) div_eq genus_eq okRows rows form_linf autos_linf closed_linf
    (by norm_num [Metric.sq, Metric.ratio]; exact low_linf)

end Peano.ZooDil.RCurve

namespace Peano.ZooDil.ScepinBauman
open DilCert Zoo

def frow : List (List DilFast.Row) := [
    [⟨nat_lit 0, nat_lit 0, nat_lit 0, nat_lit 0⟩, ⟨nat_lit 0, nat_lit 1, nat_lit 10, nat_lit 0⟩, ⟨nat_lit 0, nat_lit 2, nat_lit 8, nat_lit 0⟩, ⟨nat_lit 1, nat_lit 2, nat_lit 4, nat_lit 0⟩, ⟨nat_lit 1, nat_lit 1, nat_lit 14, nat_lit 0⟩, ⟨nat_lit 1, nat_lit 0, nat_lit 12, nat_lit 0⟩, ⟨nat_lit 2, nat_lit 0, nat_lit 0, nat_lit 0⟩, ⟨nat_lit 2, nat_lit 1, nat_lit 10, nat_lit 0⟩, ⟨nat_lit 2, nat_lit 2, nat_lit 8, nat_lit 0⟩]]

theorem lit : Zoo.scepinBauman = DilFast.curve 3 frow := by decide +kernel

theorem div_eq : Zoo.scepinBauman.div = 3 := by rw [lit]; decide +kernel

theorem genus_eq : Zoo.scepinBauman.genus = 9 := by rw [lit]; decide +kernel

theorem okRows : DilFast.OkRows 3 frow := by decide +kernel

theorem rows : Rows Zoo.scepinBauman (DilFast.prowOf frow) := by rw [lit]; decide +kernel

def tab_l1 : List DilFast.Bin := [
    ⟨nat_lit 20, [⟨nat_lit 0, nat_lit 0, nat_lit 1, nat_lit 0, nat_lit 1⟩]⟩,
    ⟨nat_lit 16, [⟨nat_lit 0, nat_lit 0, nat_lit 2, nat_lit 0, nat_lit 2⟩, ⟨nat_lit 0, nat_lit 2, nat_lit 4, nat_lit 0, nat_lit 6⟩]⟩,
    ⟨nat_lit 8, [⟨nat_lit 1, nat_lit 0, nat_lit 2, nat_lit 0, nat_lit 3⟩, ⟨nat_lit 1, nat_lit 0, nat_lit 0, nat_lit 0, nat_lit 1⟩]⟩,
    ⟨nat_lit 28, [⟨nat_lit 1, nat_lit 0, nat_lit 0, nat_lit 1, nat_lit 2⟩]⟩,
    ⟨nat_lit 12, [⟨nat_lit 0, nat_lit 1, nat_lit 1, nat_lit 0, nat_lit 2⟩]⟩,
    ⟨nat_lit 4, [⟨nat_lit 0, nat_lit 2, nat_lit 1, nat_lit 0, nat_lit 3⟩, ⟨nat_lit 0, nat_lit 2, nat_lit 3, nat_lit 0, nat_lit 5⟩]⟩,
    ⟨nat_lit 0, [⟨nat_lit 2, nat_lit 0, nat_lit 0, nat_lit 0, nat_lit 2⟩]⟩,
    ⟨nat_lit 24, [⟨nat_lit 1, nat_lit 0, nat_lit 0, nat_lit 2, nat_lit 3⟩]⟩]

theorem form_l1 : formB Zoo.scepinBauman.mult (DilFast.coreOf tab_l1) = true := by rw [lit]; decide +kernel

theorem autos_l1 : DilFast.autosF .l1 32 3 tab_l1 frow = true := by decide +kernel

theorem closed_l1 : DilFast.closedF .l1 3 9 32 3 frow tab_l1 tab_l1 = true := by decide +kernel

def pt1_l1 : Pt := ⟨[0, 6], [6], 3 / 4, [1, 0]⟩
def pt2_l1 : Pt := ⟨[1, 3], [6], 3 / 4, [0, 1]⟩
theorem low_l1 : lowB .l1 Zoo.scepinBauman 0 pt1_l1 pt2_l1 (32 / 3) := by rw [lit]; decide +kernel

theorem cert_l1 : Cert .l1 Zoo.scepinBauman (32 / 3) (32 / 3) :=
  DilFast.cert (p := 0) (.inr (.inl rfl)) (vn := 32) (vd := 3) (by decide) rfl (by norm_num [bnd, Metric.sq]) div_eq genus_eq okRows rows form_l1 autos_l1 closed_l1
    (by norm_num [Metric.sq, Metric.ratio]; exact low_l1)

def tab_l2 : List DilFast.Bin := [
    ⟨nat_lit 20, [⟨nat_lit 0, nat_lit 0, nat_lit 1, nat_lit 0, nat_lit 1⟩, ⟨nat_lit 0, nat_lit 0, nat_lit 3, nat_lit 0, nat_lit 3⟩]⟩,
    ⟨nat_lit 16, [⟨nat_lit 0, nat_lit 0, nat_lit 2, nat_lit 0, nat_lit 2⟩, ⟨nat_lit 0, nat_lit 2, nat_lit 4, nat_lit 0, nat_lit 6⟩]⟩,
    ⟨nat_lit 8, [⟨nat_lit 1, nat_lit 0, nat_lit 2, nat_lit 0, nat_lit 3⟩, ⟨nat_lit 1, nat_lit 0, nat_lit 0, nat_lit 0, nat_lit 1⟩]⟩,
    ⟨nat_lit 28, [⟨nat_lit 1, nat_lit 0, nat_lit 0, nat_lit 1, nat_lit 2⟩]⟩,
    ⟨nat_lit 12, [⟨nat_lit 0, nat_lit 1, nat_lit 1, nat_lit 0, nat_lit 2⟩, ⟨nat_lit 0, nat_lit 3, nat_lit 1, nat_lit 0, nat_lit 4⟩, ⟨nat_lit 0, nat_lit 1, nat_lit 3, nat_lit 0, nat_lit 4⟩]⟩,
    ⟨nat_lit 4, [⟨nat_lit 0, nat_lit 2, nat_lit 1, nat_lit 0, nat_lit 3⟩, ⟨nat_lit 0, nat_lit 2, nat_lit 3, nat_lit 0, nat_lit 5⟩]⟩,
    ⟨nat_lit 0, [⟨nat_lit 2, nat_lit 0, nat_lit 0, nat_lit 0, nat_lit 2⟩]⟩,
    ⟨nat_lit 24, [⟨nat_lit 1, nat_lit 0, nat_lit 0, nat_lit 2, nat_lit 3⟩]⟩]

theorem form_l2 : formB Zoo.scepinBauman.mult (DilFast.coreOf tab_l2) = true := by rw [lit]; decide +kernel

theorem autos_l2 : DilFast.autosF .plane 17 3 tab_l2 frow = true := by decide +kernel

theorem closed_l2 : DilFast.closedF .plane 3 9 17 3 frow tab_l2 tab_l2 = true := by decide +kernel

def pt1_l2 : Pt := ⟨[0, 6], [6], 3 / 4, [1, 0]⟩
def pt2_l2 : Pt := ⟨[1, 3], [6], 3 / 4, [0, 1]⟩
theorem low_l2 : lowB .l2sq Zoo.scepinBauman 0 pt1_l2 pt2_l2 (289 / 9) := by rw [lit]; decide +kernel

theorem cert_l2 : Cert .l2 Zoo.scepinBauman (17 / 3) (17 / 3) :=
  DilFast.cert (p := 0) (.inr (.inr rfl)) (vn := 17) (vd := 3) (by decide) rfl (by norm_num [bnd, Metric.sq]) div_eq genus_eq okRows rows form_l2 autos_l2 closed_l2
    (by norm_num [Metric.sq, Metric.ratio]; exact low_l2)

def tab_linf : List DilFast.Bin := [
    ⟨nat_lit 20, [⟨nat_lit 0, nat_lit 0, nat_lit 1, nat_lit 0, nat_lit 1⟩, ⟨nat_lit 0, nat_lit 0, nat_lit 3, nat_lit 0, nat_lit 3⟩]⟩,
    ⟨nat_lit 16, [⟨nat_lit 0, nat_lit 0, nat_lit 2, nat_lit 0, nat_lit 2⟩]⟩,
    ⟨nat_lit 8, [⟨nat_lit 1, nat_lit 0, nat_lit 0, nat_lit 0, nat_lit 1⟩]⟩,
    ⟨nat_lit 0, [⟨nat_lit 2, nat_lit 0, nat_lit 0, nat_lit 0, nat_lit 2⟩]⟩]

theorem form_linf : formB Zoo.scepinBauman.mult (DilFast.coreOf tab_linf) = true := by rw [lit]; decide +kernel

theorem autos_linf : DilFast.autosF .linf 16 3 tab_linf frow = true := by decide +kernel

theorem closed_linf : DilFast.closedF .linf 3 9 16 3 frow tab_linf tab_linf = true := by decide +kernel

def pt1_linf : Pt := ⟨[0, 6], [6], 3 / 4, [1, 0]⟩
def pt2_linf : Pt := ⟨[1, 0], [6], 3 / 4, [1, 1]⟩
theorem low_linf : lowB .linf Zoo.scepinBauman 0 pt1_linf pt2_linf (16 / 3) := by rw [lit]; decide +kernel

theorem cert_linf : Cert .linf Zoo.scepinBauman (16 / 3) (16 / 3) :=
  DilFast.cert (p := 0) (.inl rfl) (vn := 16) (vd := 3) (by decide) rfl (by norm_num [bnd, Metric.sq]) div_eq genus_eq okRows rows form_linf autos_linf closed_linf
    (by norm_num [Metric.sq, Metric.ratio]; exact low_linf)

end Peano.ZooDil.ScepinBauman

namespace Peano.ZooDil.Serpentine
open DilCert Zoo

def frow : List (List DilFast.Row) := [
    [⟨nat_lit 0, nat_lit 0, nat_lit 0, nat_lit 0⟩, ⟨nat_lit 0, nat_lit 1, nat_lit 10, nat_lit 0⟩, ⟨nat_lit 0, nat_lit 2, nat_lit 8, nat_lit 0⟩, ⟨nat_lit 1, nat_lit 2, nat_lit 4, nat_lit 0⟩, ⟨nat_lit 1, nat_lit 1, nat_lit 14, nat_lit 0⟩, ⟨nat_lit 1, nat_lit 0, nat_lit 4, nat_lit 0⟩, ⟨nat_lit 2, nat_lit 0, nat_lit 8, nat_lit 0⟩, ⟨nat_lit 2, nat_lit 1, nat_lit 10, nat_lit 0⟩, ⟨nat_lit 2, nat_lit 2, nat_lit 0, nat_lit 0⟩]]

theorem lit : Zoo.serpentine = DilFast.curve 3 frow := by decide +kernel

theorem div_eq : Zoo.serpentine.div = 3 := by rw [lit]; decide +kernel

theorem genus_eq : Zoo.serpentine.genus = 9 := by rw [lit]; decide +kernel

theorem okRows : DilFast.OkRows 3 frow := by decide +kernel

theorem rows : Rows Zoo.serpentine (DilFast.prowOf frow) := by rw [lit]; decide +kernel

def tab_l1 : List DilFast.Bin := [
    ⟨nat_lit 20, [⟨nat_lit 0, nat_lit 0, nat_lit 1, nat_lit 0, nat_lit 1⟩]⟩,
    ⟨nat_lit 16, [⟨nat_lit 0, nat_lit 0, nat_lit 2, nat_lit 0, nat_lit 2⟩, ⟨nat_lit 2, nat_lit 0, nat_lit 0, nat_lit 0, nat_lit 2⟩]⟩,
    ⟨nat_lit 8, [⟨nat_lit 1, nat_lit 0, nat_lit 2, nat_lit 0, nat_lit 3⟩, ⟨nat_lit 1, nat_lit 0, nat_lit 0, nat_lit 0, nat_lit 1⟩]⟩,
    ⟨nat_lit 28, [⟨nat_lit 1, nat_lit 0, nat_lit 0, nat_lit 1, nat_lit 2⟩]⟩,
    ⟨nat_lit 12, [⟨nat_lit 0, nat_lit 1, nat_lit 1, nat_lit 0, nat_lit 2⟩, ⟨nat_lit 1, nat_lit 0, nat_lit 0, nat_lit 1, nat_lit 2⟩]⟩,
    ⟨nat_lit 0, [⟨nat_lit 0, nat_lit 2, nat_lit 2, nat_lit 0, nat_lit 4⟩, ⟨nat_lit 0, nat_lit 0, nat_lit 2, nat_lit 0, nat_lit 2⟩, ⟨nat_lit 4, nat_lit 0, nat_lit 0, nat_lit 2, nat_lit 6⟩, ⟨nat_lit 2, nat_lit 0, nat_lit 0, nat_lit 0, nat_lit 2⟩]⟩,
    ⟨nat_lit 24, [⟨nat_lit 1, nat_lit 0, nat_lit 2, nat_lit 0, nat_lit 3⟩, ⟨nat_lit 1, nat_lit 0, nat_lit 0, nat_lit 0, nat_lit 1⟩]⟩,
    ⟨nat_lit 4, [⟨nat_lit 0, nat_lit 2, nat_lit 1, nat_lit 0, nat_lit 3⟩, ⟨nat_lit 2, nat_lit 0, nat_lit 1, nat_lit 0, nat_lit 3⟩]⟩]

theorem form_l1 : formB Zoo.serpentine.mult (DilFast.coreOf tab_l1) = true := by rw [lit]; decide +kernel

theorem autos_l1 : DilFast.autosF .l1 10 1 tab_l1 frow = true := by decide +kernel

theorem closed_l1 : DilFast.closedF .l1 3 9 10 1 frow tab_l1 tab_l1 = true := by decide +kernel

def pt1_l1 : Pt := ⟨[2], [6, 2], 7 / 10, [0, 1]⟩
def pt2_l1 : Pt := ⟨[6], [2, 6], 3 / 10, [1, 0]⟩
theorem low_l1 : lowB .l1 Zoo.serpentine 0 pt1_l1 pt2_l1 (10) := by rw [lit]; decide +kernel

theorem cert_l1 : Cert .l1 Zoo.serpentine (10) (10) :=
  DilFast.cert (p := 0) (.inr (.inl rfl)) (vn := 10) (vd := 1) (by decide) rfl (by norm_num [bnd, Metric.sq]) div_eq genus_eq okRows rows form_l1 autos_l1 closed_l1
    (by norm_num [Metric.sq, Metric.ratio]; exact low_l1)

def tab_l2 : List DilFast.Bin := [
    ⟨nat_lit 20, [⟨nat_lit 0, nat_lit 0, nat_lit 1, nat_lit 0, nat_lit 1⟩]⟩,
    ⟨nat_lit 16, [⟨nat_lit 0, nat_lit 0, nat_lit 2, nat_lit 0, nat_lit 2⟩, ⟨nat_lit 2, nat_lit 0, nat_lit 0, nat_lit 0, nat_lit 2⟩]⟩,
    ⟨nat_lit 8, [⟨nat_lit 1, nat_lit 0, nat_lit 2, nat_lit 0, nat_lit 3⟩, ⟨nat_lit 1, nat_lit 0, nat_lit 0, nat_lit 0, nat_lit 1⟩]⟩,
    ⟨nat_lit 28, [⟨nat_lit 1, nat_lit 0, nat_lit 0, nat_lit 1, nat_lit 2⟩]⟩,
    ⟨nat_lit 12, [⟨nat_lit 0, nat_lit 1, nat_lit 1, nat_lit 0, nat_lit 2⟩, ⟨nat_lit 1, nat_lit 0, nat_lit 0, nat_lit 1, nat_lit 2⟩]⟩,
    ⟨nat_lit 0, [⟨nat_lit 0, nat_lit 0, nat_lit 2, nat_lit 0, nat_lit 2⟩, ⟨nat_lit 4, nat_lit 0, nat_lit 0, nat_lit 2, nat_lit 6⟩, ⟨nat_lit 2, nat_lit 0, nat_lit 0, nat_lit 0, nat_lit 2⟩, ⟨nat_lit 8, nat_lit 0, nat_lit 0, nat_lit 2, nat_lit 14⟩]⟩,
    ⟨nat_lit 24, [⟨nat_lit 1, nat_lit 0, nat_lit 2, nat_lit 0, nat_lit 3⟩, ⟨nat_lit 1, nat_lit 0, nat_lit 0, nat_lit 0, nat_lit 1⟩]⟩,
    ⟨nat_lit 4, [⟨nat_lit 0, nat_lit 2, nat_lit 1, nat_lit 0, nat_lit 3⟩, ⟨nat_lit 2, nat_lit 0, nat_lit 1, nat_lit 0, nat_lit 3⟩]⟩]

theorem form_l2 : formB Zoo.serpentine.mult (DilFast.coreOf tab_l2) = true := by rw [lit]; decide +kernel

theorem autos_l2 : DilFast.autosF .plane 25 4 tab_l2 frow = true := by decide +kernel

theorem closed_l2 : DilFast.closedF .plane 3 9 25 4 frow tab_l2 tab_l2 = true := by decide +kernel

def pt1_l2 : Pt := ⟨[3], [6, 2], 7 / 10, [1, 1]⟩
def pt2_l2 : Pt := ⟨[5], [2, 6], 3 / 10, [0, 0]⟩
theorem low_l2 : lowB .l2sq Zoo.serpentine 0 pt1_l2 pt2_l2 (625 / 16) := by rw [lit]; decide +kernel

theorem cert_l2 : Cert .l2 Zoo.serpentine (25 / 4) (25 / 4) :=
  DilFast.cert (p := 0) (.inr (.inr rfl)) (vn := 25) (vd := 4) (by decide) rfl (by norm_num [bnd, Metric.sq]) div_eq genus_eq okRows rows form_l2 autos_l2 closed_l2
    (by norm_num [Metric.sq, Metric.ratio]; exact low_l2)

def tab_linf : List DilFast.Bin := [
    ⟨nat_lit 20, [⟨nat_lit 0, nat_lit 0, nat_lit 1, nat_lit 0, nat_lit 1⟩, ⟨nat_lit 8, nat_lit 0, nat_lit 0, nat_lit 1, nat_lit 15⟩]⟩,
    ⟨nat_lit 16, [⟨nat_lit 0, nat_lit 0, nat_lit 2, nat_lit 0, nat_lit 2⟩, ⟨nat_lit 2, nat_lit 0, nat_lit 0, nat_lit 0, nat_lit 2⟩]⟩,
    ⟨nat_lit 8, [⟨nat_lit 1, nat_lit 0, nat_lit 0, nat_lit 0, nat_lit 1⟩, ⟨nat_lit 3, nat_lit 0, nat_lit 0, nat_lit 0, nat_lit 3⟩]⟩,
    ⟨nat_lit 0, [⟨nat_lit 0, nat_lit 0, nat_lit 2, nat_lit 0, nat_lit 2⟩, ⟨nat_lit 2, nat_lit 0, nat_lit 0, nat_lit 0, nat_lit 2⟩, ⟨nat_lit 8, nat_lit 0, nat_lit 0, nat_lit 2, nat_lit 14⟩]⟩,
    ⟨nat_lit 24, [⟨nat_lit 1, nat_lit 0, nat_lit 0, nat_lit 0, nat_lit 1⟩, ⟨nat_lit 0, nat_lit 1, nat_lit 0, nat_lit 8, nat_lit 15⟩]⟩]

theorem form_linf : formB Zoo.serpentine.mult (DilFast.coreOf tab_linf) = true := by rw [lit]; decide +kernel

theorem autos_linf : DilFast.autosF .linf 45 8 tab_linf frow = true := by decide +kernel

theorem closed_linf : DilFast.closedF .linf 3 9 45 8 frow tab_linf tab_linf = true := by decide +kernel

def pt1_linf : Pt := ⟨[3], [6, 2], 7 / 10, [1, 1]⟩
def pt2_linf : Pt := ⟨[5], [2, 6], 3 / 10, [0, 0]⟩
theorem low_linf : lowB .linf Zoo.serpentine 0 pt1_linf pt2_linf (45 / 8) := by rw [lit]; decide +kernel

theorem cert_linf : Cert .linf Zoo.serpentine (45 / 8) (45 / 8) :=
  DilFast.cert (p := 0) (.inl rfl) (vn := 45) (vd := 8) (by decide) rfl (by norm_num [bnd, Metric.sq]) div_eq genus_eq okRows rows form_linf autos_linf closed_linf
    (by norm_num [Metric.sq, Metric.ratio]; exact low_linf)

end Peano.ZooDil.Serpentine

namespace Peano.ZooDil.Ye
open DilCert Zoo

def frow : List (List DilFast.Row) := [
    [⟨nat_lit 0, nat_lit 0, nat_lit 13, nat_lit 0⟩, ⟨nat_lit 0, nat_lit 1, nat_lit 0, nat_lit 0⟩, ⟨nat_lit 1, nat_lit 1, nat_lit 0, nat_lit 0⟩, ⟨nat_lit 1, nat_lit 0, nat_lit 11, nat_lit 0⟩, ⟨nat_lit 2, nat_lit 0, nat_lit 13, nat_lit 0⟩, ⟨nat_lit 2, nat_lit 1, nat_lit 13, nat_lit 0⟩, ⟨nat_lit 2, nat_lit 2, nat_lit 13, nat_lit 0⟩, ⟨nat_lit 1, nat_lit 2, nat_lit 6, nat_lit 0⟩, ⟨nat_lit 0, nat_lit 2, nat_lit 6, nat_lit 0⟩, ⟨nat_lit 0, nat_lit 3, nat_lit 13, nat_lit 0⟩, ⟨nat_lit 0, nat_lit 4, nat_lit 0, nat_lit 0⟩, ⟨nat_lit 1, nat_lit 4, nat_lit 0, nat_lit 0⟩, ⟨nat_lit 1, nat_lit 3, nat_lit 11, nat_lit 0⟩, ⟨nat_lit 2, nat_lit 3, nat_lit 13, nat_lit 0⟩, ⟨nat_lit 2, nat_lit 4, nat_lit 0, nat_lit 0⟩, ⟨nat_lit 3, nat_lit 4, nat_lit 0, nat_lit 0⟩, ⟨nat_lit 4, nat_lit 4, nat_lit 0, nat_lit 0⟩, ⟨nat_lit 4, nat_lit 3, nat_lit 6, nat_lit 0⟩, ⟨nat_lit 3, nat_lit 3, nat_lit 11, nat_lit 0⟩, ⟨nat_lit 3, nat_lit 2, nat_lit 11, nat_lit 0⟩, ⟨nat_lit 4, nat_lit 2, nat_lit 0, nat_lit 0⟩, ⟨nat_lit 4, nat_lit 1, nat_lit 6, nat_lit 0⟩, ⟨nat_lit 3, nat_lit 1, nat_lit 11, nat_lit 0⟩, ⟨nat_lit 3, nat_lit 0, nat_lit 11, nat_lit 0⟩, ⟨nat_lit 4, nat_lit 0, nat_lit 0, nat_lit 0⟩]]

theorem lit : Zoo.ye = DilFast.curve 5 frow := by decide +kernel

theorem div_eq : Zoo.ye.div = 5 := by rw [lit]; decide +kernel

theorem genus_eq : Zoo.ye.genus = 25 := by rw [lit]; decide +kernel

theorem okRows : DilFast.OkRows 5 frow := by decide +kernel

theorem rows : Rows Zoo.ye (DilFast.prowOf frow) := by rw [lit]; decide +kernel

def tab_l2 : List DilFast.Bin := [
    ⟨nat_lit 21, [⟨nat_lit 0, nat_lit 1, nat_lit 0, nat_lit 0, nat_lit 1⟩, ⟨nat_lit 0, nat_lit 4, nat_lit 0, nat_lit 2, nat_lit 6⟩]⟩,
    ⟨nat_lit 0, [⟨nat_lit 1, nat_lit 0, nat_lit 0, nat_lit 0, nat_lit 1⟩]⟩,
    ⟨nat_lit 22, [⟨nat_lit 1, nat_lit 0, nat_lit 0, nat_lit 1, nat_lit 2⟩, ⟨nat_lit 0, nat_lit 0, nat_lit 0, nat_lit 1, nat_lit 1⟩]⟩,
    ⟨nat_lit 26, [⟨nat_lit 2, nat_lit 0, nat_lit 0, nat_lit 1, nat_lit 3⟩, ⟨nat_lit 1, nat_lit 0, nat_lit 0, nat_lit 1, nat_lit 2⟩, ⟨nat_lit 1, nat_lit 0, nat_lit 0, nat_lit 0, nat_lit 1⟩]⟩,
    ⟨nat_lit 15, [⟨nat_lit 0, nat_lit 0, nat_lit 0, nat_lit 1, nat_lit 1⟩]⟩,
    ⟨nat_lit 3, [⟨nat_lit 0, nat_lit 1, nat_lit 0, nat_lit 0, nat_lit 1⟩]⟩,
    ⟨nat_lit 25, [⟨nat_lit 0, nat_lit 2, nat_lit 0, nat_lit 1, nat_lit 3⟩, ⟨nat_lit 0, nat_lit 1, nat_lit 0, nat_lit 1, nat_lit 2⟩, ⟨nat_lit 0, nat_lit 0, nat_lit 0, nat_lit 1, nat_lit 1⟩]⟩,
    ⟨nat_lit 12, [⟨nat_lit 1, nat_lit 0, nat_lit 0, nat_lit 2, nat_lit 3⟩, ⟨nat_lit 0, nat_lit 0, nat_lit 0, nat_lit 2, nat_lit 2⟩, ⟨nat_lit 2, nat_lit 0, nat_lit 0, nat_lit 1, nat_lit 3⟩, ⟨nat_lit 1, nat_lit 0, nat_lit 0, nat_lit 1, nat_lit 2⟩, ⟨nat_lit 0, nat_lit 0, nat_lit 0, nat_lit 1, nat_lit 1⟩]⟩]

theorem form_l2 : formB Zoo.ye.mult (DilFast.coreOf tab_l2) = true := by rw [lit]; decide +kernel

theorem autos_l2 : DilFast.autosF .plane 408 73 tab_l2 frow = true := by decide +kernel

theorem closed_l2 : DilFast.closedF .plane 5 25 408 73 frow tab_l2 tab_l2 = true := by decide +kernel

def pt1_l2 : Pt := ⟨[4], [8], 1 / 3, [1, 0]⟩
def pt2_l2 : Pt := ⟨[10], [10], 5 / 12, [0, 1]⟩
theorem low_l2 : lowB .l2sq Zoo.ye 0 pt1_l2 pt2_l2 (166464 / 5329) := by rw [lit]; decide +kernel

theorem cert_l2 : Cert .l2 Zoo.ye (408 / 73) (408 / 73) :=
  DilFast.cert (p := 0) (.inr (.inr rfl)) (vn := 408) (vd := 73) (by decide) rfl (by norm_num [bnd, Metric.sq]) div_eq genus_eq okRows rows form_l2 autos_l2 closed_l2
    (by norm_num [Metric.sq, Metric.ratio]; exact low_l2)

end Peano.ZooDil.Ye
