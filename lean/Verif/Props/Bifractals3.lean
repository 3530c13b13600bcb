import Verif.Lemmas.Results2
import Verif.Lemmas.OnePattern
import Verif.Props.Results
import Verif.MinCerts.Bi3
import Verif.MinCerts.Dil.Tri

set_option autoImplicit false

/-
Property C79: curves of which one pattern is a curve by itself, and rows of the table of the least dilations of plane curves with two patterns on the grid
3×3 (results.md).  The vocabulary is in `Spec/OnePattern.lean` and `Spec/Bifractals.lean`.
-/
namespace Peano
open MinCert

/-- C79. If the entrance and the exit of a pattern are vertices, and no entrance or exit of another pattern is a vertex, then the pattern uses only itself: alone it
is a curve as good as the given one, with the same entrance and exit, and its dilation is at most the dilation of the given curve. -/
theorem C79_lone_pattern {d : ℕ} (c : FCurve d) {N m : ℕ} {mc : Option ℤ} (hc : c.IsCandidate N m mc) {p : ℕ} (hp : c.LoneVertex p) :
    (∀ i s, c.spec? p i = some s → s.pnum = p) ∧ (c.only p).IsCandidate N 1 mc ∧
      (c.only p).getEntrance 0 = c.getEntrance p ∧ (c.only p).getExit 0 = c.getExit p ∧
      (∀ f, c.Realizes f → (c.only p).Realizes fun _ => f p) ∧
      ∀ r D, c.IsDilation r D → ∃ D' ≤ D, (c.only p).IsDilation r D' :=
  have hu := hp.uses hc.full hc.checked
  have hg := hc.full.only_gates hc.checked hp.lt hu
  ⟨hu, hc.only hp.lt hu, hg.1, hg.2, fun _ hf => hf.only hp.lt hu, fun _ _ hD => hD.only hp.lt hu⟩

example : Best.tri6L1.IsCandidate 3 2 none ∧ Best.tri6L1.LoneVertex 0 := by
  refine ⟨isCandidate_of (by decide +kernel), by decide, ?_, ?_⟩
  · have h1 : Best.tri6L1.getEntrance 0 = some ![0, 0] := by decide +kernel
    have h2 : Best.tri6L1.getExit 0 = some ![0, 1] := by decide +kernel
    rintro x (hx | hx)
    · rw [h1] at hx; cases hx; unfold Point.IsVertex; decide +kernel
    · rw [h2] at hx; cases hx; unfold Point.IsVertex; decide +kernel
  · have h1 : Best.tri6L1.getEntrance 1 = some ![0, 1 / 3] := by decide +kernel
    have h2 : Best.tri6L1.getExit 1 = some ![0, 2 / 3] := by decide +kernel
    intro q hq hne x hx
    have : Best.tri6L1.mult = 2 := by decide
    obtain rfl : q = 1 := by omega
    rcases hx with hx | hx
    · rw [h1] at hx; cases hx; unfold Point.IsVertex; decide +kernel
    · rw [h2] at hx; cases hx; unfold Point.IsVertex; decide +kernel

/-- The gate of C76 differs from the gate in the table by a symmetry. -/
theorem side_bound {c : FCurve 2} {m : Link (Point 2)} (hm : ¬ (m.entrance.IsVertex ∨ m.exit.IsVertex)) {N : ℕ} (hc : c.IsCandidate N 2 none)
    (h : c.GatesIn [[⟨![0, 0], ![0, 1]⟩, m]]) {r : Ratio} {D v : ℝ} (hD : c.IsDilation r D) (hv : LeastDilation r N none FCurve.IsSide v) : v ≤ D := by
  obtain ⟨e, he, hg, D', hle, hD'⟩ := hc.lone_bound (by unfold Point.IsVertex; decide +kernel) hm h hD
  refine le_trans (hv.2 ⟨e, he, ?_, hD'⟩) hle
  obtain ⟨G, hG, S, hS, W, hW, hF⟩ := hg
  obtain rfl := List.mem_singleton.1 hS
  obtain rfl := List.perm_singleton.1 hW
  match G, hF with
  | [g], .cons ⟨b, eb⟩ .nil =>
  refine ⟨[g], hG, [⟨![0, 0], ![1, 0]⟩], by simp, _, List.Perm.refl _, .cons ⟨⟨![(1, false), (0, false)], false, by decide⟩ * b, ?_⟩ .nil⟩
  rw [Link.act_mul, eb]
  decide +kernel

/-- C79. Gates `0, 0` → `0, 1` and `0, 1 / 3` → `0, 2 / 3`. -/
theorem C79_row1 : LeastDilationOf .l1 3 2 (FCurve.GatesIn [[⟨![0, 0], ![0, 1]⟩, ⟨![0, 1 / 3], ![0, 2 / 3]⟩]]) (49 / 5) ∧
    LeastDilationOf .l2 3 2 (FCurve.GatesIn [[⟨![0, 0], ![0, 1]⟩, ⟨![0, 1 / 3], ![0, 2 / 3]⟩]]) (17 / 3) ∧
    LeastDilationOf .linf 3 2 (FCurve.GatesIn [[⟨![0, 0], ![0, 1]⟩, ⟨![0, 1 / 3], ![0, 2 / 3]⟩]]) (9 / 2) := by
  have hm : ¬ (Point.IsVertex (d := 2) ![0, 1 / 3] ∨ Point.IsVertex (d := 2) ![0, 2 / 3]) := by unfold Point.IsVertex; decide +kernel
  refine ⟨?_, ?_, ?_⟩
  · have c0 : Best.tri6L1.IsCandidate 3 2 none := isCandidate_of (by decide +kernel)
    have g0 : Best.tri6L1.GatesIn [[⟨![0, 0], ![0, 1]⟩, ⟨![0, 1 / 3], ![0, 2 / 3]⟩]] := hasGates_two (by decide +kernel)
    have := least_of_bound (m := .l1) (k := 2) (v := 49 / 5) (by norm_num) (by norm_num) c0 g0 BestDil.Tri6L1.cert_l1 fun e D he hge hD => by
      have h := side_bound hm he hge hD C76_side3.1
      push_cast
      exact h
    push_cast at this
    exact this
  · have c0 : Best.tri6L2.IsCandidate 3 2 none := isCandidate_of (by decide +kernel)
    have g0 : Best.tri6L2.GatesIn [[⟨![0, 0], ![0, 1]⟩, ⟨![0, 1 / 3], ![0, 2 / 3]⟩]] := hasGates_two (by decide +kernel)
    have := least_of_bound (m := .l2) (k := 2) (v := 17 / 3) (by norm_num) (by norm_num) c0 g0 BestDil.Tri6L2.cert_l2 fun e D he hge hD => by
      have h := side_bound hm he hge hD C76_side3.2.1
      push_cast
      exact h
    push_cast at this
    exact this
  · have c0 : Best.tri6Linf.IsCandidate 3 2 none := isCandidate_of (by decide +kernel)
    have g0 : Best.tri6Linf.GatesIn [[⟨![0, 0], ![0, 1]⟩, ⟨![0, 1 / 3], ![0, 2 / 3]⟩]] := hasGates_two (by decide +kernel)
    have := least_of_bound (m := .linf) (k := 2) (v := 9 / 2) (by norm_num) (by norm_num) c0 g0 BestDil.Tri6Linf.cert_linf fun e D he hge hD => by
      have h := side_bound hm he hge hD C76_side3.2.2
      push_cast
      exact h
    push_cast at this
    exact this

/-- C79. Gates `0, 0` → `0, 1` and `0, 1 / 3` → `1 / 3, 1`. -/
theorem C79_row2 : LeastDilationOf .l1 3 2 (FCurve.GatesIn [[⟨![0, 0], ![0, 1]⟩, ⟨![0, 1 / 3], ![1 / 3, 1]⟩]]) (49 / 5) ∧
    LeastDilationOf .l2 3 2 (FCurve.GatesIn [[⟨![0, 0], ![0, 1]⟩, ⟨![0, 1 / 3], ![1 / 3, 1]⟩]]) (17 / 3) ∧
    LeastDilationOf .linf 3 2 (FCurve.GatesIn [[⟨![0, 0], ![0, 1]⟩, ⟨![0, 1 / 3], ![1 / 3, 1]⟩]]) (9 / 2) := by
  have hm : ¬ (Point.IsVertex (d := 2) ![0, 1 / 3] ∨ Point.IsVertex (d := 2) ![1 / 3, 1]) := by unfold Point.IsVertex; decide +kernel
  refine ⟨?_, ?_, ?_⟩
  · have c0 : Best.tri7L1.IsCandidate 3 2 none := isCandidate_of (by decide +kernel)
    have g0 : Best.tri7L1.GatesIn [[⟨![0, 0], ![0, 1]⟩, ⟨![0, 1 / 3], ![1 / 3, 1]⟩]] := hasGates_two (by decide +kernel)
    have := least_of_bound (m := .l1) (k := 2) (v := 49 / 5) (by norm_num) (by norm_num) c0 g0 BestDil.Tri7L1.cert_l1 fun e D he hge hD => by
      have h := side_bound hm he hge hD C76_side3.1
      push_cast
      exact h
    push_cast at this
    exact this
  · have c0 : Best.tri7L2.IsCandidate 3 2 none := isCandidate_of (by decide +kernel)
    have g0 : Best.tri7L2.GatesIn [[⟨![0, 0], ![0, 1]⟩, ⟨![0, 1 / 3], ![1 / 3, 1]⟩]] := hasGates_two (by decide +kernel)
    have := least_of_bound (m := .l2) (k := 2) (v := 17 / 3) (by norm_num) (by norm_num) c0 g0 BestDil.Tri7L2.cert_l2 fun e D he hge hD => by
      have h := side_bound hm he hge hD C76_side3.2.1
      push_cast
      exact h
    push_cast at this
    exact this
  · have c0 : Best.tri7Linf.IsCandidate 3 2 none := isCandidate_of (by decide +kernel)
    have g0 : Best.tri7Linf.GatesIn [[⟨![0, 0], ![0, 1]⟩, ⟨![0, 1 / 3], ![1 / 3, 1]⟩]] := hasGates_two (by decide +kernel)
    have := least_of_bound (m := .linf) (k := 2) (v := 9 / 2) (by norm_num) (by norm_num) c0 g0 BestDil.Tri7Linf.cert_linf fun e D he hge hD => by
      have h := side_bound hm he hge hD C76_side3.2.2
      push_cast
      exact h
    push_cast at this
    exact this

/-- C79. Gates `0, 0` → `0, 1` and `0, 1 / 3` → `1, 1 / 3`. -/
theorem C79_row3 : LeastDilationOf .l1 3 2 (FCurve.GatesIn [[⟨![0, 0], ![0, 1]⟩, ⟨![0, 1 / 3], ![1, 1 / 3]⟩]]) (49 / 5) ∧
    LeastDilationOf .l2 3 2 (FCurve.GatesIn [[⟨![0, 0], ![0, 1]⟩, ⟨![0, 1 / 3], ![1, 1 / 3]⟩]]) (17 / 3) ∧
    LeastDilationOf .linf 3 2 (FCurve.GatesIn [[⟨![0, 0], ![0, 1]⟩, ⟨![0, 1 / 3], ![1, 1 / 3]⟩]]) (9 / 2) := by
  have hm : ¬ (Point.IsVertex (d := 2) ![0, 1 / 3] ∨ Point.IsVertex (d := 2) ![1, 1 / 3]) := by unfold Point.IsVertex; decide +kernel
  refine ⟨?_, ?_, ?_⟩
  · have c0 : Best.tri8L1.IsCandidate 3 2 none := isCandidate_of (by decide +kernel)
    have g0 : Best.tri8L1.GatesIn [[⟨![0, 0], ![0, 1]⟩, ⟨![0, 1 / 3], ![1, 1 / 3]⟩]] := hasGates_two (by decide +kernel)
    have := least_of_bound (m := .l1) (k := 2) (v := 49 / 5) (by norm_num) (by norm_num) c0 g0 BestDil.Tri8L1.cert_l1 fun e D he hge hD => by
      have h := side_bound hm he hge hD C76_side3.1
      push_cast
      exact h
    push_cast at this
    exact this
  · have c0 : Best.tri8L2.IsCandidate 3 2 none := isCandidate_of (by decide +kernel)
    have g0 : Best.tri8L2.GatesIn [[⟨![0, 0], ![0, 1]⟩, ⟨![0, 1 / 3], ![1, 1 / 3]⟩]] := hasGates_two (by decide +kernel)
    have := least_of_bound (m := .l2) (k := 2) (v := 17 / 3) (by norm_num) (by norm_num) c0 g0 BestDil.Tri8L2.cert_l2 fun e D he hge hD => by
      have h := side_bound hm he hge hD C76_side3.2.1
      push_cast
      exact h
    push_cast at this
    exact this
  · have c0 : Best.tri8Linf.IsCandidate 3 2 none := isCandidate_of (by decide +kernel)
    have g0 : Best.tri8Linf.GatesIn [[⟨![0, 0], ![0, 1]⟩, ⟨![0, 1 / 3], ![1, 1 / 3]⟩]] := hasGates_two (by decide +kernel)
    have := least_of_bound (m := .linf) (k := 2) (v := 9 / 2) (by norm_num) (by norm_num) c0 g0 BestDil.Tri8Linf.cert_linf fun e D he hge hD => by
      have h := side_bound hm he hge hD C76_side3.2.2
      push_cast
      exact h
    push_cast at this
    exact this

/-- C79. Gates `0, 1 / 4` → `1 / 4, 1` and `0, 1 / 4` → `1, 1 / 4`. -/
theorem C79_row4 : LeastDilationOf .l1 3 2 (FCurve.GatesIn [[⟨![0, 1 / 4], ![1 / 4, 1]⟩, ⟨![0, 1 / 4], ![1, 1 / 4]⟩]]) (32 / 3) ∧
    LeastDilationOf .l2 3 2 (FCurve.GatesIn [[⟨![0, 1 / 4], ![1 / 4, 1]⟩, ⟨![0, 1 / 4], ![1, 1 / 4]⟩]]) (17 / 3) ∧
    LeastDilationOf .linf 3 2 (FCurve.GatesIn [[⟨![0, 1 / 4], ![1 / 4, 1]⟩, ⟨![0, 1 / 4], ![1, 1 / 4]⟩]]) (9 / 2) := by
  have c0 : Best.tri12L1L2Linf.IsCandidate 3 2 none := isCandidate_of (by decide +kernel)
  have g0 : Best.tri12L1L2Linf.GatesIn [[⟨![0, 1 / 4], ![1 / 4, 1]⟩, ⟨![0, 1 / 4], ![1, 1 / 4]⟩]] := hasGates_two (by decide +kernel)
  have hF : c12Tab.For ([⟨![0, 1 / 4], ![1 / 4, 1]⟩, ⟨![0, 1 / 4], ![1, 1 / 4]⟩] : GateTuple 2) := by decide +kernel
  have hU : ∀ m ∈ ([⟨![0, 1 / 4], ![1 / 4, 1]⟩, ⟨![0, 1 / 4], ![1, 1 / 4]⟩] : GateTuple 2), ∀ j, (0 ≤ m.entrance j ∧ m.entrance j ≤ 1) ∧ (0 ≤ m.exit j ∧ m.exit j ≤ 1) := by decide +kernel
  refine ⟨?_, ?_, ?_⟩
  · have := least_of_two (m := .l1) c12_ok hF hU (by norm_num) c12_l1 (by norm_num) (v := 32 / 3) (by norm_num) c0 g0 BestDil.Tri12L1L2Linf.cert_l1
    push_cast at this
    exact this
  · have := least_of_two (m := .l2) c12_ok hF hU (by norm_num) c12_l2 (by norm_num) (v := 17 / 3) (by norm_num) c0 g0 BestDil.Tri12L1L2Linf.cert_l2
    push_cast at this
    exact this
  · have := least_of_two (m := .linf) c12_ok hF hU (by norm_num) c12_linf (by norm_num) (v := 9 / 2) (by norm_num) c0 g0 BestDil.Tri12L1L2Linf.cert_linf
    push_cast at this
    exact this

/-- C79. Gates `0, 1 / 4` → `1 / 4, 1` and `0, 1 / 4` → `1, 3 / 4`. -/
theorem C79_row5 : LeastDilationOf .l1 3 2 (FCurve.GatesIn [[⟨![0, 1 / 4], ![1 / 4, 1]⟩, ⟨![0, 1 / 4], ![1, 3 / 4]⟩]]) (49 / 5) ∧
    LeastDilationOf .l2 3 2 (FCurve.GatesIn [[⟨![0, 1 / 4], ![1 / 4, 1]⟩, ⟨![0, 1 / 4], ![1, 3 / 4]⟩]]) 5 ∧
    LeastDilationOf .linf 3 2 (FCurve.GatesIn [[⟨![0, 1 / 4], ![1 / 4, 1]⟩, ⟨![0, 1 / 4], ![1, 3 / 4]⟩]]) (9 / 2) := by
  have c0 : Best.tri13L1L2Linf.IsCandidate 3 2 none := isCandidate_of (by decide +kernel)
  have g0 : Best.tri13L1L2Linf.GatesIn [[⟨![0, 1 / 4], ![1 / 4, 1]⟩, ⟨![0, 1 / 4], ![1, 3 / 4]⟩]] := hasGates_two (by decide +kernel)
  have hF : c13Tab.For ([⟨![0, 1 / 4], ![1 / 4, 1]⟩, ⟨![0, 1 / 4], ![1, 3 / 4]⟩] : GateTuple 2) := by decide +kernel
  have hU : ∀ m ∈ ([⟨![0, 1 / 4], ![1 / 4, 1]⟩, ⟨![0, 1 / 4], ![1, 3 / 4]⟩] : GateTuple 2), ∀ j, (0 ≤ m.entrance j ∧ m.entrance j ≤ 1) ∧ (0 ≤ m.exit j ∧ m.exit j ≤ 1) := by decide +kernel
  refine ⟨?_, ?_, ?_⟩
  · have := least_of_two (m := .l1) c13_ok hF hU (by norm_num) c13_l1 (by norm_num) (v := 49 / 5) (by norm_num) c0 g0 BestDil.Tri13L1L2Linf.cert_l1
    push_cast at this
    exact this
  · have := least_of_two (m := .l2) c13_ok hF hU (by norm_num) c13_l2 (by norm_num) (v := 5) (by norm_num) c0 g0 BestDil.Tri13L1L2Linf.cert_l2
    exact_mod_cast this
  · have := least_of_two (m := .linf) c13_ok hF hU (by norm_num) c13_linf (by norm_num) (v := 9 / 2) (by norm_num) c0 g0 BestDil.Tri13L1L2Linf.cert_linf
    push_cast at this
    exact this

/-- C79. These rows of `results.md` are right. -/
theorem C79_table : ∀ w ∈ bifractalTable3, w.Right 3 := by
  simp only [bifractalTable3, List.forall_mem_cons, List.not_mem_nil, false_imp_iff, implies_true, and_true]
  refine ⟨?_, ?_, ?_, ?_, ?_⟩
  · exact ⟨⟨_, C79_row1.1, by norm_num [CutTo]⟩, ⟨_, C79_row1.2.1, by norm_num [CutTo]⟩, ⟨_, C79_row1.2.2, by norm_num [CutTo]⟩⟩
  · exact ⟨⟨_, C79_row2.1, by norm_num [CutTo]⟩, ⟨_, C79_row2.2.1, by norm_num [CutTo]⟩, ⟨_, C79_row2.2.2, by norm_num [CutTo]⟩⟩
  · exact ⟨⟨_, C79_row3.1, by norm_num [CutTo]⟩, ⟨_, C79_row3.2.1, by norm_num [CutTo]⟩, ⟨_, C79_row3.2.2, by norm_num [CutTo]⟩⟩
  · exact ⟨⟨_, C79_row4.1, by norm_num [CutTo]⟩, ⟨_, C79_row4.2.1, by norm_num [CutTo]⟩, ⟨_, C79_row4.2.2, by norm_num [CutTo]⟩⟩
  · exact ⟨⟨_, C79_row5.1, by norm_num [CutTo]⟩, ⟨_, C79_row5.2.1, by norm_num [CutTo]⟩, ⟨_, C79_row5.2.2, by norm_num [CutTo]⟩⟩

/-- C79. The row "(0,0)->(0,1), (0,0)->(0,1)" (results.md:49) is wrong: it shows 6.25 for `l2` and 9.8 for `linf`, but there are curves with 17/3 and with 9/2. -/
theorem C79_wrong_row : ¬ ShowsBi .l2 3 [⟨![0, 0], ![0, 1]⟩, ⟨![0, 0], ![0, 1]⟩] ⟨2, 625⟩ ∧ ¬ ShowsBi .linf 3 [⟨![0, 0], ![0, 1]⟩, ⟨![0, 0], ![0, 1]⟩] ⟨1, 98⟩ := by
  constructor
  · rintro ⟨v, hv, hc, -⟩
    have c0 : Best.tri3L2.IsCandidate 3 2 none := isCandidate_of (by decide +kernel)
    have g0 : Best.tri3L2.GatesIn [[⟨![0, 0], ![0, 1]⟩, ⟨![0, 0], ![0, 1]⟩]] := hasGates_two (by decide +kernel)
    have hD : Zoo.IsWD .l2 Best.tri3L2 (17 / 3 : ℚ) :=
      Zoo.eq_of (by decide) ⟨by rw [c0.mult_eq]; omega, c0.full, c0.fills, c0.checked⟩ (by norm_num) rfl BestDil.Tri3L2.cert_l2
    have := hv.2 ⟨_, c0, g0, hD.isDilation⟩
    push_cast at this hc
    norm_num at hc
    linarith
  · rintro ⟨v, hv, hc, -⟩
    have c0 : Best.tri3Linf.IsCandidate 3 2 none := isCandidate_of (by decide +kernel)
    have g0 : Best.tri3Linf.GatesIn [[⟨![0, 0], ![0, 1]⟩, ⟨![0, 0], ![0, 1]⟩]] := hasGates_two (by decide +kernel)
    have hD : Zoo.IsWD .linf Best.tri3Linf (9 / 2 : ℚ) :=
      Zoo.eq_of (by decide) ⟨by rw [c0.mult_eq]; omega, c0.full, c0.fills, c0.checked⟩ (by norm_num) rfl BestDil.Tri3Linf.cert_linf
    have := hv.2 ⟨_, c0, g0, hD.isDilation⟩
    push_cast at this hc
    norm_num at hc
    linarith

end Peano
