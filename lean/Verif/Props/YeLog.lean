import Verif.Spec.YeLog
import Verif.MinCerts.Dil.Log
import Verif.Props.Results

set_option autoImplicit false

/-
Property C82: what is printed in `logs/ye-proof.log` is right.  The reports are in `Spec/YeLog.lean`.
-/
namespace Peano
namespace YeLog
open MinCert

theorem right_of {e : YeReport} {v : ℚ} {P : FCurve 2 → Prop} (hv : 0 ≤ v)
    (hL : LeastDilation .l2 e.div e.maxCdist P v) (hP : ∀ c, P c ↔ ∀ g, e.gates = some g → g.Has c) (h1 : e.lo ≤ v) (h2 : v ≤ e.up)
    (h3 : e.up ≤ e.lo * (1 + 1 / e.tol)) (h4 : e.curves ≠ [])
    (h5 : ∀ t ∈ e.curves, ∃ c : FCurve 2, FCurve.parse 2 [t] = some c ∧ e.Searched c ∧ Zoo.Cert .l2 c v v) : e.Right := by
  refine ⟨fun c D hc hD => ?_, h3, h4, fun t ht => ?_⟩
  · have h1' : (e.lo : ℝ) ≤ (v : ℝ) := by exact_mod_cast h1
    exact h1'.trans (hL.2 ⟨c, hc.1, (hP c).2 hc.2, hD⟩)
  · obtain ⟨c, k1, k2, k3⟩ := h5 t ht
    have hc := k2.1
    have h : Zoo.IsWD .l2 c v := Zoo.eq_of (by decide) ⟨by rw [hc.mult_eq]; omega, hc.full, hc.fills, hc.checked⟩ hv rfl k3
    refine ⟨c, v, k1, k2, h.isDilation, by exact_mod_cast h2, fun c' D' hc' hD' => hL.2 ⟨c', hc'.1, (hP c').2 hc'.2, hD'⟩⟩

end YeLog

/-- C82. Each of the seven reports in logs/ye-proof.log is right: no curve of the search is better than `lo`, and each printed curve is a curve of the search of the least dilation. -/
theorem C82_reports : ∀ e ∈ yeLog, e.Right := by
  intro e he
  simp only [yeLog, List.mem_cons, List.not_mem_nil, or_false] at he
  rcases he with rfl | rfl | rfl | rfl | rfl | rfl | rfl
  · refine YeLog.right_of (v := 6) (by norm_num) (by push_cast; exact C76_all2.2.1) (fun c => by simp) (by norm_num) (by norm_num) (by norm_num) (by simp) fun t ht => ?_
    simp only [List.mem_cons, List.not_mem_nil, or_false] at ht
    subst ht
    exact ⟨YeLog.c0, by decide +kernel, ⟨isCandidate_of (by decide +kernel), by simp⟩, YeLogDil.C0.cert_l2⟩
  · refine YeLog.right_of (v := 17 / 3) (by norm_num) (by push_cast; exact C76_all3.2.1) (fun c => by simp) (by norm_num) (by norm_num) (by norm_num) (by simp) fun t ht => ?_
    simp only [List.mem_cons, List.not_mem_nil, or_false] at ht
    rcases ht with rfl | rfl
    · exact ⟨Best.diag3L2Linf, by decide +kernel, ⟨isCandidate_of (by decide +kernel), by simp⟩, BestDil.Diag3L2Linf.cert_l2⟩
    · exact ⟨YeLog.c2, by decide +kernel, ⟨isCandidate_of (by decide +kernel), by simp⟩, YeLogDil.C2.cert_l2⟩
  · refine YeLog.right_of (v := 65 / 11) (by norm_num) (by push_cast; exact C76_all4.2.1) (fun c => by simp) (by norm_num) (by norm_num) (by norm_num) (by simp) fun t ht => ?_
    simp only [List.mem_cons, List.not_mem_nil, or_false] at ht
    subst ht
    exact ⟨YeLog.c3, by decide +kernel, ⟨isCandidate_of (by decide +kernel), by simp⟩, YeLogDil.C3.cert_l2⟩
  · refine YeLog.right_of (v := 45 / 8) (by norm_num) (by push_cast; exact C76_side6_adjacent.2.1) (fun c => ⟨by rintro h _ ⟨⟩; exact h, fun h => h _ rfl⟩) (by norm_num) (by norm_num) (by norm_num) (by simp) fun t ht => ?_
    simp only [List.mem_cons, List.not_mem_nil, or_false] at ht
    subst ht
    exact ⟨YeLog.c4, by decide +kernel, ⟨isCandidate_some (isCandidate_of (by decide +kernel)) (by decide +kernel), by rintro _ ⟨⟩; exact hasGates_of (by decide +kernel)⟩, YeLogDil.C4.cert_l2⟩
  · refine YeLog.right_of (v := 296 / 45) (by norm_num) (by push_cast; exact C76_median6_adjacent) (fun c => ⟨by rintro h _ ⟨⟩; exact h, fun h => h _ rfl⟩) (by norm_num) (by norm_num) (by norm_num) (by simp) fun t ht => ?_
    simp only [List.mem_cons, List.not_mem_nil, or_false] at ht
    rcases ht with rfl | rfl
    · exact ⟨YeLog.c5, by decide +kernel, ⟨isCandidate_some (isCandidate_of (by decide +kernel)) (by decide +kernel), by rintro _ ⟨⟩; exact hasGates_of (by decide +kernel)⟩, YeLogDil.C5.cert_l2⟩
    · exact ⟨Best.med6aL2, by decide +kernel, ⟨isCandidate_some (isCandidate_of (by decide +kernel)) (by decide +kernel), by rintro _ ⟨⟩; exact hasGates_of (by decide +kernel)⟩, BestDil.Med6aL2.cert_l2⟩
  · refine YeLog.right_of (v := 6) (by norm_num) (by push_cast; exact C76_diag5_adjacent) (fun c => ⟨by rintro h _ ⟨⟩; exact h, fun h => h _ rfl⟩) (by norm_num) (by norm_num) (by norm_num) (by simp) fun t ht => ?_
    simp only [List.mem_cons, List.not_mem_nil, or_false] at ht
    rcases ht with rfl | rfl
    · exact ⟨YeLog.c7, by decide +kernel, ⟨isCandidate_some (isCandidate_of (by decide +kernel)) (by decide +kernel), by rintro _ ⟨⟩; exact hasGates_of (by decide +kernel)⟩, YeLogDil.C7.cert_l2⟩
    · exact ⟨YeLog.c8, by decide +kernel, ⟨isCandidate_some (isCandidate_of (by decide +kernel)) (by decide +kernel), by rintro _ ⟨⟩; exact hasGates_of (by decide +kernel)⟩, YeLogDil.C8.cert_l2⟩
  · refine YeLog.right_of (v := 183 / 28) (by norm_num) (by push_cast; exact C76_median5_adjacent) (fun c => ⟨by rintro h _ ⟨⟩; exact h, fun h => h _ rfl⟩) (by norm_num) (by norm_num) (by norm_num) (by simp) fun t ht => ?_
    simp only [List.mem_cons, List.not_mem_nil, or_false] at ht
    rcases ht with rfl | rfl
    · exact ⟨Best.med5L2Linf, by decide +kernel, ⟨isCandidate_some (isCandidate_of (by decide +kernel)) (by decide +kernel), by rintro _ ⟨⟩; exact hasGates_of (by decide +kernel)⟩, BestDil.Med5L2Linf.cert_l2⟩
    · exact ⟨YeLog.c10, by decide +kernel, ⟨isCandidate_some (isCandidate_of (by decide +kernel)) (by decide +kernel), by rintro _ ⟨⟩; exact hasGates_of (by decide +kernel)⟩, YeLogDil.C10.cert_l2⟩

/-- C82. The two checks of side curves, logs/ye-proof.log:222-237 and 284-299: the printed bounds are right for the curves of the check, they are on both sides of the least dilation, and they
are as close as the tolerance demands. -/
theorem C82_checks :
    (∃ v, LeastDilation .l2 5 (some 1) (fun c => c.IsSide ∧ ¬ c.SameProto Zoo.ye) v ∧ (88735750 / 15411789 : ℝ) ≤ v ∧ v ≤ 267077650 / 46235367) ∧
    (267077650 / 46235367 : ℚ) ≤ 88735750 / 15411789 * (1 + 1 / 200) ∧
    (∃ v, LeastDilation .l2 5 (some 1) (fun c => c.IsSide ∧ c.SameProto Zoo.ye ∧ ¬ c.SameCurve Zoo.ye) v ∧ (7047671725 / 1248354909 : ℝ) ≤ v ∧
      v ≤ 21156941575 / 3745064727) ∧
    (21156941575 / 3745064727 : ℚ) ≤ 7047671725 / 1248354909 * (1 + 1 / 1000) :=
  ⟨⟨_, C77_other_protos, by norm_num, by norm_num⟩, by norm_num, ⟨_, C77_same_proto, by norm_num, by norm_num⟩, by norm_num⟩

/-- C82. The check of the YE curve, logs/ye-proof.log:302-322: at the printed times the curve is at the printed points, the ratio for this pair is `lo`, no pair has a greater
ratio, and the bounds are as close as `rel_tol_inv=100000` demands. -/
theorem C82_check_ye : ∃ f, Zoo.ye.Realizes f ∧ f 0 (13 / 75) = ![3 / 5, 0] ∧ f 0 (5 / 12) = ![0, 1] ∧
    Ratio.l2.val (fun j => f 0 (13 / 75) j - f 0 (5 / 12) j) (5 / 12 - 13 / 75) = 408 / 73 ∧ IsLUB (Zoo.ye.ratios .l2 f) (408 / 73) ∧
    (408 / 73 : ℝ) ≤ 13281250 / 2376291 ∧ (13281250 / 2376291 : ℝ) ≤ 408 / 73 * (1 + 1 / 100000) := by
  obtain ⟨f, hf, hu⟩ := C77_ye.2
  have h := C77_ye.1.full
  have key : ∀ (P : DilCert.Pt) (t : ℚ) (x : Fin 2 → ℚ), P.Ok Zoo.ye ⟨1, 0⟩ → P.time Zoo.ye = t → P.pos Zoo.ye ⟨1, 0⟩ = x → f 0 t = fun j => ((x j : ℚ) : ℝ) := by
    rintro P _ _ hP rfl rfl
    have := P.actFn_eq h hf (s := ⟨1, 0⟩) (by rw [C77_ye.1.mult_eq]; decide) hP
    rwa [actFn_one] at this
  have e1 := key ⟨[4], [8], 1 / 3, [1, 0]⟩ (13 / 75) ![3 / 5, 0] (by decide +kernel) (by decide +kernel) (by decide +kernel)
  have e2 := key ⟨[], [10], 5 / 12, [0, 1]⟩ (5 / 12) ![0, 1] (by decide +kernel) (by decide +kernel) (by decide +kernel)
  have e1' : f 0 (13 / 75) = ![3 / 5, 0] := by
    push_cast at e1
    rw [e1]
    funext j
    fin_cases j <;> norm_num
  have e2' : f 0 (5 / 12) = ![0, 1] := by
    push_cast at e2
    rw [e2]
    funext j
    fin_cases j <;> norm_num
  refine ⟨f, hf, e1', e2', ?_, hu, by norm_num, by norm_num⟩
  rw [e1', e2']
  norm_num [Ratio.val, Ratio.num, Ratio.den, sumSq, List.finRange_succ]

/-- The statement can fail: with a lower bound above the least dilation, or with another curve in the place of the printed one, a report is not right. -/
example : ¬ (⟨2, none, none, 1000, 601 / 100, 602 / 100, [("ijI", "0jI~,0ij,0ij,0JI")]⟩ : YeReport).Right := fun h => by
  obtain ⟨⟨c, h1, h2, h3⟩, _⟩ := C76_all2.2.1
  have := h.lower c 6 ⟨h1, by simp⟩ h3
  norm_num at this

example : ¬ (⟨5, some .median, some 1, 200, 27740299 / 4251528, 83470753 / 12754584,
    [("iiijIIIjiiijIIIjiiiiJJJJ", "ij,ij,ij,ji,ji,IJ,IJ,IJ,ij,ij,ij,ji,ji,IJ,IJ,IJ,ij,ij,ij,ij,ij,JI,JI,JI,JI")]⟩ : YeReport).Right := fun h => by
  obtain ⟨c, D, h1, h2, _⟩ := h.printed _ (List.mem_singleton.2 rfl)
  have gen : ∀ c : FCurve 2, c.IsCandidate 5 1 (some 1) → YeProof.SideGates c → ¬ GateKind.median.Has c := fun c hc hs hm => by
    rcases C74_three_categories c hc with ⟨_, _, k⟩ | ⟨k, _⟩ | ⟨k, _⟩
    · exact k hm
    · exact k hs
    · exact k hs
  have hc : c = YeProof.other := by
    have : some c = some YeProof.other := by rw [← h1]; decide +kernel
    exact Option.some.inj this
  exact gen c h2.1 (by rw [hc]; exact (YeProof.wanted_iff.1 YeProof.other_wanted).2) (h2.2 _ rfl)

end Peano
