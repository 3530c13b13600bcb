import Verif.Lemmas.ResultsNorm
import Verif.Lemmas.ZooDilRight
import Verif.Props.PlaneGates
import Verif.Spec.Results

set_option autoImplicit false

/-
From certificates to tables of least dilations.
-/
namespace Peano
open MinCert

/-- The ratio function of the metric in the plane. -/
def Zoo.Metric.planeRatio : Zoo.Metric → Ratio
  | .l1 => .l1
  | .l2 => .l2
  | .l2Squared => .l2sq
  | .linf => .linf

theorem Zoo.planeRatio_val (m : Zoo.Metric) (x : Fin 2 → ℝ) (t : ℝ) : m.planeRatio.val x t = m.quotient x t := by
  have h := Zoo.val_eq (by decide) m x (t := t)
  cases m with
  | l2 =>
    simp only [Metric.planeRatio, Ratio.val, Ratio.num, Ratio.den, Metric.quotient, Metric.length]
    rw [← sumSq_eq, Real.sq_sqrt (sumSq_nonneg x)]
    norm_num
  | l1 => simpa [Metric.planeRatio, Metric.ratio] using h
  | l2Squared => simpa [Metric.planeRatio, Metric.ratio] using h
  | linf => simpa [Metric.planeRatio, Metric.ratio] using h

theorem Zoo.IsWD.isDilation {m : Zoo.Metric} {c : FCurve 2} {D : ℝ} (h : Zoo.IsWD m c D) : c.IsDilation m.planeRatio D := by
  obtain ⟨f, hf, hD⟩ := h
  refine ⟨f, hf, ?_⟩
  convert hD using 1
  unfold FCurve.ratios
  simp only [Zoo.planeRatio_val]

/-- Candidates, with a bound for the steps. -/
theorem isCandidate_some {d N : ℕ} {c : FCurve d} {mc : ℤ} (h : c.IsCandidate N 1 none)
    (hs : ∀ i ∈ List.range (N ^ d), ∀ x ∈ c.cube? 0 i, ∀ y ∈ c.cube? 0 (i + 1), ∑ j, |y j - x j| ≤ mc) : c.IsCandidate N 1 (some mc) := by
  refine { h with steps := fun m hm p i x y hx hy => ?_ }
  cases hm
  have hp : p = 0 := by
    by_contra hp
    unfold FCurve.cube? at hx
    rw [List.getElem?_eq_none (by have := h.mult_eq; unfold FCurve.mult at this; omega)] at hx
    cases hx
  subst hp
  have hi : i < N ^ d := by
    have := h.full.toShape.cube?_lt_genus hx
    unfold FCurve.genus at this
    rwa [h.div_eq] at this
  exact hs i (List.mem_range.2 hi) x hx y hy

/-- All candidates with these gates up to symmetry have big dilations. -/
theorem MinCert.Tab.Ok.bound_in {T : Tab} {N cd : ℕ} {l : Link (Point 2)} {mc : Option ℤ} {r : Ratio} {vn vd : ℕ} {D : ℝ} {c : FCurve 2} (hT : T.Ok 2 N 1 cd)
    (hF : T.For [l]) (hunit : ∀ j, (0 ≤ l.entrance j ∧ l.entrance j ≤ 1) ∧ (0 ≤ l.exit j ∧ l.exit j ≤ 1)) (hr : r.Ok 2) (hvd : 0 < vd)
    (hR : T.Refuted r 2 vn vd (N ^ 2)) (hcd : mc = some (cd : ℤ) ∨ 2 ≤ cd) (hc : c.IsCandidate N 1 mc) (hg : c.GatesIn [[l]]) (hD : c.IsDilation r D) :
    (vn : ℝ) / vd ≤ D := by
  obtain ⟨w, B, hw, h1, h2⟩ := exists_reparam (S := [l]) (by simp) (by simpa using hunit) hc hg
  exact hT.bound hF hr hvd hR h1 hcd h2 (hD.reparam hc.full hw)

/-- The least dilation, from the certificate for all curves and the certificate for one curve. -/
theorem least_of {T : Tab} {N cd : ℕ} {l : Link (Point 2)} {mc : Option ℤ} {vn vd : ℕ} {v : ℚ} {c : FCurve 2} {m : Zoo.Metric} (hT : T.Ok 2 N 1 cd)
    (hF : T.For [l]) (hunit : ∀ j, (0 ≤ l.entrance j ∧ l.entrance j ≤ 1) ∧ (0 ≤ l.exit j ∧ l.exit j ≤ 1)) (hvd : 0 < vd)
    (hR : T.Refuted m.planeRatio 2 vn vd (N ^ 2)) (hcd : mc = some (cd : ℤ) ∨ 2 ≤ cd) (hv : v = vn / vd) (hc : c.IsCandidate N 1 mc) (hg : c.GatesIn [[l]])
    (hC : Zoo.Cert m c v v) : LeastDilation m.planeRatio N mc (fun c => c.GatesIn [[l]]) v := by
  have hval : Zoo.Valid c := ⟨by rw [hc.mult_eq]; omega, hc.full, hc.fills, hc.checked⟩
  have h0 : 0 ≤ v := by rw [hv]; positivity
  have hD : Zoo.IsWD m c v := Zoo.eq_of (by decide) hval h0 rfl hC
  refine ⟨⟨c, hc, hg, hD.isDilation⟩, ?_⟩
  rintro D ⟨e, he, hge, hDe⟩
  rw [hv]
  push_cast
  exact hT.bound_in hF hunit (by cases m <;> decide) hvd hR hcd he hge hDe

theorem unit_side : ∀ j, (0 ≤ (⟨![0, 0], ![1, 0]⟩ : Link (Point 2)).entrance j ∧ (⟨![0, 0], ![1, 0]⟩ : Link (Point 2)).entrance j ≤ 1) ∧
    (0 ≤ (⟨![0, 0], ![1, 0]⟩ : Link (Point 2)).exit j ∧ (⟨![0, 0], ![1, 0]⟩ : Link (Point 2)).exit j ≤ 1) := by decide +kernel

theorem unit_diag : ∀ j, (0 ≤ (⟨![0, 0], ![1, 1]⟩ : Link (Point 2)).entrance j ∧ (⟨![0, 0], ![1, 1]⟩ : Link (Point 2)).entrance j ≤ 1) ∧
    (0 ≤ (⟨![0, 0], ![1, 1]⟩ : Link (Point 2)).exit j ∧ (⟨![0, 0], ![1, 1]⟩ : Link (Point 2)).exit j ≤ 1) := by decide +kernel

theorem unit_median : ∀ j, (0 ≤ (⟨![0, 0], ![1, 1 / 2]⟩ : Link (Point 2)).entrance j ∧ (⟨![0, 0], ![1, 1 / 2]⟩ : Link (Point 2)).entrance j ≤ 1) ∧
    (0 ≤ (⟨![0, 0], ![1, 1 / 2]⟩ : Link (Point 2)).exit j ∧ (⟨![0, 0], ![1, 1 / 2]⟩ : Link (Point 2)).exit j ≤ 1) := by decide +kernel

/-- A curve with one pattern whose image has the cubes and the specs of the other curve is the same curve. -/
theorem sameCurve_of_reparam {c e : FCurve 2} {N : ℕ} {mc mc' : Option ℤ} {b : BaseMap 2} (hc : c.IsCandidate N 1 mc) (he : e.IsCandidate N 1 mc')
    (hf : (c.reparam [0] fun _ => b).Full)
    (h : ∀ i < c.genus, (c.reparam [0] fun _ => b).cube? 0 i = e.cube? 0 i ∧ (c.reparam [0] fun _ => b).spec? 0 i = e.spec? 0 i) : c.SameCurve e := by
  have hperm : [0].Perm (List.range c.mult) := by rw [hc.mult_eq]; exact List.Perm.refl _
  have hgenus : c.genus = e.genus := by unfold FCurve.genus; rw [hc.div_eq, he.div_eq]
  have hm1 : (c.reparam [0] fun _ => b).mult = 1 := by simp
  refine ⟨b, fun f g hf' hg t ht0 ht1 => ?_⟩
  have hre := hf'.reparam (B := fun _ => b) hc.full hperm
  have hre0 : e.Realizes _ := YeProof.realizes_congr (c := e) (e := c.reparam [0] fun _ => b) (by rw [hm1, he.mult_eq]) hgenus.symm
    (by rw [FCurve.reparam_div, hc.div_eq, he.div_eq]) (fun p i => ?_) (fun p i => ?_) hre
  · have := FCurve.C12_unique e he.full _ _ hg hre0 0 (by rw [he.mult_eq]; omega) (x := t) ⟨ht0, ht1⟩
    simpa using this
  · by_cases hlt : p < 1 ∧ i < c.genus
    · obtain ⟨hp, hi⟩ := hlt
      obtain rfl : p = 0 := by omega
      exact (h i hi).1.symm
    · rw [YeProof.cube?_none he.full (by rw [he.mult_eq]; omega), YeProof.cube?_none hf (by rw [hm1, FCurve.reparam_genus]; omega)]
  · by_cases hlt : p < 1 ∧ i < c.genus
    · obtain ⟨hp, hi⟩ := hlt
      obtain rfl : p = 0 := by omega
      exact (h i hi).2.symm
    · rw [YeProof.spec?_none he.full (by rw [he.mult_eq]; omega), YeProof.spec?_none hf (by rw [hm1, FCurve.reparam_genus]; omega)]

/-- The same as an image is the same. -/
theorem FCurve.SameCurve.of_act {d : ℕ} {c e : FCurve d} {b : BaseMap d} (he : e.Full) (h : c.SameCurve (FCurve.act b e)) : c.SameCurve e := by
  obtain ⟨a, ha⟩ := h
  refine ⟨b⁻¹ * a, fun f g hf hg t h0 h1 => ?_⟩
  have hm : 0 ≤ b⁻¹.applyT 1 t ∧ b⁻¹.applyT 1 t ≤ 1 := by
    unfold BaseMap.applyT
    split <;> constructor <;> linarith
  have := ha f _ hf (hg.act he.toShape b) _ hm.1 hm.2
  simp only [← BaseMap.applyT_mul, mul_inv_cancel] at this
  rw [BaseMap.applyX_mul, BaseMap.applyT_mul, show b⁻¹.applyT 1 (a.applyT 1 t) = (a * b⁻¹).applyT 1 t by
    rw [BaseMap.applyT_mul]
    unfold BaseMap.applyT
    split <;> split <;> ring, ← this, ← BaseMap.applyX_mul]
  simp

/-- The same curves have the same dilations. -/
theorem FCurve.SameCurve.dilation_eq {d N M : ℕ} {c e : FCurve d} {mc mc' : Option ℤ} {r : Ratio} {D E : ℝ} (h : c.SameCurve e) (hc : c.IsCandidate N 1 mc)
    (he : e.IsCandidate M 1 mc') (hD : c.IsDilation r D) (hE : e.IsDilation r E) : D = E := by
  obtain ⟨b, hb⟩ := h
  obtain ⟨f, hf, h1⟩ := hD
  obtain ⟨g, hg, h2⟩ := hE
  have hb := hb f g hf hg
  have h0 : ∀ p < c.mult, p = 0 := by rw [hc.mult_eq]; omega
  have h0' : ∀ p < e.mult, p = 0 := by rw [he.mult_eq]; omega
  have : c.ratios r f = e.ratios r g := by
    apply Set.Subset.antisymm
    · apply FCurve.ratios_subset
      intro p hp
      refine ⟨0, by rw [he.mult_eq]; omega, b, fun t t0 t1 => ?_⟩
      rw [hb t t0 t1, h0 p hp]
    · apply FCurve.ratios_subset
      intro p hp
      refine ⟨0, by rw [hc.mult_eq]; omega, b⁻¹, fun t t0 t1 => ?_⟩
      rw [h0' p hp]
      have hm : 0 ≤ b⁻¹.applyT 1 t ∧ b⁻¹.applyT 1 t ≤ 1 := by
        unfold BaseMap.applyT
        split <;> constructor <;> linarith
      rw [hb _ hm.1 hm.2]
      simp
  rw [this] at h1
  exact h1.unique h2

/-- The same cubes, from the cubes of images. -/
theorem sameProto_of_reparam {c e : FCurve 2} {N : ℕ} {mc mc' : Option ℤ} {a b : BaseMap 2} (hc : c.IsCandidate N 1 mc) (he : e.IsCandidate N 1 mc')
    (h : ∀ i < c.genus, (c.reparam [0] fun _ => a).cube? 0 i = (FCurve.act b e).cube? 0 i) : c.SameProto e := by
  have hgenus : e.genus = c.genus := by unfold FCurve.genus; rw [hc.div_eq, he.div_eq]
  refine ⟨a⁻¹ * b, fun i hi => ?_⟩
  have hi' := BaseMap.applyCnum_lt a⁻¹ hi
  have h1 := h _ hi'
  rw [he.full.toShape.cube?_act b 0 _ (by omega)] at h1
  have h2 : (c.reparam [0] fun _ => a).cube? 0 (a⁻¹.applyCnum c.genus i) = some (a.applyCube c.div (c.cubeD 0 i)) := by
    unfold FCurve.cube? FCurve.reparam
    simp only [List.map_cons, List.getElem?_cons_zero, Option.bind_some, Proto.cube?, List.getElem?_map, List.getElem?_range hi', Option.map_some,
      FCurve.reparamCube]
    rw [BaseMap.applyCnum_inv, BaseMap.applyCnum_applyCnum a hi]
    rfl
  rw [h2, hgenus] at h1
  have h3 : (a⁻¹ * b).applyCnum c.genus i = b.applyCnum c.genus (a⁻¹.applyCnum c.genus i) := by
    rw [BaseMap.applyCnum_mul _ _ hi, BaseMap.applyCnum_inv, BaseMap.applyCnum_inv]
    unfold BaseMap.applyCnum
    split <;> split <;> rfl
  rw [hc.full.cube_eq (by rw [hc.mult_eq]; omega) hi, h3]
  obtain ⟨x, hx, hx'⟩ := Option.map_eq_some_iff.1 h1.symm
  rw [hx, Option.map_some, BaseMap.applyCube_mul, hc.div_eq, ← he.div_eq, hx', he.div_eq, ← hc.div_eq, BaseMap.applyCube_inv_applyCube]

/-- A listed path goes through the cubes of the other curve. -/
theorem _root_.Peano.MinCert.Agrees.cube_eq {d : ℕ} {c e : FCurve d} {f : ℕ → ℝ → Fin d → ℝ} {E : Env} {a : List ℕ × List Sp} (ha : Agrees E a e) (hc : c.Full) (he : e.Full)
    (hm : e.mult = c.mult) (hd : e.div = c.div) {ps : List ℕ} (hF : E.Fits c f ps) (h1 : ps = a.1) : ∀ p < c.mult, ∀ i < c.genus, c.cube? p i = e.cube? p i := by
  intro p hp i hi
  have hg : e.genus = c.genus := by unfold FCurve.genus; rw [hd]
  have hk : p * E.G + i < E.m * E.G := by
    rw [hF.m_eq, hF.G_eq]
    calc p * c.genus + i < p * c.genus + c.genus := by omega
      _ = (p + 1) * c.genus := by ring
      _ ≤ _ := Nat.mul_le_mul_right _ hp
  have hGp : 0 < E.G := by rw [hF.G_eq]; omega
  have e1 : (p * E.G + i) / E.G = p := by
    rw [Nat.add_comm, Nat.add_mul_div_right _ _ hGp, Nat.div_eq_of_lt (by rw [hF.G_eq]; exact hi), Nat.zero_add]
  have e2 : (p * E.G + i) % E.G = i := by
    rw [Nat.add_comm, Nat.add_mul_mod_self_right, Nat.mod_eq_of_lt (by rw [hF.G_eq]; exact hi)]
  have k4 := hF.cell _ hk
  rw [h1, (ha _ (List.mem_range.2 hk)).1, e1, e2] at k4
  rw [hc.cube_eq hp hi, he.cube_eq (by omega) (by omega)]
  congr 1
  rw [List.ofFn_inj] at k4
  funext j
  have := congrFun k4 j
  rw [← (natCube hc hp hi j).1, ← (natCube he (by omega) (by omega) j).1, this]

/-- One pattern: the path of a curve, and what its certificates give. -/
theorem _root_.Peano.MinCert.Tab.Ok.boundAt {T : Tab} {N cd : ℕ} {l : Link (Point 2)} {mc : Option ℤ} {r : Ratio} {D : ℝ} {c : FCurve 2} (hT : T.Ok 2 N 1 cd) (hF : T.For [l])
    (hr : r.Ok 2) (hc : c.IsCandidate N 1 mc) (hcd : mc = some (cd : ℤ) ∨ 2 ≤ cd) (hg : c.HasGates [l]) (hD : c.IsDilation r D) :
    ∃ f P, P ∈ (T.en.getD 0 default).all (N ^ 2) ∧ T.E.Fits c f [P] ∧ ∀ (allow : List (List ℕ × List Sp)) (vn vd : ℕ), 0 < vd →
      (∃ ts st, run r 2 vn vd T.E allow ts st = true ∧ (⟨[P], []⟩ : St) ∈ st) → (vn : ℝ) / vd ≤ D ∨ Listed T.E c allow [P] := by
  obtain ⟨f, hf, hD⟩ := hD
  have hG := hF.gates hT.1.2.2.2.1 hc.full hf hg
  have hm : T.E.m = c.mult := by rw [hT.1.2.2.1, hc.mult_eq]
  have hlen : (T.pathsOf c).length = 1 := by simp [Tab.pathsOf, hc.mult_eq]
  have hfit := hT.fits hG hc.mult_eq hc.div_eq hc.full
  have hmem := hT.pathsOf_mem hG hc.mult_eq hc.div_eq hc.full hc.fills (shortSteps hc hcd) hf (p := 0) (by rw [hc.mult_eq]; omega)
  obtain ⟨P, hP⟩ := List.length_eq_one_iff.1 hlen
  rw [hP] at hfit hmem
  refine ⟨f, P, hmem, hfit, fun allow vn vd hvd ⟨ts, st, h1, h2⟩ => ?_⟩
  rcases run_sound hr hvd hc.full hf h1 _ h2 hfit (by intro x hx; simp at hx) with ⟨x, hx, hv⟩ | hl
  · exact .inl (hv.trans (hD.1 hx))
  · exact .inr hl

/-- All candidates with these gates have big dilations, except for the curves that are the same as `e`; the bound is different for the other orders of cubes. -/
theorem bound_but {T : Tab} {N cd : ℕ} {l : Link (Point 2)} {mc mc' : Option ℤ} {r : Ratio} {vn vd wn wd : ℕ} {D : ℝ} {c e : FCurve 2}
    {allow : List (List ℕ × List Sp)} {L M : List ℕ} (hT : T.Ok 2 N 1 cd)
    (hF : T.For [l]) (hunit : ∀ j, (0 ≤ l.entrance j ∧ l.entrance j ≤ 1) ∧ (0 ≤ l.exit j ∧ l.exit j ≤ 1)) (hr : r.Ok 2) (hvd : 0 < vd) (hwd : 0 < wd)
    (hLM : ∀ P ∈ (T.en.getD 0 default).all (N ^ 2), P ∈ L ∨ P ∈ M)
    (hL : ∀ P ∈ L, ∃ ts st, run r 2 vn vd T.E allow ts st = true ∧ (⟨[P], []⟩ : St) ∈ st)
    (hM : ∀ P ∈ M, ∃ ts st, run r 2 wn wd T.E [] ts st = true ∧ (⟨[P], []⟩ : St) ∈ st) (he : e.IsCandidate N 1 mc')
    (hall : ∀ a ∈ allow, ∃ b : BaseMap 2, (FCurve.act b e).IsCandidate N 1 none ∧ Agrees T.E a (FCurve.act b e)) (hLa : ∀ P ∈ L, ∃ a ∈ allow, [P] = a.1)
    (hcd : mc = some (cd : ℤ) ∨ 2 ≤ cd)
    (hc : c.IsCandidate N 1 mc) (hg : c.GatesIn [[l]]) (hD : c.IsDilation r D) :
    (wn : ℝ) / wd ≤ D ∨ c.SameProto e ∧ ((vn : ℝ) / vd ≤ D ∨ c.SameCurve e) := by
  obtain ⟨w, B, hw, h1, h2⟩ := exists_reparam (S := [l]) (by simp) (by simpa using hunit) hc hg
  obtain ⟨f, P, hP, hfit, hrun⟩ := hT.boundAt hF hr h1 hcd h2 (hD.reparam hc.full hw)
  rcases hLM P hP with hP | hP
  · right
    obtain rfl : w = [0] := by
      rw [hc.mult_eq] at hw
      exact List.perm_singleton.1 hw
    have hB : c.reparam [0] B = c.reparam [0] fun _ => B 0 := by
      unfold FCurve.reparam FCurve.reparamCube FCurve.reparamSpec
      have hp : ∀ i < c.genus, (c.specD 0 ((B 0).applyCnum c.genus i)).pnum = 0 := by
        intro i hi
        have := hc.full.specD_lt (p := 0) (by rw [hc.mult_eq]; omega) (BaseMap.applyCnum_lt (B 0) hi)
        rw [hc.mult_eq] at this
        omega
      simp only [List.map_cons, List.map_nil]
      congr 3
      refine List.map_congr_left fun i hi => ?_
      rw [hp i (List.mem_range.1 hi)]
    refine ⟨?_, (hrun _ _ _ hvd (hL P hP)).imp_right ?_⟩
    · obtain ⟨a, ha, hPa⟩ := hLa P hP
      obtain ⟨b, hb1, hb2⟩ := hall a ha
      have heq := hb2.cube_eq h1.full hb1.full (by rw [hb1.mult_eq, h1.mult_eq]; rfl) (by rw [hb1.div_eq, h1.div_eq]) hfit hPa
      rw [hB] at heq h1
      exact sameProto_of_reparam hc he fun i hi => heq 0 (by rw [h1.mult_eq]; simp) i hi
    · rintro ⟨a, ha, k1, k2⟩
      obtain ⟨b, hb1, hb2⟩ := hall a ha
      have heq := hb2.eq h1.full hb1.full (by rw [hb1.mult_eq, h1.mult_eq]; rfl) (by rw [hb1.div_eq, h1.div_eq]) hfit k1 k2
      rw [hB] at heq h1
      exact FCurve.SameCurve.of_act he.full (sameCurve_of_reparam (b := B 0) hc hb1 h1.full fun i hi => heq 0 (by rw [h1.mult_eq]; simp) i hi)
  · rcases hrun _ _ _ hwd (hM P hP) with h | ⟨a, ha, _⟩
    · exact .inl h
    · simp at ha

end Peano
