import Verif.Lemmas.Pieces

set_option autoImplicit false

/- Bounds for pairs of pieces. -/
namespace Peano
variable {d : ℕ} {r : Ratio} {f : ℕ → ℝ → Fin d → ℝ}
open FCurve (CurvePoint)

section
variable {K : Type*} [Field K] [LinearOrder K] [IsStrictOrderedRing K]

theorem Ratio.num_pos (r : Ratio) {v : Fin d → K} (h : ∃ i, v i ≠ 0) : 0 < r.num v := by
  obtain ⟨i, hi⟩ := h
  have h1 : 0 < maxAbs v := lt_of_lt_of_le (abs_pos.2 hi) (abs_le_maxAbs v i)
  have h2 : 0 < sumAbs v := by
    rw [sumAbs_eq]; exact Finset.sum_pos' (fun i _ => abs_nonneg _) ⟨i, Finset.mem_univ _, abs_pos.2 hi⟩
  have h3 : 0 < sumSq v := by
    rw [sumSq_eq]; exact Finset.sum_pos' (fun i _ => sq_nonneg _) ⟨i, Finset.mem_univ _, by positivity⟩
  cases r
  · exact pow_pos h1 _
  · exact pow_pos h2 _
  · exact pow_pos h3 _
  · exact pow_pos h3 _

theorem Ratio.den_strictMono (r : Ratio) {s t : K} (hs : 0 ≤ s) (h : s < t) : r.den s < r.den t := by
  cases r <;> simp only [Ratio.den] <;> first | exact h | exact pow_lt_pow_left₀ h hs (by norm_num)

theorem Ratio.val_strict (r : Ratio) {v w : Fin d → K} (h : ∀ i, |v i| ≤ |w i|) (hw : ∃ i, w i ≠ 0) {s t : K} (hs : 0 < s) (hst : s < t) :
    r.val v t < r.val w s :=
  lt_of_le_of_lt (r.val_mono h (hs.trans hst) le_rfl) (div_lt_div_of_pos_left (r.num_pos hw) (r.den_pos hs) (r.den_strictMono hs.le hst))

theorem Ratio.val_pos (r : Ratio) {v : Fin d → K} (h : ∃ i, v i ≠ 0) {t : K} (ht : 0 < t) : 0 < r.val v t := div_pos (r.num_pos h) (r.den_pos ht)

end

/-- The point lies on the graph of `s * f`. -/
structure PointOn (f : ℕ → ℝ → Fin d → ℝ) (s : Spec d) (pt : CurvePoint d) : Prop where
  time : 0 ≤ (pt.t : ℝ) ∧ (pt.t : ℝ) ≤ 1
  point : ∀ i, (pt.x i : ℝ) = actFn s f pt.t i

theorem PointOn.act {s : Spec d} {pt : CurvePoint d} (h : PointOn f s pt) (b : BaseMap d) : PointOn f (Spec.rmulBaseMap b s) (pt.act b) := by
  have ht : (((pt.act b).t : ℚ) : ℝ) = b.applyT 1 (pt.t : ℝ) := by
    show ((b.applyT 1 pt.t : ℚ) : ℝ) = _
    unfold BaseMap.applyT
    split <;> push_cast <;> rfl
  refine ⟨by rw [ht]; exact applyT_mem01 b h.time.1 h.time.2, ?_⟩
  intro i
  rw [ht, actFn_rmul, BaseMap.applyT_applyT]
  have hx : (((pt.act b).x i : ℚ) : ℝ) = b.applyX 1 (fun i => (pt.x i : ℝ)) i := by
    show ((Point.act b pt.x i : ℚ) : ℝ) = _
    exact applyX_cast b pt.x i
  rw [hx]
  have : (fun i => (pt.x i : ℝ)) = actFn s f pt.t := funext h.point
  rw [this]

namespace FCurve
variable {c : FCurve d} {j : Junction d} {pos1 pos2 : PiecePos d} {k : Dilation.Coords d} {n1 n2 : ℕ} {sp1 sp2 : Spec d}

theorem Geom.maxDx_pos (hg : c.Geom f r j pos1 pos2 k n1 n2 sp1 sp2) (i : Fin d) : 0 < k.maxDx i := by
  unfold Dilation.Coords.maxDx
  have := hg.mx2
  rcases eq_or_ne (k.x1 i - k.x2 i + 1) 0 with h | h
  · apply lt_max_of_lt_right
    rw [abs_pos]; omega
  · exact lt_max_of_lt_left (abs_pos.2 h)

theorem Geom.dx_le (hg : c.Geom f r j pos1 pos2 k n1 n2 sp1 sp2) (hf : c.Realizes f) {x y : ℝ} (hx : 0 ≤ x ∧ x ≤ 1) (hy : 0 ≤ y ∧ y ≤ 1) (i : Fin d) :
    |(k.x1 i + actFn sp1 f x i) - (k.x2 i + k.mx2 * actFn sp2 f y i)| ≤ |(k.maxDx i : ℝ)| := by
  have a1 := hf.actFn_mem hg.pnum1 hx.1 hx.2 i
  have a2 := hf.actFn_mem hg.pnum2 hy.1 hy.2 i
  have hm : (0 : ℝ) < k.mx2 := by exact_mod_cast hg.mx2
  rw [abs_of_pos (show (0 : ℝ) < k.maxDx i by exact_mod_cast hg.maxDx_pos i)]
  have e : (k.maxDx i : ℝ) = max |(k.x1 i : ℝ) - k.x2 i + 1| |(k.x1 i : ℝ) - k.x2 i - k.mx2| := by
    unfold Dilation.Coords.maxDx; push_cast; rfl
  rw [e, abs_le]
  have b1 := neg_abs_le ((k.x1 i : ℝ) - k.x2 i - k.mx2)
  have b2 := le_abs_self ((k.x1 i : ℝ) - k.x2 i + 1)
  have m1 := le_max_left |(k.x1 i : ℝ) - k.x2 i + 1| |(k.x1 i : ℝ) - k.x2 i - k.mx2|
  have m2 := le_max_right |(k.x1 i : ℝ) - k.x2 i + 1| |(k.x1 i : ℝ) - k.x2 i - k.mx2|
  have h3 : (k.mx2 : ℝ) * actFn sp2 f y i ≤ k.mx2 := by nlinarith [a2.2]
  have h4 : 0 ≤ (k.mx2 : ℝ) * actFn sp2 f y i := mul_nonneg hm.le a2.1
  constructor <;> linarith [a1.1, a1.2]

theorem minDt_cast : ((k.minDt : ℤ) : ℝ) = k.t2 - (k.t1 + 1) := by unfold Dilation.Coords.minDt; push_cast; rfl
theorem maxDt_cast : ((k.maxDt : ℤ) : ℝ) = k.t2 + k.mt2 - k.t1 := by unfold Dilation.Coords.maxDt; push_cast; rfl

theorem Geom.ratio_le (hg : c.Geom f r j pos1 pos2 k n1 n2 sp1 sp2) (hf : c.Realizes f) (hmin : 0 < k.minDt) {x y : ℝ} (hx : 0 ≤ x ∧ x ≤ 1) (hy : 0 ≤ y ∧ y ≤ 1) :
    j.ratio r f ((n1 + x) / (c.genus : ℝ) ^ pos1.depth) ((n2 + y) / (c.genus : ℝ) ^ pos2.depth) ≤ r.val (fun i => (k.maxDx i : ℝ)) k.minDt := by
  rw [hg.ratio x y hx.1 hx.2 hy.1 hy.2]
  refine r.val_mono (hg.dx_le hf hx hy) (by exact_mod_cast hmin) ?_
  have hm : (0 : ℝ) < k.mt2 := by exact_mod_cast hg.mt2
  have := mul_nonneg hm.le hy.1
  rw [minDt_cast]
  linarith [hx.2]

theorem Geom.ratio_lt (hd : d ≠ 0) (hg : c.Geom f r j pos1 pos2 k n1 n2 sp1 sp2) (hf : c.Realizes f) (hmin : 0 < k.minDt) {x y : ℝ} (hx : 0 ≤ x ∧ x < 1) (hy : 0 ≤ y ∧ y ≤ 1) :
    j.ratio r f ((n1 + x) / (c.genus : ℝ) ^ pos1.depth) ((n2 + y) / (c.genus : ℝ) ^ pos2.depth) < r.val (fun i => (k.maxDx i : ℝ)) k.minDt := by
  rw [hg.ratio x y hx.1 hx.2.le hy.1 hy.2]
  refine r.val_strict (hg.dx_le hf ⟨hx.1, hx.2.le⟩ hy) ⟨⟨0, Nat.pos_of_ne_zero hd⟩, ?_⟩ (by exact_mod_cast hmin) ?_
  · have := hg.maxDx_pos ⟨0, Nat.pos_of_ne_zero hd⟩
    exact_mod_cast this.ne'
  · have hm : (0 : ℝ) < k.mt2 := by exact_mod_cast hg.mt2
    have := mul_nonneg hm.le hy.1
    rw [minDt_cast]
    linarith [hx.2]

theorem Geom.exists_ge (h : c.Full) (hfill : c.FillsGrid) (hg : c.Geom f r j pos1 pos2 k n1 n2 sp1 sp2) (hf : c.Realizes f) (hmin : 0 < k.minDt) :
    ∃ x y : ℝ, (0 ≤ x ∧ x ≤ 1) ∧ (0 ≤ y ∧ y ≤ 1) ∧ r.val (fun i => (k.maxDx i : ℝ)) k.maxDt ≤
      j.ratio r f ((n1 + x) / (c.genus : ℝ) ^ pos1.depth) ((n2 + y) / (c.genus : ℝ) ^ pos2.depth) := by
  let P : Fin d → Prop := fun i => |k.x1 i - k.x2 i - k.mx2| ≤ |k.x1 i - k.x2 i + 1|
  classical
  obtain ⟨x, x0, x1, hx⟩ := hf.actFn_surjective h hfill hg.pnum1 (x := fun i => if P i then 1 else 0) (by intro i; split <;> norm_num)
  obtain ⟨y, y0, y1, hy⟩ := hf.actFn_surjective h hfill hg.pnum2 (x := fun i => if P i then 0 else 1) (by intro i; split <;> norm_num)
  refine ⟨x, y, ⟨x0, x1⟩, ⟨y0, y1⟩, ?_⟩
  rw [hg.ratio x y x0 x1 y0 y1]
  have hm : (0 : ℝ) < k.mt2 := by exact_mod_cast hg.mt2
  have hmin' : (0 : ℝ) < k.minDt := by exact_mod_cast hmin
  rw [minDt_cast] at hmin'
  have h1 := mul_nonneg hm.le y0
  have h2 : (k.mt2 : ℝ) * y ≤ k.mt2 := by nlinarith
  refine r.val_mono ?_ (by linarith) (by rw [maxDt_cast]; linarith)
  intro i
  rw [abs_of_pos (show (0 : ℝ) < k.maxDx i by exact_mod_cast hg.maxDx_pos i), hx, hy]
  have e : (k.maxDx i : ℝ) = max |(k.x1 i : ℝ) - k.x2 i + 1| |(k.x1 i : ℝ) - k.x2 i - k.mx2| := by
    unfold Dilation.Coords.maxDx; push_cast; rfl
  rw [e]
  by_cases hP : P i
  · have hP' : |(k.x1 i : ℝ) - k.x2 i - k.mx2| ≤ |(k.x1 i : ℝ) - k.x2 i + 1| := by exact_mod_cast hP
    simp only [hP, if_true]
    rw [max_eq_left hP']
    apply le_of_eq
    congr 1
    ring
  · have hP' : |(k.x1 i : ℝ) - k.x2 i + 1| ≤ |(k.x1 i : ℝ) - k.x2 i - k.mx2| := by
      have := (not_le.1 hP).le
      exact_mod_cast this
    simp only [hP, if_false]
    rw [max_eq_right hP']
    apply le_of_eq
    congr 1
    ring

/-- What the estimator knows about a pair. -/
structure GoodBounds (c : FCurve d) (f : ℕ → ℝ → Fin d → ℝ) (r : Ratio) (j : Junction d) (pos1 pos2 : PiecePos d) (n1 n2 : ℕ) (b : PairBounds d) : Prop where
  lo : ∃ x y : ℝ, (0 ≤ x ∧ x ≤ 1) ∧ (0 ≤ y ∧ y ≤ 1) ∧
    (b.lo : ℝ) ≤ j.ratio r f ((n1 + x) / (c.genus : ℝ) ^ pos1.depth) ((n2 + y) / (c.genus : ℝ) ^ pos2.depth)
  argmax : ∀ a, b.argmax = some a → a.junc = j ∧ a.pos1 = pos1 ∧ a.pos2 = pos2 ∧ a.OnGraph f ∧
    r.val (fun i => a.x1 i - a.x2 i) (a.t2 - a.t1) = b.lo ∧ a.t1 < a.t2

/-- The lower bound is the ratio of some pair of points of the two cubes. -/
def NearMax (r : Ratio) (k : Dilation.Coords d) (lo : ℚ) : Prop :=
  ∃ (dx : Fin d → ℚ) (dt : ℚ), (∀ i, (k.maxDx i : ℚ) - (1 + k.mx2) ≤ |dx i|) ∧ 0 < dt ∧ dt ≤ k.maxDt ∧ lo = r.val dx dt

/-- State of the loop over points. -/
structure PointsInv (c : FCurve d) (f : ℕ → ℝ → Fin d → ℝ) (r : Ratio) (j : Junction d) (pos1 pos2 : PiecePos d) (n1 n2 : ℕ) (k : Dilation.Coords d) (st : ℚ × Option (Argmax d)) : Prop where
  near : NearMax r k st.1
  lo : ∃ x y : ℝ, (0 ≤ x ∧ x ≤ 1) ∧ (0 ≤ y ∧ y ≤ 1) ∧
    (st.1 : ℝ) ≤ j.ratio r f ((n1 + x) / (c.genus : ℝ) ^ pos1.depth) ((n2 + y) / (c.genus : ℝ) ^ pos2.depth)
  argmax : ∀ a, st.2 = some a → a.junc = j ∧ a.pos1 = pos1 ∧ a.pos2 = pos2 ∧ a.OnGraph f ∧
    r.val (fun i => a.x1 i - a.x2 i) (a.t2 - a.t1) = st.1 ∧ a.t1 < a.t2

theorem Geom.dx_ge (hg : c.Geom f r j pos1 pos2 k n1 n2 sp1 sp2) (hf : c.Realizes f) {x y : ℝ} (hx : 0 ≤ x ∧ x ≤ 1) (hy : 0 ≤ y ∧ y ≤ 1) (i : Fin d) :
    (k.maxDx i : ℝ) - (1 + k.mx2) ≤ |(k.x1 i + actFn sp1 f x i) - (k.x2 i + k.mx2 * actFn sp2 f y i)| := by
  have a1 := hf.actFn_mem hg.pnum1 hx.1 hx.2 i
  have a2 := hf.actFn_mem hg.pnum2 hy.1 hy.2 i
  have hm : (0 : ℝ) < k.mx2 := by exact_mod_cast hg.mx2
  have e : (k.maxDx i : ℝ) = max |(k.x1 i : ℝ) - k.x2 i + 1| |(k.x1 i : ℝ) - k.x2 i - k.mx2| := by
    unfold Dilation.Coords.maxDx; push_cast; rfl
  have h3 : (k.mx2 : ℝ) * actFn sp2 f y i ≤ k.mx2 := by nlinarith [a2.2]
  have h4 : 0 ≤ (k.mx2 : ℝ) * actFn sp2 f y i := mul_nonneg hm.le a2.1
  rw [e, sub_le_iff_le_add]
  set w := (k.x1 i + actFn sp1 f x i) - (k.x2 i + k.mx2 * actFn sp2 f y i) with hw
  have l1 := le_abs_self w
  have l2 := neg_abs_le w
  apply max_le <;> rw [abs_le] <;> constructor <;> linarith [a1.1, a1.2]

theorem Geom.pointStep (hr : r.Ok d) (h : c.Full) (hf : c.Realizes f) (hg : c.Geom f r j pos1 pos2 k n1 n2 sp1 sp2) (hmin : 0 < k.minDt)
    {pt1 pt2 : CurvePoint d} (h1 : PointOn f sp1 pt1) (h2 : PointOn f sp2 pt2) {st : ℚ × Option (Argmax d)}
    (hst : PointsInv c f r j pos1 pos2 n1 n2 k st) :
    ∃ st', Dilation.pointStep r j pos1 pos2 k st (pt1, pt2.scale k.mx2) = some st' ∧ PointsInv c f r j pos1 pos2 n1 n2 k st' ∧ st'.2.isSome ∧ (st.2.isSome → st.1 ≤ st'.1) := by
  have hm : (0 : ℝ) < k.mt2 := by exact_mod_cast hg.mt2
  have hm' : ((k.mx2 : ℚ) ^ d) = (k.mt2 : ℚ) := by exact_mod_cast hg.mx2_pow.symm
  have hdt : (0 : ℝ) < (k.t2 + k.mt2 * pt2.t : ℝ) - (k.t1 + pt1.t) := by
    have hmin' : (0 : ℝ) < k.minDt := by exact_mod_cast hmin
    rw [minDt_cast] at hmin'
    have := mul_nonneg hm.le h2.time.1
    linarith [h1.time.2]
  have hdtq : (0 : ℚ) < (k.t2 + (k.mx2 : ℚ) ^ d * pt2.t : ℚ) - (k.t1 + pt1.t) := by
    rw [hm']; exact_mod_cast hdt
  have hval : ((r.val (fun i => ((k.x1 i : ℚ) + pt1.x i) - (k.x2 i + pt2.x i * k.mx2)) ((k.t2 + (k.mx2 : ℚ) ^ d * pt2.t : ℚ) - (k.t1 + pt1.t)) : ℚ) : ℝ) =
      j.ratio r f ((n1 + pt1.t) / (c.genus : ℝ) ^ pos1.depth) ((n2 + pt2.t) / (c.genus : ℝ) ^ pos2.depth) := by
    rw [hg.ratio _ _ h1.time.1 h1.time.2 h2.time.1 h2.time.2, ← Ratio.val_cast]
    congr 1
    · funext i
      push_cast
      rw [h1.point, h2.point]
      ring
    · rw [hm']; push_cast; ring
  unfold Dilation.pointStep
  simp only [Option.bind_eq_bind]
  have hfn := Ratio.fn_eq_some r hr (fun i => ((k.x1 i : ℚ) + pt1.x i) - (k.x2 i + (pt2.scale k.mx2).x i)) (t := (k.t2 + (pt2.scale k.mx2).t : ℚ) - (k.t1 + pt1.t)) hdtq.ne'
  rw [hfn]
  simp only [Option.bind_some]
  by_cases hcond : r.val (fun i => ((k.x1 i : ℚ) + pt1.x i) - (k.x2 i + (pt2.scale k.mx2).x i)) ((k.t2 + (pt2.scale k.mx2).t : ℚ) - (k.t1 + pt1.t)) > st.1 ∨ st.2.isNone = true
  · rw [if_pos hcond]
    refine ⟨_, rfl, ⟨⟨_, _, ?_, hdtq, ?_, rfl⟩, ⟨pt1.t, pt2.t, h1.time, h2.time, ?_⟩, ?_⟩, rfl, ?_⟩
    · intro i
      have := hg.dx_ge hf h1.time h2.time i
      rw [← h1.point, ← h2.point] at this
      have e : (((k.maxDx i : ℚ) - (1 + k.mx2) : ℚ) : ℝ) ≤ ((|((k.x1 i : ℚ) + pt1.x i) - (k.x2 i + pt2.x i * k.mx2)| : ℚ) : ℝ) := by
        push_cast
        rw [mul_comm ((pt2.x i : ℚ) : ℝ)]
        exact this
      exact_mod_cast e
    · have : (((k.t2 : ℚ) + (k.mx2 : ℚ) ^ d * pt2.t - (k.t1 + pt1.t) : ℚ) : ℝ) ≤ ((k.maxDt : ℚ) : ℝ) := by
        rw [hm']
        push_cast
        rw [maxDt_cast]
        nlinarith [h1.time.1, h2.time.2]
      exact_mod_cast this
    · exact hval.le
    · intro a ha
      simp only [Option.some.injEq] at ha
      subst ha
      have hmx : (0 : ℝ) < k.mx := by exact_mod_cast hg.mx
      have hG0 : (0 : ℝ) < c.genus := by exact_mod_cast h.genus_pos
      have hmt : (k.mt : ℝ) = (c.genus : ℝ) ^ pos1.depth := by exact_mod_cast hg.mt
      have hmt0 : (0 : ℝ) < (c.genus : ℝ) ^ pos1.depth := by positivity
      have hmt2 : (0 : ℝ) < (c.genus : ℝ) ^ pos2.depth := by positivity
      have ht1 : (k.t1 : ℝ) = n1 := by exact_mod_cast hg.t1
      have hsc : (k.mt2 : ℝ) * (c.genus : ℝ) ^ pos2.depth = (c.genus : ℝ) ^ pos1.depth := by exact_mod_cast hg.scale
      have ht2 : (k.t2 : ℝ) = n2 * k.mt2 + j.deltaT * (c.genus : ℝ) ^ pos1.depth := by exact_mod_cast hg.t2
      have hmr : ((k.mx2 : ℝ) ^ d) = (k.mt2 : ℝ) := by exact_mod_cast hg.mx2_pow.symm
      have e1 : (((k.t1 : ℚ) + pt1.t) / k.mt : ℝ) = (n1 + pt1.t) / (c.genus : ℝ) ^ pos1.depth := by push_cast; rw [ht1, hmt]
      have e2 : ((((k.t2 : ℚ) + (pt2.scale k.mx2).t) / k.mt : ℚ) : ℝ) = j.deltaT + (n2 + pt2.t) / (c.genus : ℝ) ^ pos2.depth := by
        show ((((k.t2 : ℚ) + (k.mx2 : ℚ) ^ d * pt2.t) / k.mt : ℚ) : ℝ) = _
        push_cast
        rw [hmr, hmt, ht2, ← hsc]
        field_simp
        ring
      have b1 : 0 ≤ (n1 + pt1.t) / (c.genus : ℝ) ^ pos1.depth ∧ (n1 + pt1.t) / (c.genus : ℝ) ^ pos1.depth ≤ 1 := by
        have : (n1 : ℝ) + 1 ≤ (c.genus : ℝ) ^ pos1.depth := by exact_mod_cast hg.lt1
        have h0 := h1.time.1
        refine ⟨by positivity, ?_⟩
        rw [div_le_one hmt0]; linarith [h1.time.2]
      have b2 : 0 ≤ (n2 + pt2.t) / (c.genus : ℝ) ^ pos2.depth ∧ (n2 + pt2.t) / (c.genus : ℝ) ^ pos2.depth ≤ 1 := by
        have : (n2 : ℝ) + 1 ≤ (c.genus : ℝ) ^ pos2.depth := by exact_mod_cast hg.lt2
        have h0 := h2.time.1
        refine ⟨by positivity, ?_⟩
        rw [div_le_one hmt2]; linarith [h2.time.2]
      refine ⟨rfl, rfl, rfl, ⟨?_, ?_, ?_, ?_⟩, ?_, ?_⟩
      · show 0 ≤ ((((k.t1 : ℚ) + pt1.t) / k.mt : ℚ) : ℝ) ∧ ((((k.t1 : ℚ) + pt1.t) / k.mt : ℚ) : ℝ) ≤ 1
        have e1' : ((((k.t1 : ℚ) + pt1.t) / k.mt : ℚ) : ℝ) = (n1 + pt1.t) / (c.genus : ℝ) ^ pos1.depth := by push_cast; exact e1
        rw [e1']; exact b1
      · show (j.deltaT : ℝ) ≤ ((((k.t2 : ℚ) + (pt2.scale k.mx2).t) / k.mt : ℚ) : ℝ) ∧ ((((k.t2 : ℚ) + (pt2.scale k.mx2).t) / k.mt : ℚ) : ℝ) ≤ j.deltaT + 1
        rw [e2]
        constructor <;> linarith [b2.1, b2.2]
      · intro i
        show ((((k.x1 i : ℚ) + pt1.x i) / k.mx : ℚ) : ℝ) = actFn j.spec1 f ((((k.t1 : ℚ) + pt1.t) / k.mt : ℚ) : ℝ) i
        have e1' : ((((k.t1 : ℚ) + pt1.t) / k.mt : ℚ) : ℝ) = (n1 + pt1.t) / (c.genus : ℝ) ^ pos1.depth := by push_cast; exact e1
        rw [e1']
        have := hg.point1 pt1.t h1.time.1 h1.time.2 i
        push_cast
        rw [h1.point, div_eq_iff hmx.ne', ← this]
        ring
      · intro i
        show ((((k.x2 i : ℚ) + (pt2.scale k.mx2).x i) / k.mx : ℚ) : ℝ) = j.deltaX i + actFn j.spec2 f (((((k.t2 : ℚ) + (pt2.scale k.mx2).t) / k.mt : ℚ) : ℝ) - j.deltaT) i
        rw [e2, add_sub_cancel_left]
        have := hg.point2 pt2.t h2.time.1 h2.time.2 i
        show ((((k.x2 i : ℚ) + pt2.x i * k.mx2) / k.mx : ℚ) : ℝ) = _
        push_cast
        rw [h2.point, div_eq_iff hmx.ne', mul_comm (actFn _ _ _ _) (k.mx2 : ℝ), ← this]
        ring
      · show r.val (fun i => ((k.x1 i : ℚ) + pt1.x i) / k.mx - (k.x2 i + (pt2.scale k.mx2).x i) / k.mx) ((k.t2 + (pt2.scale k.mx2).t) / k.mt - (k.t1 + pt1.t) / k.mt) = _
        have hmxq : (0 : ℚ) < k.mx := by exact_mod_cast hg.mx
        have hmxmt : (k.mt : ℚ) = (k.mx : ℚ) ^ d := by
          exact_mod_cast hg.mt_pow
        conv_lhs => rw [← Ratio.val_smul r hr hmxq]
        rw [hmxmt]
        congr 1
        · funext i; field_simp
        · field_simp
      · show ((k.t1 : ℚ) + pt1.t) / k.mt < ((k.t2 : ℚ) + (pt2.scale k.mx2).t) / k.mt
        have hmtq : (0 : ℚ) < k.mt := by
          have : (0 : ℝ) < k.mt := by rw [hmt]; exact hmt0
          exact_mod_cast this
        exact div_lt_div_of_pos_right (sub_pos.1 hdtq) hmtq
    · intro hs
      rcases hcond with hc | hc
      · exact hc.le
      · rw [Option.isNone_iff_eq_none] at hc
        rw [hc] at hs
        simp at hs
  · rw [if_neg hcond]
    rw [not_or] at hcond
    refine ⟨st, rfl, hst, ?_, fun _ => le_rfl⟩
    have := hcond.2
    cases h2 : st.2 with
    | none => rw [h2] at this; simp at this
    | some a => rfl

theorem foldlM_points {α σ : Type} {step : σ → α → Option σ} {P : σ → Prop} {F : σ → Prop} (l : List α) (hstep : ∀ st a, a ∈ l → P st → ∃ st', step st a = some st' ∧ P st' ∧ F st')
    {st : σ} (hst : P st) : ∃ st', l.foldlM step st = some st' ∧ P st' ∧ (l ≠ [] → F st') ∧ (l = [] → st' = st) := by
  induction l generalizing st with
  | nil => exact ⟨st, rfl, hst, fun h => absurd rfl h, fun _ => rfl⟩
  | cons a l ih =>
    obtain ⟨s1, h1, h2, h3⟩ := hstep st a List.mem_cons_self hst
    obtain ⟨s2, g1, g2, g3, g4⟩ := ih (fun st b hb => hstep st b (List.mem_cons_of_mem _ hb)) h2
    refine ⟨s2, by rw [List.foldlM_cons, h1]; exact g1, g2, fun _ => ?_, fun h => by simp at h⟩
    by_cases hl : l = []
    · rw [g4 hl]; exact h3
    · exact g3 hl

/-- `_get_pos_bounds` for a pair of pieces, with points on the graphs. -/
theorem Geom.posBounds (hr : r.Ok d) (h : c.Full) (hfill : c.FillsGrid) (hf : c.Realizes f) {w1 w2 : Spec d}
    (hg : c.Geom f r j pos1 pos2 k n1 n2 (Spec.rmulBaseMap j.spec1.baseMap w1) (Spec.rmulBaseMap j.spec2.baseMap w2))
    (hk : Dilation.coords j pos1 pos2 = some k) (hmin : 0 < k.minDt) {pts1 pts2 : List (CurvePoint d)} (h1 : ∀ pt ∈ pts1, PointOn f w1 pt) (h2 : ∀ pt ∈ pts2, PointOn f w2 pt) :
    ∃ b, Dilation.posBounds r j pos1 pos2 pts1 pts2 = some b ∧ b.up = r.val (fun i => (k.maxDx i : ℚ)) k.minDt ∧ c.GoodBounds f r j pos1 pos2 n1 n2 b ∧
      (pts1 = [] ∨ pts2 = [] → b.lo = r.val (fun i => (k.maxDx i : ℚ)) k.maxDt ∧ b.argmax = none) ∧ (pts1 ≠ [] → pts2 ≠ [] → b.argmax.isSome) ∧ NearMax r k b.lo := by
  have hmax : 0 < k.maxDt := by
    have := hg.mt2
    unfold Dilation.Coords.maxDt
    unfold Dilation.Coords.minDt at hmin
    omega
  have f1 := Ratio.fn_eq_some r hr (fun i => (k.maxDx i : ℚ)) (t := (k.maxDt : ℚ)) (by exact_mod_cast hmax.ne')
  have f2 := Ratio.fn_eq_some r hr (fun i => (k.maxDx i : ℚ)) (t := (k.minDt : ℚ)) (by exact_mod_cast hmin.ne')
  have hlo0 : PointsInv c f r j pos1 pos2 n1 n2 k (r.val (fun i => (k.maxDx i : ℚ)) k.maxDt, none) := by
    obtain ⟨x, y, hx, hy, hge⟩ := hg.exists_ge h hfill hf hmin
    refine ⟨⟨_, _, fun i => ?_, by exact_mod_cast hmax, le_rfl, rfl⟩, ⟨x, y, hx, hy, ?_⟩, fun a ha => by simp at ha⟩
    · have h1 : (0 : ℚ) < k.mx2 := by exact_mod_cast hg.mx2
      linarith [le_abs_self (k.maxDx i : ℚ)]
    have e := Ratio.val_cast (K := ℝ) r (fun i => (k.maxDx i : ℚ)) (k.maxDt : ℚ)
    push_cast at e
    rw [← e]
    exact hge
  unfold Dilation.posBounds
  simp only [hk, Option.bind_eq_bind, Option.bind_some, f1, f2]
  by_cases hne : pts1 = [] ∨ pts2 = []
  · have : (!pts1.isEmpty && !pts2.isEmpty) = false := by
      rcases hne with rfl | rfl <;> simp
    rw [this]
    refine ⟨_, rfl, rfl, ⟨hlo0.lo, fun a ha => by simp at ha⟩, fun _ => ⟨rfl, rfl⟩, fun g1 g2 => ?_, hlo0.near⟩
    rcases hne with hne | hne
    · exact absurd hne g1
    · exact absurd hne g2
  · rw [not_or] at hne
    have : (!pts1.isEmpty && !pts2.isEmpty) = true := by
      simp [hne.1, hne.2]
    rw [this]
    simp only [if_true]
    obtain ⟨st, g1, g2, g3, _⟩ := foldlM_points (P := PointsInv c f r j pos1 pos2 n1 n2 k) (F := fun st => st.2.isSome)
      (step := Dilation.pointStep r j pos1 pos2 k)
      ((pts1.map fun pt => pt.act j.spec1.baseMap).flatMap fun a => (pts2.map fun pt => (pt.act j.spec2.baseMap).scale k.mx2).map fun b => (a, b)) (by
        intro st e he hst
        obtain ⟨a, ha, he⟩ := List.mem_flatMap.1 he
        obtain ⟨b, hb, rfl⟩ := List.mem_map.1 he
        obtain ⟨pt1, hp1, rfl⟩ := List.mem_map.1 ha
        obtain ⟨pt2, hp2, rfl⟩ := List.mem_map.1 hb
        obtain ⟨st', e1, e2, e3, _⟩ := hg.pointStep hr h hf hmin ((h1 pt1 hp1).act _) ((h2 pt2 hp2).act _) hst
        exact ⟨st', e1, e2, e3⟩) hlo0
    rw [g1]
    refine ⟨_, rfl, rfl, ⟨g2.lo, g2.argmax⟩, fun g => ?_, fun _ _ => ?_, g2.near⟩
    · rcases g with g | g
      · exact absurd g hne.1
      · exact absurd g hne.2
    · apply g3
      obtain ⟨a, l1, rfl⟩ := List.exists_cons_of_ne_nil hne.1
      obtain ⟨b, l2, rfl⟩ := List.exists_cons_of_ne_nil hne.2
      simp

end FCurve
end Peano
