import Verif.Lemmas.Cover
import Mathlib.Topology.Order.Lattice
import Mathlib.Topology.Order.Compact
import Mathlib.Topology.Algebra.Order.Field

set_option autoImplicit false

/- The supremum of the ratios is attained. -/
namespace Peano
variable {d : ℕ} {r : Ratio} {f : ℕ → ℝ → Fin d → ℝ}

theorem continuous_foldr_max {X : Type} [TopologicalSpace X] (l : List (Fin d)) {g : X → Fin d → ℝ} {s : Set X} (hg : ContinuousOn g s) :
    ContinuousOn (fun x => (l.map fun i => |g x i|).foldr max 0) s := by
  induction l with
  | nil => exact continuousOn_const
  | cons i l ih => exact ContinuousOn.sup' (((continuous_apply i).comp_continuousOn hg).abs) ih

theorem continuous_sum_list {X : Type} [TopologicalSpace X] (l : List (Fin d)) {g : Fin d → X → ℝ} {s : Set X} (hg : ∀ i, ContinuousOn (g i) s) :
    ContinuousOn (fun x => (l.map fun i => g i x).sum) s := by
  induction l with
  | nil => exact continuousOn_const
  | cons i l ih =>
    simp only [List.map_cons, List.sum_cons]
    exact (hg i).add ih

theorem Ratio.continuousOn_val {X : Type} [TopologicalSpace X] (r : Ratio) {g : X → Fin d → ℝ} {t : X → ℝ} {s : Set X} (hg : ContinuousOn g s)
    (ht : ContinuousOn t s) (h0 : ∀ x ∈ s, t x ≠ 0) : ContinuousOn (fun x => r.val (g x) (t x)) s := by
  unfold Ratio.val
  apply ContinuousOn.div
  · have hgi : ∀ i, ContinuousOn (fun x => g x i) s := fun i => (continuous_apply i).comp_continuousOn hg
    cases r
    · exact (continuous_foldr_max _ hg).pow d
    · exact (continuous_sum_list _ fun i => (hgi i).abs).pow d
    · exact (continuous_sum_list _ fun i => (hgi i).pow 2).pow d
    · exact (continuous_sum_list _ fun i => (hgi i).pow 2).pow (d / 2)
  · cases r
    · exact ht
    · exact ht
    · exact ht.pow 2
    · exact ht
  · intro x hx
    exact r.den_ne_zero.2 (h0 x hx)

namespace FCurve
variable {c : FCurve d}

theorem Realizes.actFn_continuousOn (h : c.Full) (hf : c.Realizes f) {s : Spec d} (hs : s.pnum < c.mult) : ContinuousOn (actFn s f) (Set.Icc 0 1) := by
  have hT : ContinuousOn (fun t : ℝ => s.baseMap.applyT 1 t) (Set.Icc 0 1) := by
    unfold BaseMap.applyT
    split
    · exact continuousOn_const.sub continuousOn_id
    · exact continuousOn_id
  have h1 : ContinuousOn (fun t => f s.pnum (s.baseMap.applyT 1 t)) (Set.Icc 0 1) :=
    (hf.continuousOn h hs).comp hT fun t ht => by
      have := applyT_mem01 s.baseMap ht.1 ht.2
      exact ⟨this.1, this.2⟩
  apply continuousOn_pi.2
  intro i
  have h2 := (continuous_apply (s.baseMap.coords i).1).comp_continuousOn h1
  show ContinuousOn (fun t => s.baseMap.applyX 1 (f s.pnum (s.baseMap.applyT 1 t)) i) _
  unfold BaseMap.applyX
  by_cases hb : (s.baseMap.coords i).2 = true
  · simp only [hb, if_true]; exact continuousOn_const.sub h2
  · simp only [hb]; exact h2

/-- Ratios of points of the (closed) cells. -/
def cellRatios (c : FCurve d) (r : Ratio) (f : ℕ → ℝ → Fin d → ℝ) (j : Junction d) (i1 i2 : ℕ) : Set ℝ :=
  (fun p : ℝ × ℝ => j.ratio r f ((i1 + p.1) / c.genus) ((i2 + p.2) / c.genus)) '' (Set.Icc 0 1 ×ˢ Set.Icc 0 1)

theorem cell_mem {G i : ℕ} (hi : i < G) {x : ℝ} (hx : 0 ≤ x ∧ x ≤ 1) : 0 ≤ (i + x) / (G : ℝ) ∧ (i + x) / (G : ℝ) ≤ 1 := by
  have hG : (0 : ℝ) < G := by exact_mod_cast (by omega : 0 < G)
  have : (i : ℝ) + 1 ≤ G := by exact_mod_cast hi
  have := hx.1
  refine ⟨by positivity, ?_⟩
  rw [div_le_one hG]
  linarith [hx.2]

theorem Far.pos {j : Junction d} {i1 i2 : ℕ} (hF : c.Far j i1 i2) {x y : ℝ} (hx : x ≤ 1) (hy : 0 ≤ y) :
    0 < (j.deltaT : ℝ) + (i2 + y) / c.genus - (i1 + x) / c.genus := by
  have hG : (0 : ℝ) < c.genus := by exact_mod_cast (by have := hF.1; omega : 0 < c.genus)
  have h : (i1 : ℝ) + 2 ≤ j.deltaT * c.genus + i2 := by exact_mod_cast hF.2.2
  have e : (j.deltaT : ℝ) + (i2 + y) / c.genus - (i1 + x) / c.genus = (j.deltaT * c.genus + i2 + y - (i1 + x)) / c.genus := by field_simp; ring
  rw [e]
  apply div_pos _ hG
  linarith

theorem Full.isCompact_cellRatios (h : c.Full) (hf : c.Realizes f) {j : Junction d} (h1 : j.spec1.pnum < c.mult) (h2 : j.spec2.pnum < c.mult)
    {i1 i2 : ℕ} (hF : c.Far j i1 i2) : IsCompact (c.cellRatios r f j i1 i2) := by
  apply (isCompact_Icc.prod isCompact_Icc).image_of_continuousOn
  have c1 : ContinuousOn (fun p : ℝ × ℝ => actFn j.spec1 f ((i1 + p.1) / c.genus)) (Set.Icc 0 1 ×ˢ Set.Icc 0 1) :=
    (hf.actFn_continuousOn h h1).comp (((continuous_const.add continuous_fst).div_const _).continuousOn) fun p hp => by
      have := cell_mem hF.1 hp.1
      exact ⟨this.1, this.2⟩
  have c2 : ContinuousOn (fun p : ℝ × ℝ => actFn j.spec2 f ((i2 + p.2) / c.genus)) (Set.Icc 0 1 ×ˢ Set.Icc 0 1) :=
    (hf.actFn_continuousOn h h2).comp (((continuous_const.add continuous_snd).div_const _).continuousOn) fun p hp => by
      have := cell_mem hF.2.1 hp.2
      exact ⟨this.1, this.2⟩
  apply Ratio.continuousOn_val
  · apply continuousOn_pi.2
    intro i
    exact ((continuous_apply i).comp_continuousOn c1).sub (continuousOn_const.add ((continuous_apply i).comp_continuousOn c2))
  · exact ((continuous_const.add ((continuous_const.add continuous_snd).div_const _)).sub
      ((continuous_const.add continuous_fst).div_const _)).continuousOn
  · intro p hp
    exact (hF.pos hp.1.2 hp.2.1).ne'

theorem Full.ratios_compact (hd : d ≠ 0) (hr : r.Ok d) (hk : c.kind = .curve) (h : c.Full) (hf : c.Realizes f) : IsCompact (c.ratios r f) := by
  obtain ⟨l, hl, h2, _⟩ := h.regJ hk (h.check_of_realizes hf)
  have hset : c.ratios r f = ⋃ j ∈ {j | j ∈ c.genAutoJunctions ++ l.map Prod.fst}, ⋃ i ∈ {i : ℕ × ℕ | i.1 < c.genus ∧ i.2 < c.genus ∧ c.Far j i.1 i.2},
      c.cellRatios r f j i.1 i.2 := by
    ext x
    simp only [Set.mem_iUnion, Set.mem_setOf_eq]
    constructor
    · intro hx
      obtain ⟨j, i1, i2, hj, hF, u, v, u0, u1, v0, v1, rfl⟩ := h.cover hd hr hk hf hx
      refine ⟨j, ?_, (i1, i2), ⟨hF.1, hF.2.1, hF⟩, (u, v), ⟨⟨u0, u1.le⟩, v0.le, v1⟩, rfl⟩
      rw [List.mem_append]
      rcases hj with hj | ⟨l', hl', hj⟩
      · exact Or.inl hj
      · rw [hl] at hl'
        cases hl'
        exact Or.inr hj
    · rintro ⟨j, hj, ⟨i1, i2⟩, ⟨_, _, hF⟩, ⟨u, v⟩, ⟨hu, hv⟩, rfl⟩
      have hj' : c.HasJunction j := by
        rw [List.mem_append] at hj
        exact hj.imp id fun hj => ⟨l, hl, hj⟩
      exact h.ratio_mem hr hk hf hj' (cell_mem hF.1 hu) (cell_mem hF.2.1 hv) (hF.pos hu.2 hv.1)
  rw [hset]
  refine (List.finite_toSet _).isCompact_biUnion fun j hj => ?_
  have hfin : {i : ℕ × ℕ | i.1 < c.genus ∧ i.2 < c.genus ∧ c.Far j i.1 i.2}.Finite :=
    ((Set.finite_lt_nat c.genus).prod (Set.finite_lt_nat c.genus)).subset fun i hi => ⟨hi.1, hi.2.1⟩
  refine hfin.isCompact_biUnion fun i hi => ?_
  have hj' : c.HasJunction j := by
    have hj : j ∈ c.genAutoJunctions ++ l.map Prod.fst := hj
    rw [List.mem_append] at hj
    exact hj.imp id fun hj => ⟨l, hl, hj⟩
  obtain ⟨p1, p2, _⟩ := h.hasJunction hk (h.check_of_realizes hf) hj'
  exact h.isCompact_cellRatios hf p1 p2 hi.2.2

theorem Full.exists_greatest (hd : d ≠ 0) (hr : r.Ok d) (hk : c.kind = .curve) (h : c.Full) (h0 : 0 < c.mult) (hf : c.Realizes f) :
    ∃ D, IsGreatest (c.ratios r f) D :=
  (h.ratios_compact hd hr hk hf).exists_isGreatest ⟨_, 0, h0, 0, 1, le_rfl, zero_lt_one, le_rfl, rfl⟩

end FCurve
end Peano
