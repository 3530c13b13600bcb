import Verif.Lemmas.YeRigid

set_option autoImplicit false

/-! Curves that are the same as functions have the same cubes; if the order of cubes has no symmetries then they have the same specs. -/
namespace Peano
namespace FCurve
variable {d : ℕ} {c c' : FCurve d}

theorem cube_of_maps (h : c.Full) (h' : c'.Full) (hfill : c.FillsGrid) (hdiv : c'.div = c.div) (hm : 0 < c.mult) (hm' : 0 < c'.mult)
    {f g : ℕ → ℝ → Fin d → ℝ} (hf : c.Realizes f) (hg : c'.Realizes g) (b : BaseMap d)
    (hb : ∀ t : ℝ, 0 ≤ t → t ≤ 1 → g 0 t = b.applyX 1 (f 0 (b.applyT 1 t))) {i : ℕ} (hi : i < c.genus) :
    c'.cubeD 0 i = b.applyCube c.div (c.cubeD 0 (b.applyCnum c.genus i)) := by
  have hk := BaseMap.applyCnum_lt b hi
  have hgen : c'.genus = c.genus := by unfold genus; rw [hdiv]
  have hi' : i < c'.genus := by omega
  obtain ⟨t0, h0, h1, ht0⟩ := hf.actFn_surjective h hfill (h.specD_lt hm hk) (x := fun _ => 1 / 2) (by intro j; norm_num)
  have ht := applyT_mem01 b h0 h1
  have hN : (0 : ℝ) < c.div := by
    have := h.two_le_div
    exact_mod_cast (by omega : 0 < c.div)
  have hG : (0 : ℝ) < c.genus := by
    exact_mod_cast (by omega : 0 < c.genus)
  have e1 := hg.eqn 0 i _ _ (h'.cube_eq hm' hi') (h'.spec_eq hm' hi') _ ht.1 ht.2
  have hi1 : (i : ℝ) + 1 ≤ c.genus := by exact_mod_cast hi
  rw [hgen, hb _ (div_nonneg (add_nonneg (Nat.cast_nonneg _) ht.1) hG.le) (by rw [div_le_one hG]; linarith [ht.2]), applyT_frac b hi,
    BaseMap.applyT_applyT, hf.eqn _ _ _ _ (h.cube_eq hm hk) (h.spec_eq hm hk) _ h0 h1, ht0] at e1
  have key := BaseMap.applyX_cube (K := ℝ) b (c.div : ℤ) (by exact_mod_cast hN.ne') (c.cubeD 0 (b.applyCnum c.genus i)) (fun _ => 1 / 2)
  simp only [Int.cast_natCast] at key
  rw [key, hdiv] at e1
  funext j
  have e2 := congrFun e1 j
  simp only [div_left_inj' hN.ne'] at e2
  have hhalf : b.applyX (1 : ℝ) (fun _ => 1 / 2) j = 1 / 2 := by
    unfold BaseMap.applyX
    split <;> norm_num
  have hmem := BaseMap.applyX_mem (c'.specD 0 i).baseMap (x := g (c'.specD 0 i).pnum ((c'.specD 0 i).baseMap.applyT 1 (b.applyT 1 t0)))
    (hg.mem_cube _ (h'.specD_lt hm' hi') _ (applyT_mem01 _ ht.1 ht.2).1 (applyT_mem01 _ ht.1 ht.2).2) j
  rw [hhalf] at e2
  unfold actFn at e2
  have k1 : ((c'.cubeD 0 i j : ℤ) : ℝ) < (b.applyCube c.div (c.cubeD 0 (b.applyCnum c.genus i)) j : ℤ) + 1 := by linarith [hmem.1]
  have k2 : ((b.applyCube c.div (c.cubeD 0 (b.applyCnum c.genus i)) j : ℤ) : ℝ) < (c'.cubeD 0 i j : ℤ) + 1 := by linarith [hmem.2]
  have k1 : c'.cubeD 0 i j < b.applyCube c.div (c.cubeD 0 (b.applyCnum c.genus i)) j + 1 := by exact_mod_cast k1
  have k2 : b.applyCube c.div (c.cubeD 0 (b.applyCnum c.genus i)) j < c'.cubeD 0 i j + 1 := by exact_mod_cast k2
  omega

/-- No isometry of the cube (with time reversal or without) but the identity preserves the order of cubes. -/
def Asymmetric (c : FCurve d) : Prop :=
  ∀ b : BaseMap d, (∀ i < c.genus, c.cubeD 0 i = b.applyCube c.div (c.cubeD 0 (b.applyCnum c.genus i))) → b = 1

/-- Curves with one pattern, with the same asymmetric order of cubes, that are the same as functions up to symmetry, have the same specs. -/
theorem spec_of_sameCurve (h : c.Full) (h' : c'.Full) (hfill : c.FillsGrid) (hfill' : c'.FillsGrid) (hdiv : c'.div = c.div) (hm : c.mult = 1) (hm' : c'.mult = 1)
    (hc : c.check = some true) (hc' : c'.check = some true) (hcubes : ∀ i < c.genus, c'.cubeD 0 i = c.cubeD 0 i) (ha : c.Asymmetric) (hs : SameCurve c c') {i : ℕ} (hi : i < c.genus) :
    c'.spec? 0 i = c.spec? 0 i := by
  obtain ⟨f, hf⟩ := (C12_check_iff c h).2.1 hc
  obtain ⟨g, hg⟩ := (C12_check_iff c' h').2.1 hc'
  obtain ⟨b, hb⟩ := hs
  have hb := hb f g hf hg
  obtain rfl : b = 1 := ha b fun i hi => by
    rw [← hcubes i hi]
    exact cube_of_maps h h' hfill hdiv (by omega) (by omega) hf hg b hb hi
  simp only [BaseMap.applyX_one, BaseMap.applyT_one] at hb
  have hgen : c'.genus = c.genus := by unfold genus; rw [hdiv]
  have hi' : i < c'.genus := by omega
  rw [h.spec_eq (by omega) hi, h'.spec_eq (by omega) hi', Option.some.injEq]
  have hN : (0 : ℝ) < c.div := by
    have := h.two_le_div
    exact_mod_cast (by omega : 0 < c.div)
  have hG : (0 : ℝ) < c.genus := by
    exact_mod_cast (by omega : 0 < c.genus)
  have hi1 : (i : ℝ) + 1 ≤ c.genus := by exact_mod_cast hi
  have p1 : (c.specD 0 i).pnum = 0 := by have := h.specD_lt (p := 0) (by omega) hi; omega
  have p2 : (c'.specD 0 i).pnum = 0 := by have := h'.specD_lt (p := 0) (by omega) hi'; omega
  set s := (c.specD 0 i).baseMap with hs
  set s' := (c'.specD 0 i).baseMap with hs'
  have key : ∀ t : ℝ, 0 ≤ t → t ≤ 1 → s'.applyX 1 (f 0 (s'.applyT 1 t)) = s.applyX 1 (f 0 (s.applyT 1 t)) := by
    intro t h0 h1
    have e1 := hf.eqn 0 i _ _ (h.cube_eq (by omega) hi) (h.spec_eq (by omega) hi) t h0 h1
    have e2 := hg.eqn 0 i _ _ (h'.cube_eq (by omega) hi') (h'.spec_eq (by omega) hi') t h0 h1
    rw [hgen, hb _ (div_nonneg (add_nonneg (Nat.cast_nonneg _) h0) hG.le) (by rw [div_le_one hG]; linarith), e1, hdiv, hcubes i hi] at e2
    have ht := applyT_mem01 s' h0 h1
    funext j
    have := congrFun e2 j
    simp only [div_left_inj' hN.ne', add_right_inj] at this
    unfold actFn at this
    rw [p1, p2, ← hs, ← hs', hb _ ht.1 ht.2] at this
    exact this.symm
  have hone : s⁻¹ * s' = 1 := ha _ fun k hk => by
    refine cube_of_maps h h hfill rfl (by omega) (by omega) hf hf (s⁻¹ * s') (fun t h0 h1 => ?_) hk
    have ht := applyT_mem01 s⁻¹ h0 h1
    have := key _ ht.1 ht.2
    rw [BaseMap.applyX_mul]
    have e : (s⁻¹ * s').applyT 1 t = s'.applyT 1 (s⁻¹.applyT 1 t) := by
      unfold BaseMap.applyT
      by_cases h1 : s.timeRev = true <;> by_cases h2 : s'.timeRev = true <;> simp [h1, h2]
    have e' : s.applyT 1 (s⁻¹.applyT 1 t) = t := by rw [← BaseMap.applyT_mul, mul_inv_cancel, BaseMap.applyT_one]
    rw [e, this, BaseMap.applyX_inv_applyX, e']
  have hss : s' = s := by rw [← mul_one s, ← hone, mul_inv_cancel_left]
  have : (c'.specD 0 i) = (c.specD 0 i) := by
    rcases h1 : c'.specD 0 i with ⟨x, y⟩
    rcases h2 : c.specD 0 i with ⟨x', y'⟩
    rw [h1] at p2 hs'
    rw [h2] at p1 hs
    simp only at p1 p2 hs hs'
    rw [p1, p2, ← hs, ← hs', hss]
  rw [this]

end FCurve

namespace YeProof
open FCurve

theorem ye_asymmetric : Zoo.ye.Asymmetric := by
  have key : ∀ b ∈ BaseMap.genBaseMaps 2 none, (∀ i < 25, Zoo.ye.cubeD 0 i = b.applyCube 5 (Zoo.ye.cubeD 0 (b.applyCnum 25 i))) → b = 1 := by decide +kernel
  intro b hb
  refine key b (BaseMap.mem_genBaseMaps.2 (by simp)) ?_
  rw [show Zoo.ye.genus = 25 by decide +kernel, show Zoo.ye.div = 5 by decide +kernel] at hb
  exact hb

end YeProof
end Peano
