import Verif.Lemmas.Realize
import Mathlib.Data.Nat.Digits.Defs

/- Deep specs. -/
namespace Peano
variable {d : ℕ}

namespace FCurve
variable {c : FCurve d} {f : ℕ → ℝ → Fin d → ℝ}

theorem Full.composeSpecs_eq (h : c.Full) {s : Spec d} (hs : s.pnum < c.mult) {i : ℕ} (hi : i < c.genus) :
    ∃ s', c.composeSpecs s i = some s' ∧ s'.pnum < c.mult := by
  have hi' := BaseMap.applyCnum_lt s.baseMap hi
  refine ⟨Spec.rmulBaseMap s.baseMap (c.specD s.pnum (s.baseMap.applyCnum c.genus i)), ?_, h.specD_lt hs hi'⟩
  unfold composeSpecs
  rw [h.spec_eq hs hi']; rfl

theorem ofDigits_snoc (G i : ℕ) (l : List ℕ) : Nat.ofDigits G (i :: l).reverse = i * G ^ l.length + Nat.ofDigits G l.reverse := by
  rw [List.reverse_cons, Nat.ofDigits_append, Nat.ofDigits_singleton, List.length_reverse]
  ring

theorem deep_aux (h : c.Full) (hf : c.Realizes f) : ∀ (cnums : List ℕ) (s : Spec d), s.pnum < c.mult → (∀ i ∈ cnums, i < c.genus) →
    ∃ X, cnums.foldlM (fun s cnum => c.composeSpecs s cnum) s = some X ∧ X.pnum < c.mult ∧
      ∃ corner : Cube d, (∀ j, 0 ≤ corner j ∧ corner j < (c.div : ℤ) ^ cnums.length) ∧ ∀ t : ℝ, 0 ≤ t → t ≤ 1 →
        actFn s f (((Nat.ofDigits c.genus cnums.reverse : ℕ) + t) / (c.genus : ℝ) ^ cnums.length) =
          fun j => (corner j + actFn X f t j) / (c.div : ℝ) ^ cnums.length := by
  intro cnums
  induction cnums with
  | nil =>
    intro s hs _
    refine ⟨s, rfl, hs, 0, fun j => by simp, ?_⟩
    intro t _ _
    simp [Nat.ofDigits_nil]
  | cons i cnums ih =>
    intro s hs hall
    have hi := hall i List.mem_cons_self
    obtain ⟨s', hs1, hs2⟩ := h.composeSpecs_eq hs hi
    obtain ⟨X, hX1, hX2, corner, hc1, hc2⟩ := ih s' hs2 fun k hk => hall k (List.mem_cons_of_mem _ hk)
    have hi' := BaseMap.applyCnum_lt s.baseMap hi
    have hcube := h.cube_eq hs hi'
    set cube0 := c.cubeD s.pnum (s.baseMap.applyCnum c.genus i)
    have hcr := h.cubeD_range hs hi'
    have hcr2 : ∀ j, 0 ≤ s.baseMap.applyCube c.div cube0 j ∧ s.baseMap.applyCube c.div cube0 j < (c.div : ℤ) := BaseMap.applyCube_mem s.baseMap hcr
    have hNp : (0 : ℤ) < (c.div : ℤ) ^ cnums.length := by
      have := h.two_le_div
      have h0 : 0 < c.div := by omega
      positivity
    refine ⟨X, ?_, hX2, fun j => s.baseMap.applyCube c.div cube0 j * (c.div : ℤ) ^ cnums.length + corner j, ?_, ?_⟩
    · rw [List.foldlM_cons, hs1]; exact hX1
    · intro j
      have := hc1 j
      have h2 := hcr2 j
      refine ⟨?_, ?_⟩
      · have := mul_nonneg h2.1 hNp.le
        linarith [(hc1 j).1]
      · rw [List.length_cons, pow_succ]
        nlinarith
    · intro t h0 h1
      have hG : (0 : ℝ) < c.genus := by exact_mod_cast h.genus_pos
      have hN := h.div_pos
      set m := Nat.ofDigits c.genus cnums.reverse
      have hm : m < c.genus ^ cnums.length := by
        rw [← List.length_reverse]
        by_cases hg1 : c.genus = 1
        · have hz : ∀ l : List ℕ, (∀ k ∈ l, k < 1) → Nat.ofDigits 1 l = 0 := by
            intro l
            induction l with
            | nil => simp
            | cons a l ih =>
              intro hl
              rw [Nat.ofDigits_cons, ih fun k hk => hl k (List.mem_cons_of_mem _ hk)]
              have := hl a List.mem_cons_self
              omega
          have : m = 0 := by
            simp only [m, hg1]
            apply hz
            intro k hk
            rw [← hg1]
            exact hall k (List.mem_cons_of_mem _ (List.mem_reverse.1 hk))
          rw [this]
          have := h.genus_pos
          positivity
        · apply Nat.ofDigits_lt_base_pow_length
          · have := h.genus_pos; omega
          · intro k hk
            exact hall k (List.mem_cons_of_mem _ (List.mem_reverse.1 hk))
      have hu0 : 0 ≤ ((m : ℝ) + t) / (c.genus : ℝ) ^ cnums.length := by positivity
      have hu1 : ((m : ℝ) + t) / (c.genus : ℝ) ^ cnums.length ≤ 1 := by
        rw [div_le_one (by positivity)]
        have : (m : ℝ) + 1 ≤ (c.genus : ℝ) ^ cnums.length := by exact_mod_cast hm
        linarith
      have hw := hf.walk h.toShape hi hcube hs1 hu0 hu1
      rw [hc2 t h0 h1] at hw
      have e : (((Nat.ofDigits c.genus (i :: cnums).reverse : ℕ) : ℝ) + t) / (c.genus : ℝ) ^ (i :: cnums).length
          = (i + ((m : ℝ) + t) / (c.genus : ℝ) ^ cnums.length) / c.genus := by
        rw [ofDigits_snoc, List.length_cons, pow_succ]
        show (((i * c.genus ^ cnums.length + m : ℕ) : ℝ) + t) / _ = _
        rw [Nat.cast_add, Nat.cast_mul, Nat.cast_pow]
        field_simp
        ring
      rw [e, hw]
      funext j
      rw [List.length_cons, pow_succ]
      push_cast
      field_simp
      ring

theorem actSpec_compose (hsh : c.Shape) (s : Spec d) {i : ℕ} (hi : i < c.genus) {X : Spec d}
    (hX : (actSpec s c).spec? s.pnum i = some X) :
    ∃ Y, c.composeSpecs s i = some Y ∧ actSpec X (actSpec s c) = actSpec Y c := by
  have hX' : (FCurve.act s.baseMap c).spec? s.pnum i = some X := hX
  rw [hsh.spec?_act s.baseMap s.pnum i hi] at hX'
  obtain ⟨sp, h1, rfl⟩ := Option.map_eq_some_iff.1 hX'
  refine ⟨Spec.rmulBaseMap s.baseMap sp, by unfold composeSpecs; rw [h1]; rfl, ?_⟩
  unfold actSpec
  rw [act_with_pnum, ← act_mul]
  have : (sp.conjugateBy s.baseMap.cubeMap).baseMap * s.baseMap = (Spec.rmulBaseMap s.baseMap sp).baseMap := by
    show s.baseMap.cubeMap * sp.baseMap * s.baseMap.cubeMap⁻¹ * s.baseMap = s.baseMap * sp.baseMap
    by_cases ht : s.baseMap.timeRev = true
    · have e : s.baseMap = s.baseMap.cubeMap * BaseMap.invert 1 := by
        apply BaseMap.ext
        · intro k; simp [BaseMap.cubeMap, BaseMap.invert, BaseMap.mul_coords]
        · simp [ht, BaseMap.invert]
      have comm : sp.baseMap * BaseMap.invert 1 = BaseMap.invert 1 * sp.baseMap := by
        apply BaseMap.ext
        · intro k; simp [BaseMap.invert, BaseMap.mul_coords]
        · simp [BaseMap.invert]
      generalize s.baseMap.cubeMap = q at e ⊢
      rw [e]
      simp only [mul_assoc, inv_mul_cancel_left, comm]
    · rw [BaseMap.eq_cubeMap (by simpa using ht)]
      simp [mul_assoc]
  rw [this]
  rfl

end FCurve
end Peano
