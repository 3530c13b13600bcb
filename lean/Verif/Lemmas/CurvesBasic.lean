import Mathlib.Tactic.Ring
import Mathlib.Tactic.FieldSimp
import Mathlib.Tactic.Linarith
import Mathlib.Tactic.Positivity
import Mathlib.Tactic.NormNum
import Verif.Spec.Curves
import Verif.Lemmas.BaseMap

namespace Peano
variable {d : ℕ}

/-! ### prototypes -/
namespace Proto

@[simp] theorem length_act (p : Proto d) (n : ℕ) (b : BaseMap d) : (p.act n b).length = p.length := by
  by_cases h : b.timeRev = true <;> simp [act, h]

theorem getElem?_act (p : Proto d) (n : ℕ) (b : BaseMap d) (i : ℕ) (hi : i < p.length) :
    (p.act n b)[i]? = (p[b.applyCnum p.length i]?).map (Option.map (b.applyCube n)) := by
  unfold act BaseMap.applyCnum
  by_cases h : b.timeRev = true
  · simp only [h, if_true]
    rw [List.getElem?_map, List.getElem?_reverse hi]
  · simp [h]

theorem cube?_act (p : Proto d) (n : ℕ) (b : BaseMap d) (i : ℕ) (hi : i < p.length) :
    (p.act n b).cube? i = (p.cube? (b.applyCnum p.length i)).map (b.applyCube n) := by
  unfold cube?
  rw [getElem?_act p n b i hi]
  cases h : p[b.applyCnum p.length i]? with
  | none => rfl
  | some x => cases x <;> rfl

theorem act_one (p : Proto d) (n : ℕ) : p.act n 1 = p := by
  unfold act
  simp only [BaseMap.one_timeRev, Bool.false_eq_true, if_false]
  conv_rhs => rw [← List.map_id p]
  apply List.map_congr_left
  intro a _
  cases a <;> simp

theorem act_mul (p : Proto d) (n : ℕ) (a b : BaseMap d) : p.act n (a * b) = (p.act n b).act n a := by
  unfold act
  have key : (a * b).applyCube n = fun x => a.applyCube n (b.applyCube n x) := by funext x; simp
  by_cases ha : a.timeRev = true <;> by_cases hb : b.timeRev = true <;>
    simp [ha, hb, key, List.map_reverse, Function.comp_def]

end Proto

theorem real_applyT {b : BaseMap d} (t : ℝ) : b.applyT 1 t = if b.timeRev then 1 - t else t := rfl

theorem applyT_mem01 (b : BaseMap d) {t : ℝ} (h0 : 0 ≤ t) (h1 : t ≤ 1) : 0 ≤ b.applyT 1 t ∧ b.applyT 1 t ≤ 1 :=
  b.applyT_mem ⟨h0, h1⟩

/-- time in the `i`-th fraction under the time map -/
theorem applyT_frac (b : BaseMap d) {G i : ℕ} (hi : i < G) (t : ℝ) :
    b.applyT 1 ((i + t) / G) = ((b.applyCnum G i : ℕ) + b.applyT 1 t) / (G : ℝ) := by
  have hG : (G : ℝ) ≠ 0 := by
    have : 0 < G := by omega
    positivity
  unfold BaseMap.applyT BaseMap.applyCnum
  by_cases h : b.timeRev = true
  · simp only [h, if_true]
    rw [Nat.cast_sub (by omega), Nat.cast_sub (by omega)]
    field_simp
    push_cast
    ring
  · simp [h]

theorem actFn_rmul (b : BaseMap d) (s : Spec d) (f : ℕ → ℝ → Fin d → ℝ) (t : ℝ) :
    actFn (Spec.rmulBaseMap b s) f t = b.applyX 1 (actFn s f (b.applyT 1 t)) := by
  unfold actFn Spec.rmulBaseMap
  simp only [BaseMap.applyX_mul]
  congr 2
  have : (b * s.baseMap).applyT (1 : ℝ) t = s.baseMap.applyT 1 (b.applyT 1 t) := by
    unfold BaseMap.applyT
    by_cases hb : b.timeRev = true <;> by_cases hs : s.baseMap.timeRev = true <;> simp [hb, hs]
  rw [this]

@[simp] theorem actFn_one (p : ℕ) (f : ℕ → ℝ → Fin d → ℝ) (t : ℝ) : actFn ⟨1, p⟩ f t = f p t := by
  simp [actFn]

theorem actFn_id (p : ℕ) (f : ℕ → ℝ → Fin d → ℝ) (t : ℝ) : actFn ⟨BaseMap.idMap d, p⟩ f t = f p t := actFn_one p f t

namespace FCurve
variable {c : FCurve d} {f : ℕ → ℝ → Fin d → ℝ}

theorem genus_pos (h : 2 ≤ c.div) : 0 < c.genus := Nat.pow_pos (by omega)

theorem Shape.genus_pos (h : c.Shape) : 0 < c.genus := FCurve.genus_pos h.two_le_div

theorem cube?_lt {p i : ℕ} {x : Cube d} (h : c.cube? p i = some x) : p < c.mult := by
  unfold cube? at h
  by_contra hp
  rw [List.getElem?_eq_none (by unfold mult at hp; omega)] at h
  simp at h

theorem spec?_lt {p i : ℕ} {x : Spec d} (h : c.spec? p i = some x) : p < c.mult := by
  unfold spec? at h
  by_contra hp
  rw [List.getElem?_eq_none (by unfold mult at hp; omega)] at h
  simp at h

theorem Shape.cube?_lt_genus (hs : c.Shape) {p i : ℕ} {x : Cube d} (h : c.cube? p i = some x) : i < c.genus := by
  unfold cube? at h
  cases hp : c.patterns[p]? with
  | none => simp [hp] at h
  | some pat =>
    rw [hp] at h
    rw [← hs.proto_length pat (List.mem_of_getElem? hp)]
    by_contra hi
    simp only [Option.bind_some, Proto.cube?] at h
    rw [List.getElem?_eq_none (by omega)] at h
    simp at h

theorem Shape.spec?_lt_genus (hs : c.Shape) {p i : ℕ} {x : Spec d} (h : c.spec? p i = some x) : i < c.genus := by
  unfold spec? at h
  cases hp : c.patterns[p]? with
  | none => simp [hp] at h
  | some pat =>
    rw [hp] at h
    rw [← hs.specs_length pat (List.mem_of_getElem? hp)]
    by_contra hi
    simp only [Option.bind_some] at h
    rw [List.getElem?_eq_none (by omega)] at h
    simp at h

theorem getElem?_of_lt {p : ℕ} (h : p < c.mult) : ∃ pat, c.patterns[p]? = some pat :=
  ⟨_, List.getElem?_eq_getElem h⟩

/-- cube number `i` of the mapped prototype, as the code computes it -/
theorem Shape.actCube (hs : c.Shape) {p : ℕ} {pat : Pattern d} (hp : c.patterns[p]? = some pat) (b : BaseMap d) {i : ℕ} (hi : i < c.genus) :
    (pat.proto.act c.div b).cube? i = (c.cube? p (b.applyCnum c.genus i)).map (b.applyCube c.div) := by
  have hl := hs.proto_length pat (List.mem_of_getElem? hp)
  rw [Proto.cube?_act _ _ _ _ (by omega), hl]
  simp [cube?, hp]

/-- One step of the walk into fraction `i` of `s * curve`. -/
theorem Realizes.walk (hs : c.Shape) (hf : c.Realizes f) {s s' : Spec d} {i : ℕ} (hi : i < c.genus) {cube : Cube d}
    (hc : c.cube? s.pnum (s.baseMap.applyCnum c.genus i) = some cube) (hs' : c.composeSpecs s i = some s') {t : ℝ}
    (h0 : 0 ≤ t) (h1 : t ≤ 1) :
    actFn s f ((i + t) / c.genus) = fun j => (s.baseMap.applyCube c.div cube j + actFn s' f t j) / c.div := by
  unfold composeSpecs at hs'
  cases hsp : c.spec? s.pnum (s.baseMap.applyCnum c.genus i) with
  | none => simp [hsp] at hs'
  | some last =>
    rw [hsp] at hs'
    simp only [Option.map_some, Option.some.injEq] at hs'
    subst hs'
    have hN : (c.div : ℝ) ≠ 0 := by
      have := hs.two_le_div
      have : 0 < c.div := by omega
      positivity
    have := applyT_mem01 s.baseMap h0 h1
    conv_lhs => unfold actFn
    rw [applyT_frac _ hi, hf.eqn _ _ _ _ hc hsp _ this.1 this.2, actFn_rmul]
    have key := BaseMap.applyX_cube (K := ℝ) s.baseMap (c.div : ℤ) (by exact_mod_cast hN) cube
      (actFn last f (s.baseMap.applyT 1 t))
    simpa using key

end FCurve
end Peano
