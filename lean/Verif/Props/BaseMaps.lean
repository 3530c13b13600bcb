import Mathlib.Data.Real.Basic
import Mathlib.Algebra.BigOperators.Group.Finset.Basic
import Mathlib.Algebra.Order.Group.Abs
import Mathlib.Algebra.BigOperators.Fin
import Mathlib.Data.Finset.Max
import Mathlib.Order.ConditionallyCompleteLattice.Finset
import Mathlib.Data.Fintype.Perm
import Mathlib.Algebra.Order.Archimedean.Real.Basic
import Mathlib.Tactic.FinCases
import Mathlib.Tactic.NormNum
import Mathlib.Tactic.Group
import Verif.Lemmas.BaseMap
import Verif.Lemmas.ConstraintFast
import Verif.Spec.Geometry

set_option autoImplicit false

/- Properties C01, C02, C03, C05, C08: base maps. -/
namespace Peano.BaseMap
variable {d : ℕ}

/-- Example map of the plane: `e_1 -> -e_2, e_2 -> e_1`, time reversed (`Ji~`). -/
def exJi : BaseMap 2 := { coords := ![(1, false), (0, true)], timeRev := true, inj := by decide }

/-- C01. Product of base maps is composition for every action. -/
theorem C01_mul_is_composition (a b : BaseMap d) (mx : ℚ) (x v : Fin d → ℚ) (t : ℚ) (div : ℤ) (cube : Cube d)
    (genus cnum : ℕ) (hc : cnum < genus) :
    (a.mul b).applyX mx x = a.applyX mx (b.applyX mx x) ∧
    (a.mul b).applyVec v = a.applyVec (b.applyVec v) ∧
    (a.mul b).applyT mx t = a.applyT mx (b.applyT mx t) ∧
    (a.mul b).applyCube div cube = a.applyCube div (b.applyCube div cube) ∧
    (a.mul b).applyCnum genus cnum = a.applyCnum genus (b.applyCnum genus cnum) :=
  ⟨applyX_mul a b mx x, applyVec_mul a b v, applyT_mul a b mx t, applyCube_mul a b div cube, applyCnum_mul a b hc⟩

example : (exJi.mul exJi).applyX 1 ![1/3, (1 : ℚ)/4] = ![2/3, 3/4] := by
  funext i; fin_cases i <;> simp [exJi, mul, applyX] <;> norm_num

/-- C01. Associativity and unit. -/
theorem C01_mul_assoc_unit (a b c : BaseMap d) :
    (a.mul b).mul c = a.mul (b.mul c) ∧ (idMap d).mul a = a ∧ a.mul (idMap d) = a :=
  ⟨BaseMap.mul_assoc' a b c, BaseMap.one_mul' a, BaseMap.mul_one' a⟩

/-- C02. `get_inverse` is the two-sided inverse, and undoes every action. -/
theorem C02_inverse (a : BaseMap d) (mx : ℚ) (x v : Fin d → ℚ) (t : ℚ) (div : ℤ) (cube : Cube d) :
    a.mul a.inverse = idMap d ∧ a.inverse.mul a = idMap d ∧
    a.inverse.applyX mx (a.applyX mx x) = x ∧ a.inverse.applyVec (a.applyVec v) = v ∧
    a.inverse.applyT mx (a.applyT mx t) = t ∧ a.inverse.applyCube div (a.applyCube div cube) = cube :=
  ⟨BaseMap.mul_inv' a, BaseMap.inv_mul' a, applyX_inv_applyX a mx x, applyVec_inv_applyVec a v,
    applyT_applyT a mx t, applyCube_inv_applyCube a div cube⟩

/-- C02. `~` toggles time reversal and nothing else, is an involution, commutes with composition from either side. -/
theorem C02_time_reversal (a b : BaseMap d) (mx : ℚ) (x : Fin d → ℚ) (t : ℚ) :
    a.invert.invert = a ∧ a.invert.mul b = (a.mul b).invert ∧ a.mul b.invert = (a.mul b).invert ∧
    a.invert.applyX mx x = a.applyX mx x ∧ a.invert.applyT mx t = mx - a.applyT mx t := by
  refine ⟨invert_invert a, invert_mul a b, mul_invert a b, rfl, ?_⟩
  simp only [applyT, invert_timeRev]
  by_cases h : a.timeRev = true <;> simp [h]

/-- C02. Conjugation `g * X * g^{-1}` is a homomorphism, and conjugating back restores the map. -/
theorem C02_conjugate (a b g : BaseMap d) :
    (a.mul b).conjugateBy g = (a.conjugateBy g).mul (b.conjugateBy g) ∧
    (a.conjugateBy g).conjugateBy g.inverse = a := by
  simp only [conjugateBy, mul_def, inverse_def]
  constructor <;> group

example : exJi ≠ 1 ∧ exJi.mul exJi.inverse = idMap 2 := by decide

/-! ### Powers -/

theorem powFuel_pos (a : BaseMap d) (n : ℕ) (hn : 0 < n) (fuel : ℕ) (hf : n ≤ fuel) :
    powFuel fuel a n = some (a ^ n) := by
  induction n using Nat.strong_induction_on generalizing fuel with
  | _ n ih =>
    cases fuel with
    | zero => omega
    | succ fuel =>
      unfold powFuel
      rw [if_neg (by omega)]
      by_cases h1 : n = 1
      · subst h1; simp
      · rw [if_neg (by omega)]
        by_cases h2 : (n : ℤ) % 2 = 0
        · rw [if_pos h2]
          have : (n : ℤ) / 2 = ((n / 2 : ℕ) : ℤ) := by omega
          rw [this, ih (n / 2) (by omega) (by omega) fuel (by omega)]
          simp only [Option.bind_eq_bind, Option.bind_some, Option.pure_def]
          rw [← pow_add]
          congr 2; omega
        · rw [if_neg h2]
          have : ((n : ℤ) - 1) / 2 = ((n / 2 : ℕ) : ℤ) := by omega
          rw [this, ih (n / 2) (by omega) (by omega) fuel (by omega)]
          simp only [Option.bind_eq_bind, Option.bind_some, Option.pure_def]
          rw [← pow_add, ← pow_succ]
          congr 2; omega

/-- C03 (partial: all exponents except 0). `B**n` is the group power: `n`-fold product, of the inverse if `n<0`; the recursion
depth is at most `|n| + 1`.  For `n = 0` the code does not return, see `C03_pow_zero_diverges`. -/
theorem C03_pow_partial (a : BaseMap d) (n : ℤ) (hn : n ≠ 0) (fuel : ℕ) (hf : n.natAbs + 1 ≤ fuel) :
    powFuel fuel a n = some (a ^ n) := by
  rcases lt_trichotomy n 0 with h | h | h
  · cases fuel with
    | zero => omega
    | succ fuel =>
      unfold powFuel
      rw [if_pos h]
      obtain ⟨m, hm⟩ : ∃ m : ℕ, n = -(m : ℤ) := ⟨n.natAbs, by omega⟩
      subst hm
      rw [neg_neg, powFuel_pos _ _ (by omega) _ (by omega)]
      simp
  · exact absurd h hn
  · obtain ⟨m, hm⟩ : ∃ m : ℕ, n = (m : ℤ) := ⟨n.natAbs, by omega⟩
    subst hm
    rw [powFuel_pos _ _ (by omega) _ (by omega)]
    simp

/-- C03, violated part: `B**0` recurses forever (the code has no base case for 0), whatever the recursion limit. -/
theorem C03_pow_zero_diverges (a : BaseMap d) (fuel : ℕ) : powFuel fuel a 0 = none := by
  induction fuel with
  | zero => rfl
  | succ fuel ih => unfold powFuel; simp [ih]

example : powFuel 6 exJi (-5) = some (exJi ^ (-5 : ℤ)) ∧ exJi ^ (-5 : ℤ) ≠ 1 := by
  refine ⟨C03_pow_partial _ _ (by decide) _ (by decide), by decide⟩

/-! ### Enumeration -/

/-- C05. `gen_base_maps(dim, time_rev)` contains a base map iff its time reversal is the requested one. -/
theorem C05_gen_base_maps_complete (a : BaseMap d) (tr : Option Bool) :
    a ∈ genBaseMaps d tr ↔ tr = none ∨ tr = some a.timeRev := by
  rw [mem_genBaseMaps]
  cases tr with
  | none => simp
  | some b => simp [eq_comm]

/-- C05. No repetition; there are `dim! * 2^dim` per time direction. -/
theorem C05_gen_base_maps_once (d : ℕ) (tr : Option Bool) : (genBaseMaps d tr).Nodup ∧
    (genBaseMaps d tr).length = (if tr = none then 2 else 1) * (d.factorial * 2 ^ d) := by
  refine ⟨nodup_genBaseMaps tr, ?_⟩
  rw [length_genBaseMaps]; ring

/-- C05. The generated maps act as exactly the signed permutations of the unit cube. -/
theorem C05_gen_base_maps_isometries (g : (Fin d → ℚ) → Fin d → ℚ) (tr : Bool) :
    IsCubeIsometry g ↔ ∃ a ∈ genBaseMaps d (some tr), a.applyX 1 = g := by
  constructor
  · rintro ⟨σ, flip, h⟩
    refine ⟨{ coords := fun i => (σ i, decide (i ∈ flip)), timeRev := tr, inj := σ.injective }, ?_, ?_⟩
    · rw [mem_genBaseMaps]; simp
    · funext x i; rw [h]; simp [applyX]
  · rintro ⟨a, _, rfl⟩
    refine ⟨Equiv.ofBijective (fun i => (a.coords i).1) ⟨a.inj, a.coords_surj⟩,
      Finset.univ.filter fun i => (a.coords i).2 = true, ?_⟩
    intro x i
    simp [applyX]; rfl

example : (genBaseMaps 3 none).length = 96 := by rw [(C05_gen_base_maps_once 3 none).2]; decide

/-- C06. `gen_constraint_fast(src, dst)` never fails and yields, each once, exactly the base maps without time reversal that send
`src` to `dst` (the yielded objects are `some a` for valid base maps `a`, `none` would be an exception). -/
theorem C06_gen_constraint_fast_exact (src dst : Fin d → ℚ) :
    (genConstraintFast src dst).Nodup ∧
    ∀ r, r ∈ genConstraintFast src dst ↔ ∃ a : BaseMap d, r = some a ∧ a.timeRev = false ∧ a.applyX 1 src = dst := by
  obtain ⟨L, h1, h2, h3⟩ := genConstraintFast_exact src dst
  rw [h1]
  refine ⟨h2.map (Option.some_injective _), fun r => ?_⟩
  simp only [List.mem_map, h3]
  constructor
  · rintro ⟨a, ha, rfl⟩; exact ⟨a, rfl, ha⟩
  · rintro ⟨a, rfl, ha⟩; exact ⟨a, ha, rfl⟩

/-- Four symmetries send the centre of a side to the centre of the next side, two per direction: the list is not trivial. -/
example : (genConstraintFast ![(1 : ℚ)/2, 0] ![1, 1/2]).length = 2 := by decide +kernel

/-! ### Isometry -/

theorem abs_applyVec (a : BaseMap d) (v : Fin d → ℝ) (i : Fin d) : |a.applyVec v i| = |v (a.coords i).1| := by
  simp only [applyVec]; split <;> simp

/-- the coordinate permutation of a base map -/
noncomputable def perm (a : BaseMap d) : Equiv.Perm (Fin d) := Equiv.ofBijective (fun i => (a.coords i).1) ⟨a.inj, a.coords_surj⟩

@[simp] theorem perm_apply (a : BaseMap d) (i : Fin d) : a.perm i = (a.coords i).1 := rfl

/-- C08. `apply_x` maps the cube `[0,mx]^d` onto itself. -/
theorem C08_cube_onto (a : BaseMap d) (mx : ℝ) :
    a.applyX mx '' {x | ∀ i, 0 ≤ x i ∧ x i ≤ mx} = {x | ∀ i, 0 ≤ x i ∧ x i ≤ mx} := by
  ext y
  constructor
  · rintro ⟨x, hx, rfl⟩; exact fun i => applyX_mem a hx i
  · intro hy
    exact ⟨a⁻¹.applyX mx y, fun i => applyX_mem a⁻¹ hy i, by simp⟩

/-- C08. `apply_x` preserves the `l1`, (squared) `l2` and `linf` distances of points. -/
theorem C08_isometry (a : BaseMap d) (mx : ℝ) (x y : Fin d → ℝ) :
    ∑ i, |a.applyX mx x i - a.applyX mx y i| = ∑ i, |x i - y i| ∧
    ∑ i, (a.applyX mx x i - a.applyX mx y i) ^ 2 = ∑ i, (x i - y i) ^ 2 ∧
    (⨆ i, |a.applyX mx x i - a.applyX mx y i|) = ⨆ i, |x i - y i| := by
  have h : ∀ i, a.applyX mx x i - a.applyX mx y i = a.applyVec (x - y) i := fun i => congrFun (applyX_sub a mx x y) i
  have h' : ∀ i, |a.applyX mx x i - a.applyX mx y i| = |x (a.perm i) - y (a.perm i)| := fun i => by
    rw [h, abs_applyVec, Pi.sub_apply]; rfl
  refine ⟨?_, ?_, ?_⟩
  · simp_rw [h']
    exact Equiv.sum_comp a.perm fun i => |x i - y i|
  · have h2 : ∀ i, (a.applyX mx x i - a.applyX mx y i) ^ 2 = (x (a.perm i) - y (a.perm i)) ^ 2 := fun i => by
      rw [← sq_abs, h', sq_abs]
    simp_rw [h2]
    exact Equiv.sum_comp a.perm fun i => (x i - y i) ^ 2
  · simp_rw [h']
    exact Equiv.iSup_comp (g := fun i => |x i - y i|) a.perm

/-- C08. `apply_vec` is the linear part of `apply_x`. -/
theorem C08_linear_part (a : BaseMap d) (mx : ℝ) (x v : Fin d → ℝ) :
    a.applyX mx (x + v) = a.applyX mx x + a.applyVec v := applyX_add_vec a mx x v

/-- C08. `apply_cube` gives the sub-cube that is the image of the given sub-cube. -/
theorem C08_apply_cube (a : BaseMap d) (n : ℤ) (hn : 0 < n) (c : Cube d) :
    a.applyX 1 '' subCube n c = subCube n (a.applyCube n c) := by
  have hn' : (0 : ℝ) < n := by exact_mod_cast hn
  have key : ∀ (a : BaseMap d) c x, x ∈ subCube n c → a.applyX 1 x ∈ subCube n (a.applyCube n c) := by
    intro a c x hx i
    have := hx (a.coords i).1
    rw [div_le_iff₀ hn', le_div_iff₀ hn'] at *
    simp only [applyX, applyCube]
    by_cases h : (a.coords i).2 = true <;> simp only [h, if_true] <;> push_cast
    · constructor <;> nlinarith [this.1, this.2]
    · simpa using this
  ext y
  constructor
  · rintro ⟨x, hx, rfl⟩; exact key a c x hx
  · intro hy
    refine ⟨a⁻¹.applyX 1 y, ?_, by simp⟩
    simpa using key a⁻¹ _ y hy

/-- C08. `apply_cube_start`: image of the cube with least vertex `s` and side `l` (in an integer frame where the mirror is
`x ↦ 1 - x`) is the cube with least vertex `apply_cube_start(s, l)`. -/
theorem C08_apply_cube_start (a : BaseMap d) (s : Cube d) (l : ℤ) :
    a.applyX 1 '' boxAt s l = boxAt (a.applyCubeStart s l) l := by
  have key : ∀ (a : BaseMap d) (s : Cube d) (x : Fin d → ℝ), (∀ i, (s i : ℝ) ≤ x i ∧ x i ≤ (s i : ℝ) + (l : ℝ)) →
      ∀ i, (a.applyCubeStart s l i : ℝ) ≤ a.applyX 1 x i ∧ a.applyX 1 x i ≤ (a.applyCubeStart s l i : ℝ) + (l : ℝ) := by
    intro a s x hx i
    have := hx (a.coords i).1
    simp only [applyX, applyCubeStart]
    by_cases h : (a.coords i).2 = true <;> simp only [h, if_true] <;> push_cast
    · constructor <;> linarith [this.1, this.2]
    · simpa using this
  have hinv : ∀ i, a⁻¹.applyCubeStart (a.applyCubeStart s l) l i = s i := by
    intro i
    obtain ⟨j, rfl⟩ := a.coords_surj i
    simp only [applyCubeStart, inv_coords]
    by_cases h : (a.coords j).2 = true <;> simp [h]; ring
  ext y
  constructor
  · rintro ⟨x, hx, rfl⟩; exact key a s x hx
  · intro hy
    refine ⟨a⁻¹.applyX 1 y, ?_, by simp⟩
    intro i
    have := key a⁻¹ _ y hy i
    rw [hinv] at this
    exact this

/-- C08. `apply_cnum`/`apply_t`: time `t` lies in fraction number `c` of `genus` iff the image time lies in the image fraction. -/
theorem C08_apply_cnum (a : BaseMap d) (g c : ℕ) (hc : c < g) (t : ℝ) :
    ((c : ℝ) / g ≤ t ∧ t ≤ (c + 1) / g) ↔
      ((a.applyCnum g c : ℝ) / g ≤ a.applyT 1 t ∧ a.applyT 1 t ≤ (a.applyCnum g c + 1) / g) := by
  have hg : (0 : ℝ) < g := by exact_mod_cast (by omega : 0 < g)
  simp only [applyCnum, applyT]
  by_cases h : a.timeRev = true <;> simp only [h, if_true]
  · have : ((g - 1 - c : ℕ) : ℝ) = g - 1 - c := by
      rw [Nat.cast_sub (by omega), Nat.cast_sub (by omega)]; simp
    rw [this, div_le_iff₀ hg, le_div_iff₀ hg, div_le_iff₀ hg, le_div_iff₀ hg]
    constructor <;> rintro ⟨h1, h2⟩ <;> constructor <;> nlinarith
  · simp

example : exJi.applyCube 3 ![0, 1] = ![1, 2] ∧ exJi.applyCnum 9 2 = 6 ∧ exJi.applyCubeStart ![2, 0] 4 = ![0, -5] := by
  decide

end Peano.BaseMap
