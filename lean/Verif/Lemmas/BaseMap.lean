import Mathlib.Algebra.Group.Basic
import Mathlib.Algebra.Ring.Basic
import Mathlib.Tactic.Ring
import Mathlib.Tactic.FieldSimp
import Mathlib.Tactic.Linarith
import Mathlib.Data.Rat.Cast.Order
import Verif.Model.BaseMap
import Verif.Lemmas.Itertools

/- Group structure and action laws of base maps. -/
namespace Peano.BaseMap

variable {d : ℕ}

theorem mul_coords (a b : BaseMap d) (i : Fin d) :
    (a * b).coords i = ((b.coords (a.coords i).1).1, xor (a.coords i).2 (b.coords (a.coords i).1).2) := rfl

@[simp] theorem mul_timeRev (a b : BaseMap d) : (a * b).timeRev = xor a.timeRev b.timeRev := rfl
@[simp] theorem one_timeRev : (1 : BaseMap d).timeRev = false := rfl
@[simp] theorem one_coords (i : Fin d) : (1 : BaseMap d).coords i = (i, false) := rfl
@[simp] theorem inv_timeRev (a : BaseMap d) : (a⁻¹).timeRev = a.timeRev := rfl

theorem inv_coords (a : BaseMap d) (i : Fin d) : (a⁻¹).coords (a.coords i).1 = (i, (a.coords i).2) :=
  inverseCoords_apply a i

protected theorem mul_assoc' (a b c : BaseMap d) : a * b * c = a * (b * c) := by
  apply BaseMap.ext
  · intro i; simp [mul_coords]
  · simp

protected theorem one_mul' (a : BaseMap d) : 1 * a = a := by
  apply BaseMap.ext
  · intro i; simp [mul_coords]
  · simp

protected theorem mul_one' (a : BaseMap d) : a * 1 = a := by
  apply BaseMap.ext
  · intro i; simp [mul_coords]
  · simp

protected theorem mul_inv' (a : BaseMap d) : a * a⁻¹ = 1 := by
  apply BaseMap.ext
  · intro i; simp [mul_coords, inv_coords]
  · simp

protected theorem inv_mul' (a : BaseMap d) : a⁻¹ * a = 1 := by
  apply BaseMap.ext
  · intro i
    obtain ⟨j, rfl⟩ := a.coords_surj i
    simp [mul_coords, inv_coords]
  · simp

instance : Group (BaseMap d) where
  mul_assoc := BaseMap.mul_assoc'
  one_mul := BaseMap.one_mul'
  mul_one := BaseMap.mul_one'
  inv_mul_cancel := BaseMap.inv_mul'

theorem mul_def (a b : BaseMap d) : a.mul b = a * b := rfl
theorem inverse_def (a : BaseMap d) : a.inverse = a⁻¹ := rfl
theorem idMap_def : idMap d = 1 := rfl

section actions
variable {K : Type*} [CommRing K]

@[simp] theorem applyX_mul (a b : BaseMap d) (mx : K) (x : Fin d → K) :
    (a * b).applyX mx x = a.applyX mx (b.applyX mx x) := by
  funext i
  simp only [applyX, mul_coords]
  by_cases h1 : (a.coords i).2 = true <;> by_cases h2 : (b.coords (a.coords i).1).2 = true <;> simp [h1, h2]

@[simp] theorem applyX_one (mx : K) (x : Fin d → K) : (1 : BaseMap d).applyX mx x = x := by
  funext i; simp [applyX]

@[simp] theorem applyX_inv_applyX (a : BaseMap d) (mx : K) (x : Fin d → K) : a⁻¹.applyX mx (a.applyX mx x) = x := by
  rw [← applyX_mul]; simp

@[simp] theorem applyX_applyX_inv (a : BaseMap d) (mx : K) (x : Fin d → K) : a.applyX mx (a⁻¹.applyX mx x) = x := by
  rw [← applyX_mul]; simp

theorem applyX_injective (a : BaseMap d) (mx : K) : Function.Injective (a.applyX mx : (Fin d → K) → _) :=
  fun x y h => by simpa using congrArg (a⁻¹.applyX mx) h

@[simp] theorem applyT_mul (a b : BaseMap d) (mt t : K) : (a * b).applyT mt t = a.applyT mt (b.applyT mt t) := by
  simp only [applyT, mul_timeRev]
  by_cases h1 : a.timeRev = true <;> by_cases h2 : b.timeRev = true <;> simp [h1, h2]

@[simp] theorem applyT_one (mt t : K) : (1 : BaseMap d).applyT mt t = t := by simp [applyT]

@[simp] theorem applyT_applyT (a : BaseMap d) (mt t : K) : a.applyT mt (a.applyT mt t) = t := by
  simp only [applyT]; by_cases h1 : a.timeRev = true <;> simp [h1]

@[simp] theorem applyT_inv (a : BaseMap d) (mt t : K) : a⁻¹.applyT mt t = a.applyT mt t := rfl

@[simp] theorem applyVec_mul (a b : BaseMap d) (v : Fin d → K) : (a * b).applyVec v = a.applyVec (b.applyVec v) := by
  funext i
  simp only [applyVec, mul_coords]
  by_cases h1 : (a.coords i).2 = true <;> by_cases h2 : (b.coords (a.coords i).1).2 = true <;> simp [h1, h2]

@[simp] theorem applyVec_one (v : Fin d → K) : (1 : BaseMap d).applyVec v = v := by
  funext i; simp [applyVec]

@[simp] theorem applyVec_inv_applyVec (a : BaseMap d) (x : Fin d → K) : a⁻¹.applyVec (a.applyVec x) = x := by
  rw [← applyVec_mul]; simp

@[simp] theorem applyVec_applyVec_inv (a : BaseMap d) (x : Fin d → K) : a.applyVec (a⁻¹.applyVec x) = x := by
  rw [← applyVec_mul]; simp

/-- `applyVec` is the linear part of `applyX`. -/
theorem applyX_sub (a : BaseMap d) (mx : K) (x y : Fin d → K) : a.applyX mx x - a.applyX mx y = a.applyVec (x - y) := by
  funext i
  simp only [applyX, applyVec, Pi.sub_apply]
  by_cases h1 : (a.coords i).2 = true <;> simp [h1]

theorem applyX_add_vec (a : BaseMap d) (mx : K) (x v : Fin d → K) : a.applyX mx (x + v) = a.applyX mx x + a.applyVec v := by
  funext i
  simp only [applyX, applyVec, Pi.add_apply]
  by_cases h1 : (a.coords i).2 = true <;> simp [h1]; ring

theorem applyVec_sub (a : BaseMap d) (x y : Fin d → K) : a.applyVec (x - y) = a.applyVec x - a.applyVec y := by
  funext i
  simp only [applyVec, Pi.sub_apply]
  by_cases h1 : (a.coords i).2 = true <;> simp [h1]; ring

theorem applyVec_add (a : BaseMap d) (x y : Fin d → K) : a.applyVec (x + y) = a.applyVec x + a.applyVec y := by
  funext i
  simp only [applyVec, Pi.add_apply]
  by_cases h1 : (a.coords i).2 = true <;> simp [h1]; ring

theorem applyVec_smul (a : BaseMap d) (c : K) (x : Fin d → K) : a.applyVec (fun i => c * x i) = fun i => c * a.applyVec x i := by
  funext i
  simp only [applyVec]
  by_cases h1 : (a.coords i).2 = true <;> simp [h1]

end actions

section real
variable {K : Type*} [Field K] [LinearOrder K] [IsStrictOrderedRing K]

theorem applyX_mem (a : BaseMap d) {mx : K} {x : Fin d → K} (hx : ∀ i, 0 ≤ x i ∧ x i ≤ mx) (i : Fin d) :
    0 ≤ a.applyX mx x i ∧ a.applyX mx x i ≤ mx := by
  have := hx (a.coords i).1
  simp only [applyX]
  split
  · constructor <;> linarith [this.1, this.2]
  · exact this

theorem applyT_mem (a : BaseMap d) {mt t : K} (ht : 0 ≤ t ∧ t ≤ mt) : 0 ≤ a.applyT mt t ∧ a.applyT mt t ≤ mt := by
  simp only [applyT]
  split
  · constructor <;> linarith [ht.1, ht.2]
  · exact ht

end real

@[simp] theorem applyCube_mul (a b : BaseMap d) (n : ℤ) (x : Cube d) : (a * b).applyCube n x = a.applyCube n (b.applyCube n x) := by
  funext i
  simp only [applyCube, mul_coords]
  by_cases h1 : (a.coords i).2 = true <;> by_cases h2 : (b.coords (a.coords i).1).2 = true <;> simp [h1, h2]; omega

@[simp] theorem applyCube_one (n : ℤ) (x : Cube d) : (1 : BaseMap d).applyCube n x = x := by
  funext i; simp [applyCube]

@[simp] theorem applyCube_inv_applyCube (a : BaseMap d) (n : ℤ) (x : Cube d) : a⁻¹.applyCube n (a.applyCube n x) = x := by
  rw [← applyCube_mul]; simp

@[simp] theorem applyCube_applyCube_inv (a : BaseMap d) (n : ℤ) (x : Cube d) : a.applyCube n (a⁻¹.applyCube n x) = x := by
  rw [← applyCube_mul]; simp

theorem applyCube_eq_applyX (a : BaseMap d) (n : ℤ) (x : Cube d) : a.applyCube n x = a.applyX (n - 1) x := by
  funext i; simp only [applyCube, applyX]; split <;> omega

theorem applyCube_injective (a : BaseMap d) (n : ℤ) : Function.Injective (a.applyCube n) :=
  fun x y h => by simpa using congrArg (a⁻¹.applyCube n) h

theorem applyCube_sub (a : BaseMap d) (n : ℤ) (x y : Cube d) : a.applyCube n x - a.applyCube n y = a.applyVec (x - y) := by
  rw [applyCube_eq_applyX, applyCube_eq_applyX, applyX_sub]

theorem applyCube_mem (a : BaseMap d) {n : ℤ} {x : Cube d} (hx : ∀ i, 0 ≤ x i ∧ x i < n) (i : Fin d) :
    0 ≤ a.applyCube n x i ∧ a.applyCube n x i < n := by
  have := hx (a.coords i).1
  simp only [applyCube]
  split
  · omega
  · exact this

/-- A cube of the unit cube of size `1/n` is mapped by the isometry to the cube given by `apply_cube`. -/
theorem applyX_cube {K : Type*} [Field K] (a : BaseMap d) (n : ℤ) (hn : (n : K) ≠ 0) (c : Cube d) (x : Fin d → K) :
    a.applyX 1 (fun i => ((c i : K) + x i) / n) = fun i => ((a.applyCube n c i : K) + a.applyX 1 x i) / n := by
  funext i
  simp only [applyX, applyCube]
  cases (a.coords i).2
  · simp
  · simp only [if_true]; push_cast; field_simp; ring

theorem applyCnum_lt (a : BaseMap d) {g c : ℕ} (h : c < g) : a.applyCnum g c < g := by
  simp only [applyCnum]; split <;> omega

theorem applyCnum_mul (a b : BaseMap d) {g c : ℕ} (h : c < g) : (a * b).applyCnum g c = a.applyCnum g (b.applyCnum g c) := by
  simp only [applyCnum, mul_timeRev]
  by_cases h1 : a.timeRev = true <;> by_cases h2 : b.timeRev = true <;> simp [h1, h2]; omega

@[simp] theorem applyCnum_one (g c : ℕ) : (1 : BaseMap d).applyCnum g c = c := by simp [applyCnum]

@[simp] theorem applyCnum_inv (a : BaseMap d) (g c : ℕ) : a⁻¹.applyCnum g c = a.applyCnum g c := rfl

theorem applyCnum_applyCnum (a : BaseMap d) {g c : ℕ} (h : c < g) : a.applyCnum g (a.applyCnum g c) = c := by
  simp only [applyCnum]; split <;> omega

@[simp] theorem cubeMap_coords (a : BaseMap d) : a.cubeMap.coords = a.coords := rfl
@[simp] theorem cubeMap_timeRev (a : BaseMap d) : a.cubeMap.timeRev = false := rfl
@[simp] theorem invert_coords (a : BaseMap d) : a.invert.coords = a.coords := rfl
@[simp] theorem invert_timeRev (a : BaseMap d) : a.invert.timeRev = !a.timeRev := rfl
@[simp] theorem invert_invert (a : BaseMap d) : a.invert.invert = a := by
  apply BaseMap.ext <;> simp

theorem cubeMap_mul (a b : BaseMap d) : (a * b).cubeMap = a.cubeMap * b.cubeMap := by
  apply BaseMap.ext <;> intros <;> rfl

theorem cubeMap_inv (a : BaseMap d) : (a⁻¹).cubeMap = a.cubeMap⁻¹ := by
  apply BaseMap.ext <;> intros <;> rfl

theorem invert_mul (a b : BaseMap d) : a.invert * b = (a * b).invert := by
  apply BaseMap.ext
  · intro i; rfl
  · simp

theorem mul_invert (a b : BaseMap d) : a * b.invert = (a * b).invert := by
  apply BaseMap.ext
  · intro i; rfl
  · simp

@[simp] theorem applyX_cubeMap {K : Type*} [Sub K] [Neg K] (a : BaseMap d) (mx : K) (x : Fin d → K) : a.cubeMap.applyX mx x = a.applyX mx x := rfl
@[simp] theorem applyX_invert {K : Type*} [Sub K] [Neg K] (a : BaseMap d) (mx : K) (x : Fin d → K) : a.invert.applyX mx x = a.applyX mx x := rfl
@[simp] theorem applyVec_cubeMap {K : Type*} [Sub K] [Neg K] (a : BaseMap d) (x : Fin d → K) : a.cubeMap.applyVec x = a.applyVec x := rfl
@[simp] theorem applyVec_invert {K : Type*} [Sub K] [Neg K] (a : BaseMap d) (x : Fin d → K) : a.invert.applyVec x = a.applyVec x := rfl
@[simp] theorem applyCube_cubeMap (a : BaseMap d) (n : ℤ) (x : Cube d) : a.cubeMap.applyCube n x = a.applyCube n x := rfl
@[simp] theorem applyCube_invert (a : BaseMap d) (n : ℤ) (x : Cube d) : a.invert.applyCube n x = a.applyCube n x := rfl

/-! ### Enumeration -/

theorem mem_ofList {l : List (Fin d × Bool)} {tr : Bool} {a : BaseMap d} :
    a ∈ ofList l tr ↔ l = List.ofFn a.coords ∧ a.timeRev = tr := by
  unfold ofList
  constructor
  · intro h
    split at h
    · rename_i hl
      split at h
      · simp only [Option.mem_def, Option.some.injEq] at h
        subst h
        refine ⟨?_, rfl⟩
        apply List.ext_getElem
        · simp [hl]
        · intro i h1 h2; simp
      · simp at h
    · simp at h
  · rintro ⟨rfl, rfl⟩
    have h1 : (List.ofFn a.coords).length = d := by simp
    have h2 : ((List.ofFn a.coords).map Prod.fst).Nodup := by
      rw [List.map_ofFn]; exact List.nodup_ofFn.2 a.inj
    rw [dif_pos h1, dif_pos h2]
    simp only [Option.mem_def, Option.some.injEq]
    apply BaseMap.ext
    · intro i; simp
    · rfl

theorem mem_genBaseMaps {a : BaseMap d} {tr : Option Bool} : a ∈ genBaseMaps d tr ↔ ∀ b ∈ tr, a.timeRev = b := by
  have key : ∀ trs : List Bool, (a ∈ (Itertools.permutations (List.finRange d)).flatMap fun perm =>
    (Itertools.productRepeat [true, false] d).flatMap fun flip =>
      trs.filterMap fun tr => ofList (perm.zip flip) tr) ↔ a.timeRev ∈ trs := by
    intro trs
    simp only [List.mem_flatMap, List.mem_filterMap]
    constructor
    · rintro ⟨p, _, f, _, t, ht, h⟩
      rw [← Option.mem_def, mem_ofList] at h
      rw [h.2]; exact ht
    · intro h
      refine ⟨List.ofFn fun i => (a.coords i).1, ?_, List.ofFn fun i => (a.coords i).2, ?_, a.timeRev, h, ?_⟩
      · rw [Itertools.mem_permutations]
        refine (List.perm_ext_iff_of_nodup (List.nodup_ofFn.2 a.inj) (List.nodup_finRange d)).2 ?_
        intro i
        simp only [List.mem_finRange, iff_true, List.mem_ofFn]
        exact a.coords_surj i
      · rw [Itertools.mem_productRepeat]
        simp
      · rw [← Option.mem_def, mem_ofList]
        refine ⟨?_, rfl⟩
        apply List.ext_getElem
        · simp
        · intro i h1 h2; simp
  unfold genBaseMaps
  cases tr with
  | none => rw [key]; cases a.timeRev <;> simp
  | some b => rw [key]; simp

theorem zip_inj {α β : Type*} {l1 l1' : List α} {l2 l2' : List β} (h1 : l1.length = l2.length) (h2 : l1'.length = l2'.length)
    (h : l1.zip l2 = l1'.zip l2') : l1 = l1' ∧ l2 = l2' := by
  have a := congrArg (List.map Prod.fst) h
  have b := congrArg (List.map Prod.snd) h
  rw [List.map_fst_zip (by omega), List.map_fst_zip (by omega)] at a
  rw [List.map_snd_zip (by omega), List.map_snd_zip (by omega)] at b
  exact ⟨a, b⟩

theorem nodup_genBaseMaps (tr : Option Bool) : (genBaseMaps d tr).Nodup := by
  have key : ∀ trs : List Bool, trs.Nodup → ((Itertools.permutations (List.finRange d)).flatMap fun perm =>
    (Itertools.productRepeat [true, false] d).flatMap fun flip =>
      trs.filterMap fun tr => ofList (perm.zip flip) tr).Nodup := by
    intro trs htrs
    have hlenp : ∀ p ∈ Itertools.permutations (List.finRange d), p.length = d := fun p hp => by
      have := (Itertools.mem_permutations.1 hp).length_eq; simpa using this
    have hlenf : ∀ p ∈ Itertools.productRepeat [true, false] d, p.length = d := fun p hp =>
      (Itertools.mem_productRepeat.1 hp).1
    rw [List.nodup_flatMap]
    constructor
    · intro p hp
      rw [List.nodup_flatMap]
      constructor
      · intro f hf
        refine htrs.filterMap ?_
        intro t t' b hb hb'
        exact (mem_ofList.1 hb).2.symm.trans (mem_ofList.1 hb').2
      · have := Itertools.nodup_productRepeat (l := [true, false]) (by decide) d
        refine List.Pairwise.imp_of_mem ?_ this
        intro f g hf hg hfg
        simp only [Function.onFun, List.disjoint_left, List.mem_filterMap, not_exists, not_and]
        rintro b ⟨t, ht, hb⟩ t' ht' hb'
        have h1 := (mem_ofList.1 hb).1
        have h2 := (mem_ofList.1 hb').1
        exact hfg (zip_inj (by rw [hlenp p hp, hlenf f hf]) (by rw [hlenp p hp, hlenf g hg]) (h1.trans h2.symm)).2
    · have := Itertools.nodup_permutations (List.nodup_finRange d)
      refine List.Pairwise.imp_of_mem ?_ this
      intro p q hp hq hpq
      simp only [Function.onFun, List.disjoint_left, List.mem_flatMap, List.mem_filterMap, not_exists, not_and]
      rintro b ⟨f, hf, t, ht, hb⟩ g hg t' ht' hb'
      have h1 := (mem_ofList.1 hb).1
      have h2 := (mem_ofList.1 hb').1
      exact hpq (zip_inj (by rw [hlenp p hp, hlenf f hf]) (by rw [hlenp q hq, hlenf g hg]) (h1.trans h2.symm)).1
  unfold genBaseMaps
  cases tr with
  | none => exact key _ (by decide)
  | some b => exact key _ (by simp)

theorem length_genBaseMaps (tr : Option Bool) :
    (genBaseMaps d tr).length = d.factorial * 2 ^ d * (if tr = none then 2 else 1) := by
  have hlenp : ∀ p ∈ Itertools.permutations (List.finRange d), p.Perm (List.finRange d) := fun p hp =>
    Itertools.mem_permutations.1 hp
  have hlenf : ∀ p ∈ Itertools.productRepeat [true, false] d, p.length = d := fun p hp =>
      (Itertools.mem_productRepeat.1 hp).1
  have key : ∀ trs : List Bool, ((Itertools.permutations (List.finRange d)).flatMap fun perm =>
    (Itertools.productRepeat [true, false] d).flatMap fun flip =>
      trs.filterMap fun tr => ofList (perm.zip flip) tr).length = d.factorial * 2 ^ d * trs.length := by
    intro trs
    rw [List.length_flatMap]
    have h1 : ∀ p ∈ Itertools.permutations (List.finRange d), ((Itertools.productRepeat [true, false] d).flatMap fun flip =>
      trs.filterMap fun tr => ofList (p.zip flip) tr).length = 2 ^ d * trs.length := by
      intro p hp
      have hpl : p.length = d := by simpa using (hlenp p hp).length_eq
      rw [List.length_flatMap]
      have h2 : ∀ f ∈ Itertools.productRepeat [true, false] d, (trs.filterMap fun tr => ofList (p.zip f) tr).length = trs.length := by
        intro f hf
        have hfl := hlenf f hf
        have hs : ∀ t, (ofList (p.zip f) t).isSome := by
          intro t
          unfold ofList
          rw [dif_pos (by simp [hpl, hfl]), dif_pos (by rw [List.map_fst_zip (by omega)]; exact ((hlenp p hp).nodup_iff).2 (List.nodup_finRange d))]
          rfl
        induction trs with
        | nil => rfl
        | cons t trs ih =>
          obtain ⟨b, hb⟩ := Option.isSome_iff_exists.1 (hs t)
          rw [List.filterMap_cons, hb]; simp [ih]
      rw [List.map_congr_left h2]
      simp [Itertools.length_productRepeat]
    rw [List.map_congr_left h1]
    simp [Itertools.length_permutations, mul_assoc]
  unfold genBaseMaps
  cases tr with
  | none => simp [key]
  | some b => simp [key]

end Peano.BaseMap
