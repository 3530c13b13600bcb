import Verif.Spec.Junctions
import Verif.Lemmas.Subdivision
import Verif.Lemmas.Gates

/- Junctions. -/
namespace Peano
variable {d : ℕ}

namespace FracPair

theorem ext' {a b : FracPair d} (h1 : a.s1 = b.s1) (h2 : a.s2 = b.s2) (h3 : a.dx = b.dx) : a = b := by
  cases a; cases b; simp_all

theorem rmul_mul (a b : BaseMap d) (s : Spec d) : Spec.rmulBaseMap (a * b) s = Spec.rmulBaseMap a (Spec.rmulBaseMap b s) := by
  simp [Spec.rmulBaseMap, mul_assoc]

theorem applyVec_neg (b : BaseMap d) (v : Cube d) : (b.applyVec fun j => -v j) = fun j => -b.applyVec v j := by
  funext j; unfold BaseMap.applyVec; split <;> simp

theorem act_one (a : FracPair d) : a.act 1 = a := by
  unfold act
  simp [Spec.rmulBaseMap]

theorem act_mul (a b : BaseMap d) (x : FracPair d) : x.act (a * b) = (x.act b).act a := by
  unfold act
  rw [BaseMap.mul_timeRev]
  by_cases ha : a.timeRev = true <;> by_cases hb : b.timeRev = true <;>
    simp [ha, hb, rmul_mul, applyVec_neg]

theorem Same.refl (a : FracPair d) : a.Same a := ⟨1, (act_one a).symm⟩
theorem Same.symm {a b : FracPair d} (h : a.Same b) : b.Same a := by
  obtain ⟨x, rfl⟩ := h
  exact ⟨x⁻¹, by rw [← act_mul, inv_mul_cancel, act_one]⟩
theorem Same.trans {a b c : FracPair d} (h : a.Same b) (h' : b.Same c) : a.Same c := by
  obtain ⟨x, rfl⟩ := h
  obtain ⟨y, rfl⟩ := h'
  exact ⟨y * x, by rw [act_mul]⟩

end FracPair

namespace Junction

theorem cubeMap_inv_timeRev (b : BaseMap d) : (b.cubeMap⁻¹).timeRev = false := rfl

theorem normalize_pair (s1 s2 : Spec d) (dx : Cube d) : (normalize s1 s2 dx).pair = (FracPair.mk s1 s2 dx).act s1.baseMap.cubeMap⁻¹ := by
  unfold FracPair.act
  rw [cubeMap_inv_timeRev]
  rfl

theorem invert_eq (s : Spec d) : s.invert = Spec.rmulBaseMap (BaseMap.invert 1) s := by
  unfold Spec.invert Spec.rmulBaseMap
  rw [BaseMap.invert_mul, one_mul]

theorem swap_eq (s1 s2 : Spec d) (dx : Cube d) :
    FracPair.mk s2.invert s1.invert (fun j => -dx j) = (FracPair.mk s1 s2 dx).act (BaseMap.invert 1) := by
  unfold FracPair.act
  simp [invert_eq]

/-- The standardized junction is the same pair. -/
theorem regular_same (s1 s2 : Spec d) (dx : Cube d) : (FracPair.mk s1 s2 dx).Same (regular s1 s2 dx).pair := by
  unfold regular
  split
  · rw [normalize_pair, swap_eq, ← FracPair.act_mul]
    exact ⟨_, rfl⟩
  · rw [normalize_pair]
    exact ⟨_, rfl⟩

@[simp] theorem regular_deltaT (s1 s2 : Spec d) (dx : Cube d) : (regular s1 s2 dx).deltaT = 1 := by unfold regular; split <;> rfl

/-- Normal form of a regular junction. -/
def Standard (j : Junction d) : Prop :=
  j.spec1.baseMap.cubeMap = 1 ∧ j.spec1.pnum ≤ j.spec2.pnum ∧ j.deltaT = 1 ∧
    ¬ (j.spec1.pnum = j.spec2.pnum ∧ j.spec1.baseMap.timeRev = true ∧ j.spec2.baseMap.timeRev = true)

theorem normalize_standard {s1 s2 : Spec d} (dx : Cube d) (h : needSwap s1 s2 = false) : (normalize s1 s2 dx).Standard := by
  unfold needSwap at h
  simp only [Bool.or_eq_false_iff, decide_eq_false_iff_not, not_lt, Bool.and_eq_false_iff] at h
  refine ⟨?_, h.1, rfl, ?_⟩
  · show (s1.baseMap.cubeMap⁻¹ * s1.baseMap).cubeMap = 1
    rw [BaseMap.cubeMap_mul, BaseMap.cubeMap_inv, BaseMap.cubeMap_cubeMap, inv_mul_cancel]
  · rintro ⟨h1, h2, h3⟩
    have h1' : s1.pnum = s2.pnum := h1
    have h2' : xor false s1.baseMap.timeRev = true := h2
    have h3' : xor false s2.baseMap.timeRev = true := h3
    simp only [Bool.false_xor] at h2' h3'
    rcases h.2 with (h | h) | h
    · exact h h1'
    · simp [h] at h2'
    · simp [h] at h3'

theorem needSwap_swap {s1 s2 : Spec d} (h : needSwap s1 s2 = true) : needSwap s2.invert s1.invert = false := by
  unfold needSwap Spec.invert at *
  simp only [Bool.or_eq_true, decide_eq_true_eq, Bool.and_eq_true] at h
  simp only [Bool.or_eq_false_iff, decide_eq_false_iff_not, not_lt, Bool.and_eq_false_iff]
  rcases h with h | ⟨⟨h1, h2⟩, h3⟩
  · exact ⟨by omega, Or.inl (Or.inl (by omega))⟩
  · exact ⟨by omega, Or.inl (Or.inr (by simp [h3]))⟩

theorem regular_standard (s1 s2 : Spec d) (dx : Cube d) : (regular s1 s2 dx).Standard := by
  unfold regular
  by_cases h : needSwap s1 s2 = true
  · rw [if_pos h]; exact normalize_standard _ (needSwap_swap h)
  · rw [if_neg h]; exact normalize_standard _ (by simpa using h)

end Junction

namespace FCurve
variable {c : FCurve d}

/-- The pair formed by the last fraction of the first and the first fraction of the second. -/
def deriveP (c : FCurve d) (a : FracPair d) : FracPair d :=
  ⟨c.curSpec a.s1 (c.genus - 1), c.curSpec a.s2 0, fun j => a.dx j * (c.div : ℤ) + c.curCube a.s2 0 j - c.curCube a.s1 (c.genus - 1) j⟩

theorem curSpec_rmul (b : BaseMap d) (s : Spec d) {i : ℕ} (hi : i < c.genus) :
    c.curSpec (Spec.rmulBaseMap b s) i = Spec.rmulBaseMap b (c.curSpec s (b.applyCnum c.genus i)) := by
  unfold curSpec
  rw [← FracPair.rmul_mul]
  congr 2
  show (b * s.baseMap).applyCnum c.genus i = _
  by_cases h : b.timeRev = true <;> by_cases h' : s.baseMap.timeRev = true <;> simp [BaseMap.applyCnum, h, h']
  omega

theorem curCube_rmul (b : BaseMap d) (s : Spec d) {i : ℕ} (hi : i < c.genus) :
    c.curCube (Spec.rmulBaseMap b s) i = b.applyCube c.div (c.curCube s (b.applyCnum c.genus i)) := by
  unfold curCube
  show (b * s.baseMap).applyCube _ (c.cubeD s.pnum ((b * s.baseMap).applyCnum c.genus i)) = _
  rw [BaseMap.applyCube_mul]
  congr 3
  by_cases h : b.timeRev = true <;> by_cases h' : s.baseMap.timeRev = true <;> simp [BaseMap.applyCnum, h, h']
  omega

theorem applyCube_diff (b : BaseMap d) (n : ℤ) (x y v : Cube d) (j : Fin d) :
    b.applyVec v j * n + b.applyCube n x j - b.applyCube n y j = b.applyVec (fun j => v j * n + x j - y j) j := by
  unfold BaseMap.applyVec BaseMap.applyCube
  split <;> ring

theorem deriveP_act (hs : c.Shape) (b : BaseMap d) (a : FracPair d) : c.deriveP (a.act b) = (c.deriveP a).act b := by
  have hG := hs.genus_pos
  have h0 : b.applyCnum c.genus 0 = if b.timeRev then c.genus - 1 else 0 := by simp [BaseMap.applyCnum]
  have h1 : b.applyCnum c.genus (c.genus - 1) = if b.timeRev then 0 else c.genus - 1 := by simp [BaseMap.applyCnum]
  unfold FracPair.act
  by_cases ht : b.timeRev = true
  · simp only [ht, if_true] at h0 h1 ⊢
    refine FracPair.ext' ?_ ?_ ?_
    · show c.curSpec (Spec.rmulBaseMap b a.s2) (c.genus - 1) = _
      rw [curSpec_rmul _ _ (by omega), h1]; rfl
    · show c.curSpec (Spec.rmulBaseMap b a.s1) 0 = _
      rw [curSpec_rmul _ _ (by omega), h0]; rfl
    · funext j
      show -b.applyVec a.dx j * (c.div : ℤ) + c.curCube (Spec.rmulBaseMap b a.s1) 0 j - c.curCube (Spec.rmulBaseMap b a.s2) (c.genus - 1) j = _
      rw [curCube_rmul _ _ hG, curCube_rmul _ _ (by omega), h0, h1]
      have := applyCube_diff b c.div (c.curCube a.s2 0) (c.curCube a.s1 (c.genus - 1)) a.dx j
      show _ = -b.applyVec (fun j => a.dx j * (c.div : ℤ) + c.curCube a.s2 0 j - c.curCube a.s1 (c.genus - 1) j) j
      rw [← this]; ring
  · simp only [ht] at h0 h1 ⊢
    simp only [Bool.false_eq_true, if_false] at h0 h1 ⊢
    refine FracPair.ext' ?_ ?_ ?_
    · show c.curSpec (Spec.rmulBaseMap b a.s1) (c.genus - 1) = _
      rw [curSpec_rmul _ _ (by omega), h1]; rfl
    · show c.curSpec (Spec.rmulBaseMap b a.s2) 0 = _
      rw [curSpec_rmul _ _ (by omega), h0]; rfl
    · funext j
      show b.applyVec a.dx j * (c.div : ℤ) + c.curCube (Spec.rmulBaseMap b a.s2) 0 j - c.curCube (Spec.rmulBaseMap b a.s1) (c.genus - 1) j = _
      rw [curCube_rmul _ _ hG, curCube_rmul _ _ (by omega), h0, h1]
      exact applyCube_diff b c.div (c.curCube a.s2 0) (c.curCube a.s1 (c.genus - 1)) a.dx j

theorem deriveP_same (hs : c.Shape) {a b : FracPair d} (h : a.Same b) : (c.deriveP a).Same (c.deriveP b) := by
  obtain ⟨x, rfl⟩ := h
  exact ⟨x, deriveP_act hs x a⟩

theorem GatesDefined.cube_end (h : c.GatesDefined) {p : ℕ} (hp : p < c.mult) (last : Bool) :
    c.cube? p (endIdx c.genus last) = some (c.cubeD p (endIdx c.genus last)) := by
  have : (c.cube? p (endIdx c.genus last)).isSome := by
    cases last
    · exact (h.cube_def p hp).1
    · exact (h.cube_def p hp).2
  obtain ⟨x, hx⟩ := Option.isSome_iff_exists.1 this
  unfold cubeD
  rw [hx]; rfl

theorem GatesDefined.spec_end (h : c.GatesDefined) {p : ℕ} (hp : p < c.mult) (last : Bool) :
    c.spec? p (endIdx c.genus last) = some (c.specD p (endIdx c.genus last)) := by
  have : (c.spec? p (endIdx c.genus last)).isSome := by
    cases last
    · exact (h.spec_def p hp).1
    · exact (h.spec_def p hp).2
  obtain ⟨x, hx⟩ := Option.isSome_iff_exists.1 this
  unfold specD
  rw [hx]; rfl

theorem endElem_eq {α : Type} (l : List (Option α)) (n : ℕ) (hl : l.length = n) (last : Bool) : endElem l last = (l[endIdx n last]?).join := by
  unfold endElem endIdx
  cases last
  · simp [List.head?_eq_getElem?]
  · simp [List.getLast?_eq_getElem?, hl]

theorem GatesDefined.endElems (h : c.GatesDefined) {p : ℕ} {pat : Pattern d} (hp : c.patterns[p]? = some pat) (last : Bool) :
    endElem pat.specs last = some (c.specD p (endIdx c.genus last)) ∧ endElem pat.proto last = some (c.cubeD p (endIdx c.genus last)) := by
  have hpm : p < c.mult := (List.getElem?_eq_some_iff.1 hp).1
  have hm := List.mem_of_getElem? hp
  rw [endElem_eq _ _ (h.specs_length pat hm), endElem_eq _ _ (h.proto_length pat hm)]
  have h1 := h.spec_end hpm last
  have h2 := h.cube_end hpm last
  unfold spec? at h1
  unfold cube? Proto.cube? at h2
  rw [hp, Option.bind_some] at h1 h2
  exact ⟨h1, h2⟩

theorem curSpec_end (hG : 0 < c.genus) (s : Spec d) (last : Bool) : c.curSpec s (endIdx c.genus last) =
    Spec.rmulBaseMap s.baseMap (c.specD s.pnum (endIdx c.genus (xor last s.baseMap.timeRev))) := by
  unfold curSpec
  rw [applyCnum_endIdx _ hG]

theorem curCube_end (hG : 0 < c.genus) (s : Spec d) (last : Bool) : c.curCube s (endIdx c.genus last) =
    s.baseMap.applyCube c.div (c.cubeD s.pnum (endIdx c.genus (xor last s.baseMap.timeRev))) := by
  unfold curCube
  rw [applyCnum_endIdx _ hG]

/-- What `_get_derived_junction` computes. -/
theorem GatesDefined.getDerivedJunction_eq (h : c.GatesDefined) {j : Junction d} (h1 : j.spec1.pnum < c.mult) (h2 : j.spec2.pnum < c.mult) :
    c.getDerivedJunction j = some (Junction.regular (c.deriveP j.pair).s1 (c.deriveP j.pair).s2 (c.deriveP j.pair).dx) := by
  obtain ⟨p1, hp1⟩ := getElem?_of_lt h1
  obtain ⟨p2, hp2⟩ := getElem?_of_lt h2
  have hG := h.genus_pos
  unfold getDerivedJunction
  simp only [hp1, hp2, Option.bind_eq_bind, Option.bind_some, (h.endElems hp1 _).1, (h.endElems hp1 _).2, (h.endElems hp2 _).1,
    (h.endElems hp2 _).2, Option.pure_def]
  have e1 : c.genus - 1 = endIdx c.genus true := rfl
  have e0 : 0 = endIdx c.genus false := rfl
  have es1 : (c.deriveP j.pair).s1 = Spec.rmulBaseMap j.spec1.baseMap (c.specD j.spec1.pnum (endIdx c.genus (!j.spec1.baseMap.timeRev))) := by
    show c.curSpec j.spec1 (c.genus - 1) = _
    rw [e1, curSpec_end hG, Bool.true_xor]
  have es2 : (c.deriveP j.pair).s2 = Spec.rmulBaseMap j.spec2.baseMap (c.specD j.spec2.pnum (endIdx c.genus j.spec2.baseMap.timeRev)) := by
    show c.curSpec j.spec2 (endIdx c.genus false) = _
    rw [curSpec_end hG, Bool.false_xor]
  have ec1 : c.curCube j.spec1 (c.genus - 1) = j.spec1.baseMap.applyCube c.div (c.cubeD j.spec1.pnum (endIdx c.genus (!j.spec1.baseMap.timeRev))) := by
    rw [e1, curCube_end hG, Bool.true_xor]
  have ec2 : c.curCube j.spec2 0 = j.spec2.baseMap.applyCube c.div (c.cubeD j.spec2.pnum (endIdx c.genus j.spec2.baseMap.timeRev)) := by
    show c.curCube j.spec2 (endIdx c.genus false) = _
    rw [curCube_end hG, Bool.false_xor]
  rw [es1, es2]
  congr 2
  funext i
  show _ = j.deltaX i * (c.div : ℤ) + c.curCube j.spec2 0 i - c.curCube j.spec1 (c.genus - 1) i
  rw [ec1, ec2]
  ring

/-! ### touching -/

/-- The first fraction ends where the second begins. -/
def Touch (g : Bool → ℕ → Fin d → ℝ) (a : FracPair d) : Prop := ∀ j, endPt g true a.s1 j = (a.dx j : ℝ) + endPt g false a.s2 j

theorem Touch.act {g : Bool → ℕ → Fin d → ℝ} {a : FracPair d} (h : Touch g a) (b : BaseMap d) : Touch g (a.act b) := by
  intro j
  unfold FracPair.act
  by_cases ht : b.timeRev = true
  · simp only [ht, if_true, endPt_rmul, Bool.true_xor, Bool.false_xor]
    have := h (b.coords j).1
    unfold BaseMap.applyX BaseMap.applyVec
    by_cases hb : (b.coords j).2 = true
    · simp only [hb, if_true, Bool.not_true]; push_cast; linarith
    · simp only [hb, Bool.not_true]; simp only [Bool.false_eq_true, if_false]; push_cast; linarith
  · rw [if_neg ht]
    have ht' : b.timeRev = false := by simpa using ht
    simp only [ht', endPt_rmul, Bool.xor_false]
    have := h (b.coords j).1
    unfold BaseMap.applyX BaseMap.applyVec
    by_cases hb : (b.coords j).2 = true
    · simp only [hb, if_true]; push_cast; linarith
    · simp only [hb]; simp only [Bool.false_eq_true, if_false]; linarith

theorem Touch.same {g : Bool → ℕ → Fin d → ℝ} {a b : FracPair d} (h : Touch g a) (hab : a.Same b) : Touch g b := by
  obtain ⟨x, rfl⟩ := hab
  exact h.act x

theorem EndEqs.curEnd (h : c.GatesDefined) {g : Bool → ℕ → Fin d → ℝ} (hg : c.EndEqs g) (last : Bool) {s : Spec d} (hs : s.pnum < c.mult) (j : Fin d) :
    endPt g last s j = ((c.curCube s (endIdx c.genus last) j : ℝ) + endPt g last (c.curSpec s (endIdx c.genus last)) j) / c.div := by
  have hst : c.limitStep (endIdx c.genus last) s = some (c.curCube s (endIdx c.genus last), c.curSpec s (endIdx c.genus last)) := by
    have h1 := h.cube_end hs (xor last s.baseMap.timeRev)
    have h2 := h.spec_end hs (xor last s.baseMap.timeRev)
    rw [← applyCnum_endIdx _ h.genus_pos] at h1 h2
    exact limitStep_of h.toShape (endIdx_lt h.genus_pos last) h1 h2
  exact congrFun (hg.step h.toShape hst) j

theorem Touch.derive (h : c.GatesDefined) {g : Bool → ℕ → Fin d → ℝ} (hg : c.EndEqs g) {a : FracPair d} (ht : Touch g a)
    (h1 : a.s1.pnum < c.mult) (h2 : a.s2.pnum < c.mult) : Touch g (c.deriveP a) := by
  intro j
  have hN : (0 : ℝ) < c.div := h.toShape.div_pos
  have e := ht j
  rw [hg.curEnd h true h1, hg.curEnd h false h2] at e
  have e1 : c.genus - 1 = endIdx c.genus true := rfl
  show endPt g true (c.curSpec a.s1 (endIdx c.genus true)) j =
    ((a.dx j * (c.div : ℤ) + c.curCube a.s2 (endIdx c.genus false) j - c.curCube a.s1 (endIdx c.genus true) j : ℤ) : ℝ) +
      endPt g false (c.curSpec a.s2 (endIdx c.genus false)) j
  push_cast
  field_simp at e
  linarith

theorem Touch.bound {g : Bool → ℕ → Fin d → ℝ} {m : ℕ} (hg : ∀ last, ∀ p < m, ∀ j, 0 ≤ g last p j ∧ g last p j ≤ 1)
    {a : FracPair d} (ht : Touch g a) (h1 : a.s1.pnum < m) (h2 : a.s2.pnum < m) (j : Fin d) : -1 ≤ a.dx j ∧ a.dx j ≤ 1 := by
  have e := ht j
  have b1 := a.s1.baseMap.applyX_mem (hg (xor true a.s1.baseMap.timeRev) _ h1) j
  have b2 := a.s2.baseMap.applyX_mem (hg (xor false a.s2.baseMap.timeRev) _ h2) j
  have e1 : endPt g true a.s1 j = a.s1.baseMap.applyX 1 (g (xor true a.s1.baseMap.timeRev) a.s1.pnum) j := rfl
  have e2 : endPt g false a.s2 j = a.s2.baseMap.applyX 1 (g (xor false a.s2.baseMap.timeRev) a.s2.pnum) j := rfl
  rw [← e1] at b1
  rw [← e2] at b2
  have h3 : (a.dx j : ℝ) ≤ 1 := by linarith
  have h4 : (-1 : ℝ) ≤ a.dx j := by linarith
  exact ⟨by exact_mod_cast h4, by exact_mod_cast h3⟩

theorem deriveP_pnum (h : c.GatesDefined) {a : FracPair d} (h1 : a.s1.pnum < c.mult) (h2 : a.s2.pnum < c.mult) :
    (c.deriveP a).s1.pnum < c.mult ∧ (c.deriveP a).s2.pnum < c.mult := by
  have hG := h.genus_pos
  constructor
  · show (c.curSpec a.s1 (endIdx c.genus true)).pnum < _
    rw [curSpec_end hG]
    exact h.spec_range _ _ (c.specD a.s1.pnum (endIdx c.genus (xor true a.s1.baseMap.timeRev))) (h.spec_end h1 _)
  · show (c.curSpec a.s2 (endIdx c.genus false)).pnum < _
    rw [curSpec_end hG]
    exact h.spec_range _ _ (c.specD a.s2.pnum (endIdx c.genus (xor false a.s2.baseMap.timeRev))) (h.spec_end h2 _)

theorem Same_pnum {a b : FracPair d} (h : a.Same b) {m : ℕ} (h1 : a.s1.pnum < m) (h2 : a.s2.pnum < m) : b.s1.pnum < m ∧ b.s2.pnum < m := by
  obtain ⟨x, rfl⟩ := h
  unfold FracPair.act
  split
  · exact ⟨h2, h1⟩
  · exact ⟨h1, h2⟩

/-! ### the loop -/

/-- All junctions with `deltaX ∈ {-1,0,1}^d`. -/
def allJunctions (d mult : ℕ) : List (Junction d) :=
  (allSpecs d mult).flatMap fun s1 => (allSpecs d mult).flatMap fun s2 =>
    (Itertools.productRepeat [-1, 0, 1] d).map fun (l : List ℤ) => ⟨s1, s2, fun j => l.getD j 0, 1⟩

theorem mem_allJunctions {mult : ℕ} {j : Junction d} (h1 : j.spec1.pnum < mult) (h2 : j.spec2.pnum < mult)
    (h3 : ∀ i, -1 ≤ j.deltaX i ∧ j.deltaX i ≤ 1) (h4 : j.deltaT = 1) : j ∈ allJunctions d mult := by
  unfold allJunctions
  simp only [List.mem_flatMap, mem_allSpecs, List.mem_map, Itertools.mem_productRepeat]
  refine ⟨j.spec1, h1, j.spec2, h2, List.ofFn j.deltaX, ⟨by simp, ?_⟩, ?_⟩
  · intro a ha
    rw [List.mem_ofFn] at ha
    obtain ⟨i, rfl⟩ := ha
    have := h3 i
    simp only [List.mem_cons, List.not_mem_nil, or_false]
    omega
  · cases j
    simp only at h4
    subst h4
    simp [List.getD]

theorem length_allJunctions (mult : ℕ) : (allJunctions d mult).length = (mult * (2 * (d.factorial * 2 ^ d))) ^ 2 * 3 ^ d := by
  unfold allJunctions
  simp only [List.length_flatMap, List.length_map, Itertools.length_productRepeat, List.map_const', List.sum_replicate, length_allSpecs,
    smul_eq_mul, List.length_cons, List.length_nil]
  ring

/-- Specification of the loop. -/
theorem junctionsLoop_spec {P : Junction d × Option ℕ → Prop} {U : List (Junction d)}
    (hder : ∀ j dep, P (j, dep) → ∃ dj, c.getDerivedJunction j = some dj ∧ P (dj, dep.map (· + 1))) (hU : ∀ x, P x → x.1 ∈ U) :
    ∀ (fuel : ℕ) (seen todo : List (Junction d × Option ℕ)), (∀ x ∈ seen, P x) → (∀ x ∈ todo, x ∈ seen) → (seen.map Prod.fst).Nodup →
      (∀ x ∈ seen, x ∉ todo → ∃ dj, c.getDerivedJunction x.1 = some dj ∧ dj ∈ seen.map Prod.fst) →
      todo.length + U.length ≤ fuel + seen.length →
      ∃ res, c.junctionsLoop fuel seen todo = some res ∧ (∀ x ∈ res, P x) ∧ (res.map Prod.fst).Nodup ∧ (∃ ext, res = seen ++ ext) ∧
        (∀ x ∈ res, ∃ dj, c.getDerivedJunction x.1 = some dj ∧ dj ∈ res.map Prod.fst) ∧
        (∀ x ∈ res, x ∈ seen ∨ ∃ y ∈ res, c.getDerivedJunction y.1 = some x.1 ∧ x.2 = y.2.map (· + 1)) := by
  intro fuel
  induction fuel with
  | zero =>
    intro seen todo hP hsub hnd hcl hf
    have hlen : (seen.map Prod.fst).length ≤ U.length := by
      refine (List.subperm_of_subset hnd ?_).length_le
      intro j hj
      obtain ⟨x, hx, rfl⟩ := List.mem_map.1 hj
      exact hU x (hP x hx)
    rw [List.length_map] at hlen
    have : todo = [] := List.length_eq_zero_iff.1 (by omega)
    subst this
    exact ⟨seen, by simp [junctionsLoop], hP, hnd, ⟨[], by simp⟩, fun x hx => hcl x hx (by simp), fun x hx => Or.inl hx⟩
  | succ fuel ih =>
    intro seen todo hP hsub hnd hcl hf
    cases todo with
    | nil => exact ⟨seen, by simp [junctionsLoop], hP, hnd, ⟨[], by simp⟩, fun x hx => hcl x hx (by simp), fun x hx => Or.inl hx⟩
    | cons x todo =>
      have hx := hsub x List.mem_cons_self
      obtain ⟨dj, hd1, hd2⟩ := hder x.1 x.2 (hP x hx)
      by_cases hm : dj ∈ seen.map Prod.fst
      · obtain ⟨res, h1, h2⟩ := ih seen todo hP (fun y hy => hsub y (List.mem_cons_of_mem _ hy)) hnd (by
          intro y hy hyt
          by_cases hyx : y = x
          · subst hyx; exact ⟨dj, hd1, hm⟩
          · exact hcl y hy (by simp [hyx, hyt])) (by simp at hf; omega)
        refine ⟨res, ?_, h2⟩
        rw [junctionsLoop]
        simp only [hd1, Option.bind_eq_bind, Option.bind_some, hm, if_true]
        exact h1
      · obtain ⟨res, h1, h2, h3, ⟨ext, h4⟩, h5, h6⟩ := ih (seen ++ [(dj, x.2.map (· + 1))]) ((dj, x.2.map (· + 1)) :: todo) (by
          intro y hy
          rcases List.mem_append.1 hy with hy | hy
          · exact hP y hy
          · rw [List.mem_singleton] at hy; rw [hy]; exact hd2) (by
          intro y hy
          rcases List.mem_cons.1 hy with rfl | hy
          · simp
          · exact List.mem_append_left _ (hsub y (List.mem_cons_of_mem _ hy))) (by
          rw [List.map_append]
          refine List.nodup_append.2 ⟨hnd, by simp, ?_⟩
          intro a ha b hb
          simp only [List.map_cons, List.map_nil, List.mem_singleton] at hb
          subst hb
          rintro rfl
          exact hm ha) (by
          intro y hy hyt
          rcases List.mem_append.1 hy with hy | hy
          · by_cases hyx : y = x
            · subst hyx; exact ⟨dj, hd1, by simp⟩
            · obtain ⟨dj', ha, hb⟩ := hcl y hy (by
                intro hmem
                rcases List.mem_cons.1 hmem with rfl | h
                · exact hyx rfl
                · exact hyt (List.mem_cons_of_mem _ h))
              exact ⟨dj', ha, by rw [List.map_append]; exact List.mem_append_left _ hb⟩
          · rw [List.mem_singleton] at hy
            exact absurd (by rw [hy]; exact List.mem_cons_self) hyt) (by simp at hf ⊢; omega)
        refine ⟨res, ?_, h2, h3, ⟨_, by rw [h4, List.append_assoc]⟩, h5, ?_⟩
        · rw [junctionsLoop]
          simp only [hd1, Option.bind_eq_bind, Option.bind_some, hm, if_false]
          exact h1
        · intro y hy
          rcases h6 y hy with h | h
          · rcases List.mem_append.1 h with h | h
            · exact Or.inl h
            · rw [List.mem_singleton] at h
              right
              refine ⟨x, ?_, ?_⟩
              · rw [h4]; exact List.mem_append_left _ (List.mem_append_left _ hx)
              · rw [h]; exact ⟨hd1, rfl⟩
          · exact Or.inr h

/-! ### base junctions -/

theorem dedup_foldl {α : Type} [DecidableEq α] (l acc : List α) (hacc : acc.Nodup) :
    (l.foldl (fun seen j => if j ∈ seen then seen else seen ++ [j]) acc).Nodup ∧
      ∀ x, x ∈ l.foldl (fun seen j => if j ∈ seen then seen else seen ++ [j]) acc ↔ x ∈ acc ∨ x ∈ l := by
  induction l generalizing acc with
  | nil => simpa using hacc
  | cons a l ih =>
    rw [List.foldl_cons]
    by_cases h : a ∈ acc
    · rw [if_pos h]
      refine ⟨(ih acc hacc).1, fun x => ?_⟩
      rw [(ih acc hacc).2]
      constructor
      · rintro (h' | h')
        · exact Or.inl h'
        · exact Or.inr (List.mem_cons_of_mem _ h')
      · rintro (h' | h')
        · exact Or.inl h'
        · rcases List.mem_cons.1 h' with rfl | h'
          · exact Or.inl h
          · exact Or.inr h'
    · rw [if_neg h]
      have hn : (acc ++ [a]).Nodup := List.nodup_append.2 ⟨hacc, by simp, by
        intro x hx y hy
        rw [List.mem_singleton] at hy
        rintro rfl
        exact h (hy ▸ hx)⟩
      refine ⟨(ih _ hn).1, fun x => ?_⟩
      rw [(ih _ hn).2]
      simp only [List.mem_append, List.mem_cons, List.not_mem_nil, false_or, or_assoc]

/-- The pair number `m` of pattern `p`. -/
def basePair (c : FCurve d) (p m : ℕ) : FracPair d := ⟨c.specD p m, c.specD p (m + 1), fun j => c.cubeD p (m + 1) j - c.cubeD p m j⟩

theorem Full.getBaseJunction_eq (h : c.Full) {p m : ℕ} (hp : p < c.mult) (hm : m + 1 < c.genus) :
    c.getBaseJunction p m = some (Junction.regular (c.basePair p m).s1 (c.basePair p m).s2 (c.basePair p m).dx) := by
  unfold getBaseJunction
  rw [h.spec_eq hp (by omega), h.spec_eq hp hm, h.cube_eq hp (by omega), h.cube_eq hp hm]
  rfl

theorem Full.neighbours_iff (h : c.Full) (a : FracPair d) : c.Neighbours a ↔ ∃ p m, p < c.mult ∧ m + 1 < c.genus ∧ a = c.basePair p m := by
  constructor
  · rintro ⟨p, m, x1, x2, h1, h2, h3, h4, h5⟩
    have hp := cube?_lt h3
    have hm := h.toShape.cube?_lt_genus h4
    refine ⟨p, m, hp, hm, ?_⟩
    rw [h.spec_eq hp (by omega)] at h1
    rw [h.spec_eq hp hm] at h2
    rw [h.cube_eq hp (by omega)] at h3
    rw [h.cube_eq hp hm] at h4
    cases h3; cases h4
    exact FracPair.ext' (Option.some.inj h1).symm (Option.some.inj h2).symm h5
  · rintro ⟨p, m, hp, hm, rfl⟩
    exact ⟨p, m, _, _, h.spec_eq hp (by omega), h.spec_eq hp hm, h.cube_eq hp (by omega), h.cube_eq hp hm, rfl⟩

theorem Full.genBaseJunctions_eq (h : c.Full) : ∃ base, c.genBaseJunctions = some base ∧ base.Nodup ∧
    ∀ j, j ∈ base ↔ ∃ p m, p < c.mult ∧ m + 1 < c.genus ∧
      j = Junction.regular (c.basePair p m).s1 (c.basePair p m).s2 (c.basePair p m).dx := by
  have hall : ((List.range c.mult).flatMap fun pnum => (List.range (c.genus - 1)).map fun cnum => (pnum, cnum)).mapM
      (fun pc => c.getBaseJunction pc.1 pc.2) =
      some (((List.range c.mult).flatMap fun pnum => (List.range (c.genus - 1)).map fun cnum => (pnum, cnum)).map fun pc =>
        Junction.regular (c.basePair pc.1 pc.2).s1 (c.basePair pc.1 pc.2).s2 (c.basePair pc.1 pc.2).dx) := by
    apply mapM_eq_some_map
    intro pc hpc
    simp only [List.mem_flatMap, List.mem_range, List.mem_map] at hpc
    obtain ⟨p, hp, m, hm, rfl⟩ := hpc
    exact h.getBaseJunction_eq hp (by omega)
  unfold genBaseJunctions
  simp only [Option.bind_eq_bind]
  rw [hall]
  have hd := dedup_foldl (((List.range c.mult).flatMap fun pnum => (List.range (c.genus - 1)).map fun cnum => (pnum, cnum)).map fun pc =>
        Junction.regular (c.basePair pc.1 pc.2).s1 (c.basePair pc.1 pc.2).s2 (c.basePair pc.1 pc.2).dx) [] List.nodup_nil
  refine ⟨_, rfl, hd.1, ?_⟩
  intro j
  rw [hd.2]
  simp only [List.not_mem_nil, false_or, List.mem_map, List.mem_flatMap, List.mem_range]
  constructor
  · rintro ⟨pc, ⟨p, hp, m, hm, rfl⟩, rfl⟩
    exact ⟨p, m, hp, by omega, rfl⟩
  · rintro ⟨p, m, hp, hm, rfl⟩
    exact ⟨(p, m), ⟨p, hp, m, by omega, rfl⟩, rfl⟩

/-! ### neighbours in subdivisions -/

theorem inner_same (h : c.Full) {s : Spec d} (hs : s.pnum < c.mult) {m : ℕ} (hm : m + 1 < c.genus) :
    ∃ m', m' + 1 < c.genus ∧ (c.basePair s.pnum m').Same
      ⟨c.curSpec s m, c.curSpec s (m + 1), fun j => c.curCube s (m + 1) j - c.curCube s m j⟩ := by
  by_cases ht : s.baseMap.timeRev = true
  · refine ⟨c.genus - 1 - (m + 1), by omega, s.baseMap, ?_⟩
    unfold FracPair.act
    simp only [ht, if_true]
    have e0 : s.baseMap.applyCnum c.genus m = c.genus - 1 - (m + 1) + 1 := by simp [BaseMap.applyCnum, ht]; omega
    have e1 : s.baseMap.applyCnum c.genus (m + 1) = c.genus - 1 - (m + 1) := by simp [BaseMap.applyCnum, ht]
    refine FracPair.ext' ?_ ?_ ?_
    · simp only [curSpec, e0]; rfl
    · simp only [curSpec, e1]; rfl
    · funext j
      simp only [curCube, e0, e1]
      have := congrFun (BaseMap.applyCube_sub s.baseMap c.div (c.cubeD s.pnum (c.genus - 1 - (m + 1) + 1)) (c.cubeD s.pnum (c.genus - 1 - (m + 1)))) j
      simp only [Pi.sub_apply] at this
      show _ = -s.baseMap.applyVec (c.cubeD s.pnum (c.genus - 1 - (m + 1) + 1) - c.cubeD s.pnum (c.genus - 1 - (m + 1))) j
      rw [← this]; ring
  · refine ⟨m, hm, s.baseMap, ?_⟩
    unfold FracPair.act
    have e0 : s.baseMap.applyCnum c.genus m = m := by simp [BaseMap.applyCnum, ht]
    have e1 : s.baseMap.applyCnum c.genus (m + 1) = m + 1 := by simp [BaseMap.applyCnum, ht]
    rw [if_neg ht]
    refine FracPair.ext' ?_ ?_ ?_
    · simp only [curSpec, e0]; rfl
    · simp only [curSpec, e1]; rfl
    · funext j
      simp only [curCube, e0, e1]
      exact congrFun (BaseMap.applyCube_sub s.baseMap c.div (c.cubeD s.pnum (m + 1)) (c.cubeD s.pnum m)) j

/-- Neighbours in a refinement. -/
theorem IsRefine.neighbours {P R : FCurve d} (h : IsRefine P c R) (a : FracPair d) (ha : R.Neighbours a) :
    (∃ b, c.Neighbours b ∧ b.Same a) ∨ ∃ b, P.Neighbours b ∧ a = c.deriveP b := by
  obtain ⟨hPf, hQf, hRf⟩ := h.full
  have hRG : R.genus = P.genus * c.genus := by unfold genus; rw [h.div, Nat.mul_pow]
  have hG := hQf.genus_pos
  obtain ⟨p, n, hp, hn, rfl⟩ := (hRf.neighbours_iff a).1 ha
  rw [h.mult.2] at hp
  obtain ⟨i, m, hm, hi, rfl⟩ : ∃ i m, m < c.genus ∧ i < P.genus ∧ n = i * c.genus + m :=
    ⟨n / c.genus, n % c.genus, Nat.mod_lt _ hG, by rw [Nat.div_lt_iff_lt_mul hG]; omega, by rw [Nat.div_add_mod']⟩
  have hsp : (P.specD p i).pnum < c.mult := by rw [← h.mult.1]; exact hPf.specD_lt (by rw [h.mult.1]; exact hp) hi
  by_cases hm1 : m + 1 < c.genus
  · left
    obtain ⟨m', hm', hsame⟩ := inner_same hQf hsp hm1
    refine ⟨c.basePair (P.specD p i).pnum m', (hQf.neighbours_iff _).2 ⟨_, _, hsp, hm', rfl⟩, ?_⟩
    have e : R.basePair p (i * c.genus + m) =
        ⟨c.curSpec (P.specD p i) m, c.curSpec (P.specD p i) (m + 1), fun j => c.curCube (P.specD p i) (m + 1) j - c.curCube (P.specD p i) m j⟩ := by
      refine FracPair.ext' (h.spec p hp i hi m hm) ?_ ?_
      · exact h.spec p hp i hi (m + 1) hm1
      · funext j
        show R.cubeD p (i * c.genus + (m + 1)) j - R.cubeD p (i * c.genus + m) j = _
        rw [h.cube p hp i hi m hm, h.cube p hp i hi (m + 1) hm1]
        ring
    rw [e]; exact hsame
  · right
    have hm2 : m = c.genus - 1 := by omega
    subst hm2
    have hi1 : i + 1 < P.genus := by
      rw [hRG] at hn
      by_contra hcon
      have : i + 1 = P.genus := by omega
      rw [← this] at hn
      have : i * c.genus + (c.genus - 1) + 1 = (i + 1) * c.genus := by rw [Nat.add_mul]; omega
      omega
    have hn1 : i * c.genus + (c.genus - 1) + 1 = (i + 1) * c.genus + 0 := by rw [Nat.add_mul]; omega
    refine ⟨P.basePair p i, (hPf.neighbours_iff _).2 ⟨p, i, by rw [h.mult.1]; exact hp, hi1, rfl⟩, ?_⟩
    refine FracPair.ext' (h.spec p hp i hi _ hm) ?_ ?_
    · show R.specD p (i * c.genus + (c.genus - 1) + 1) = _
      rw [hn1]
      exact h.spec p hp (i + 1) hi1 0 hG
    · funext j
      show R.cubeD p (i * c.genus + (c.genus - 1) + 1) j - R.cubeD p (i * c.genus + (c.genus - 1)) j = _
      rw [hn1, h.cube p hp (i + 1) hi1 0 hG, h.cube p hp i hi _ hm]
      show _ = (P.cubeD p (i + 1) j - P.cubeD p i j) * (c.div : ℤ) + c.curCube (P.specD p (i + 1)) 0 j - c.curCube (P.specD p i) (c.genus - 1) j
      ring

/-- The derived pair of neighbours is a pair of neighbours of the refinement. -/
theorem IsRefine.neighbours_derive {P R : FCurve d} (h : IsRefine P c R) (b : FracPair d) (hb : P.Neighbours b) : R.Neighbours (c.deriveP b) := by
  obtain ⟨hPf, hQf, hRf⟩ := h.full
  have hRG : R.genus = P.genus * c.genus := by unfold genus; rw [h.div, Nat.mul_pow]
  have hG := hQf.genus_pos
  obtain ⟨p, i, hp, hi1, rfl⟩ := (hPf.neighbours_iff b).1 hb
  rw [h.mult.1] at hp
  have hm : c.genus - 1 < c.genus := by omega
  have hi : i < P.genus := by omega
  have hn1 : i * c.genus + (c.genus - 1) + 1 = (i + 1) * c.genus + 0 := by rw [Nat.add_mul]; omega
  refine (hRf.neighbours_iff _).2 ⟨p, i * c.genus + (c.genus - 1), by rw [h.mult.2]; exact hp, ?_, ?_⟩
  · rw [hn1, hRG]; nlinarith
  · refine FracPair.ext' (h.spec p hp i hi _ hm).symm ?_ ?_
    · show _ = R.specD p (i * c.genus + (c.genus - 1) + 1)
      rw [hn1]
      exact (h.spec p hp (i + 1) hi1 0 hG).symm
    · funext j
      show _ = R.cubeD p (i * c.genus + (c.genus - 1) + 1) j - R.cubeD p (i * c.genus + (c.genus - 1)) j
      rw [hn1, h.cube p hp (i + 1) hi1 0 hG, h.cube p hp i hi _ hm]
      show (P.cubeD p (i + 1) j - P.cubeD p i j) * (c.div : ℤ) + c.curCube (P.specD p (i + 1)) 0 j - c.curCube (P.specD p i) (c.genus - 1) j = _
      ring

end FCurve
end Peano
