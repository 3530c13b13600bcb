import Verif.Lemmas.Junctions
import Verif.Props.Subdivision
import Verif.Lemmas.Check

/- Junctions: the generators. -/
namespace Peano
variable {d : ℕ}

namespace FCurve
variable {c : FCurve d}

theorem Full.toGates (h : c.Full) : c.GatesDefined where
  toShape := h.toShape
  cube_def := fun p hp => ⟨h.cube_def p hp _ h.genus_pos, h.cube_def p hp _ (by have := h.genus_pos; omega)⟩
  spec_def := fun p hp => ⟨h.spec_def p hp _ h.genus_pos, h.spec_def p hp _ (by have := h.genus_pos; omega)⟩

theorem Full.exists_refine (hk : c.kind = .curve) (h : c.Full) (k : ℕ) :
    ∃ s s', c.getSubdivision k = some s ∧ c.getSubdivision (k + 1) = some s' ∧ IsRefine s c s' := by
  refine ⟨_, _, subdivision_cells hk h k, subdivision_cells hk h (k + 1), ?_⟩
  have := h.good.isRefine (pn := c.pnum) (pn' := c.pnum) (k := c.kind) (k' := .curve) (h.good.refineIter k) (by simp)
  rw [← h.eq_ofCells, ← pow_succ] at this
  exact this

theorem Full.adjacent_one (hk : c.kind = .curve) (h : c.Full) (a : FracPair d) : c.AdjacentAt 1 a ↔ c.Neighbours a := by
  have e : c.getSubdivision (1 - 1) = some c := by
    rw [Nat.sub_self, subdivision_cells hk h 0, zero_add, pow_one]
    conv_rhs => rw [h.eq_ofCells, hk]
    rfl
  constructor
  · rintro ⟨_, c', h1, h2⟩
    rw [e] at h1
    cases h1
    exact h2
  · intro h2
    exact ⟨le_rfl, c, e, h2⟩

theorem Full.adjacent_succ (hk : c.kind = .curve) (h : c.Full) {k : ℕ} {a : FracPair d} (ha : c.AdjacentAt (k + 2) a) :
    (∃ b, c.AdjacentAt 1 b ∧ b.Same a) ∨ ∃ b, c.AdjacentAt (k + 1) b ∧ a = c.deriveP b := by
  obtain ⟨_, c', h1, h2⟩ := ha
  obtain ⟨s, s', e1, e2, hr⟩ := h.exists_refine hk k
  have : k + 2 - 1 = k + 1 := by omega
  rw [this, e2] at h1
  cases h1
  rcases hr.neighbours a h2 with ⟨b, hb, hs⟩ | ⟨b, hb, hs⟩
  · exact Or.inl ⟨b, (h.adjacent_one hk b).2 hb, hs⟩
  · exact Or.inr ⟨b, ⟨by omega, s, by simpa using e1, hb⟩, hs⟩

theorem Full.adjacent_derive (hk : c.kind = .curve) (h : c.Full) {k : ℕ} {a : FracPair d} (ha : c.AdjacentAt k a) :
    c.AdjacentAt (k + 1) (c.deriveP a) := by
  obtain ⟨h0, c', h1, h2⟩ := ha
  obtain ⟨k, rfl⟩ : ∃ m, k = m + 1 := ⟨k - 1, by omega⟩
  obtain ⟨s, s', e1, e2, hr⟩ := h.exists_refine hk k
  rw [Nat.add_sub_cancel, e1] at h1
  cases h1
  exact ⟨by omega, s', by simpa using e2, hr.neighbours_derive a h2⟩

theorem Full.adjacent_pnum (hk : c.kind = .curve) (h : c.Full) {k : ℕ} {a : FracPair d} (ha : c.AdjacentAt k a) :
    a.s1.pnum < c.mult ∧ a.s2.pnum < c.mult := by
  obtain ⟨h0, c', h1, p, m, x1, x2, h2, h3, _⟩ := ha
  obtain ⟨c'', e1, _, e2, _, _, e3, _⟩ := C16_subdivision c hk h (k - 1)
  rw [e1] at h1
  cases h1
  exact ⟨e2 ▸ e3.spec_range _ _ _ h2, e2 ▸ e3.spec_range _ _ _ h3⟩

/-- The base pairs of a checked curve touch. -/
theorem Full.touch_base (h : c.Full) (hc : c.check = some true) {g : Bool → ℕ → Fin d → ℝ} (hg : c.EndEqs g) {p m : ℕ}
    (hp : p < c.mult) (hm : m + 1 < c.genus) : Touch g (c.basePair p m) := by
  obtain ⟨b, hb1, hb2⟩ := h.check_spec hg
  rw [hc] at hb1
  cases hb1
  have := hb2.1 rfl p hp m hm
  intro j
  have e := this j
  show endPt g true (c.specD p m) j = ((c.cubeD p (m + 1) j - c.cubeD p m j : ℤ) : ℝ) + endPt g false (c.specD p (m + 1)) j
  push_cast
  linarith

theorem Full.touch_adjacent (hk : c.kind = .curve) (h : c.Full) (hc : c.check = some true) {g : Bool → ℕ → Fin d → ℝ} (hg : c.EndEqs g) {k : ℕ}
    {a : FracPair d} (ha : c.AdjacentAt k a) : Touch g a := by
  have h1 : ∀ b, c.AdjacentAt 1 b → Touch g b := by
    intro b hb
    obtain ⟨p, m, hp, hm, rfl⟩ := (h.neighbours_iff b).1 ((h.adjacent_one hk b).1 hb)
    exact h.touch_base hc hg hp hm
  induction k generalizing a with
  | zero => exact absurd ha.1 (by omega)
  | succ k ih =>
    cases k with
    | zero => exact h1 a ha
    | succ k =>
      rcases h.adjacent_succ hk ha with ⟨b, hb, hs⟩ | ⟨b, hb, rfl⟩
      · exact (h1 b hb).same hs
      · have := h.adjacent_pnum hk hb
        exact (ih hb).derive h.toGates hg this.1 this.2

/-- Invariant of the generated junctions. -/
structure GenJ (c : FCurve d) (x : Junction d × Option ℕ) : Prop where
  standard : x.1.Standard
  depth : ∃ k a, x.2 = some k ∧ c.AdjacentAt k a ∧ a.Same x.1.pair

/-- End points for the bound on shifts. -/
theorem Full.exists_endEqs_mem (h : c.Full) : ∃ g : Bool → ℕ → Fin d → ℝ, c.EndEqs g ∧
    ∀ last, ∀ p < c.mult, ∀ j, 0 ≤ g last p j ∧ g last p j ≤ 1 := by
  obtain ⟨f, h1, _, h3⟩ := h.halfOpen_endEqs
  refine ⟨_, h3, fun last p hp j => ?_⟩
  have := h1 p hp (if last then 1 else 0) (by split <;> norm_num) (by split <;> norm_num)
  exact this j

theorem GenJ.mem_all (hk : c.kind = .curve) (h : c.Full) (hc : c.check = some true) {x : Junction d × Option ℕ} (hx : c.GenJ x) :
    x.1 ∈ allJunctions d c.mult := by
  obtain ⟨g, hg1, hg2⟩ := h.exists_endEqs_mem
  obtain ⟨k, a, _, ha, hs⟩ := hx.depth
  have hp := h.adjacent_pnum hk ha
  have hp' := Same_pnum hs hp.1 hp.2
  have ht := (h.touch_adjacent hk hc hg1 ha).same hs
  exact mem_allJunctions hp'.1 hp'.2 (fun i => ht.bound hg2 hp'.1 hp'.2 i) hx.standard.2.2.1

theorem GenJ.derive (hk : c.kind = .curve) (h : c.Full) {j : Junction d} {dep : Option ℕ} (hx : c.GenJ (j, dep)) :
    ∃ dj, c.getDerivedJunction j = some dj ∧ (c.deriveP j.pair).Same dj.pair ∧ c.GenJ (dj, dep.map (· + 1)) := by
  obtain ⟨k, a, hk', ha, hs⟩ := hx.depth
  have hp := h.adjacent_pnum hk ha
  have hp' := Same_pnum hs hp.1 hp.2
  have hreg := Junction.regular_same (c.deriveP j.pair).s1 (c.deriveP j.pair).s2 (c.deriveP j.pair).dx
  refine ⟨_, h.toGates.getDerivedJunction_eq hp'.1 hp'.2, hreg, Junction.regular_standard _ _ _, k + 1, c.deriveP a, ?_, h.adjacent_derive hk ha, ?_⟩
  · have : dep = some k := hk'
    rw [this]; rfl
  · exact (deriveP_same h.toShape hs).trans hreg

/-- Main lemma about `gen_regular_junctions`. -/
theorem Full.genRegularJunctions_spec (hk : c.kind = .curve) (h : c.Full) (hc : c.check = some true) :
    ∃ l, c.genRegularJunctions = some l ∧ (l.map Prod.fst).Nodup ∧ (∀ x ∈ l, c.GenJ x) ∧
      (∀ p m, p < c.mult → m + 1 < c.genus → (Junction.regular (c.basePair p m).s1 (c.basePair p m).s2 (c.basePair p m).dx, some 1) ∈ l) ∧
      ∀ k a, c.AdjacentAt k a → ∃ x ∈ l, a.Same x.1.pair := by
  obtain ⟨base, hb1, hb2, hb3⟩ := h.genBaseJunctions_eq
  have hbase : ∀ x ∈ base.map fun (j : Junction d) => (j, some 1), c.GenJ x := by
    intro x hx
    obtain ⟨j, hj, rfl⟩ := List.mem_map.1 hx
    obtain ⟨p, m, hp, hm, rfl⟩ := (hb3 j).1 hj
    exact ⟨Junction.regular_standard _ _ _, 1, c.basePair p m, rfl,
      (h.adjacent_one hk _).2 ((h.neighbours_iff _).2 ⟨p, m, hp, hm, rfl⟩), Junction.regular_same _ _ _⟩
  obtain ⟨res, h1, h2, h3, ⟨ext, h4⟩, h5, h6⟩ := junctionsLoop_spec (c := c) (P := c.GenJ) (U := allJunctions d c.mult)
    (fun j dep hj => by obtain ⟨dj, a, _, b⟩ := hj.derive hk h; exact ⟨dj, a, b⟩) (fun x hx => hx.mem_all hk h hc) c.junctionFuel
    (base.map fun (j : Junction d) => (j, some 1)) (base.map fun (j : Junction d) => (j, some 1)).reverse hbase (by simp)
    (by rw [List.map_map]; simpa [Function.comp_def] using hb2) (by
      intro x hx hx'
      exact absurd (List.mem_reverse.2 hx) hx') (by
      rw [length_allJunctions]
      unfold junctionFuel
      simp
      omega)
  refine ⟨res, ?_, h3, h2, ?_, ?_⟩
  · unfold genRegularJunctions
    rw [hb1]
    exact h1
  · intro p m hp hm
    rw [h4]
    refine List.mem_append_left _ (List.mem_map.2 ⟨_, (hb3 _).2 ⟨p, m, hp, hm, rfl⟩, rfl⟩)
  · have hone : ∀ b, c.AdjacentAt 1 b → ∃ x ∈ res, b.Same x.1.pair := by
      intro b hb
      obtain ⟨p, m, hp, hm, rfl⟩ := (h.neighbours_iff b).1 ((h.adjacent_one hk b).1 hb)
      refine ⟨(_, some 1), ?_, Junction.regular_same _ _ _⟩
      rw [h4]
      exact List.mem_append_left _ (List.mem_map.2 ⟨_, (hb3 _).2 ⟨p, m, hp, hm, rfl⟩, rfl⟩)
    intro k
    induction k with
    | zero => intro a ha; exact absurd ha.1 (by omega)
    | succ k ih =>
      intro a ha
      cases k with
      | zero => exact hone a ha
      | succ k =>
        rcases h.adjacent_succ hk ha with ⟨b, hb, hs⟩ | ⟨b, hb, rfl⟩
        · obtain ⟨x, hx, hx'⟩ := hone b hb
          exact ⟨x, hx, hs.symm.trans hx'⟩
        · obtain ⟨x, hx, hx'⟩ := ih b hb
          obtain ⟨dj, hd1, hd2⟩ := h5 x hx
          obtain ⟨dj', hd1', hs, _⟩ := (show c.GenJ (x.1, x.2) from h2 x hx).derive hk h
          rw [hd1'] at hd1
          cases hd1
          obtain ⟨y, hy, hy'⟩ := List.mem_map.1 hd2
          refine ⟨y, hy, ?_⟩
          rw [hy']
          exact (deriveP_same h.toShape hx').trans hs

theorem loop_new {fuel : ℕ} {seen todo : List (Junction d × Option ℕ)} {j dj : Junction d} {dep : Option ℕ} (h1 : c.getDerivedJunction j = some dj)
    (h2 : dj ∉ seen.map Prod.fst) :
    c.junctionsLoop (fuel + 1) seen ((j, dep) :: todo) = c.junctionsLoop fuel (seen ++ [(dj, dep.map (· + 1))]) ((dj, dep.map (· + 1)) :: todo) := by
  rw [junctionsLoop]
  simp only [h1, Option.bind_eq_bind, Option.bind_some, h2, if_false]

theorem loop_old {fuel : ℕ} {seen todo : List (Junction d × Option ℕ)} {j dj : Junction d} {dep : Option ℕ} (h1 : c.getDerivedJunction j = some dj)
    (h2 : dj ∈ seen.map Prod.fst) :
    c.junctionsLoop (fuel + 1) seen ((j, dep) :: todo) = c.junctionsLoop fuel seen todo := by
  rw [junctionsLoop]
  simp only [h1, Option.bind_eq_bind, Option.bind_some, h2, if_true]

theorem loop_nil {fuel : ℕ} {seen : List (Junction d × Option ℕ)} : c.junctionsLoop fuel seen [] = some seen := by
  rw [junctionsLoop]

theorem gen_of_base {base : List (Junction d)} {n : ℕ} {r : Option (List (Junction d × Option ℕ))} (hb : c.genBaseJunctions = some base)
    (hf : c.junctionFuel = n) (h : c.junctionsLoop n (base.map fun j => (j, some 1)) (base.map fun j => (j, some 1)).reverse = r) :
    c.genRegularJunctions = r := by
  unfold genRegularJunctions genJunctionsFromBase
  rw [hb, hf]
  exact h

/-- A prototype that visits all cubes visits each once. -/
theorem Full.cubeD_inj (h : c.Full) (hfill : c.FillsGrid) {p i k : ℕ} (hp : p < c.mult) (hi : i < c.genus) (hk : k < c.genus)
    (heq : c.cubeD p i = c.cubeD p k) : i = k := by
  have hr : ∀ i < c.genus, ∀ j, 0 ≤ c.cubeD p i j ∧ c.cubeD p i j < (c.div : ℤ) := fun i hi => h.cube_range p i _ (h.cube_eq hp hi)
  let F : Fin c.genus → (Fin d → Fin c.div) := fun i j => ⟨(c.cubeD p i j).toNat, by have := hr i i.2 j; omega⟩
  have hF : Function.Surjective F := by
    intro y
    obtain ⟨i, hi, he⟩ := hfill p hp (fun j => ((y j : ℕ) : ℤ)) (fun j => ⟨by positivity, by exact_mod_cast (y j).2⟩)
    refine ⟨⟨i, hi⟩, ?_⟩
    funext j
    rw [h.cube_eq hp hi] at he
    have := congrFun (Option.some.inj he) j
    apply Fin.ext
    show (c.cubeD p i j).toNat = y j
    rw [this]; simp
  have hinj : Function.Injective F := ((Fintype.bijective_iff_surjective_and_card F).2 ⟨hF, by rw [Fintype.card_fin]; simp [genus]⟩).1
  have : (⟨i, hi⟩ : Fin c.genus) = ⟨k, hk⟩ := by
    apply hinj
    funext j
    apply Fin.ext
    show (c.cubeD p i j).toNat = (c.cubeD p k j).toNat
    rw [heq]
  exact Fin.mk.inj_iff.1 this

/-- Standard junctions that are the same pair are equal, with one exception. -/
theorem Standard_unique {j j' : Junction d} (h : j.Standard) (h' : j'.Standard) (hs : j.pair.Same j'.pair)
    (hne : j.spec1.pnum ≠ j.spec2.pnum ∨ j.spec1.baseMap.timeRev = j.spec2.baseMap.timeRev) : j = j' := by
  obtain ⟨b, hb⟩ := hs
  have e1 := congrArg FracPair.s1 hb
  have e2 := congrArg FracPair.s2 hb
  have e3 := congrArg FracPair.dx hb
  unfold FracPair.act at e1 e2 e3
  obtain ⟨p1, p2, p3, p4⟩ := h
  obtain ⟨q1, q2, q3, q4⟩ := h'
  by_cases ht : b.timeRev = true
  · exfalso
    simp only [ht, if_true] at e1 e2
    have e1' : j'.spec1 = Spec.rmulBaseMap b j.spec2 := e1
    have e2' : j'.spec2 = Spec.rmulBaseMap b j.spec1 := e2
    rw [e1', e2'] at q2 q4
    simp only [Spec.rmulBaseMap, BaseMap.mul_timeRev, ht, Bool.true_xor, Bool.not_eq_true'] at q2 q4
    have hp : j.spec1.pnum = j.spec2.pnum := le_antisymm p2 q2
    rcases hne with hne | hne
    · exact hne hp
    · by_cases ht1 : j.spec1.baseMap.timeRev = true
      · exact p4 ⟨hp, ht1, hne ▸ ht1⟩
      · have : j.spec1.baseMap.timeRev = false := by simpa using ht1
        exact q4 ⟨hp.symm, hne ▸ this, this⟩
  · have htf : b.timeRev = false := by simpa using ht
    rw [if_neg ht] at e1 e2 e3
    have e1' : j'.spec1 = Spec.rmulBaseMap b j.spec1 := e1
    have hb1 : b.cubeMap = 1 := by
      rw [e1'] at q1
      have : (b * j.spec1.baseMap).cubeMap = 1 := q1
      rw [BaseMap.cubeMap_mul, p1, mul_one] at this
      exact this
    have hb2 : b = 1 := by
      rw [← hb1]
      cases b
      simp only at htf
      subst htf
      rfl
    subst hb2
    have f1 : j'.spec1 = j.spec1 := by rw [e1']; simp [Spec.rmulBaseMap]
    have f2 : j'.spec2 = j.spec2 := by
      have : j'.spec2 = Spec.rmulBaseMap 1 j.spec2 := e2
      rw [this]; simp [Spec.rmulBaseMap]
    have f3 : j'.deltaX = j.deltaX := by
      have : j'.deltaX = BaseMap.applyVec 1 j.deltaX := e3
      rw [this]; simp
    cases j; cases j'
    simp only at *
    subst f1 f2 f3 p3 q3
    rfl

end FCurve
end Peano
