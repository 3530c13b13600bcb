import Verif.Lemmas.JunctionsB
import Verif.Lemmas.Valid
import Verif.Model.Zoo

set_option autoImplicit false

/-
Properties C21, C22, C23: regular junctions of fully specified curves.
-/
namespace Peano
variable {d : ℕ}

namespace FCurve

/-- C21. For a checked curve the generator terminates.  It yields no junction twice, every generated junction is a pair of fractions
adjacent in time in some subdivision (up to isometry and time reversal), and every pair of adjacent fractions of every subdivision
is, up to isometry and time reversal, a generated junction. -/
theorem C21_junctions_exact (c : FCurve d) (hk : c.kind = .curve) (h : c.Full) (hc : c.check = some true) :
    ∃ l, c.genRegularJunctions = some l ∧ (l.map Prod.fst).Nodup ∧
      (∀ x ∈ l, ∃ k a, c.AdjacentAt k a ∧ a.Same x.1.pair) ∧ (∀ k a, c.AdjacentAt k a → ∃ x ∈ l, a.Same x.1.pair) := by
  obtain ⟨l, h1, h2, h3, _, h5⟩ := h.genRegularJunctions_spec hk hc
  refine ⟨l, h1, h2, fun x hx => ?_, h5⟩
  obtain ⟨k, a, _, ha, hs⟩ := (h3 x hx).depth
  exact ⟨k, a, ha, hs⟩

/-- C21. The auto junctions (a fraction with itself) are, each once, one per pattern: both specs are the identity with that pattern
number, without shift in space or time. -/
theorem C21_auto_junctions (c : FCurve d) :
    c.genAutoJunctions.Nodup ∧ ∀ j, j ∈ c.genAutoJunctions ↔
      ∃ p < c.mult, j.spec1 = ⟨BaseMap.idMap d, p⟩ ∧ j.spec2 = ⟨BaseMap.idMap d, p⟩ ∧ j.deltaX = (fun _ => 0) ∧ j.deltaT = 0 := by
  unfold genAutoJunctions
  constructor
  · refine List.nodup_range.map fun a b h => ?_
    exact congrArg (fun j : Junction d => j.spec1.pnum) h
  · intro j
    simp only [List.mem_map, List.mem_range]
    constructor
    · rintro ⟨p, hp, rfl⟩
      exact ⟨p, hp, rfl, rfl, rfl, rfl⟩
    · rintro ⟨p, hp, h1, h2, h3, h4⟩
      refine ⟨p, hp, ?_⟩
      cases j
      simp only at h1 h2 h3 h4
      subst h1 h2 h3 h4
      rfl

/-- C21. Generated junctions are standardized: the pattern numbers are ordered, the first cube map is trivial, `delta_t = 1`, and two
generated junctions describing the same pair up to isometry and time reversal coincide, unless both fractions use the same pattern
and exactly one of them is reversed in time. -/
theorem C21_standardized (c : FCurve d) (hk : c.kind = .curve) (h : c.Full) (hc : c.check = some true) (l : List (Junction d × Option ℕ))
    (hl : c.genRegularJunctions = some l) :
    (∀ x ∈ l, x.1.spec1.pnum ≤ x.1.spec2.pnum ∧ x.1.spec1.baseMap.cubeMap = BaseMap.idMap d ∧ x.1.deltaT = 1) ∧
      ∀ x ∈ l, ∀ y ∈ l, x.1.pair.Same y.1.pair →
        x.1.spec1.pnum ≠ x.1.spec2.pnum ∨ x.1.spec1.baseMap.timeRev = x.1.spec2.baseMap.timeRev → x.1 = y.1 := by
  obtain ⟨l', h1, h2, h3, _⟩ := h.genRegularJunctions_spec hk hc
  rw [hl] at h1
  cases h1
  refine ⟨fun x hx => ?_, fun x hx y hy hs hne => ?_⟩
  · have := (h3 x hx).standard
    exact ⟨this.2.1, this.1, this.2.2.1⟩
  · exact Standard_unique (h3 x hx).standard (h3 y hy).standard hs hne

/-- C22. The fractions of a generated junction touch: in the unit cube and the cube shifted by `delta_x`, the first fraction ends where
the second begins.  The shift is a non-zero vector with entries in `{-1, 0, 1}`. -/
theorem C22_junctions_touch (c : FCurve d) (hk : c.kind = .curve) (h : c.Full) (hfill : c.FillsGrid) (f : ℕ → ℝ → Fin d → ℝ) (hf : c.Realizes f)
    (l : List (Junction d × Option ℕ)) (hl : c.genRegularJunctions = some l) :
    ∀ x ∈ l, (∀ j, actFn x.1.spec1 f 1 j = x.1.deltaX j + actFn x.1.spec2 f 0 j) ∧ (∀ j, x.1.deltaX j ∈ [-1, 0, 1]) ∧
      (∃ j, x.1.deltaX j ≠ 0) := by
  have hc := h.check_of_realizes hf
  obtain ⟨l', h1, h2, h3, _⟩ := h.genRegularJunctions_spec hk hc
  rw [hl] at h1
  cases h1
  intro x hx
  obtain ⟨k, a, _, ha, hs⟩ := (h3 x hx).depth
  have hp := h.adjacent_pnum hk ha
  have hp' := Same_pnum hs hp.1 hp.2
  have hg := hf.endEqs h.toShape
  have ht := (h.touch_adjacent hk hc hg ha).same hs
  refine ⟨fun j => ?_, fun j => ?_, ?_⟩
  · have := ht j
    have a1 : actFn x.1.spec1 f 1 = endPt (fun last p => f p (if last then 1 else 0)) true x.1.spec1 := by
      unfold endPt actFn BaseMap.applyT
      by_cases hr : x.1.spec1.baseMap.timeRev = true <;> simp [hr]
    have a2 : actFn x.1.spec2 f 0 = endPt (fun last p => f p (if last then 1 else 0)) false x.1.spec2 := by
      unfold endPt actFn BaseMap.applyT
      by_cases hr : x.1.spec2.baseMap.timeRev = true <;> simp [hr]
    rw [a1, a2]
    exact this
  · have := ht.bound (m := c.mult) (fun last p hp j => hf.mem_cube p hp (if last then 1 else 0) (by split <;> norm_num) (by split <;> norm_num) j)
      hp'.1 hp'.2 j
    have hd : -1 ≤ x.1.deltaX j ∧ x.1.deltaX j ≤ 1 := this
    simp only [List.mem_cons, List.not_mem_nil, or_false]
    omega
  · have hane : ∃ j, a.dx j ≠ 0 := by
      obtain ⟨_, c', e1, e2⟩ := ha
      obtain ⟨s, e1', _, _, _, _, e3, e4⟩ := C16_subdivision c hk h (k - 1)
      rw [e1'] at e1
      cases e1
      obtain ⟨p, m, hpp, hm, rfl⟩ := (e3.neighbours_iff a).1 e2
      by_contra hcon
      push Not at hcon
      have heq : c'.cubeD p (m + 1) = c'.cubeD p m := by
        funext j
        have : c'.cubeD p (m + 1) j - c'.cubeD p m j = 0 := hcon j
        omega
      exact absurd (e3.cubeD_inj (e4 hfill) hpp hm (by omega) heq) (by omega)
    obtain ⟨b, hb⟩ := hs
    obtain ⟨j0, hj0⟩ := hane
    obtain ⟨i, hi⟩ : ∃ i, (b.coords i).1 = j0 := (Finite.injective_iff_surjective.1 b.inj) j0
    refine ⟨i, ?_⟩
    have e : x.1.deltaX = (a.act b).dx := congrArg FracPair.dx hb
    rw [e]
    unfold FracPair.act BaseMap.applyVec
    split <;> simp only [hi] <;> split <;> simpa using hj0

/-! ### depth -/

/-- C23, what holds in general: every reported depth `k` is a depth at which the junction really occurs (so it is never less than the
least such depth), `get_depth` returns the greatest reported depth `D`, and every pair of adjacent fractions of every subdivision
occurs already, up to isometry and time reversal, in a subdivision of depth at most `D`.  Missing: that the reported depth is the
least one; this is false, see `C23_depth_false`. -/
theorem C23_depth_partial (c : FCurve d) (hk : c.kind = .curve) (h : c.Full) (hc : c.check = some true) (hd : d ≠ 0) (hm : 0 < c.mult)
    (l : List (Junction d × Option ℕ)) (hl : c.genRegularJunctions = some l) :
    (∀ x ∈ l, ∃ k a, x.2 = some k ∧ c.AdjacentAt k a ∧ a.Same x.1.pair) ∧
      ∃ D, c.getDepth = some D ∧ (∃ x ∈ l, x.2 = some D) ∧ (∀ x ∈ l, ∃ k ≤ D, x.2 = some k) ∧
        ∀ k a, c.AdjacentAt k a → ∃ k' ≤ D, ∃ a', c.AdjacentAt k' a' ∧ a.Same a' := by
  obtain ⟨l', h1, h2, h3, h4, h5⟩ := h.genRegularJunctions_spec hk hc
  rw [hl] at h1
  cases h1
  have hdep : ∀ x ∈ l, x.2 = some (x.2.getD 0) := by
    intro x hx
    obtain ⟨k, _, hk, _⟩ := (h3 x hx).depth
    rw [hk]; rfl
  have hmap : l.mapM (fun (j : Junction d × Option ℕ) => j.2) = some (l.map fun (j : Junction d × Option ℕ) => j.2.getD 0) :=
    mapM_eq_some_map hdep
  have hne : l.map (fun (j : Junction d × Option ℕ) => j.2.getD 0) ≠ [] := by
    intro hcon
    have hg : 0 + 1 < c.genus := by
      have := h.two_le_div
      unfold genus
      exact Nat.one_lt_pow hd this
    have := h4 0 0 hm hg
    rw [List.map_eq_nil_iff.1 hcon] at this
    simp at this
  obtain ⟨D, hD⟩ := Option.isSome_iff_exists.1 (List.isSome_max?_of_ne_nil hne)
  have hD' := (List.max?_eq_some_iff.1 hD)
  have hle : ∀ x ∈ l, ∃ k ≤ D, x.2 = some k := by
    intro x hx
    exact ⟨x.2.getD 0, hD'.2 _ (List.mem_map.2 ⟨x, hx, rfl⟩), hdep x hx⟩
  refine ⟨fun x hx => (h3 x hx).depth, D, ?_, ?_, hle, ?_⟩
  · unfold getDepth
    rw [hl]
    simp only [Option.bind_eq_bind, Option.bind_some]
    rw [hmap]
    exact hD
  · obtain ⟨x, hx, he⟩ := List.mem_map.1 hD'.1
    exact ⟨x, hx, by rw [hdep x hx, he]⟩
  · intro k a ha
    obtain ⟨x, hx, hs⟩ := h5 k a ha
    obtain ⟨k', a', hk', ha', hs'⟩ := (h3 x hx).depth
    obtain ⟨k'', hle', he⟩ := hle x hx
    rw [hk'] at he
    cases he
    exact ⟨k', hle', a', ha', hs.trans hs'.symm⟩

/-- A checked plane curve (a Hilbert-type curve) for which the depths are wrong. -/
def depthExample : FCurve 2 := Zoo.mk 2 [("jiJ", "ji,Ij~,ij,jI~")]

private def bm (k0 k1 : Fin 2) (b0 b1 t : Bool) (h : k0 ≠ k1) : BaseMap 2 :=
  ⟨![(k0, b0), (k1, b1)], t, by
    intro i j hij
    fin_cases i <;> fin_cases j <;> simp_all [eq_comm]⟩

private def exJ (b1 b2 : BaseMap 2) (x y : ℤ) : Junction 2 := ⟨⟨b1, 0⟩, ⟨b2, 0⟩, ![x, y], 1⟩

@[irreducible] private def e1 : Junction 2 := exJ (bm 0 1 false false false (by decide)) (bm 1 0 false true true (by decide)) 1 0
@[irreducible] private def e2 : Junction 2 := exJ (bm 0 1 false false true (by decide)) (bm 0 1 true false false (by decide)) (-1) 0
@[irreducible] private def e3 : Junction 2 := exJ (bm 0 1 false false false (by decide)) (bm 1 0 true false true (by decide)) 0 (-1)
@[irreducible] private def e4 : Junction 2 := exJ (bm 0 1 false false true (by decide)) (bm 1 0 true false false (by decide)) (-1) 0
@[irreducible] private def e5 : Junction 2 := exJ (bm 0 1 false false true (by decide)) (bm 1 0 false true false (by decide)) 0 (-1)
@[irreducible] private def e6 : Junction 2 := exJ (bm 0 1 false false true (by decide)) (bm 0 1 false true false (by decide)) 0 (-1)

theorem depthExample_valid : depthExample.Full ∧ depthExample.FillsGrid ∧ depthExample.check = some true ∧ depthExample.kind = .curve :=
  ⟨full_of_fullB (by decide +kernel), fills_of_fillsB (full_of_fullB (by decide +kernel)) (by decide +kernel), by decide +kernel, by decide +kernel⟩

private theorem ex_base : depthExample.genBaseJunctions = some [e1, e2, e3] := by decide +kernel
private theorem ex1 : depthExample.getDerivedJunction e1 = some e5 := by decide +kernel
private theorem ex2 : depthExample.getDerivedJunction e2 = some e6 := by decide +kernel
private theorem ex3 : depthExample.getDerivedJunction e3 = some e4 := by decide +kernel
private theorem ex4 : depthExample.getDerivedJunction e4 = some e5 := by decide +kernel
private theorem ex5 : depthExample.getDerivedJunction e5 = some e4 := by decide +kernel
private theorem ex6 : depthExample.getDerivedJunction e6 = some e2 := by decide +kernel

private theorem ex_all : depthExample.genRegularJunctions =
    some [(e1, some 1), (e2, some 1), (e3, some 1), (e4, some 2), (e5, some 3), (e6, some 2)] := by
  have h10 : 10 ≤ depthExample.junctionFuel := by
    have hm : depthExample.mult = 1 := by decide +kernel
    unfold junctionFuel
    rw [hm]
    decide +kernel
  obtain ⟨n, hf⟩ := Nat.exists_eq_add_of_le' h10
  have n4 : e4 ∉ [e1, e2, e3] := by decide +kernel
  have n5 : e5 ∉ [e1, e2, e3, e4] := by decide +kernel
  have m4 : e4 ∈ [e1, e2, e3, e4, e5] := by simp
  have n6 : e6 ∉ [e1, e2, e3, e4, e5] := by decide +kernel
  refine gen_of_base ex_base hf ?_
  simp only [List.map_cons, List.map_nil, List.reverse_cons, List.reverse_nil, List.nil_append, List.cons_append]
  rw [loop_new ex3, loop_new ex4, loop_old ex5, loop_new ex2, loop_old ex6, loop_old ex1, loop_nil]
  · rfl
  all_goals simp only [List.map_cons, List.map_nil, List.cons_append, List.nil_append]
  · simp
  · simp
  · exact n6
  · exact m4
  · exact n5
  · exact n4

/-- C23 is false: for this checked curve `get_depth` returns 3, and the junction `e5` is reported with depth 3, although it occurs in the
subdivision of depth 2, and every pair of adjacent fractions of every subdivision occurs in a subdivision of depth at most 2.
(`to_derive.pop()` takes the last element, so the exploration is not in width.) -/
theorem C23_depth_false : ∃ c : FCurve 2, c.kind = .curve ∧ c.Full ∧ c.FillsGrid ∧ c.check = some true ∧ c.getDepth = some 3 ∧
    (∃ l j, c.genRegularJunctions = some l ∧ (j, some 3) ∈ l ∧ ∃ a, c.AdjacentAt 2 a ∧ a.Same j.pair) ∧
    ∀ k a, c.AdjacentAt k a → ∃ k' ≤ 2, ∃ a', c.AdjacentAt k' a' ∧ a.Same a' := by
  obtain ⟨hfull, hfill, hc, hk⟩ := depthExample_valid
  obtain ⟨base, hb1, _, hb3⟩ := hfull.genBaseJunctions_eq
  rw [ex_base] at hb1
  cases hb1
  have base1 : ∀ j ∈ [e1, e2, e3], ∃ a, depthExample.AdjacentAt 1 a ∧ a.Same j.pair := by
    intro j hj
    obtain ⟨p, m, hp, hm, rfl⟩ := (hb3 j).1 hj
    exact ⟨_, (hfull.adjacent_one hk _).2 ((hfull.neighbours_iff _).2 ⟨p, m, hp, hm, rfl⟩), Junction.regular_same _ _ _⟩
  have der2 : ∀ j ∈ [e1, e2, e3], ∀ j', depthExample.getDerivedJunction j = some j' → ∃ a, depthExample.AdjacentAt 2 a ∧ a.Same j'.pair := by
    intro j hj j' hj'
    obtain ⟨a, ha, hs⟩ := base1 j hj
    have hp := hfull.adjacent_pnum hk ha
    have hp' := Same_pnum hs hp.1 hp.2
    rw [hfull.toGates.getDerivedJunction_eq hp'.1 hp'.2] at hj'
    cases hj'
    exact ⟨_, hfull.adjacent_derive hk ha, (deriveP_same hfull.toShape hs).trans (Junction.regular_same _ _ _)⟩
  refine ⟨depthExample, hk, hfull, hfill, hc, ?_, ⟨_, e5, ex_all, by simp, der2 e1 (by simp) e5 ex1⟩, ?_⟩
  · unfold getDepth
    rw [ex_all]
    rfl
  · intro k a ha
    obtain ⟨l, h1, _, _, _, h5⟩ := hfull.genRegularJunctions_spec hk hc
    rw [ex_all] at h1
    cases h1
    obtain ⟨x, hx, hs⟩ := h5 k a ha
    have hocc : ∃ k' ≤ 2, ∃ a', depthExample.AdjacentAt k' a' ∧ a'.Same x.1.pair := by
      simp only [List.mem_cons, List.not_mem_nil, or_false] at hx
      rcases hx with rfl | rfl | rfl | rfl | rfl | rfl
      · exact ⟨1, by omega, base1 _ (by simp)⟩
      · exact ⟨1, by omega, base1 _ (by simp)⟩
      · exact ⟨1, by omega, base1 _ (by simp)⟩
      · exact ⟨2, le_rfl, der2 e3 (by simp) _ ex3⟩
      · exact ⟨2, le_rfl, der2 e1 (by simp) _ ex1⟩
      · exact ⟨2, le_rfl, der2 e2 (by simp) _ ex2⟩
    obtain ⟨k', hk', a', ha', hs'⟩ := hocc
    exact ⟨k', hk', a', ha', hs.trans hs'.symm⟩

/-- The hypotheses of C21, C22, C23 hold for the Hilbert curve. -/
example : Zoo.hilbert.kind = .curve ∧ Zoo.hilbert.Full ∧ Zoo.hilbert.FillsGrid ∧ Zoo.hilbert.check = some true ∧ 0 < Zoo.hilbert.mult :=
  ⟨by decide +kernel, full_of_fullB (by decide +kernel), fills_of_fillsB (full_of_fullB (by decide +kernel)) (by decide +kernel),
    by decide +kernel, by decide +kernel⟩

end FCurve
end Peano
