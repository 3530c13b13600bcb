import Verif.Props.Junctions
import Verif.Lemmas.Fuzzy

set_option autoImplicit false

/-
Junctions of bounded depth.
-/
namespace Peano
variable {d : ℕ}
namespace FCurve
variable {c : FCurve d}

/-- Junctions of depth at most `k + 1`. -/
def juncsUpTo (c : FCurve d) : ℕ → Option (List (Junction d))
  | 0 => c.genBaseJunctions
  | k + 1 => do
    let u ← juncsUpTo c k
    let v ← u.mapM c.getDerivedJunction
    return u ++ v

theorem juncsUpTo_base {k : ℕ} {u base : List (Junction d)} (hb : c.genBaseJunctions = some base) (hu : c.juncsUpTo k = some u) : base ⊆ u := by
  induction k generalizing u with
  | zero => rw [juncsUpTo, hb] at hu; cases hu; exact List.Subset.refl _
  | succ k ih =>
    obtain ⟨w, hw, h⟩ := Option.bind_eq_some_iff.1 hu
    obtain ⟨v, hv, h⟩ := Option.bind_eq_some_iff.1 h
    cases h
    exact fun x hx => List.mem_append_left _ (ih hw hx)

theorem Full.juncsUpTo_adjacent (h : c.Full) (hk : c.kind = .curve) {K : ℕ} : ∀ {u : List (Junction d)}, c.juncsUpTo K = some u →
    ∀ k a, k ≤ K → c.AdjacentAt (k + 1) a → ∃ j ∈ u, a.Same j.pair := by
  obtain ⟨base, hb, -, hb3⟩ := h.genBaseJunctions_eq
  have hone : ∀ a, c.AdjacentAt 1 a → ∃ j ∈ base, a.Same j.pair := by
    intro a ha
    obtain ⟨p, m, hp, hm, rfl⟩ := (h.neighbours_iff a).1 ((h.adjacent_one hk a).1 ha)
    exact ⟨_, (hb3 _).2 ⟨p, m, hp, hm, rfl⟩, Junction.regular_same _ _ _⟩
  induction K with
  | zero =>
    intro u hu k a hkK ha
    obtain rfl : k = 0 := by omega
    rw [juncsUpTo, hb] at hu
    cases hu
    exact hone a ha
  | succ K ih =>
    intro u hu k a hkK ha
    have hbu := juncsUpTo_base hb hu
    obtain ⟨w, hw, hu⟩ := Option.bind_eq_some_iff.1 hu
    obtain ⟨v, hv, hu⟩ := Option.bind_eq_some_iff.1 hu
    cases hu
    rcases k with _ | k
    · obtain ⟨j, hj, hs⟩ := hone a ha
      exact ⟨j, hbu hj, hs⟩
    · rcases h.adjacent_succ hk ha with ⟨b, hb1, hb2⟩ | ⟨b, hb1, rfl⟩
      · obtain ⟨j, hj, hs⟩ := hone b hb1
        exact ⟨j, hbu hj, hb2.symm.trans hs⟩
      · obtain ⟨j, hj, hs⟩ := ih hw k b (by omega) hb1
        have hp := h.adjacent_pnum hk hb1
        have hp' := Same_pnum hs hp.1 hp.2
        have e := h.toGates.getDerivedJunction_eq hp'.1 hp'.2
        obtain ⟨i, hi⟩ := List.getElem?_of_mem hj
        obtain ⟨b', hb1', hb2'⟩ := mapM_getElem? hv hi
        have hmem := List.mem_of_getElem? hb1'
        rw [e] at hb2'
        cases hb2'
        exact ⟨_, List.mem_append_right _ hmem, (deriveP_same h.toShape hs).trans (Junction.regular_same _ _ _)⟩

/-- The junctions of depth less than `D`. -/
def juncsBelow (c : FCurve d) : ℕ → Option (List (Junction d))
  | 0 => some []
  | 1 => some []
  | D + 2 => c.juncsUpTo D

theorem Full.juncsBelow_adjacent (h : c.Full) (hk : c.kind = .curve) {D : ℕ} {u : List (Junction d)} (hu : c.juncsBelow D = some u)
    {k : ℕ} {a : FracPair d} (hkD : k < D) (ha : c.AdjacentAt k a) : ∃ j ∈ u, a.Same j.pair := by
  have h1 := ha.1
  rcases D with _ | _ | D
  · omega
  · omega
  · obtain ⟨k, rfl⟩ : ∃ m, k = m + 1 := ⟨k - 1, by omega⟩
    exact h.juncsUpTo_adjacent hk hu k a (by omega) ha

instance (j : Junction d) : Decidable j.Standard := inferInstanceAs (Decidable (_ ∧ _))

/-- There is a junction which is not met below the depth `D`. -/
def deepB (c : FCurve d) (D : ℕ) : Bool :=
  match c.juncsBelow D, c.genRegularJunctions with
  | some u, some l => u.all (fun j => decide j.Standard) && l.any fun x =>
      decide (x.1 ∉ u) && decide x.1.Standard && decide (x.1.spec1.pnum ≠ x.1.spec2.pnum ∨ x.1.spec1.baseMap.timeRev = x.1.spec2.baseMap.timeRev)
  | _, _ => false

theorem Full.deep (h : c.Full) (hk : c.kind = .curve) (hc : c.check = some true) {D : ℕ} (hD : c.deepB D = true) :
    ∃ k a, c.AdjacentAt k a ∧ ∀ k' a', k' < D → c.AdjacentAt k' a' → ¬ a.Same a' := by
  unfold deepB at hD
  split at hD
  · rename_i u l hu hl
    simp only [Bool.and_eq_true, List.all_eq_true, List.any_eq_true, decide_eq_true_eq] at hD
    obtain ⟨hD1, x, hx, ⟨hx1, hx2⟩, hx3⟩ := hD
    obtain ⟨l', h1, _, h3, _⟩ := C21_junctions_exact c hk h hc
    rw [hl] at h1
    cases h1
    obtain ⟨k, a, ha, hs⟩ := h3 x hx
    refine ⟨k, a, ha, fun k' a' hk' ha' hs' => hx1 ?_⟩
    obtain ⟨j, hj, hs''⟩ := h.juncsBelow_adjacent hk hu hk' ha'
    rw [Standard_unique hx2 (hD1 j hj) (hs.symm.trans (hs'.trans hs'')) hx3]
    exact hj
  · cases hD

end FCurve
end Peano
