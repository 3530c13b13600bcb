import Verif.Lemmas.GatesAll
import Verif.Lemmas.Forget
import Verif.Lemmas.JunctionsB

set_option autoImplicit false

/-! Completeness of `_gen_all_gates`. -/
namespace Peano
variable {d : ℕ}

theorem BaseMap.exists_coord (b : BaseMap d) (j : Fin d) : ∃ i, (b.coords i).1 = j :=
  (Finite.injective_iff_surjective.1 b.inj) j

namespace Point

theorem faceDim_eq_iff (p : Point d) : p.faceDim = d ↔ ∀ j, p j ≠ 0 ∧ p j ≠ 1 := by
  unfold faceDim
  have := List.countP_eq_length (p := fun j : Fin d => decide (p j ≠ 0 ∧ p j ≠ 1)) (l := List.finRange d)
  rw [List.length_finRange] at this
  rw [this]
  simp

theorem faceDim_act (b : BaseMap d) (p : Point d) : Point.faceDim (b.applyX 1 p) = p.faceDim := by
  unfold faceDim
  have h1 : ((List.finRange d).map fun i => (b.coords i).1).Perm (List.finRange d) := by
    refine (List.perm_ext_iff_of_nodup ((List.nodup_finRange d).map b.inj) (List.nodup_finRange d)).2 ?_
    intro j
    obtain ⟨i, hi⟩ := b.exists_coord j
    simp only [List.mem_map, List.mem_finRange, iff_true, true_and]
    exact ⟨i, hi⟩
  conv_rhs => rw [← h1.countP_eq, List.countP_map]
  apply List.countP_congr
  intro i _
  simp only [Function.comp_apply, decide_eq_true_iff]
  unfold BaseMap.applyX
  by_cases h : (b.coords i).2 = true
  · simp only [h, if_true]
    constructor
    · rintro ⟨h1, h2⟩
      exact ⟨fun h => h2 (by rw [h]; norm_num), fun h => h1 (by rw [h]; norm_num)⟩
    · rintro ⟨h1, h2⟩
      exact ⟨fun h => h2 (by linarith), fun h => h1 (by linarith)⟩
  · simp [h]

end Point

theorem Generated.img {div : ℕ} {links : List (Link (Point d))} {link : Link (Point d)} {p : Path (Point d) d}
    (h : Generated div links none link p) (b : BaseMap d) : Generated div links none (Link.act b link) (Path.img b p) where
  wf := Path.img_wf h.wf b
  div_eq := h.div_eq
  all := by
    intro c
    have hm : some c ∈ (Path.img b p).proto ↔ ∃ c', some c' ∈ p.proto ∧ b.applyCube p.div c' = c := by
      simp only [Path.img, Proto.act, List.mem_map]
      constructor
      · rintro ⟨o, ho, he⟩
        obtain ⟨c', rfl, h2⟩ := Option.map_eq_some_iff.1 he
        exact ⟨c', by split at ho <;> simpa using ho, h2⟩
      · rintro ⟨c', hc, rfl⟩
        exact ⟨some c', by split <;> simpa using hc, rfl⟩
    rw [hm]
    constructor
    · rintro ⟨c', hc, rfl⟩
      have := (h.all c').1 hc
      rw [h.div_eq]
      exact BaseMap.applyCube_mem b this
    · intro hc
      refine ⟨b⁻¹.applyCube p.div c, (h.all _).2 ?_, ?_⟩
      · rw [h.div_eq]
        exact BaseMap.applyCube_mem _ hc
      · rw [← BaseMap.applyCube_mul]; simp
  once := by
    have hinj : Function.Injective (Option.map (b.applyCube (p.div : ℤ))) := by
      apply Option.map_injective
      intro x y hxy
      have := congrArg (b⁻¹.applyCube (p.div : ℤ)) hxy
      rwa [← BaseMap.applyCube_mul, ← BaseMap.applyCube_mul, inv_mul_cancel, BaseMap.applyCube_one, BaseMap.applyCube_one] at this
    simp only [Path.img, Proto.act]
    apply List.Nodup.map hinj
    split
    · exact List.nodup_reverse.2 h.once
    · exact h.once
  joined := Path.img_joined h.wf b h.joined
  links_image := by
    intro l hl
    simp only [Path.img, List.mem_map] at hl
    obtain ⟨m, hm, rfl⟩ := hl
    exact ImageOf.act b (h.links_image m (by split at hm <;> simpa using hm))
  cdist_le := by simp
  link_eq := by rw [← h.link_eq]; rfl

namespace GatesGen
variable {g : GatesGen d}

theorem rejects_false_iff (p : Point d) : g.rejects p = false ↔ (∃ j, p j = 0 ∨ p j = 1) ∧ (g.onlyFacet = true → p.faceDim + 1 = d) := by
  unfold rejects
  rw [Bool.or_eq_false_iff, decide_eq_false_iff_not, Point.faceDim_eq_iff, Bool.and_eq_false_iff, decide_eq_false_iff_not, not_not, and_comm]
  refine and_congr ?_ ?_
  · push Not
    constructor
    · rintro ⟨j, hj⟩
      exact ⟨j, (eq_or_ne _ _).imp_right hj⟩
    · rintro ⟨j, hj⟩
      exact ⟨j, fun h => hj.resolve_left h⟩
  · cases g.onlyFacet <;> simp

theorem rejects_act (b : BaseMap d) (p : Point d) : g.rejects (b.applyX 1 p) = g.rejects p := by
  unfold rejects
  rw [Point.faceDim_act]

theorem touch_act {c c' : Cube d} (h : g.touchSameFacet c c' = true) (b : BaseMap d) :
    g.touchSameFacet (b.applyCube g.div c) (b.applyCube g.div c') = true := by
  unfold touchSameFacet at h ⊢
  rw [decide_eq_true_iff] at h ⊢
  obtain ⟨j, hj⟩ := h
  obtain ⟨i, hi⟩ := b.exists_coord j
  refine ⟨i, ?_⟩
  unfold BaseMap.applyCube
  rw [hi]
  by_cases hb : (b.coords i).2 = true
  · simp only [hb, if_true]; omega
  · simp only [hb]; exact hj

theorem atBoundary_iff {n : ℕ} (hn : 0 < n) {c : ℤ} (h0 : 0 ≤ c) (h1 : c < n) {x : ℚ} (hx0 : 0 ≤ x) (hx1 : x ≤ 1) :
    (((c : ℚ) + x) / n = 0 → c = 0 ∧ x = 0) ∧ (((c : ℚ) + x) / n = 1 → c = n - 1 ∧ x = 1) := by
  have hn' : (0 : ℚ) < n := by exact_mod_cast hn
  have hc : (0 : ℚ) ≤ c := by exact_mod_cast h0
  have hc1 : (c : ℚ) + 1 ≤ n := by exact_mod_cast h1
  constructor
  · intro h
    have : (c : ℚ) + x = 0 := by
      rcases div_eq_zero_iff.1 h with h | h
      · exact h
      · exact absurd h hn'.ne'
    have h2 : (c : ℚ) = 0 := by linarith
    exact ⟨by exact_mod_cast h2, by linarith⟩
  · intro h
    rw [div_eq_one_iff_eq hn'.ne'] at h
    have h2 : (c : ℚ) = n - 1 := by linarith
    exact ⟨by exact_mod_cast h2, by linarith⟩

theorem applyX_unit (b : BaseMap d) {p : Point d} (h : ∀ j, 0 ≤ p j ∧ p j ≤ 1) (j : Fin d) : 0 ≤ b.applyX 1 p j ∧ b.applyX 1 p j ≤ 1 :=
  PathsGen.act_unit b h j

/-- A solution of the end equations with all points on the boundary is found. -/
theorem complete_core (hdiv : 2 ≤ g.div) {seen : Seen d}
    (hproc : ∀ pairs : List (Cube d × Cube d), pairs ∈ Itertools.combinationsWithReplacement g.stdPairs g.mult → ∀ S : ℕ → Bool → Spec d,
      (∀ p < g.mult, ∀ last, (S p last).pnum < g.mult ∧ g.MayTouch pairs p last (S p last)) → g.Processed seen (pairs.map g.protoOf) S)
    {C : Bool → ℕ → Cube d} {T : Bool → ℕ → Spec d} {Q : Bool → ℕ → Point d}
    (hC : ∀ last, ∀ p < g.mult, g.InRange (C last p)) (hT : ∀ last, ∀ p < g.mult, (T last p).pnum < g.mult)
    (hne : ∀ p < g.mult, C false p ≠ C true p)
    (hQ : ∀ last, ∀ p < g.mult, Q last p = fun j => ((C last p j : ℚ) +
      (T last p).baseMap.applyX 1 (Q (xor last (T last p).baseMap.timeRev) (T last p).pnum) j) / g.div)
    (hU : ∀ last, ∀ p < g.mult, ∀ j, 0 ≤ Q last p j ∧ Q last p j ≤ 1)
    (hB : ∀ last, ∀ p < g.mult, g.rejects (Q last p) = false) :
    sortedStd ((List.range g.mult).map fun p => ⟨Q false p, Q true p⟩) ∈ seen.std := by
  have hn : 2 ≤ g.div ^ d ∨ d = 0 := by
    rcases Nat.eq_zero_or_pos d with h | h
    · exact Or.inr h
    · exact Or.inl (le_trans hdiv (Nat.le_self_pow (by omega) _))
  have hdq : ((g.div : ℤ) : ℚ) ≠ 0 := by
    have : (g.div : ℚ) ≠ 0 := by exact_mod_cast (by omega : g.div ≠ 0)
    exact_mod_cast this
  have hcast : ((g.div : ℤ) : ℚ) = (g.div : ℚ) := by norm_num
  have hQ' : ∀ (b : BaseMap d) last, ∀ p < g.mult, b.applyX 1 (Q last p) = fun j => ((b.applyCube g.div (C last p) j : ℚ) +
      b.applyX 1 ((T last p).baseMap.applyX 1 (Q (xor last (T last p).baseMap.timeRev) (T last p).pnum)) j) / g.div := by
    intro b last p hp
    rw [hQ last p hp, ← hcast, BaseMap.applyX_cube b (g.div : ℤ) hdq]
  -- first and last cubes are at the boundary and touch the facet together with their inner cubes
  have htouch : ∀ last, ∀ p < g.mult, g.AtBoundary (C last p) ∧ g.touchSameFacet (C last p)
      ((T last p).baseMap.applyCube g.div (C (xor last (T last p).baseMap.timeRev) (T last p).pnum)) = true := by
    intro last p hp
    obtain ⟨⟨j, hj⟩, _⟩ := (rejects_false_iff _).1 (hB last p hp)
    have hm := hT last p hp
    set s := T last p
    set l' := xor last s.baseMap.timeRev
    have e1 := congrFun (hQ last p hp) j
    have e2 := congrFun (hQ' s.baseMap l' s.pnum hm) j
    have u1 := applyX_unit s.baseMap (hU l' s.pnum hm) j
    have u2 := applyX_unit s.baseMap (applyX_unit (T l' s.pnum).baseMap (hU (xor l' (T l' s.pnum).baseMap.timeRev) _ (hT l' s.pnum hm))) j
    have r1 := hC last p hp j
    have r2 := (hC l' s.pnum hm).map s.baseMap j
    have k1 := atBoundary_iff (show 0 < g.div by omega) r1.1 r1.2 u1.1 u1.2
    have k2 := atBoundary_iff (show 0 < g.div by omega) r2.1 r2.2 u2.1 u2.2
    rw [← e1] at k1
    rw [← e2] at k2
    unfold touchSameFacet AtBoundary
    rw [decide_eq_true_iff]
    rcases hj with hj | hj
    · have a := k1.1 hj
      have b := k2.1 a.2
      exact ⟨⟨j, Or.inl a.1⟩, j, Or.inl ⟨by rw [a.1, b.1], b.1⟩⟩
    · have a := k1.2 hj
      have b := k2.2 a.2
      exact ⟨⟨j, Or.inr a.1⟩, j, Or.inr ⟨by rw [a.1, b.1], b.1⟩⟩
  -- standard pairs
  have hstd : ∀ p, ∃ (q : Cube d × Cube d) (b : BaseMap d), p < g.mult → q ∈ g.stdPairs ∧
      ∀ last, pairEnd q last = b.applyCube g.div (C (xor last b.timeRev) p) := by
    intro p
    by_cases hp : p < g.mult
    · obtain ⟨q, hq, b, h1, h2⟩ := exists_stdPair (hne p hp) (mem_facetCubes.2 ⟨hC false p hp, (htouch false p hp).1⟩)
        (mem_facetCubes.2 ⟨hC true p hp, (htouch true p hp).1⟩)
      refine ⟨q, b, fun _ => ⟨hq, ?_⟩⟩
      intro last
      unfold pairEnd
      cases last
      · rw [if_neg (by simp), h1]; cases b.timeRev <;> rfl
      · rw [if_pos rfl, h2]; cases b.timeRev <;> rfl
    · exact ⟨(0, 0), 1, fun h => absurd h hp⟩
  choose q B hqB using hstd
  -- the order in which they are enumerated
  obtain ⟨pairs, hpairs, hperm⟩ := Itertools.cwr_exists (l := g.stdPairs) (r := g.mult) (y := (List.range g.mult).map q) (by simp) (by
    intro a ha
    obtain ⟨p, hp, rfl⟩ := List.mem_map.1 ha
    exact (hqB p (List.mem_range.1 hp)).1)
  have hf : List.Forall₂ (fun a p => a = q p) ((List.range g.mult).map q) (List.range g.mult) := by
    rw [List.forall₂_map_left_iff, List.forall₂_same]; simp
  obtain ⟨w, hw1, hw2⟩ := List.perm_comp_forall₂ hperm hf
  have hwn : w.Nodup := hw2.nodup_iff.2 List.nodup_range
  have hwl : w.length = g.mult := by rw [hw2.length_eq]; simp
  have hwm : ∀ k, k ∈ w ↔ k < g.mult := fun k => by rw [hw2.mem_iff, List.mem_range]
  have hpl : pairs.length = g.mult := by rw [hw1.length_eq, hwl]
  set σ : ℕ → ℕ := fun i => w.getD i 0 with hσ
  set τ : ℕ → ℕ := fun k => w.idxOf k with hτ
  have hσw : ∀ i < g.mult, w[i]? = some (σ i) := by
    intro i hi
    have : i < w.length := by omega
    simp [hσ, List.getD_eq_getElem?_getD, this]
  have hσlt : ∀ i < g.mult, σ i < g.mult := fun i hi => (hwm _).1 (List.mem_of_getElem? (hσw i hi))
  have hτlt : ∀ k < g.mult, τ k < g.mult := fun k hk => by
    have := List.idxOf_lt_length_iff.2 ((hwm k).2 hk)
    simp only [hτ]; omega
  have hστ : ∀ k < g.mult, σ (τ k) = k := by
    intro k hk
    have h1 := hσw _ (hτlt k hk)
    have h2 : w[w.idxOf k]? = some k := by
      rw [List.getElem?_eq_getElem (by have := hτlt k hk; simp only [hτ] at this; omega)]
      simp
    rw [show τ k = w.idxOf k from rfl, h2] at h1
    exact (Option.some.inj h1).symm
  have hpq : ∀ i < g.mult, pairs[i]? = some (q (σ i)) := by
    intro i hi
    obtain ⟨a, ha, he⟩ := forall₂_getElem? hw1 i _ (hσw i hi)
    rw [ha, he]
  -- new specs and new points
  let K : ℕ → Bool → Spec d := fun i last => T (xor last (B (σ i)).timeRev) (σ i)
  let S : ℕ → Bool → Spec d := fun i last => ⟨B (σ i) * (K i last).baseMap * (B (K i last).pnum)⁻¹, τ (K i last).pnum⟩
  let P : Bool → ℕ → Point d := fun last i => (B (σ i)).applyX 1 (Q (xor last (B (σ i)).timeRev) (σ i))
  have hKlt : ∀ i < g.mult, ∀ last, (K i last).pnum < g.mult := fun i hi last => hT _ _ (hσlt i hi)
  have hSP : ∀ i < g.mult, ∀ last, xor (xor last (S i last).baseMap.timeRev) (B (K i last).pnum).timeRev =
      xor (xor last (B (σ i)).timeRev) (K i last).baseMap.timeRev := by
    intro i hi last
    simp only [S, BaseMap.mul_timeRev, BaseMap.inv_timeRev]
    generalize (B (K i last).pnum).timeRev = x
    generalize (K i last).baseMap.timeRev = y
    generalize (B (σ i)).timeRev = z
    cases x <;> cases y <;> cases z <;> cases last <;> rfl
  have hS : ∀ p < g.mult, ∀ last, (S p last).pnum < g.mult ∧ g.MayTouch pairs p last (S p last) := by
    intro i hi last
    refine ⟨hτlt _ (hKlt i hi last), q (σ i), q (K i last).pnum, hpq i hi, ?_, ?_⟩
    · show pairs[τ (K i last).pnum]? = _
      rw [hpq _ (hτlt _ (hKlt i hi last)), hστ _ (hKlt i hi last)]
    · rw [(hqB _ (hσlt i hi)).2, (hqB _ (hKlt i hi last)).2, hSP i hi last]
      have e : ∀ x : Cube d, (S i last).baseMap.applyCube g.div ((B (K i last).pnum).applyCube g.div x) =
          (B (σ i)).applyCube g.div ((K i last).baseMap.applyCube g.div x) := by
        intro x
        rw [← BaseMap.applyCube_mul, ← BaseMap.applyCube_mul]
        simp only [S, inv_mul_cancel_right]
      rw [e]
      exact touch_act (htouch _ _ (hσlt i hi)).2 _
  have hres := hproc pairs hpairs S hS P ?_ ?_
  · rw [show sortedStd ((List.range g.mult).map fun p => (⟨Q false p, Q true p⟩ : Link (Point d))) =
        sortedStd ((List.range g.mult).map fun p => ⟨P false p, P true p⟩) from ?_]
    · exact hres
    · apply sortedStd_congr
      have e1 : ((List.range g.mult).map fun p => (⟨P false p, P true p⟩ : Link (Point d))).map Link.stdOf =
          (w.map fun p => (⟨Q false p, Q true p⟩ : Link (Point d))).map Link.stdOf := by
        have hw : w = (List.range g.mult).map σ := by
          apply List.ext_getElem?
          intro i
          by_cases hi : i < g.mult
          · rw [hσw i hi]; simp [hi]
          · rw [List.getElem?_eq_none (by omega), List.getElem?_eq_none (by simp; omega)]
        rw [hw]
        simp only [List.map_map]
        apply List.map_congr_left
        intro i _
        simp only [Function.comp_apply]
        rw [← Link.stdOf_act (⟨Q false (σ i), Q true (σ i)⟩ : Link (Point d)) (B (σ i))]
        congr 1
        rw [Link.act_def]
        cases hb : (B (σ i)).timeRev <;> simp [P, hb] <;> exact ⟨rfl, rfl⟩
      rw [e1]
      exact ((hw2.map _).map _).symm
  · intro last i hi cube hcube j
    have hi' := hσlt i hi
    have hd1 : 2 ≤ g.div ^ d := by
      rcases hn with h | h
      · exact h
      · exact absurd j.2 (by omega)
    rw [List.getElem?_map, hpq i hi] at hcube
    simp only [Option.map_some, Option.bind_some, protoOf_end hd1, Option.some.injEq] at hcube
    rw [← hcube, (hqB _ hi').2]
    have e := congrFun (hQ' (B (σ i)) (xor last (B (σ i)).timeRev) (σ i) hi') j
    have e2 : (S i last).baseMap.applyX 1 (P (xor last (S i last).baseMap.timeRev) (S i last).pnum) =
        (B (σ i)).applyX 1 ((K i last).baseMap.applyX 1 (Q (xor (xor last (B (σ i)).timeRev) (K i last).baseMap.timeRev) (K i last).pnum)) := by
      show (S i last).baseMap.applyX 1 (P _ (τ (K i last).pnum)) = _
      simp only [P]
      rw [hστ _ (hKlt i hi last), hSP i hi last, ← BaseMap.applyX_mul, ← BaseMap.applyX_mul]
      simp only [S, inv_mul_cancel_right]
    rw [e2]
    exact e
  · intro last i hi
    simp only [P]
    rw [rejects_act]
    exact hB _ _ (hσlt i hi)

end GatesGen
end Peano
