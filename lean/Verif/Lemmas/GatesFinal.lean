import Verif.Lemmas.GatesComplete
import Verif.Spec.Gates

set_option autoImplicit false

/-! Links between the lemmas on gates and the specification. -/
namespace Peano
variable {d : ℕ}

theorem imageOf_iff_act {links : List (Link (Point d))} {l : Link (Point d)} : ImageOf links l ↔ ∃ a : BaseMap d, ∃ m ∈ links, l = Link.act a m := by
  constructor
  · rw [imageOf_iff]
    rintro ⟨a, ha, m, hm, h | h⟩
    · refine ⟨a, m, hm, ?_⟩
      rw [Link.act_def]
      simp only [ha]
      cases l
      simp only [Bool.false_eq_true, if_false, Link.mk.injEq]
      exact h
    · refine ⟨a.invert, m, hm, ?_⟩
      rw [Link.act_def]
      simp only [BaseMap.invert, ha, Bool.not_false, if_true]
      cases l
      simp only [Link.mk.injEq]
      exact h
  · rintro ⟨a, m, hm, rfl⟩
    apply ImageOf.act
    exact ⟨1, m, hm, Or.inl (by simp)⟩

theorem Link.before_iff {l m : Link (Point d)} : l.Before m ↔ l.key ≤ m.key := Iff.rfl

theorem Link.standard_iff {l : Link (Point d)} : l.Standard ↔ l.stdOf = l := by
  constructor
  · intro h
    apply Link.keyOrder.inj
    apply le_antisymm
    · simpa using stdOf_act_le l 1
    · obtain ⟨b, hb⟩ := exists_act_stdOf l
      rw [← hb]
      exact h b
  · intro h b
    rw [Link.before_iff]
    conv_lhs => rw [← h]
    exact stdOf_act_le l b

theorem Point.insideFacet_iff {p : Point d} (hu : ∀ j, 0 ≤ p j ∧ p j ≤ 1) : p.InsideFacet ↔ p.faceDim + 1 = d := by
  unfold InsideFacet
  rw [and_iff_right hu]
  have h1 : p.faceDim + (List.finRange d).countP (fun j => decide (p j = 0 ∨ p j = 1)) = d := by
    have := List.length_eq_countP_add_countP (p := fun j : Fin d => decide (p j ≠ 0 ∧ p j ≠ 1)) (l := List.finRange d)
    rw [List.length_finRange] at this
    unfold faceDim
    conv_rhs => rw [this]
    congr 1
    apply List.countP_congr
    intro j _
    simp only [decide_eq_true_eq, ne_eq, Bool.not_eq_true, decide_eq_false_iff_not]
    tauto
  have h2 : (List.finRange d).countP (fun j => decide (p j = 0 ∨ p j = 1)) = (Finset.univ.filter fun j => p j = 0 ∨ p j = 1).card := by
    rw [List.countP_eq_length_filter, ← List.toFinset_card_of_nodup ((List.nodup_finRange d).filter _)]
    congr 1
    ext j
    simp
  have h3 : (∃! j, p j = 0 ∨ p j = 1) ↔ (Finset.univ.filter fun j => p j = 0 ∨ p j = 1).card = 1 := by
    rw [Finset.card_eq_one]
    constructor
    · rintro ⟨j, h, hu⟩
      refine ⟨j, ?_⟩
      ext i
      simp only [Finset.mem_filter, Finset.mem_univ, true_and, Finset.mem_singleton]
      exact ⟨hu i, by rintro rfl; exact h⟩
    · rintro ⟨j, h⟩
      have hm : ∀ i, (p i = 0 ∨ p i = 1) ↔ i = j := by
        intro i
        have := congrArg (i ∈ ·) h
        simpa using this
      exact ⟨j, (hm j).2 rfl, fun i hi => (hm i).1 hi⟩
  rw [h3, ← h2]
  omega

namespace GatesGen
variable {g : GatesGen d}

theorem Inv.emittable {seen : Seen d} {out : List (GateTuple d)} (h : g.Inv seen out) {S : GateTuple d} (hS : S ∈ out) :
    GateTuple.Emittable g.div g.mult g.onlyFacet S := by
  obtain ⟨⟨_, hp⟩, G, hG, rfl⟩ := h.good S hS
  have hun := sortedStd_inUnit hG.inUnit
  have hrej : ∀ l ∈ sortedStd G, g.rejects l.entrance = false ∧ g.rejects l.exit = false := by
    intro l hl
    obtain ⟨m, hm, rfl⟩ := mem_sortedStd.1 hl
    obtain ⟨a, ha⟩ := Link.exists_act_stdOf m
    have hok := hG.ok m hm
    rw [← ha, Link.act_def]
    have e : ∀ x : Point d, g.rejects (Point.act a x) = g.rejects x := rejects_act a
    by_cases ht : a.timeRev = true
    · simp only [ht, if_true, e]; exact ⟨hok.2, hok.1⟩
    · simp only [ht]; simp only [Bool.false_eq_true, if_false, e]; exact hok
  exact {
    length := by rw [(sortedStd_perm G).length_eq, List.length_map, hG.length]
    sorted := sortedStd_sorted G
    standard := by
      intro l hl
      obtain ⟨m, _, rfl⟩ := mem_sortedStd.1 hl
      obtain ⟨a, ha⟩ := Link.exists_act_stdOf m
      rw [Link.standard_iff]
      conv_lhs => rw [← ha, Link.stdOf_act]
    boundary := fun l hl => ⟨⟨fun j => (hun l hl j).1, ((rejects_false_iff _).1 (hrej l hl).1).1⟩,
      ⟨fun j => (hun l hl j).2, ((rejects_false_iff _).1 (hrej l hl).2).1⟩⟩
    facet := fun hf l hl => ⟨(Point.insideFacet_iff fun j => (hun l hl j).1).2 (((rejects_false_iff _).1 (hrej l hl).1).2 hf),
      (Point.insideFacet_iff fun j => (hun l hl j).2).2 (((rejects_false_iff _).1 (hrej l hl).2).2 hf)⟩
    paths := hp }

/-- Images of gates in a sorted tuple of standard gates. -/
theorem sameUpToSymmetry_sortedStd (G : GateTuple d) : GateTuple.SameUpToSymmetry G (sortedStd G) := by
  refine ⟨G.map Link.stdOf, (sortedStd_perm G).symm, ?_⟩
  rw [List.forall₂_map_right_iff, List.forall₂_same]
  exact fun l _ => Link.exists_act_stdOf l

theorem eq_sortedStd {G S : GateTuple d} (h : GateTuple.SameUpToSymmetry G S) (hs : S.Pairwise Link.Before) (hst : ∀ l ∈ S, l.Standard) :
    S = sortedStd G := by
  obtain ⟨W, h1, h2⟩ := h
  refine sorted_unique Link.keyOrder.inj (h1.symm.trans ((?_ : W = G.map Link.stdOf) ▸ (sortedStd_perm G).symm)) hs (sortedStd_sorted G)
  have h3 : ∀ l ∈ W, l.stdOf = l := fun l hl => Link.standard_iff.1 (hst l (h1.mem_iff.1 hl))
  clear h1
  induction h2 with
  | nil => rfl
  | @cons a b G W hab _ ih =>
    obtain ⟨m, rfl⟩ := hab
    rw [List.map_cons, ih fun l hl => h3 l (List.mem_cons_of_mem _ hl)]
    congr 1
    rw [← h3 _ List.mem_cons_self, Link.stdOf_act]

end GatesGen

/-! ### Gates of curves -/
namespace FCurve
variable {c : FCurve d}

theorem HasGates.eq {G : GateTuple d} (h : c.HasGates G) {Q : Bool → ℕ → Point d}
    (hQ : ∀ p < c.mult, c.getEntrance p = some (Q false p) ∧ c.getExit p = some (Q true p)) : G = (List.range c.mult).map (gateLink Q) := by
  apply List.ext_getElem?
  intro p
  by_cases hp : p < c.mult
  · have hp' : p < G.length := by rw [h.1]; exact hp
    have h1 := h.2 p _ (List.getElem?_eq_getElem hp')
    rw [(hQ p hp).1, (hQ p hp).2] at h1
    rw [List.getElem?_eq_getElem hp']
    simp only [List.getElem?_map, List.getElem?_range hp, Option.map_some, Option.some.injEq]
    unfold gateLink
    rw [Option.some.inj h1.1, Option.some.inj h1.2]
  · rw [List.getElem?_eq_none (by rw [h.1]; omega), List.getElem?_eq_none (by simp; omega)]

/-- Rational gates of a full curve: they solve the end equations and are in the unit cube. -/
theorem Full.exists_rat_gates (h : c.Full) : ∃ Q : Bool → ℕ → Point d,
    (∀ p < c.mult, c.getEntrance p = some (Q false p) ∧ c.getExit p = some (Q true p)) ∧
    (∀ last, ∀ p < c.mult, ∀ j, 0 ≤ Q last p j ∧ Q last p j ≤ 1) ∧
    ∀ last, ∀ p < c.mult, Q last p = fun j => ((c.cubeD p (endIdx c.genus last) j : ℚ) +
      (c.specD p (endIdx c.genus last)).baseMap.applyX 1 (Q (xor last (c.specD p (endIdx c.genus last)).baseMap.timeRev)
        (c.specD p (endIdx c.genus last)).pnum) j) / c.div := by
  obtain ⟨e, he, hu⟩ := h.exists_endEqs_mem
  obtain ⟨Q, hQ1, hQ2⟩ := h.exists_gates he
  refine ⟨Q, hQ1, ?_, ?_⟩
  · intro last p hp j
    have := hu last p hp j
    rw [← hQ2 last p hp] at this
    exact_mod_cast this
  · intro last p hp
    have hi := endIdx_lt h.genus_pos last
    have := he last p _ _ (h.cube_eq hp hi) (h.spec_eq hp hi)
    have hs := h.specD_lt hp hi
    funext j
    have hj := congrFun this j
    rw [← hQ2 last p hp] at hj
    unfold endPt at hj
    have hl : e (xor last (c.specD p (endIdx c.genus last)).baseMap.timeRev) (c.specD p (endIdx c.genus last)).pnum =
        fun i => (Q (xor last (c.specD p (endIdx c.genus last)).baseMap.timeRev) (c.specD p (endIdx c.genus last)).pnum i : ℝ) :=
      funext fun i => (hQ2 _ _ hs i).symm
    rw [hl, ← applyX_cast] at hj
    have hcast : ((Q last p j : ℚ) : ℝ) = (((((c.cubeD p (endIdx c.genus last) j : ℚ) +
      (c.specD p (endIdx c.genus last)).baseMap.applyX 1 (Q (xor last (c.specD p (endIdx c.genus last)).baseMap.timeRev)
        (c.specD p (endIdx c.genus last)).pnum) j) / c.div) : ℚ) : ℝ) := by
      rw [hj]; push_cast; rfl
    exact_mod_cast hcast

/-- The own paths of a curve. -/
theorem Full.hasPaths (h : c.Full) (hc : c.check = some true) (hfill : c.FillsGrid) {Q : Bool → ℕ → Point d}
    (hQ : ∀ p < c.mult, c.getEntrance p = some (Q false p) ∧ c.getExit p = some (Q true p)) {p : ℕ} (hp : p < c.mult) :
    ∃ path, Generated c.div ((List.range c.mult).map (gateLink Q)) none (gateLink Q p) path ∧
      path.proto = ((List.range c.genus).map fun i => c.cubeD p i).map some ∧
      path.links = (List.range c.genus).map (fun i => Link.act (c.specD p i).baseMap (gateLink Q (c.specD p i).pnum)) := by
  obtain ⟨paths, h1, h2, h3⟩ := h.getPaths_eq hQ
  obtain ⟨paths', k1, k2, k3, k4, _⟩ := h.getPaths_facts
  rw [h1] at k1
  cases k1
  have hlt : p < paths.length := by omega
  have hget := List.getElem?_eq_getElem hlt
  have hmem : paths[p] ∈ paths := List.getElem_mem hlt
  obtain ⟨e1, e2, e3, e4⟩ := h3 p _ hget
  have hv := k3 _ hmem
  have hwf : paths[p].WF := ⟨fun o ho => by obtain ⟨c, hc, _⟩ := hv.cube_def o ho; rw [hc]; simp, by rw [hv.links_length, hv.proto_length], by
    rw [e1]; exact e4⟩
  refine ⟨paths[p], ⟨hwf, e1, ?_, ?_, ?_, ?_, by simp, ?_⟩, e2, e3⟩
  · intro cube
    rw [e2]
    simp only [List.map_map, List.mem_map, List.mem_range, Function.comp_apply, Option.some.injEq]
    constructor
    · rintro ⟨i, hi, rfl⟩
      exact h.cube_range p i _ (h.cube_eq hp hi)
    · intro hg
      obtain ⟨i, hi, he⟩ := hfill p hp cube hg
      rw [h.cube_eq hp hi] at he
      exact ⟨i, hi, Option.some.inj he⟩
  · rw [e2]
    apply List.Nodup.map (Option.some_injective _)
    apply List.Nodup.map_on _ List.nodup_range
    intro i hi k hk he
    exact h.cubeD_inj hfill hp (List.mem_range.1 hi) (List.mem_range.1 hk) he
  · obtain ⟨b, hb1, hb2⟩ := Path.isContinuous_iff hwf
    rw [paths_continuous h1 hc _ hmem] at hb1
    cases hb1
    exact hb2.1 rfl
  · intro l hl
    rw [e3] at hl
    obtain ⟨i, hi, rfl⟩ := List.mem_map.1 hl
    apply ImageOf.act
    refine ⟨1, gateLink Q (c.specD p i).pnum, List.mem_map.2 ⟨_, List.mem_range.2 (h.specD_lt hp (List.mem_range.1 hi)), rfl⟩, Or.inl ?_⟩
    simp
  · have hk := k4 p _ hget
    rw [(hQ p hp).1, (hQ p hp).2] at hk
    have a1 := Option.some.inj hk.1
    have a2 := Option.some.inj hk.2
    unfold gateLink
    rw [a1, a2]

theorem Full.hasPaths_std {g : GatesGen d} (h : c.Full) (hc : c.check = some true) (hfill : c.FillsGrid) (hdiv : c.div = g.div) (hpos : 0 < c.mult)
    {Q : Bool → ℕ → Point d} (hQ : ∀ p < c.mult, c.getEntrance p = some (Q false p) ∧ c.getExit p = some (Q true p)) :
    g.HasPaths (GatesGen.sortedStd ((List.range c.mult).map (gateLink Q))) := by
  constructor
  · intro h0
    have := (GatesGen.sortedStd_perm ((List.range c.mult).map (gateLink Q))).length_eq
    rw [h0] at this
    simp at this
    omega
  · intro l hl
    obtain ⟨m, hm, rfl⟩ := GatesGen.mem_sortedStd.1 hl
    obtain ⟨p, hp, rfl⟩ := List.mem_map.1 hm
    obtain ⟨path, hpath, _⟩ := h.hasPaths hc hfill hQ (List.mem_range.1 hp)
    obtain ⟨a, ha⟩ := Link.exists_act_stdOf (gateLink Q p)
    have hi := hpath.img a
    rw [ha, hdiv] at hi
    refine ⟨Path.img a path, { hi with links_image := ?_ }⟩
    intro l' hl'
    obtain ⟨b, m', hm', rfl⟩ := imageOf_iff_act.1 (hi.links_image l' hl')
    obtain ⟨a', ha'⟩ := Link.exists_act_stdOf m'
    apply ImageOf.act
    refine imageOf_iff_act.2 ⟨a'⁻¹, m'.stdOf, GatesGen.mem_sortedStd.2 ⟨m', hm', rfl⟩, ?_⟩
    rw [← ha', ← Link.act_mul, inv_mul_cancel, Link.act_one]

/-- The gates of a curve are found. -/
theorem Full.gates_found {g : GatesGen d} (hd : 1 ≤ d) (hash : GatesGen.Hash d) (h : c.Full) (hc : c.check = some true) (hfill : c.FillsGrid)
    (hdiv : c.div = g.div) (hm : c.mult = g.mult) (hpos : 0 < g.mult) {G : GateTuple d} (hG : c.HasGates G)
    (hB : ∀ l ∈ G, g.rejects l.entrance = false ∧ g.rejects l.exit = false) :
    ∃ out seen, g.genAllGates hash = some out ∧ g.Inv seen out ∧ GatesGen.sortedStd G ∈ out := by
  have h2 : 2 ≤ g.div := hdiv ▸ h.two_le_div
  obtain ⟨out, seen, e1, e2, e3⟩ := GatesGen.genAllGates_spec h2 hd hash
  refine ⟨out, seen, e1, e2, ?_⟩
  obtain ⟨Q, hQ1, hQ2, hQ3⟩ := h.exists_rat_gates
  have hGe := hG.eq hQ1
  have hstd : GatesGen.sortedStd G ∈ seen.std := by
    rw [hGe, hm]
    have hrej : ∀ last, ∀ p < g.mult, g.rejects (Q last p) = false := by
      intro last p hp
      have hmem : gateLink Q p ∈ G := by rw [hGe]; exact List.mem_map.2 ⟨p, List.mem_range.2 (by omega), rfl⟩
      cases last
      · exact (hB _ hmem).1
      · exact (hB _ hmem).2
    have hi := fun last => endIdx_lt h.genus_pos last
    have hg2 : 2 ≤ c.genus := by
      have : 2 ≤ c.div ^ d := le_trans h.two_le_div (Nat.le_self_pow (by omega) _)
      exact this
    refine GatesGen.complete_core h2 e3 (C := fun last p => c.cubeD p (endIdx c.genus last)) (T := fun last p => c.specD p (endIdx c.genus last))
      (Q := Q) ?_ ?_ ?_ ?_ ?_ hrej
    · intro last p hp
      have := h.cube_range p _ _ (h.cube_eq (by omega : p < c.mult) (hi last))
      rw [hdiv] at this
      exact this
    · intro last p hp
      rw [← hm]
      exact h.specD_lt (by omega) (hi last)
    · intro p hp heq
      have := h.cubeD_inj hfill (by omega : p < c.mult) (hi false) (hi true) heq
      unfold endIdx at this
      simp at this
      omega
    · intro last p hp
      rw [← hdiv]
      exact hQ3 last p (by omega)
    · intro last p hp
      exact hQ2 last p (by omega)
  rcases e2.std_out _ hstd with h' | h'
  · exact h'
  · refine absurd ?_ h'
    rw [hGe]
    exact h.hasPaths_std hc hfill hdiv (by omega) hQ1

end FCurve
end Peano
