import Verif.Lemmas.FacetGatesGen
import Verif.Props.Subsets

set_option autoImplicit false

/-! Completeness of the generation of facet gates: the facet paths of a curve are among the examined ones. -/
namespace Peano
namespace FacetGates
variable {n : ℕ}

/-- The point as a real one. -/
def castPt (x : Point (n + 1)) : Fin (n + 1) → ℝ := fun j => (x j : ℝ)

/-- The ends of the gate are in the sets of the facet link. -/
def Covers (l : Link (FacetDivSubset n)) (m : Link (Point (n + 1))) : Prop := castPt m.entrance ∈ l.entrance.toSet ∧ castPt m.exit ∈ l.exit.toSet

theorem mem_act {s : FacetDivSubset n} (hs : s.WF) {x : Point (n + 1)} (h : castPt x ∈ s.toSet) (b : BaseMap (n + 1)) :
    castPt (b.applyX 1 x) ∈ (FacetDivSubset.act b s).toSet := by
  rw [FacetDivSubset.toSet_act hs]
  exact ⟨castPt x, h, funext fun j => (applyX_cast b x j).symm⟩

theorem Covers.act {div : ℕ} {l : Link (FacetDivSubset n)} {m : Link (Point (n + 1))} (h : Covers l m) (hl : l.InDiv div) (b : BaseMap (n + 1)) :
    Covers (Link.act b l) (Link.act b m) := by
  rw [Link.act_def_facet, Link.act_def]
  by_cases hb : b.timeRev = true
  · simp only [hb, if_true]
    exact ⟨mem_act hl.2.1 h.2 b, mem_act hl.1.1 h.1 b⟩
  · simp only [hb]
    exact ⟨mem_act hl.1.1 h.1 b, mem_act hl.2.1 h.2 b⟩

theorem Covers.meets {l l' : Link (FacetDivSubset n)} {m : Link (Point (n + 1))} (h : Covers l m) (h' : Covers l' m) :
    l.entrance.Meets l'.entrance ∧ l.exit.Meets l'.exit := ⟨⟨_, h.1, h'.1⟩, ⟨_, h.2, h'.2⟩⟩

/-- Base maps from a link to a link that covers the image of the gate. -/
theorem Covers.mem_argmul {div : ℕ} {l l' : Link (FacetDivSubset n)} {m : Link (Point (n + 1))} (hl : l.InDiv div) (hl' : l'.InDiv div) (h : Covers l m)
    {b : BaseMap (n + 1)} (h' : Covers l' (Link.act b m)) : b ∈ Link.argmulIntersectFacet l l' := by
  rw [(C35_argmul_intersect_facets l l' hl.1.1 hl.2.1 hl'.1.1 hl'.2.1
    ⟨hl.1.2.trans hl'.1.2.symm, hl.1.2.trans hl'.2.2.symm, hl.2.2.trans hl'.1.2.symm, hl.2.2.trans hl'.2.2.symm⟩).2]
  have hc : ∀ x : Point (n + 1), castPt (b.applyX 1 x) = b.applyX 1 (castPt x) := fun x => funext fun j => applyX_cast b x j
  rw [Link.act_def] at h'
  by_cases hb : b.timeRev = true
  · simp only [hb, if_true] at h' ⊢
    exact ⟨⟨_, ⟨_, h.1, (hc _).symm⟩, h'.2⟩, ⟨_, ⟨_, h.2, (hc _).symm⟩, h'.1⟩⟩
  · simp only [hb] at h' ⊢
    exact ⟨⟨_, ⟨_, h.1, (hc _).symm⟩, h'.1⟩, ⟨_, ⟨_, h.2, (hc _).symm⟩, h'.2⟩⟩

/-- If the point placed to a cube is on the boundary, then the cube touches the facet of the point. -/
theorem touches {div : ℕ} {s : FacetDivSubset n} (hs : s.WF) (hd : s.div = div) {x y : Point (n + 1)} (hx : castPt x ∈ s.toSet) {c : Cube (n + 1)}
    (hc : CubeTree.InGrid div c) (hy : ∀ j, y j = (x j + c j) * (1 / div)) (hb : ∃ j, y j = 0 ∨ y j = 1) :
    ∃ t, s.mapToCube div c = some t ∧ castPt y ∈ t.toSet := by
  have hpos : 0 < div := hd ▸ hs.div_pos
  obtain ⟨j, hj⟩ := hb
  have hux : 0 ≤ x j ∧ x j ≤ 1 := by
    have : (0 : ℝ) ≤ castPt x j ∧ castPt x j ≤ 1 := by
      by_cases h : j = s.facetCoord
      · subst h
        rw [hx.1]
        split <;> norm_num
      · have := FacetDivSubset.toSet_unit hs hx h
        exact ⟨this.1.le, this.2.le⟩
    unfold castPt at this
    exact_mod_cast this
  have hb := GatesGen.atBoundary_iff hpos (hc j).1 (hc j).2 hux.1 hux.2
  have e : y j = ((c j : ℚ) + x j) / div := by rw [hy j]; ring
  rw [← e] at hb
  have hx01 : x j = 0 ∨ x j = 1 := hj.imp (fun h => (hb.1 h).2) fun h => (hb.2 h).2
  have hj' : j = s.facetCoord := by
    by_contra h
    have := FacetDivSubset.toSet_unit hs hx h
    unfold castPt at this
    rcases hx01 with h | h <;> rw [h] at this <;> norm_num at this
  subst hj'
  have hxv : (x s.facetCoord : ℝ) = if s.facetValue then 1 else 0 := hx.1
  have hm : ∃ t, s.mapToCube s.div c = some t := by
    rw [FacetDivSubset.mapToCube_facet, hd]
    rcases hj with h | h
    · obtain ⟨h1, h2⟩ := hb.1 h
      rw [h2] at hxv
      cases hv : s.facetValue
      · simpa using h1
      · rw [hv] at hxv; norm_num at hxv
    · obtain ⟨h1, h2⟩ := hb.2 h
      rw [h2] at hxv
      cases hv : s.facetValue
      · rw [hv] at hxv; norm_num at hxv
      · simpa using h1
  obtain ⟨t, ht⟩ := hm
  refine ⟨t, hd ▸ ht, ?_⟩
  rw [FacetDivSubset.toSet_mapToCube hs ht]
  refine ⟨castPt x, hx, fun i => ?_⟩
  unfold castPt
  rw [hy i, hd]
  push_cast
  ring

/-- Patterns of a curve: their gates, paths and base maps. -/
structure Data (M div : ℕ) (G : ℕ → Link (Point (n + 1))) (P : ℕ → Path (Point (n + 1)) (n + 1)) (T : ℕ → List (Spec (n + 1))) : Prop where
  gen : ∀ p < M, Generated div ((List.range M).map G) none (G p) (P p)
  pnum : ∀ p < M, ∀ s ∈ T p, s.pnum < M
  links : ∀ p < M, (P p).links = (T p).map fun s => Link.act s.baseMap (G s.pnum)
  boundary : ∀ p < M, (∃ j, (G p).entrance j = 0 ∨ (G p).entrance j = 1) ∧ ∃ j, (G p).exit j = 0 ∨ (G p).exit j = 1

variable {M div : ℕ} {G : ℕ → Link (Point (n + 1))} {P : ℕ → Path (Point (n + 1)) (n + 1)} {T : ℕ → List (Spec (n + 1))}

/-- First and last fractions. -/
theorem Data.ends (h : Data M div G P T) {p : ℕ} (hp : p < M) : ∃ c0 c1 s0 s1, (P p).proto.head? = some (some c0) ∧ (P p).proto.getLast? = some (some c1) ∧
    (T p).head? = some s0 ∧ (T p).getLast? = some s1 ∧
    (∀ j, (G p).entrance j = ((Link.act s0.baseMap (G s0.pnum)).entrance j + c0 j) * (1 / div)) ∧
    (∀ j, (G p).exit j = ((Link.act s1.baseMap (G s1.pnum)).exit j + c1 j) * (1 / div)) := by
  have hg := h.gen p hp
  obtain ⟨_, c0, c1, l0, l1, a1, a2, a3, a4, a5⟩ := Path.make_iff.1 hg.wf.made
  rw [h.links p hp] at a3 a4
  rw [List.head?_map, Option.map_eq_some_iff] at a3
  rw [List.getLast?_map, Option.map_eq_some_iff] at a4
  obtain ⟨s0, b1, rfl⟩ := a3
  obtain ⟨s1, b2, rfl⟩ := a4
  have e := hg.link_eq
  rw [congrArg Path.link a5] at e
  rw [hg.div_eq] at e
  refine ⟨c0, c1, s0, s1, a1, a2, b1, b2, ?_, ?_⟩
  · intro j; rw [← e]
  · intro j; rw [← e]

/-- The facet path of a pattern. -/
theorem Data.facetPath (h : Data M div G P T) {L : ℕ → Link (FacetDivSubset n)} (hL : ∀ p < M, (L p).InDiv div ∧ Covers (L p) (G p)) {p : ℕ} (hp : p < M) :
    ∃ q, FacetPath div ((List.range M).map L) none q ∧ Covers q.link (G p) ∧ q.proto = (P p).proto ∧
      q.links = (T p).map fun s => Link.act s.baseMap (L s.pnum) := by
  have hg := h.gen p hp
  obtain ⟨c0, c1, s0, s1, a1, a2, b1, b2, d1, d2⟩ := h.ends hp
  have hm0 := List.mem_of_mem_head? b1
  have hm1 := List.mem_of_getLast? b2
  have hact : ∀ s ∈ T p, (Link.act s.baseMap (L s.pnum)).InDiv div ∧ Covers (Link.act s.baseMap (L s.pnum)) (Link.act s.baseMap (G s.pnum)) := by
    intro s hs
    have := hL _ (h.pnum p hp s hs)
    exact ⟨this.1.act _, this.2.act this.1 _⟩
  obtain ⟨e, he, he'⟩ := touches (hact s0 hm0).1.1.1 (hact s0 hm0).1.1.2 (hact s0 hm0).2.1 ((hg.all c0).1 (List.mem_of_mem_head? a1)) d1 (h.boundary p hp).1
  obtain ⟨x, hx, hx'⟩ := touches (hact s1 hm1).1.2.1 (hact s1 hm1).1.2.2 (hact s1 hm1).2.2 ((hg.all c1).1 (List.mem_of_getLast? a2)) d2 (h.boundary p hp).2
  have hpos : 0 < div := (hact s0 hm0).1.1.2 ▸ (hact s0 hm0).1.1.1.div_pos
  refine ⟨⟨div, (P p).proto, (T p).map fun s => Link.act s.baseMap (L s.pnum), ⟨e, x⟩⟩, ?_, ⟨he', hx'⟩, rfl, rfl⟩
  exact {
    div_eq := rfl
    made := by
      rw [FacetGen.make_iff]
      exact ⟨c0, c1, _, _, e, x, a1, a2, by rw [List.head?_map, b1]; rfl, by rw [List.getLast?_map, b2]; rfl, he, hx, rfl⟩
    length := by
      have := hg.wf.length
      rw [h.links p hp] at this
      simpa using this
    cubes := hg.wf.cubes
    all := hg.all
    once := hg.once
    joined := by
      intro i c c' l l' hc hc' hl hl'
      simp only [List.getElem?_map, Option.map_eq_some_iff] at hl hl'
      obtain ⟨s, hs, rfl⟩ := hl
      obtain ⟨s', hs', rfl⟩ := hl'
      have hj := hg.joined i c c' (Link.act s.baseMap (G s.pnum)) (Link.act s'.baseMap (G s'.pnum)) hc hc'
        (by rw [h.links p hp]; simp [hs]) (by rw [h.links p hp]; simp [hs'])
      have k1 := (hact s (List.mem_of_getElem? hs)).2.2
      have k2 := (hact s' (List.mem_of_getElem? hs')).2.1
      refine ⟨fun j => ((c j : ℝ) + castPt (Link.act s.baseMap (G s.pnum)).exit j) / div, ⟨_, k1, fun j => rfl⟩, ⟨_, k2, fun j => ?_⟩⟩
      beta_reduce
      congr 1
      unfold castPt
      exact_mod_cast hj j
    links_image := by
      intro l hl
      obtain ⟨s, hs, rfl⟩ := List.mem_map.1 hl
      exact ⟨s.baseMap, _, List.mem_map.2 ⟨s.pnum, List.mem_range.2 (h.pnum p hp s hs), rfl⟩, rfl⟩
    cdist_le := by simp }

/-- The base maps after a change of the patterns. -/
def newSpecs (σ τ : ℕ → ℕ) (B : ℕ → BaseMap (n + 1)) (T : ℕ → List (Spec (n + 1))) (k : ℕ) : List (Spec (n + 1)) :=
  (if (B k).timeRev then (T (σ k)).reverse else T (σ k)).map fun s => ⟨B k * s.baseMap * (B (τ s.pnum))⁻¹, τ s.pnum⟩

theorem mem_newSpecs {σ τ : ℕ → ℕ} {B : ℕ → BaseMap (n + 1)} {k : ℕ} {s : Spec (n + 1)} :
    s ∈ newSpecs σ τ B T k ↔ ∃ r ∈ T (σ k), s = ⟨B k * r.baseMap * (B (τ r.pnum))⁻¹, τ r.pnum⟩ := by
  unfold newSpecs
  rw [List.mem_map]
  constructor
  · rintro ⟨r, hr, rfl⟩
    refine ⟨r, ?_, rfl⟩
    split at hr <;> simpa using hr
  · rintro ⟨r, hr, rfl⟩
    refine ⟨r, ?_, rfl⟩
    split <;> simpa using hr

/-- Change of the order of the patterns and of the patterns themselves by symmetries. -/
theorem Data.reparam (h : Data M div G P T) (σ τ : ℕ → ℕ) (B : ℕ → BaseMap (n + 1)) (hσ : ∀ k < M, σ k < M) (hτ : ∀ k < M, τ k < M)
    (hστ : ∀ k < M, σ (τ k) = k) :
    Data M div (fun k => Link.act (B k) (G (σ k))) (fun k => Path.img (B k) (P (σ k))) (newSpecs σ τ B T) where
  gen := by
    intro k hk
    have hi := (h.gen _ (hσ k hk)).img (B k)
    refine { hi with links_image := ?_ }
    intro l hl
    obtain ⟨b, m, hm, rfl⟩ := imageOf_iff_act.1 (hi.links_image l hl)
    obtain ⟨q, hq, rfl⟩ := List.mem_map.1 hm
    rw [List.mem_range] at hq
    refine imageOf_iff_act.2 ⟨b * (B (τ q))⁻¹, Link.act (B (τ q)) (G (σ (τ q))), List.mem_map.2 ⟨τ q, List.mem_range.2 (hτ q hq), rfl⟩, ?_⟩
    rw [hστ q hq, ← Link.act_mul, inv_mul_cancel_right]
  pnum := by
    intro k hk s hs
    obtain ⟨r, hr, rfl⟩ := mem_newSpecs.1 hs
    exact hτ _ (h.pnum _ (hσ k hk) r hr)
  links := by
    intro k hk
    show (if (B k).timeRev then (P (σ k)).links.reverse else (P (σ k)).links).map (Link.act (B k)) = _
    rw [h.links _ (hσ k hk)]
    have key : ∀ l : List (Spec (n + 1)), (∀ s ∈ l, s.pnum < M) → (l.map fun s => Link.act s.baseMap (G s.pnum)).map (Link.act (B k)) =
        (l.map fun s => (⟨B k * s.baseMap * (B (τ s.pnum))⁻¹, τ s.pnum⟩ : Spec (n + 1))).map fun s => Link.act s.baseMap (Link.act (B s.pnum) (G (σ s.pnum))) := by
      intro l hl
      rw [List.map_map, List.map_map]
      apply List.map_congr_left
      intro s hs
      simp only [Function.comp_apply]
      rw [hστ _ (hl s hs), ← Link.act_mul, ← Link.act_mul, inv_mul_cancel_right]
    have hpn := h.pnum _ (hσ k hk)
    unfold newSpecs
    by_cases hb : (B k).timeRev = true
    · simp only [hb, if_true]
      rw [← List.map_reverse]
      exact key _ fun s hs => hpn s (List.mem_reverse.1 hs)
    · simp only [hb]
      exact key _ hpn
  boundary := by
    intro k hk
    have hb := h.boundary _ (hσ k hk)
    have e : ∀ x : Point (n + 1), (∃ j, x j = 0 ∨ x j = 1) → ∃ j, Point.act (B k) x j = 0 ∨ Point.act (B k) x j = 1 := by
      rintro x ⟨j, hj⟩
      obtain ⟨i, hi⟩ := (B k).coords_surj j
      beta_reduce at hi
      refine ⟨i, ?_⟩
      show (B k).applyX 1 x i = 0 ∨ (B k).applyX 1 x i = 1
      unfold BaseMap.applyX
      rw [hi]
      rcases hj with h | h <;> rw [h] <;> split <;> norm_num
    rw [Link.act_def]
    by_cases ht : (B k).timeRev = true
    · simp only [ht, if_true]; exact ⟨e _ hb.2, e _ hb.1⟩
    · simp only [ht]; exact ⟨e _ hb.1, e _ hb.2⟩

/-- A base map with the given coordinate permutation and flips. -/
def mapOf (e : Equiv.Perm (Fin (n + 1))) (f : Fin (n + 1) → Bool) : BaseMap (n + 1) where
  coords j := (e j, f j)
  timeRev := false
  inj _ _ h := e.injective h

theorem mem_wholeFacet {g : GatesGen (n + 1)} {c : Fin (n + 1)} {v : Bool} {x : Point (n + 1)} (h1 : x c = if v then 1 else 0)
    (h2 : ∀ j, j ≠ c → 0 < x j ∧ x j < 1) : castPt x ∈ (g.wholeFacet c v).toSet := by
  refine ⟨?_, ?_⟩
  · show (x c : ℝ) = if v then 1 else 0
    rw [h1]
    split <;> norm_num
  · intro i
    have := h2 _ (Fin.succAbove_ne c i)
    show (0 : ℝ) < (x (c.succAbove i) : ℝ) ∧ (x (c.succAbove i) : ℝ) < 1
    exact_mod_cast this

theorem insideFacet_data {x : Point (n + 1)} (h : x.InsideFacet) : ∃ c, ∃ v : Bool, x c = (if v then 1 else 0) ∧ ∀ j, j ≠ c → 0 < x j ∧ x j < 1 := by
  obtain ⟨hu, c, hc, huniq⟩ := h
  refine ⟨c, decide (x c = 1), ?_, ?_⟩
  · rcases hc with h | h <;> rw [h] <;> simp
  · intro j hj
    have h0 : ¬ (x j = 0 ∨ x j = 1) := fun h => hj (huniq j h)
    push Not at h0
    exact ⟨lt_of_le_of_ne (hu j).1 (Ne.symm h0.1), lt_of_le_of_ne (hu j).2 h0.2⟩

/-- A gate strictly inside facets can be moved to one of the standard pairs of facets. -/
theorem exists_variant {g : GatesGen (n + 1)} (hn : 1 ≤ n) {variants : List (Link (FacetDivSubset n))}
    (h1 : ∀ v, (⟨g.wholeFacet 0 false, g.wholeFacet 0 v⟩ : Link (FacetDivSubset n)) ∈ variants)
    (h2 : ⟨g.wholeFacet 0 false, g.wholeFacet ⟨1, by omega⟩ false⟩ ∈ variants) {m : Link (Point (n + 1))}
    (hm : m.entrance.InsideFacet ∧ m.exit.InsideFacet) : ∃ l ∈ variants, ∃ b : BaseMap (n + 1), Covers l (Link.act b m) := by
  obtain ⟨c, v, ha, ha'⟩ := insideFacet_data hm.1
  obtain ⟨c', v', hb, hb'⟩ := insideFacet_data hm.2
  have act : ∀ (e : Equiv.Perm (Fin (n + 1))) f, Link.act (mapOf e f) m =
      ⟨fun j => if f j then 1 - m.entrance (e j) else m.entrance (e j), fun j => if f j then 1 - m.exit (e j) else m.exit (e j)⟩ := by
    intro e f; rfl
  have open_ : ∀ (e : Equiv.Perm (Fin (n + 1))) (f : Fin (n + 1) → Bool) (x : Point (n + 1)) (c k : Fin (n + 1)), e k = c → (∀ j, j ≠ c → 0 < x j ∧ x j < 1) →
      ∀ j, j ≠ k → 0 < (if f j then 1 - x (e j) else x (e j)) ∧ (if f j then 1 - x (e j) else x (e j)) < 1 := by
    intro e f x c k hk hx j hj
    have := hx (e j) (by rw [← hk]; exact fun h => hj (e.injective h))
    split
    · constructor <;> linarith [this.1, this.2]
    · exact this
  have hv : ∀ (v : Bool), (if v then 1 - (if v then (1 : ℚ) else 0) else (if v then (1 : ℚ) else 0)) = 0 := by intro v; cases v <;> simp
  by_cases hcc : c = c'
  · subst hcc
    refine ⟨_, h1 (xor v v'), mapOf (Equiv.swap 0 c) (fun j => decide (j = 0) && v), ?_⟩
    rw [act]
    constructor
    · apply mem_wholeFacet
      · simp only [decide_true, Bool.true_and, Equiv.swap_apply_left, ha, hv]; rfl
      · exact open_ _ _ _ c 0 (Equiv.swap_apply_left _ _) ha'
    · apply mem_wholeFacet
      · simp only [decide_true, Bool.true_and, Equiv.swap_apply_left, hb]
        cases v <;> cases v' <;> simp
      · exact open_ _ _ _ c 0 (Equiv.swap_apply_left _ _) hb'
  · set one : Fin (n + 1) := ⟨1, by omega⟩ with hone
    have h01 : one ≠ 0 := by intro h; have := congrArg Fin.val h; simp [hone] at this
    set c'' := Equiv.swap 0 c c' with hc''
    have hne : c'' ≠ 0 := by
      intro h
      have h' : Equiv.swap 0 c c'' = c' := by rw [hc'', Equiv.swap_apply_self]
      rw [h, Equiv.swap_apply_left] at h'
      exact hcc h'
    set e : Equiv.Perm (Fin (n + 1)) := Equiv.swap 0 c * Equiv.swap one c'' with he
    have e0 : e 0 = c := by
      rw [he, Equiv.Perm.mul_apply, Equiv.swap_apply_of_ne_of_ne h01.symm hne.symm, Equiv.swap_apply_left]
    have e1 : e one = c' := by
      rw [he, Equiv.Perm.mul_apply, Equiv.swap_apply_left, hc'', Equiv.swap_apply_self]
    refine ⟨_, h2, mapOf e (fun j => if j = 0 then v else if j = one then v' else false), ?_⟩
    rw [act]
    constructor
    · apply mem_wholeFacet
      · simp only [if_true, e0, ha, hv]; rfl
      · exact open_ _ _ _ c 0 e0 ha'
    · apply mem_wholeFacet
      · show (if (if one = 0 then v else if one = one then v' else false) = true then 1 - m.exit (e one) else m.exit (e one)) = _
        rw [if_neg h01, if_pos rfl, e1, hb, hv]; rfl
      · exact open_ _ _ _ c' one e1 hb'

/-- A permutation of patterns as a pair of functions. -/
theorem exists_perm {M : ℕ} {w : List ℕ} (hw : w.Perm (List.range M)) : ∃ σ τ : ℕ → ℕ, (∀ k < M, σ k < M) ∧ (∀ k < M, τ k < M) ∧ (∀ k < M, σ (τ k) = k) ∧
    (∀ k < M, w[k]? = some (σ k)) ∧ w = (List.range M).map σ := by
  have hwl : w.length = M := by rw [hw.length_eq]; simp
  have hwm : ∀ k, k ∈ w ↔ k < M := fun k => by rw [hw.mem_iff, List.mem_range]
  have hσw : ∀ i < M, w[i]? = some (w.getD i 0) := by
    intro i hi
    have : i < w.length := by omega
    simp [List.getD_eq_getElem?_getD, this]
  have hτlt : ∀ k < M, w.idxOf k < M := fun k hk => by
    have := List.idxOf_lt_length_iff.2 ((hwm k).2 hk)
    omega
  refine ⟨fun i => w.getD i 0, fun k => w.idxOf k, fun i hi => (hwm _).1 (List.mem_of_getElem? (hσw i hi)), hτlt, ?_, hσw, ?_⟩
  · intro k hk
    have h1 := hσw _ (hτlt k hk)
    have h2 : w[w.idxOf k]? = some k := by
      rw [List.getElem?_eq_getElem (by have := hτlt k hk; omega)]
      simp
    rw [h2] at h1
    exact (Option.some.inj h1).symm
  · apply List.ext_getElem?
    intro i
    by_cases hi : i < M
    · rw [hσw i hi]; simp [hi]
    · rw [List.getElem?_eq_none (by omega), List.getElem?_eq_none (by simp; omega)]

theorem stdOf_perm {M : ℕ} (G : ℕ → Link (Point (n + 1))) (B : ℕ → BaseMap (n + 1)) {σ : ℕ → ℕ} (hw : ((List.range M).map σ).Perm (List.range M)) :
    (((List.range M).map fun k => Link.act (B k) (G (σ k))).map Link.stdOf).Perm (((List.range M).map G).map Link.stdOf) := by
  have : ((List.range M).map fun k => Link.act (B k) (G (σ k))).map Link.stdOf = (((List.range M).map σ).map G).map Link.stdOf := by
    simp only [List.map_map]
    apply List.map_congr_left
    intro k _
    simp only [Function.comp_apply, Link.stdOf_act]
  rw [this]
  exact (hw.map _).map _

open GatesGen in
/-- The gates of the patterns are processed. -/
theorem Data.processed {g : GatesGen (n + 1)} (hn : 1 ≤ n) (hdiv : 2 ≤ g.div) (hfo : g.onlyFacet = true) {seen : Seen (n + 1)}
    (hproc : ∀ variants, g.linkVariants = some variants →
      ∀ links ∈ Itertools.combinationsWithReplacement variants g.mult, ∀ ps, Coarse g.div links ps →
        ∃ qs, Coarse g.div links qs ∧ PathTuple.SameUpToSymmetry links ps qs ∧
        ∀ ns, Finer g.div qs ns → ∀ S : ℕ → Bool → Spec (n + 1),
          (∀ p < g.mult, ∀ last, (S p last).pnum < g.mult ∧ Admitted ns p last (S p last)) → g.Processed seen (qs.map Path.proto) S)
    (h : Data g.mult g.div G P T) (hI : ∀ p < g.mult, (G p).entrance.InsideFacet ∧ (G p).exit.InsideFacet) :
    sortedStd ((List.range g.mult).map G) ∈ seen.std := by
  obtain ⟨variants, hv, hVD, hv1, hv2⟩ := linkVariants_eq hn hdiv
  -- standard facets
  have hst : ∀ p, ∃ l, ∃ b : BaseMap (n + 1), p < g.mult → l ∈ variants ∧ Covers l (Link.act b (G p)) := by
    intro p
    by_cases hp : p < g.mult
    · obtain ⟨l, hl, b, hb⟩ := exists_variant hn hv1 hv2 (hI p hp)
      exact ⟨l, b, fun _ => ⟨hl, hb⟩⟩
    · exact ⟨⟨g.wholeFacet 0 false, g.wholeFacet 0 false⟩, 1, fun h => absurd h hp⟩
  choose V B1 hVB using hst
  obtain ⟨links, hlinks, hperm⟩ := Itertools.cwr_exists (l := variants) (r := g.mult) (y := (List.range g.mult).map V) (by simp) (by
    intro a ha
    obtain ⟨p, hp, rfl⟩ := List.mem_map.1 ha
    exact (hVB p (List.mem_range.1 hp)).1)
  have hf : List.Forall₂ (fun a p => a = V p) ((List.range g.mult).map V) (List.range g.mult) := by
    rw [List.forall₂_map_left_iff, List.forall₂_same]; simp
  obtain ⟨w, hw1, hw2⟩ := List.perm_comp_forall₂ hperm hf
  obtain ⟨σ1, τ1, a1, a2, a3, a4, a5⟩ := exists_perm hw2
  have hd1 := h.reparam σ1 τ1 (fun k => B1 (σ1 k)) a1 a2 a3
  set G1 : ℕ → Link (Point (n + 1)) := fun k => Link.act (B1 (σ1 k)) (G (σ1 k)) with hG1
  set P1 : ℕ → Path (Point (n + 1)) (n + 1) := fun k => Path.img (B1 (σ1 k)) (P (σ1 k)) with hP1
  set T1 := newSpecs σ1 τ1 (fun k => B1 (σ1 k)) T with hT1
  set L : ℕ → Link (FacetDivSubset n) := fun k => V (σ1 k) with hL
  have hlinksL : links = (List.range g.mult).map L := by
    have : links = w.map V := by
      have hw1' : List.Forall₂ (fun a b => a = b) links (w.map V) := by rw [List.forall₂_map_right_iff]; exact hw1
      rwa [List.forall₂_eq_eq_eq] at hw1'
    rw [this, a5, List.map_map]; rfl
  have hL1 : ∀ k < g.mult, (L k).InDiv g.div ∧ Covers (L k) (G1 k) := fun k hk =>
    ⟨hVD _ (hVB _ (a1 k hk)).1, (hVB _ (a1 k hk)).2⟩
  -- coarse paths
  have hfp : ∀ k, ∃ q, k < g.mult → FacetPath g.div ((List.range g.mult).map L) none q ∧ Covers q.link (G1 k) ∧ q.proto = (P1 k).proto ∧
      q.links = (T1 k).map fun s => Link.act s.baseMap (L s.pnum) := by
    intro k
    by_cases hk : k < g.mult
    · obtain ⟨q, hq⟩ := hd1.facetPath hL1 hk
      exact ⟨q, fun _ => hq⟩
    · exact ⟨⟨0, [], [], V 0⟩, fun h => absurd h hk⟩
  choose ps hps using hfp
  obtain ⟨qs, hq1, ⟨_, _, ws, hq2, hq3⟩, hq4⟩ := hproc variants hv links hlinks ((List.range g.mult).map ps) (by
    unfold Coarse
    rw [hlinksL, List.forall₂_map_left_iff, List.forall₂_map_right_iff, List.forall₂_same]
    intro k hk
    rw [List.mem_range] at hk
    exact ⟨(hps k hk).1, (hps k hk).2.1.meets (hL1 k hk).2⟩)
  have hzip : links.zip ((List.range g.mult).map ps) = (List.range g.mult).map fun k => (L k, ps k) := by
    rw [hlinksL, List.zip_map']
  rw [hzip, List.forall₂_map_left_iff] at hq2
  have hwsl : ws.length = g.mult := by rw [← hq2.length_eq]; simp
  have hws : ∀ k, ∃ b : BaseMap (n + 1), k < g.mult → Link.act b (L k) = L k ∧ ws[k]? = some (FacetGen.img b (ps k)) := by
    intro k
    by_cases hk : k < g.mult
    · obtain ⟨y, hy, b, hb1, hb2⟩ := forall₂_getElem?' hq2 k k (by simp [hk])
      rw [FacetGen.act_eq (FacetGen.facetPath_acts (hps k hk).1)] at hb2
      refine ⟨b, fun _ => ⟨hb1, ?_⟩⟩
      rw [hy, ← Option.some.inj hb2]
    · exact ⟨1, fun h => absurd h hk⟩
  choose B2 hB2 using hws
  -- the order of the paths
  have hf2 : List.Forall₂ (fun k e => e = (L k, FacetGen.img (B2 k) (ps k))) (List.range g.mult) (links.zip ws) := by
    have : links.zip ws = (List.range g.mult).map fun k => (L k, FacetGen.img (B2 k) (ps k)) := by
      rw [hlinksL, ← List.zip_map']
      congr 1
      apply List.ext_getElem?
      intro k
      by_cases hk : k < g.mult
      · rw [(hB2 k hk).2]; simp [hk]
      · rw [List.getElem?_eq_none (by omega), List.getElem?_eq_none (by simp; omega)]
    rw [this, List.forall₂_map_right_iff, List.forall₂_same]
    simp
  obtain ⟨w2, hw3, hw4⟩ := forall₂_perm hf2 hq3
  obtain ⟨σ2, τ2, b1, b2, b3, b4, b5⟩ := exists_perm hw3
  have hqsl : qs.length = g.mult := by
    have := hq1.length_eq
    rw [← this, hlinksL]; simp
  have hkq : ∀ k < g.mult, L (σ2 k) = L k ∧ qs[k]? = some (FacetGen.img (B2 (σ2 k)) (ps (σ2 k))) := by
    intro k hk
    obtain ⟨e, he, hr⟩ := forall₂_getElem?' hw4 k (σ2 k) (b4 k hk)
    have hq := List.getElem?_eq_getElem (show k < qs.length by omega)
    have hl : links[k]? = some (L k) := by rw [hlinksL]; simp [hk]
    have : (links.zip qs)[k]? = some (L k, qs[k]) := by
      rw [List.getElem?_zip_eq_some]; exact ⟨hl, hq⟩
    rw [this] at he
    cases he
    rw [Prod.mk.injEq] at hr
    exact ⟨hr.1.symm, by rw [hq, hr.2]⟩
  have hd2 := hd1.reparam σ2 τ2 (fun k => B2 (σ2 k)) b1 b2 b3
  set G2 : ℕ → Link (Point (n + 1)) := fun k => Link.act (B2 (σ2 k)) (G1 (σ2 k)) with hG2
  set P2 : ℕ → Path (Point (n + 1)) (n + 1) := fun k => Path.img (B2 (σ2 k)) (P1 (σ2 k)) with hP2
  set T2 := newSpecs σ2 τ2 (fun k => B2 (σ2 k)) T1 with hT2
  have hLσ : ∀ k < g.mult, Link.act (B2 (σ2 k)) (L (σ2 k)) = L k := fun k hk => by rw [(hB2 _ (b1 k hk)).1, (hkq k hk).1]
  have hL2 : ∀ k < g.mult, (L k).InDiv g.div ∧ Covers (L k) (G2 k) := by
    intro k hk
    refine ⟨(hL1 k hk).1, ?_⟩
    rw [← hLσ k hk]
    exact (hL1 _ (b1 k hk)).2.act (hL1 _ (b1 k hk)).1 _
  -- the found paths are the facet paths of the new patterns
  have hqk : ∀ k < g.mult, ∃ q, qs[k]? = some q ∧ FacetPath g.div ((List.range g.mult).map L) none q ∧ Covers q.link (G2 k) ∧ q.proto = (P2 k).proto ∧
      q.links = (T2 k).map fun s => Link.act s.baseMap (L s.pnum) := by
    intro k hk
    obtain ⟨q, c1, c2, c3, c4⟩ := hd2.facetPath hL2 hk
    refine ⟨q, ?_, c1, c2, c3, c4⟩
    rw [(hkq k hk).2]
    obtain ⟨d1, d2, d3, d4⟩ := hps _ (b1 k hk)
    have hi := FacetGen.act_eq (FacetGen.facetPath_acts d1) (B2 (σ2 k))
    have hi2 : Path.make g.div q.proto q.links = some (FacetGen.img (B2 (σ2 k)) (ps (σ2 k))) := by
      rw [← hi]
      unfold Path.act
      rw [d1.div_eq]
      congr 1
      · rw [c3, d3]
        show (P1 (σ2 k)).proto.act (P1 (σ2 k)).div _ = _
        rw [(hd1.gen _ (b1 k hk)).div_eq]
      · rw [c4, d4]
        have key : ∀ l : List (Spec (n + 1)), (∀ s ∈ l, s.pnum < g.mult) →
            ((l.map fun s => (⟨B2 (σ2 k) * s.baseMap * (B2 (σ2 (τ2 s.pnum)))⁻¹, τ2 s.pnum⟩ : Spec (n + 1))).map fun s => Link.act s.baseMap (L s.pnum)) =
            (l.map fun s => Link.act s.baseMap (L s.pnum)).map (Link.act (B2 (σ2 k))) := by
          intro l hl
          rw [List.map_map, List.map_map]
          apply List.map_congr_left
          intro s hs
          have hs' := hl s hs
          simp only [Function.comp_apply]
          rw [Link.act_mul_facet, Link.act_mul_facet]
          congr 2
          have e1 := hLσ _ (b2 _ hs')
          rw [b3 _ hs'] at e1 ⊢
          rw [← e1, ← Link.act_mul_facet, inv_mul_cancel, Link.act_one_facet]
        have hpn := hd1.pnum _ (b1 k hk)
        show ((newSpecs σ2 τ2 (fun k => B2 (σ2 k)) T1 k).map _) = _
        unfold newSpecs
        by_cases hb : (B2 (σ2 k)).timeRev = true
        · simp only [hb, if_true]
          rw [← List.map_reverse]
          exact key _ fun s hs => hpn s (List.mem_reverse.1 hs)
        · simp only [hb]
          exact key _ hpn
    have hmade := c1.made
    rw [c1.div_eq] at hmade
    rw [← hi2, hmade]
  haveI : Nonempty (Path (FacetDivSubset n) (n + 1)) := ⟨⟨0, [], [], V 0⟩⟩
  haveI : Nonempty (Spec (n + 1)) := ⟨⟨1, 0⟩⟩
  choose! q hqq using hqk
  have hqsq : qs = (List.range g.mult).map q := by
    apply List.ext_getElem?
    intro k
    by_cases hk : k < g.mult
    · rw [(hqq k hk).1]; simp [hk]
    · rw [List.getElem?_eq_none (by omega), List.getElem?_eq_none (by simp; omega)]
  -- narrow paths
  have hLD : ∀ l ∈ (List.range g.mult).map L, l.InDiv g.div := by
    intro l hl
    obtain ⟨k, hk, rfl⟩ := List.mem_map.1 hl
    exact (hL1 k (List.mem_range.1 hk)).1
  have hL3 : ∀ k < g.mult, ((q k).link).InDiv g.div ∧ Covers (q k).link (G2 k) := fun k hk =>
    ⟨(hqq k hk).2.1.link_inDiv hLD, (hqq k hk).2.2.1⟩
  have hns : ∀ k, ∃ N, k < g.mult → FacetPath g.div ((List.range g.mult).map fun k => (q k).link) none N ∧ Covers N.link (G2 k) ∧ N.proto = (P2 k).proto ∧
      N.links = (T2 k).map fun s => Link.act s.baseMap (q s.pnum).link := by
    intro k
    by_cases hk : k < g.mult
    · obtain ⟨N, hN⟩ := hd2.facetPath hL3 hk
      exact ⟨N, fun _ => hN⟩
    · exact ⟨⟨0, [], [], V 0⟩, fun h => absurd h hk⟩
  choose N hN using hns
  -- specs and points
  choose! C0 C1 S0 S1 hends using fun p (hp : p < g.mult) => hd2.ends hp
  set S : ℕ → Bool → Spec (n + 1) := fun p last => if last then S1 p else S0 p with hS
  have hSmem : ∀ p < g.mult, ∀ last, S p last ∈ T2 p := by
    intro p hp last
    cases last
    · exact List.mem_of_mem_head? (hends p hp).2.2.1
    · exact List.mem_of_getLast? (hends p hp).2.2.2.1
  have hres := hq4 ((List.range g.mult).map N) (by
      unfold Finer
      rw [hqsq, List.forall₂_map_left_iff, List.forall₂_map_right_iff, List.forall₂_same]
      intro k hk
      rw [List.mem_range] at hk
      rw [List.map_map]
      refine ⟨(hN k hk).1, by rw [(hN k hk).2.2.1, (hqq k hk).2.2.2.1], ?_⟩
      intro i l l' hl hl'
      rw [(hN k hk).2.2.2, List.getElem?_map, Option.map_eq_some_iff] at hl
      rw [(hqq k hk).2.2.2.2, List.getElem?_map, Option.map_eq_some_iff] at hl'
      obtain ⟨s, hs, rfl⟩ := hl
      obtain ⟨s', hs', rfl⟩ := hl'
      rw [hs] at hs'
      cases hs'
      have hlt := hd2.pnum k hk s (List.mem_of_getElem? hs)
      exact ((hL3 _ hlt).2.act (hL3 _ hlt).1 s.baseMap).meets ((hL2 _ hlt).2.act (hL2 _ hlt).1 s.baseMap)) S (by
    intro p hp last
    have hm := hSmem p hp last
    have hlt := hd2.pnum p hp _ hm
    refine ⟨hlt, N (S p last).pnum, N p, Link.act (S p last).baseMap (q (S p last).pnum).link, by simp [hlt], by simp [hp], ?_, ?_⟩
    · unfold endLinkOf
      rw [(hN p hp).2.2.2]
      cases last
      · simp only [Bool.false_eq_true, if_false, List.head?_map, (hends p hp).2.2.1]; rfl
      · simp only [if_true, List.getLast?_map, (hends p hp).2.2.2.1]; rfl
    · refine Covers.mem_argmul ((hN _ hlt).1.link_inDiv ?_) ((hL3 _ hlt).1.act _) (hN _ hlt).2.1 ((hL3 _ hlt).2.act (hL3 _ hlt).1 _)
      intro l hl
      obtain ⟨k, hk, rfl⟩ := List.mem_map.1 hl
      exact (hL3 k (List.mem_range.1 hk)).1)
  have hres2 := hres (fun last p => if last then (G2 p).exit else (G2 p).entrance) ?_ ?_
  · have e : sortedStd ((List.range g.mult).map G) = sortedStd ((List.range g.mult).map G2) := by
      apply sortedStd_congr
      refine List.Perm.symm ((stdOf_perm G1 (fun k => B2 (σ2 k)) (b5 ▸ hw3)).trans (stdOf_perm G (fun k => B1 (σ1 k)) (a5 ▸ hw2)))
    rw [e]
    exact hres2
  · intro last p hp cube hcube j
    rw [hqsq, List.map_map, List.getElem?_map, List.getElem?_range hp] at hcube
    simp only [Option.map_some, Option.bind_some, Function.comp_apply, endCube_eq, (hqq p hp).2.2.2.1] at hcube
    obtain ⟨f1, f2, _, _, f3, f4⟩ := hends p hp
    have hact : ∀ s : Spec (n + 1), ∀ last, (if last then (Link.act s.baseMap (G2 s.pnum)).exit else (Link.act s.baseMap (G2 s.pnum)).entrance) =
        s.baseMap.applyX 1 (if (xor last s.baseMap.timeRev) then (G2 s.pnum).exit else (G2 s.pnum).entrance) := by
      intro s last
      rw [Link.act_def]
      cases s.baseMap.timeRev <;> cases last <;> rfl
    cases last
    · simp only [Bool.false_eq_true, if_false, f1, Option.join_some, Option.some.injEq] at hcube
      have := hact (S p false) false
      rw [← this, ← hcube]
      simp only [Bool.false_eq_true, if_false]
      rw [f3 j]
      show _ = (_ + (Link.act (S0 p).baseMap (G2 (S0 p).pnum)).entrance j) / _
      ring
    · simp only [if_true, f2, Option.join_some, Option.some.injEq] at hcube
      have := hact (S p true) true
      rw [← this, ← hcube]
      simp only [if_true]
      rw [f4 j]
      show _ = (_ + (Link.act (S1 p).baseMap (G2 (S1 p).pnum)).exit j) / _
      ring
  · intro last p hp
    have hr : ∀ k < g.mult, g.rejects (G k).entrance = false ∧ g.rejects (G k).exit = false := by
      intro k hk
      obtain ⟨i1, i2⟩ := hI k hk
      rw [rejects_false_iff, rejects_false_iff]
      exact ⟨⟨i1.2.exists, fun _ => (Point.insideFacet_iff i1.1).1 i1⟩, ⟨i2.2.exists, fun _ => (Point.insideFacet_iff i2.1).1 i2⟩⟩
    have hra : ∀ (b : BaseMap (n + 1)) (m : Link (Point (n + 1))), g.rejects m.entrance = false ∧ g.rejects m.exit = false →
        g.rejects (Link.act b m).entrance = false ∧ g.rejects (Link.act b m).exit = false := by
      intro b m hm
      rw [Link.act_def]
      have e : ∀ x : Point (n + 1), g.rejects (Point.act b x) = g.rejects x := rejects_act b
      by_cases hb : b.timeRev = true
      · simp only [hb, if_true, e]; exact ⟨hm.2, hm.1⟩
      · simp only [hb]; simp only [Bool.false_eq_true, if_false, e]; exact hm
    have := hra (B2 (σ2 p)) _ (hra (B1 (σ1 (σ2 p))) _ (hr _ (a1 _ (b1 p hp))))
    cases last
    · exact this.1
    · exact this.2

end FacetGates
end Peano
