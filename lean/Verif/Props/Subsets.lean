import Verif.Lemmas.Points
import Verif.Lemmas.Facets

/-!
Properties C31-C35: points, gates and facet subsets of `peano/subsets.py`.
-/

set_option autoImplicit false

namespace Peano
variable {d n : ℕ}

/-! ### C31 -/

/-- C31. `gen_neighbours` yields, each once, exactly the unit cubes `c + [0,1]^d` other than the base one that contain the point, with
the position of the point relative to the cube. -/
theorem C31_gen_neighbours (p : Point d) :
    p.genNeighbours.Nodup ∧
    ∀ (c : Cube d) (q : Point d), (c, q) ∈ p.genNeighbours ↔
      (∃ j, c j ≠ 0) ∧ (∀ j, (c j : ℚ) ≤ p j ∧ p j ≤ (c j : ℚ) + 1) ∧ ∀ j, q j = p j - c j := by
  unfold Point.genNeighbours
  constructor
  · exact ((nodup_genIntegerCubes p).filter _).map (fun a b h => (Prod.mk.inj h).1)
  · intro c q
    simp only [List.mem_map, List.mem_filter, mem_genIntegerCubes, Prod.mk.injEq, Bool.not_eq_true', decide_eq_false_iff_not, not_forall]
    constructor
    · rintro ⟨c, ⟨h1, h2⟩, rfl, rfl⟩
      refine ⟨h2, h1, fun j => ?_⟩
      unfold Point.shift
      push_cast
      ring
    · rintro ⟨h1, h2, h3⟩
      refine ⟨c, ⟨h2, h1⟩, rfl, ?_⟩
      funext j
      rw [h3]
      unfold Point.shift
      push_cast
      ring

/-- C31. `divide(div)` yields, each once, exactly the cubes of the `div`-grid of the unit cube that contain the point, with the relative
position of the point. -/
theorem C31_divide (p : Point d) (div : ℕ) (hd : 0 < div) :
    (p.divide div).Nodup ∧
    ∀ (c : Cube d) (q : Point d), (c, q) ∈ p.divide div ↔
      (∀ j, 0 ≤ c j ∧ c j < div) ∧ (∀ j, (c j : ℚ) / div ≤ p j ∧ p j ≤ ((c j : ℚ) + 1) / div) ∧ ∀ j, p j = ((c j : ℚ) + q j) / div := by
  have hd' : (0 : ℚ) < div := by exact_mod_cast hd
  unfold Point.divide
  constructor
  · exact ((nodup_genIntegerCubes _).filter _).map (fun a b h => (Prod.mk.inj h).1)
  · intro c q
    simp only [List.mem_map, List.mem_filter, mem_genIntegerCubes, Prod.mk.injEq, Bool.not_eq_true', decide_eq_false_iff_not, not_exists,
      not_or, not_lt, ge_iff_le, not_le]
    have key : ∀ c' : Cube d, (∀ j, (c' j : ℚ) ≤ p.scale div j ∧ p.scale div j ≤ (c' j : ℚ) + 1) ↔
        ∀ j, (c' j : ℚ) / div ≤ p j ∧ p j ≤ ((c' j : ℚ) + 1) / div := by
      intro c'
      refine forall_congr' fun j => ?_
      rw [div_le_iff₀ hd', le_div_iff₀ hd']
      rfl
    constructor
    · rintro ⟨c, ⟨h1, h2⟩, rfl, rfl⟩
      refine ⟨h2, (key c).1 h1, fun j => ?_⟩
      unfold Point.shift Point.scale
      field_simp
      push_cast
      ring
    · rintro ⟨h1, h2, h3⟩
      refine ⟨c, ⟨(key c).2 h2, h1⟩, rfl, ?_⟩
      funext j
      unfold Point.shift Point.scale
      rw [h3]
      field_simp
      push_cast
      ring

/-- C31. `map_to_cube` inverts `divide`: every fraction is put back to the point; conversely a point of the unit cube put in a cube of
the grid is found among the fractions of the result.  Every point of the unit cube has fractions. -/
theorem C31_map_to_cube (div : ℕ) (hd : 0 < div) :
    (∀ (p q : Point d) (c : Cube d), (c, q) ∈ p.divide div → q.mapToCube div c = some p) ∧
    (∀ (q : Point d) (c : Cube d), (∀ j, 0 ≤ q j ∧ q j ≤ 1) → (∀ j, 0 ≤ c j ∧ c j < div) →
      ∃ p, q.mapToCube div c = some p ∧ (c, q) ∈ p.divide div) ∧
    (∀ p : Point d, (∀ j, 0 ≤ p j ∧ p j ≤ 1) → p.divide div ≠ []) := by
  have hd' : (0 : ℚ) < div := by exact_mod_cast hd
  refine ⟨?_, ?_, ?_⟩
  · intro p q c h
    obtain ⟨_, _, h3⟩ := ((C31_divide p div hd).2 c q).1 h
    unfold Point.mapToCube
    rw [if_neg hd.ne']
    congr 1
    funext j
    rw [h3]
    unfold Point.scale Point.shift
    ring
  · intro q c hq hc
    refine ⟨fun j => ((c j : ℚ) + q j) / div, ?_, ?_⟩
    · unfold Point.mapToCube
      rw [if_neg hd.ne']
      congr 1
      funext j
      unfold Point.scale Point.shift
      ring
    · rw [(C31_divide _ div hd).2]
      refine ⟨hc, fun j => ⟨?_, ?_⟩, fun j => rfl⟩
      · rw [div_le_div_iff_of_pos_right hd']; linarith [(hq j).1]
      · rw [div_le_div_iff_of_pos_right hd']; linarith [(hq j).2]
  · intro p hp h0
    -- the cube of the integer part, the last one for the coordinate 1
    let c : Cube d := fun j => if p j = 1 then (div : ℤ) - 1 else ⌊p j * div⌋
    have hc : ∀ j, (0 ≤ c j ∧ c j < div) ∧ ((c j : ℚ) / div ≤ p j ∧ p j ≤ ((c j : ℚ) + 1) / div) := by
      intro j
      rw [div_le_iff₀ hd', le_div_iff₀ hd']
      by_cases h1 : p j = 1
      · have : c j = (div : ℤ) - 1 := if_pos h1
        rw [this, h1]
        push_cast
        refine ⟨⟨by omega, by omega⟩, by linarith, by linarith⟩
      · have hcj : c j = ⌊p j * div⌋ := if_neg h1
        rw [hcj]
        have hlt : p j < 1 := lt_of_le_of_ne (hp j).2 h1
        refine ⟨⟨Int.floor_nonneg.2 (mul_nonneg (hp j).1 hd'.le), ?_⟩, Int.floor_le _, (Int.lt_floor_add_one _).le⟩
        rw [Int.floor_lt]
        push_cast
        nlinarith
    have : (c, fun j => p j * div - c j) ∈ p.divide div := by
      rw [(C31_divide p div hd).2]
      refine ⟨fun j => (hc j).1, fun j => (hc j).2, fun j => ?_⟩
      field_simp
      ring
    rw [h0] at this
    simp at this

/-- Examples: a vertex has three neighbours on the plane; an interior grid point belongs to four fractions. -/
example : (Point.genNeighbours ![(1 : ℚ), 1]).length = 3 := by decide +kernel
example : (Point.divide ![(1 : ℚ) / 2, 1 / 2] 2).length = 4 := by decide +kernel

/-! ### C32 -/

/-- C32. `std()` is one of the images of the point under base maps and no image precedes it lexicographically. -/
theorem C32_std (p : Point d) :
    (∃ a : BaseMap d, a.applyX 1 p = p.std) ∧ ∀ a : BaseMap d, ¬ (List.ofFn (a.applyX 1 p) < List.ofFn p.std) := by
  obtain ⟨a, _, ha⟩ := Point.exists_act_std p
  exact ⟨⟨a, ha⟩, fun a => not_lt.2 (Point.std_le_act p a)⟩

/-- C32. Two points have the same standard form iff a base map sends one to the other. -/
theorem C32_std_eq_iff (p q : Point d) : p.std = q.std ↔ ∃ a : BaseMap d, a.applyX 1 p = q := by
  constructor
  · intro h
    obtain ⟨a, _, ha⟩ := Point.exists_act_std p
    obtain ⟨b, _, hb⟩ := Point.exists_act_std q
    refine ⟨b⁻¹ * a, ?_⟩
    have : Point.act (b⁻¹ * a) p = q := by
      rw [Point.act_mul, ha, h, ← hb, ← Point.act_mul, inv_mul_cancel, Point.act_one]
    exact this
  · rintro ⟨a, rfl⟩
    exact (Point.std_act p a).symm

/-- C32. `argstd()` never fails and yields, each once, exactly the base maps without time reversal that attain the standard form. -/
theorem C32_argstd (p : Point d) :
    p.argstd.Nodup ∧ ∀ r, r ∈ p.argstd ↔ ∃ a : BaseMap d, r = some a ∧ a.timeRev = false ∧ a.applyX 1 p = p.std := by
  obtain ⟨L, h1, h2, h3⟩ := p.argstd_eq
  rw [h1]
  refine ⟨h2.map (Option.some_injective _), fun r => ?_⟩
  simp only [List.mem_map, h3]
  constructor
  · rintro ⟨a, ha, rfl⟩; exact ⟨a, rfl, ha⟩
  · rintro ⟨a, rfl, ha⟩; exact ⟨a, ha, rfl⟩

example : Point.std ![(1 : ℚ), 1 / 3, 3 / 4] = ![0, 1 / 4, 1 / 3] := by decide +kernel
example : (Point.argstd ![(1 : ℚ), 1 / 2, 1]).length = 4 := by decide +kernel

/-! ### C33 -/

/-- The order of pairs of points: lexicographic, first entrances then exits. -/
def PrecedesLink (l m : Link (Point d)) : Prop :=
  List.ofFn l.entrance < List.ofFn m.entrance ∨ (l.entrance = m.entrance ∧ List.ofFn l.exit < List.ofFn m.exit)

/-- The image of a gate under a base map: both points are moved, and swapped if time is reversed. -/
def imageLink (a : BaseMap d) (l : Link (Point d)) : Link (Point d) :=
  if a.timeRev then ⟨a.applyX 1 l.exit, a.applyX 1 l.entrance⟩ else ⟨a.applyX 1 l.entrance, a.applyX 1 l.exit⟩

/-- C33. `Link.std()` of a point link succeeds, is one of the images of the link, and no image precedes it. -/
theorem C33_link_std (l : Link (Point d)) :
    ∃ m, l.stdPoint = some m ∧ (∃ a : BaseMap d, imageLink a l = m) ∧ ∀ a : BaseMap d, ¬ PrecedesLink (imageLink a l) m := by
  obtain ⟨m, h1, ⟨a, h2⟩, h3⟩ := l.stdPoint_spec
  refine ⟨m, h1, ⟨a, h2⟩, ?_⟩
  intro b hb
  have := h3 b
  rw [key_le] at this
  change PrecedesLink (Link.act b l) m at hb
  rcases hb with hb | ⟨hb1, hb2⟩
  · rcases this with h | ⟨h, _⟩
    · exact absurd hb (not_lt.2 h.le)
    · rw [h] at hb; exact absurd hb (lt_irrefl _)
  · rcases this with h | ⟨_, h⟩
    · rw [hb1] at h; exact absurd h (lt_irrefl _)
    · exact absurd hb2 (not_lt.2 h)

/-- C33. The standard form equals the minimum over all base maps as the unoptimized code computes it. -/
theorem C33_link_std_generic (l : Link (Point d)) : l.stdPoint = l.stdGeneric := by
  obtain ⟨m, h1, ⟨a, h2⟩, h3⟩ := l.stdPoint_spec
  rw [h1, eq_comm]
  unfold Link.stdGeneric
  rw [pyMin_spec Link.keyOrder]
  refine ⟨List.mem_map.2 ⟨a, BaseMap.mem_genBaseMaps.2 (by simp), h2⟩, ?_⟩
  intro x hx
  obtain ⟨b, _, rfl⟩ := List.mem_map.1 hx
  exact h3 b

/-- C33. Two gates have the same standard form iff one is the image of the other. -/
theorem C33_link_std_eq_iff (l l' : Link (Point d)) : l.stdPoint = l'.stdPoint ↔ ∃ a : BaseMap d, imageLink a l = l' := by
  constructor
  · intro h
    obtain ⟨m, h1, ⟨a, h2⟩, _⟩ := l.stdPoint_spec
    obtain ⟨m', h1', ⟨a', h2'⟩, _⟩ := l'.stdPoint_spec
    rw [h1, h1'] at h
    cases h
    refine ⟨a'⁻¹ * a, ?_⟩
    have : Link.act (a'⁻¹ * a) l = l' := by
      rw [Link.act_mul, h2, ← h2', ← Link.act_mul, inv_mul_cancel, Link.act_one]
    exact this
  · rintro ⟨a, ha⟩
    have ha : Link.act a l = l' := ha
    rw [C33_link_std_generic, C33_link_std_generic]
    unfold Link.stdGeneric
    apply pyMin_congr Link.keyOrder
    intro x
    simp only [List.mem_map]
    constructor
    · rintro ⟨b, _, rfl⟩
      refine ⟨b * a⁻¹, BaseMap.mem_genBaseMaps.2 (by simp), ?_⟩
      rw [← ha, ← Link.act_mul, inv_mul_cancel_right]
    · rintro ⟨b, _, rfl⟩
      refine ⟨b * a, BaseMap.mem_genBaseMaps.2 (by simp), ?_⟩
      rw [← ha, ← Link.act_mul]

/-- The three branches occur. -/
example : Link.stdPoint ⟨![(1 : ℚ), 1], ![1 / 2, 0]⟩ = some ⟨![0, 0], ![1 / 2, 1]⟩ := by decide +kernel
example : Link.stdPoint ⟨![(1 : ℚ) / 2, 0], ![1, 1]⟩ = some ⟨![0, 0], ![1 / 2, 1]⟩ := by decide +kernel
example : Link.stdPoint ⟨![(1 : ℚ), 1], ![0, 1]⟩ = some ⟨![0, 0], ![0, 1]⟩ := by decide +kernel

/-! ### C34 -/

namespace FacetDivSubset

/-- C34. Two facet subsets with the same `div` intersect, as the code says, iff the sets they denote intersect; then one of the sets
contains the other. -/
theorem C34_intersects (s t : FacetDivSubset n) (hs : s.WF) (ht : t.WF) (hd : s.div = t.div) :
    (s.intersects t = true ↔ (s.toSet ∩ t.toSet).Nonempty) ∧ (s.intersects t = true → s.toSet ⊆ t.toSet ∨ t.toSet ⊆ s.toSet) :=
  ⟨toSet_inter hs ht hd, toSet_nested hs ht hd⟩

/-- C34. `bm * S` denotes the image of the set. -/
theorem C34_act (s : FacetDivSubset n) (hs : s.WF) (a : BaseMap (n + 1)) :
    (act a s).WF ∧ (act a s).div = s.div ∧ (act a s).toSet = a.applyX 1 '' s.toSet :=
  ⟨act_wf hs a, rfl, toSet_act hs a⟩

/-- C34. `map_to_cube` succeeds iff the cube touches the facet of the set, and then denotes the copy of the set in the cube. -/
theorem C34_map_to_cube (s : FacetDivSubset n) (hs : s.WF) (cube : Cube (n + 1)) (hcube : ∀ j, 0 ≤ cube j ∧ cube j < s.div) :
    ((∃ t, s.mapToCube s.div cube = some t) ↔ cube s.facetCoord = if s.facetValue then (s.div : ℤ) - 1 else 0) ∧
    ∀ t, s.mapToCube s.div cube = some t → t.WF ∧ t.div = s.div ∧ t.toSet = placed s.div cube s.toSet := by
  refine ⟨⟨?_, ?_⟩, ?_⟩
  · rintro ⟨t, ht⟩
    exact (mapToCube_eq.1 ht).1
  · intro h
    exact ⟨_, mapToCube_eq.2 ⟨h, rfl⟩⟩
  · intro t ht
    refine ⟨mapToCube_wf hs hcube ht, ?_, toSet_mapToCube hs ht⟩
    rw [(mapToCube_eq.1 ht).2]

/-- C34. `gen_neighbours` yields one pair: the only unit cube other than the base one that meets the set; it contains the whole set,
and the yielded subset is its portion, relative to the cube. -/
theorem C34_gen_neighbours (s : FacetDivSubset n) (hs : s.WF) :
    ∃ c t, s.genNeighbours = [(c, t)] ∧ t.WF ∧ t.div = s.div ∧ c ≠ 0 ∧ s.toSet = translated c t.toSet ∧ s.toSet ⊆ boxAt c 1 ∧
      ∀ c', c' ≠ 0 → (s.toSet ∩ boxAt c' 1).Nonempty → c' = c := genNeighbours_spec hs

/-- C34. `divide(div)` yields each cube once; the yielded subset denotes, relative to the cube, the part of the set in the cube (the
boundaries between cubes are not included in the sets); the cubes are exactly those whose part is not empty. -/
theorem C34_divide (s : FacetDivSubset n) (hs : s.WF) :
    ∃ l, s.divide s.div = some l ∧ (l.map Prod.fst).Nodup ∧
      (∀ e ∈ l, e.2.WF ∧ e.2.div = s.div ∧ (∀ j, 0 ≤ e.1 j ∧ e.1 j < s.div) ∧
        s.toSet ∩ cellOpenBut s.facetCoord s.div e.1 = placed s.div e.1 e.2.toSet) ∧
      ∀ c : Cube (n + 1), (∀ j, 0 ≤ c j ∧ c j < s.div) →
        (c ∈ l.map Prod.fst ↔ (s.toSet ∩ cellOpenBut s.facetCoord s.div c).Nonempty) := by
  obtain ⟨l, h1, h2, h3, h4⟩ := divide_spec hs
  refine ⟨l, h1, h2, fun e he => ?_, fun c hc => ⟨fun hm => ?_, h4 c hc⟩⟩
  · obtain ⟨g1, g2, g3, _, g5⟩ := h3 e he
    exact ⟨g1, g2, g3, g5⟩
  · obtain ⟨e, he, rfl⟩ := List.mem_map.1 hm
    obtain ⟨g1, g2, g3, _, g5⟩ := h3 e he
    rw [g5]
    obtain ⟨u, hu⟩ := openNest_nonempty g1.div_pos e.2.cubes
    obtain ⟨x, hx1, hx2⟩ := exists_point e.2.facetCoord (if e.2.facetValue then 1 else 0) u
    exact ⟨fun j => ((e.1 j : ℝ) + x j) / s.div, x, ⟨hx1, by rw [hx2]; exact hu⟩, fun j => rfl⟩

/-- The set `x2 = 1, 0 < x0 < 1/3, 1/3 < x1 < 2/3` of the documentation. -/
def example3 : FacetDivSubset 2 := ⟨3, 2, true, [![0, 1]]⟩

example : example3.WF := ⟨by decide, by decide⟩
example : ![1 / 6, 1 / 2, 1] ∈ example3.toSet := by
  refine ⟨rfl, fun _ => 1 / 2, fun i => by norm_num, fun i => ?_⟩
  unfold example3
  have h0 : (2 : Fin 3).succAbove (0 : Fin 2) = 0 := by decide
  have h1 : (2 : Fin 3).succAbove (1 : Fin 2) = 1 := by decide
  match i with
  | 0 =>
    beta_reduce
    rw [h0]
    norm_num
  | 1 =>
    beta_reduce
    rw [h1]
    norm_num

end FacetDivSubset

/-! ### C35 -/

/-- C35 for point links: `argmul_intersect` yields, each once, exactly the base maps whose image of the link intersects (equals) the
other link. -/
theorem C35_argmul_intersect_points (l m : Link (Point d)) :
    (l.argmulIntersect m).Nodup ∧ ∀ a : BaseMap d, a ∈ l.argmulIntersect m ↔ imageLink a l = m := by
  have hset : ∀ (p q : Point d) (L : List (BaseMap d)), Link.argmulIntersectSet p q L = L.filter fun a => decide (a.applyX 1 p = q) :=
    fun _ _ _ => rfl
  unfold Link.argmulIntersect
  simp only [hset]
  constructor
  · apply nodup_append_invert
    · exact ((BaseMap.nodup_genBaseMaps _).filter _).filter _
    · exact ((BaseMap.nodup_genBaseMaps _).filter _).filter _
    · intro a ha
      exact BaseMap.mem_genBaseMaps.1 (List.mem_filter.1 (List.mem_filter.1 ha).1).1 false rfl
    · intro a ha
      exact BaseMap.mem_genBaseMaps.1 (List.mem_filter.1 (List.mem_filter.1 ha).1).1 false rfl
  · intro a
    rw [mem_append_invert]
    simp only [List.mem_filter, BaseMap.mem_genBaseMaps, Option.mem_def, decide_eq_true_eq]
    obtain ⟨e, x⟩ := m
    unfold imageLink
    by_cases ha : a.timeRev = true
    · have h1 : ∀ p : Point d, a.invert.applyX 1 p = a.applyX 1 p := fun _ => rfl
      have h2 : a.invert.timeRev = false := by unfold BaseMap.invert; simp [ha]
      simp only [ha, h2, if_true, h1, Link.mk.injEq]
      constructor
      · rintro (⟨⟨h, _⟩, _⟩ | ⟨⟨_, h1⟩, h2⟩)
        · exact absurd (h _ rfl) (by simp)
        · exact ⟨h2, h1⟩
      · rintro ⟨h1, h2⟩
        exact Or.inr ⟨⟨by simp, h2⟩, h1⟩
    · have ha' : a.timeRev = false := by simpa using ha
      have h2 : a.invert.timeRev = true := by unfold BaseMap.invert; simp [ha']
      simp only [ha', h2, Bool.false_eq_true, if_false, Link.mk.injEq]
      constructor
      · rintro (⟨⟨_, h1⟩, h2⟩ | ⟨⟨h, _⟩, _⟩)
        · exact ⟨h1, h2⟩
        · exact absurd (h _ rfl) (by simp)
      · rintro ⟨h1, h2⟩
        exact Or.inl ⟨⟨by simp, h1⟩, h2⟩

/-- C35 for facet links: `argmul_intersect` yields, each once, exactly the base maps `a` such that the image of the entrance meets the
entrance of the other link and the image of the exit meets its exit, with the roles of the ends swapped if `a` reverses time. -/
theorem C35_argmul_intersect_facets (l m : Link (FacetDivSubset n)) (h1 : l.entrance.WF) (h2 : l.exit.WF) (h3 : m.entrance.WF) (h4 : m.exit.WF)
    (hd : l.entrance.div = m.entrance.div ∧ l.entrance.div = m.exit.div ∧ l.exit.div = m.entrance.div ∧ l.exit.div = m.exit.div) :
    (l.argmulIntersectFacet m).Nodup ∧ ∀ a : BaseMap (n + 1), a ∈ l.argmulIntersectFacet m ↔
      if a.timeRev then (a.applyX 1 '' l.entrance.toSet ∩ m.exit.toSet).Nonempty ∧ (a.applyX 1 '' l.exit.toSet ∩ m.entrance.toSet).Nonempty
      else (a.applyX 1 '' l.entrance.toSet ∩ m.entrance.toSet).Nonempty ∧ (a.applyX 1 '' l.exit.toSet ∩ m.exit.toSet).Nonempty := by
  unfold Link.argmulIntersectFacet
  simp only [FacetDivSubset.argmulIntersect_eq]
  constructor
  · apply nodup_append_invert
    · exact ((BaseMap.nodup_genBaseMaps _).filter _).filter _
    · exact ((BaseMap.nodup_genBaseMaps _).filter _).filter _
    · intro a ha
      exact BaseMap.mem_genBaseMaps.1 (List.mem_filter.1 (List.mem_filter.1 ha).1).1 false rfl
    · intro a ha
      exact BaseMap.mem_genBaseMaps.1 (List.mem_filter.1 (List.mem_filter.1 ha).1).1 false rfl
  · intro a
    rw [mem_append_invert]
    simp only [List.mem_filter, BaseMap.mem_genBaseMaps, Option.mem_def]
    have key : ∀ (b : BaseMap (n + 1)) (s t : FacetDivSubset n), s.WF → t.WF → s.div = t.div →
        ((FacetDivSubset.act b s).intersects t = true ↔ (b.applyX 1 '' s.toSet ∩ t.toSet).Nonempty) := by
      intro b s t hs ht hst
      rw [← FacetDivSubset.toSet_act hs, ← FacetDivSubset.toSet_inter (FacetDivSubset.act_wf hs b) ht hst]
    rw [key _ _ _ h1 h3 hd.1, key _ _ _ h1 h4 hd.2.1, key _ _ _ h2 h3 hd.2.2.1, key _ _ _ h2 h4 hd.2.2.2]
    have hinv : (a.invert.applyX 1 : (Fin (n + 1) → ℝ) → _) = a.applyX 1 := rfl
    rw [hinv]
    by_cases ha : a.timeRev = true
    · have h2 : a.invert.timeRev = false := by unfold BaseMap.invert; simp [ha]
      simp only [ha, h2, if_true]
      constructor
      · rintro (⟨⟨h, _⟩, _⟩ | ⟨⟨_, h1⟩, h2⟩)
        · exact absurd (h _ rfl) (by simp)
        · exact ⟨h1, h2⟩
      · rintro ⟨h1, h2⟩
        exact Or.inr ⟨⟨by simp, h1⟩, h2⟩
    · have ha' : a.timeRev = false := by simpa using ha
      have h2 : a.invert.timeRev = true := by unfold BaseMap.invert; simp [ha']
      simp only [ha', h2, Bool.false_eq_true, if_false]
      constructor
      · rintro (⟨⟨_, h1⟩, h2⟩ | ⟨⟨h, _⟩, _⟩)
        · exact ⟨h1, h2⟩
        · exact absurd (h _ rfl) (by simp)
      · rintro ⟨h1, h2⟩
        exact Or.inl ⟨⟨by simp, h1⟩, h2⟩

/-- Two of the eight symmetries of the square send the diagonal gate to itself keeping time, two reverse it. -/
example : (Link.argmulIntersect (⟨![(0 : ℚ), 0], ![1, 1]⟩ : Link (Point 2)) ⟨![0, 0], ![1, 1]⟩).length = 4 := by decide +kernel
example : (Link.argmulIntersectFacet (⟨⟨2, 0, false, []⟩, ⟨2, 1, true, [![1]]⟩⟩ : Link (FacetDivSubset 1))
    ⟨⟨2, 0, false, [![0]]⟩, ⟨2, 1, true, []⟩⟩).length = 2 := by decide +kernel

end Peano
