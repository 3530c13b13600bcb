import Verif.Spec.Subsets
import Verif.Lemmas.Points
import Mathlib.Algebra.Order.Archimedean.Real.Basic
import Mathlib.Tactic.Positivity

/- Facet subsets and the sets they denote. -/
namespace Peano
variable {n : ℕ}

/-! ### nested open cubes -/

theorem openNest_nonempty {div : ℕ} (hd : 0 < div) (cs : List (Cube n)) : (openNest div cs).Nonempty := by
  induction cs with
  | nil => exact ⟨fun _ => 1 / 2, fun i => by norm_num⟩
  | cons c cs ih =>
    obtain ⟨w, hw⟩ := ih
    exact ⟨fun i => ((c i : ℝ) + w i) / div, w, hw, fun i => rfl⟩

theorem openNest_unit {div : ℕ} (hd : 0 < div) {cs : List (Cube n)} (hc : ∀ c ∈ cs, ∀ i, 0 ≤ c i ∧ c i < div) {u : Fin n → ℝ}
    (hu : u ∈ openNest div cs) (i : Fin n) : 0 < u i ∧ u i < 1 := by
  induction cs generalizing u with
  | nil => exact hu i
  | cons c cs ih =>
    obtain ⟨w, hw, he⟩ := hu
    have h1 := ih (fun c' h' => hc c' (List.mem_cons_of_mem _ h')) hw
    obtain ⟨h2, h3⟩ := hc c List.mem_cons_self i
    have hd' : (0 : ℝ) < div := by exact_mod_cast hd
    have h2' : (0 : ℝ) ≤ c i := by exact_mod_cast h2
    have h3' : (c i : ℝ) + 1 ≤ div := by exact_mod_cast h3
    rw [he i]
    constructor
    · exact div_pos (by linarith [h1.1]) hd'
    · rw [div_lt_one hd']; linarith [h1.2]

/-- Different cubes at the same level: disjoint. -/
theorem digit_eq {div : ℕ} (hd : 0 < div) {a b : ℤ} {x y : ℝ} (hx : 0 < x ∧ x < 1) (hy : 0 < y ∧ y < 1)
    (h : ((a : ℝ) + x) / div = ((b : ℝ) + y) / div) : a = b ∧ x = y := by
  have hd' : (div : ℝ) ≠ 0 := by exact_mod_cast hd.ne'
  have h' : (a : ℝ) + x = b + y := by
    rw [div_left_inj' hd'] at h
    exact h
  have h1 : a < b + 1 := by
    have : (a : ℝ) < ((b + 1 : ℤ) : ℝ) := by push_cast; linarith
    exact_mod_cast this
  have h2 : b < a + 1 := by
    have : (b : ℝ) < ((a + 1 : ℤ) : ℝ) := by push_cast; linarith
    exact_mod_cast this
  have h3 : a = b := by omega
  refine ⟨h3, ?_⟩
  subst h3
  linarith

/-- No two different cubes at a common level. -/
def Compatible (cs ds : List (Cube n)) : Prop := ∀ e ∈ cs.zip ds, e.1 = e.2

theorem compatible_cons {c e : Cube n} {cs ds : List (Cube n)} : Compatible (c :: cs) (e :: ds) ↔ c = e ∧ Compatible cs ds := by
  unfold Compatible
  simp

theorem openNest_inter {div : ℕ} (hd : 0 < div) {cs ds : List (Cube n)} (hc : ∀ c ∈ cs, ∀ i, 0 ≤ c i ∧ c i < div)
    (he : ∀ c ∈ ds, ∀ i, 0 ≤ c i ∧ c i < div) :
    (openNest div cs ∩ openNest div ds).Nonempty ↔ Compatible cs ds := by
  induction cs generalizing ds with
  | nil =>
    constructor
    · intro _ e h; simp at h
    · intro _
      obtain ⟨u, hu⟩ := openNest_nonempty hd ds
      exact ⟨u, fun i => openNest_unit hd he hu i, hu⟩
  | cons c cs ih =>
    cases ds with
    | nil =>
      constructor
      · intro _ e h; simp at h
      · intro _
        obtain ⟨u, hu⟩ := openNest_nonempty hd (c :: cs)
        exact ⟨u, hu, fun i => openNest_unit hd hc hu i⟩
    | cons e ds =>
      have hc' := fun c' (h' : c' ∈ cs) => hc c' (List.mem_cons_of_mem _ h')
      have he' := fun c' (h' : c' ∈ ds) => he c' (List.mem_cons_of_mem _ h')
      rw [compatible_cons, ← ih hc' he']
      constructor
      · rintro ⟨u, ⟨w, hw, h1⟩, ⟨v, hv, h2⟩⟩
        have key : ∀ i, c i = e i ∧ w i = v i := fun i =>
          digit_eq hd (openNest_unit hd hc' hw i) (openNest_unit hd he' hv i) ((h1 i).symm.trans (h2 i))
        have : w = v := funext fun i => (key i).2
        refine ⟨funext fun i => (key i).1, w, hw, ?_⟩
        rw [this]; exact hv
      · rintro ⟨rfl, w, hw, hv⟩
        exact ⟨fun i => ((c i : ℝ) + w i) / div, ⟨w, hw, fun i => rfl⟩, w, hv, fun i => rfl⟩

theorem openNest_subset {div : ℕ} (hd : 0 < div) {cs ds : List (Cube n)} (hc : ∀ c ∈ cs, ∀ i, 0 ≤ c i ∧ c i < div)
    (h : Compatible cs ds) (hl : ds.length ≤ cs.length) : openNest div cs ⊆ openNest div ds := by
  induction cs generalizing ds with
  | nil =>
    cases ds with
    | nil => exact fun _ h => h
    | cons e ds => simp at hl
  | cons c cs ih =>
    cases ds with
    | nil => exact fun u hu i => openNest_unit hd hc hu i
    | cons e ds =>
      rw [compatible_cons] at h
      obtain ⟨rfl, h⟩ := h
      rintro u ⟨w, hw, h1⟩
      exact ⟨w, ih (fun c' h' => hc c' (List.mem_cons_of_mem _ h')) h (by simpa using hl) hw, h1⟩

theorem compatible_symm {cs ds : List (Cube n)} (h : Compatible cs ds) : Compatible ds cs := by
  induction cs generalizing ds with
  | nil => intro e h; simp at h
  | cons c cs ih =>
    cases ds with
    | nil => intro e h; simp at h
    | cons e ds =>
      rw [compatible_cons] at h ⊢
      exact ⟨h.1.symm, ih h.2⟩

/-- Base maps act on nested cubes. -/
theorem openNest_act {div : ℕ} (hd : 0 < div) (a : BaseMap n) (cs : List (Cube n)) (u : Fin n → ℝ) :
    a.applyX 1 u ∈ openNest div (cs.map (a.applyCube div)) ↔ u ∈ openNest div cs := by
  induction cs generalizing u with
  | nil =>
    constructor
    · intro h i
      obtain ⟨j, rfl⟩ := a.coords_surj i
      have := h j
      unfold BaseMap.applyX at this
      beta_reduce
      split at this
      · constructor <;> linarith [this.1, this.2]
      · exact this
    · intro h i
      unfold BaseMap.applyX
      have := h (a.coords i).1
      split
      · constructor <;> linarith [this.1, this.2]
      · exact this
  | cons c cs ih =>
    have hd' : (div : ℝ) ≠ 0 := by exact_mod_cast hd.ne'
    have key : ∀ w : Fin n → ℝ, a.applyX 1 (fun i => ((c i : ℝ) + w i) / div) = fun i => (((a.applyCube div c) i : ℝ) + a.applyX 1 w i) / div := by
      intro w
      funext i
      unfold BaseMap.applyX BaseMap.applyCube
      split
      · push_cast
        field_simp
        ring
      · rfl
    constructor
    · rintro ⟨w, hw, h1⟩
      obtain ⟨v, rfl⟩ : ∃ v, a.applyX 1 v = w := ⟨a⁻¹.applyX 1 w, by rw [← BaseMap.applyX_mul]; simp⟩
      refine ⟨v, (ih v).1 hw, ?_⟩
      intro i
      have : a.applyX 1 u = a.applyX 1 (fun i => ((c i : ℝ) + v i) / div) := by
        rw [key]; funext i; exact h1 i
      exact congrFun (a.applyX_injective 1 this) i
    · rintro ⟨w, hw, h1⟩
      refine ⟨a.applyX 1 w, (ih w).2 hw, ?_⟩
      intro i
      have : u = fun i => ((c i : ℝ) + w i) / div := funext h1
      rw [this, key]

namespace FacetDivSubset

theorem intersects_iff (s t : FacetDivSubset n) :
    s.intersects t = true ↔ s.facetCoord = t.facetCoord ∧ s.facetValue = t.facetValue ∧ Compatible s.cubes t.cubes := by
  unfold intersects Compatible
  by_cases h : (s.facetCoord, s.facetValue) = (t.facetCoord, t.facetValue)
  · rw [if_neg (by simpa using h)]
    rw [Prod.mk.injEq] at h
    simp [h]
  · rw [if_pos h]
    rw [Prod.mk.injEq, not_and] at h
    simp only [Bool.false_eq_true, false_iff, not_and]
    intro h1 h2
    exact absurd h2 (h h1)

theorem toSet_unit {s : FacetDivSubset n} (hs : s.WF) {x : Fin (n + 1) → ℝ} (hx : x ∈ s.toSet) {j : Fin (n + 1)} (hj : j ≠ s.facetCoord) :
    0 < x j ∧ x j < 1 := by
  obtain ⟨i, rfl⟩ := Fin.exists_succAbove_eq hj
  exact openNest_unit hs.div_pos hs.cubes hx.2 i

/-- The point of a facet with given other coordinates. -/
theorem exists_point (k : Fin (n + 1)) (v : ℝ) (u : Fin n → ℝ) : ∃ x : Fin (n + 1) → ℝ, x k = v ∧ (fun i => x (k.succAbove i)) = u :=
  ⟨k.insertNth v u, by simp, by simp⟩

theorem toSet_inter {s t : FacetDivSubset n} (hs : s.WF) (ht : t.WF) (hd : s.div = t.div) :
    s.intersects t = true ↔ (s.toSet ∩ t.toSet).Nonempty := by
  rw [intersects_iff]
  constructor
  · rintro ⟨h1, h2, h3⟩
    obtain ⟨u, hu1, hu2⟩ := (openNest_inter hs.div_pos hs.cubes (by rw [hd]; exact ht.cubes)).2 h3
    obtain ⟨x, hx1, hx2⟩ := exists_point s.facetCoord (if s.facetValue then 1 else 0) u
    refine ⟨x, ⟨hx1, by rw [hx2]; exact hu1⟩, ⟨by rw [← h1, ← h2]; exact hx1, ?_⟩⟩
    rw [← h1, hx2, ← hd]; exact hu2
  · rintro ⟨x, hx1, hx2⟩
    have h1 : s.facetCoord = t.facetCoord := by
      by_contra hne
      have := toSet_unit ht hx2 hne
      rw [hx1.1] at this
      split at this <;> norm_num at this
    have h2 : s.facetValue = t.facetValue := by
      have e1 := hx1.1
      have e2 := hx2.1
      rw [← h1, e1] at e2
      cases hs : s.facetValue <;> cases ht : t.facetValue <;> simp_all
    refine ⟨h1, h2, ?_⟩
    rw [← openNest_inter hs.div_pos hs.cubes (by rw [hd]; exact ht.cubes)]
    refine ⟨_, hx1.2, ?_⟩
    rw [h1, hd]
    exact hx2.2

theorem toSet_nested {s t : FacetDivSubset n} (hs : s.WF) (ht : t.WF) (hd : s.div = t.div) (h : s.intersects t = true) :
    s.toSet ⊆ t.toSet ∨ t.toSet ⊆ s.toSet := by
  rw [intersects_iff] at h
  obtain ⟨h1, h2, h3⟩ := h
  rcases le_total t.cubes.length s.cubes.length with hl | hl
  · left
    rintro x ⟨e1, e2⟩
    refine ⟨by rw [← h1, ← h2]; exact e1, ?_⟩
    rw [← h1, ← hd]
    exact openNest_subset hs.div_pos hs.cubes h3 hl e2
  · right
    rintro x ⟨e1, e2⟩
    refine ⟨by rw [h1, h2]; exact e1, ?_⟩
    rw [h1, hd]
    exact openNest_subset ht.div_pos ht.cubes (compatible_symm h3) hl e2

theorem mapFacet_snd (a : BaseMap (n + 1)) (fc : Fin (n + 1)) (fv : Bool) :
    (mapFacet a fc fv).2 = if (a.coords (mapFacet a fc fv).1).2 then !fv else fv := by
  unfold mapFacet
  obtain ⟨j, hj⟩ := a.coords_surj fc
  split
  · rfl
  · rename_i h
    exact absurd hj (by simpa using List.find?_eq_none.1 h j (List.mem_finRange j))

theorem facetMap_apply (a : BaseMap (n + 1)) (fc : Fin (n + 1)) (fv : Bool) (x : Fin (n + 1) → ℝ) :
    (fun i => a.applyX 1 x ((mapFacet a fc fv).1.succAbove i)) = (facetMap a fc fv).applyX 1 fun i => x (fc.succAbove i) := by
  funext i
  unfold BaseMap.applyX
  have h1 := facetMapCoord_fst a (mapFacet_fst a fc fv) i
  have h2 : ((facetMap a fc fv).coords i) = facetMapCoord a fc (mapFacet a fc fv).1 i := rfl
  rw [h2]
  beta_reduce
  rw [h1]
  rfl

theorem act_wf {s : FacetDivSubset n} (hs : s.WF) (a : BaseMap (n + 1)) : (act a s).WF := by
  refine ⟨hs.div_pos, ?_⟩
  intro c hc i
  obtain ⟨c', hc', rfl⟩ := List.mem_map.1 hc
  exact BaseMap.applyCube_mem _ (hs.cubes c' hc') i

theorem mem_act {s : FacetDivSubset n} (hs : s.WF) (a : BaseMap (n + 1)) (x : Fin (n + 1) → ℝ) :
    a.applyX 1 x ∈ (act a s).toSet ↔ x ∈ s.toSet := by
  have h1 : a.applyX 1 x (mapFacet a s.facetCoord s.facetValue).1 = (if (mapFacet a s.facetCoord s.facetValue).2 then 1 else 0) ↔
      x s.facetCoord = (if s.facetValue then 1 else 0) := by
    have e1 := mapFacet_fst a s.facetCoord s.facetValue
    have e2 := mapFacet_snd a s.facetCoord s.facetValue
    unfold BaseMap.applyX
    rw [e2, e1]
    cases (a.coords (mapFacet a s.facetCoord s.facetValue).1).2 <;> cases s.facetValue <;> simp
    · constructor <;> intro h <;> linarith
  unfold toSet act
  simp only [Set.mem_setOf_eq]
  rw [h1, facetMap_apply, openNest_act hs.div_pos]

theorem toSet_act {s : FacetDivSubset n} (hs : s.WF) (a : BaseMap (n + 1)) : (act a s).toSet = a.applyX 1 '' s.toSet := by
  ext y
  obtain ⟨x, rfl⟩ : ∃ x, a.applyX 1 x = y := ⟨a⁻¹.applyX 1 y, by rw [← BaseMap.applyX_mul]; simp⟩
  rw [mem_act hs]
  constructor
  · exact fun h => ⟨x, h, rfl⟩
  · rintro ⟨x', h, he⟩
    rw [← a.applyX_injective 1 he]; exact h

theorem mapToCube_eq {s t : FacetDivSubset n} {cube : Cube (n + 1)} : s.mapToCube s.div cube = some t ↔
    cube s.facetCoord = (if s.facetValue then (s.div : ℤ) - 1 else 0) ∧ t = { s with cubes := (fun i => cube (s.facetCoord.succAbove i)) :: s.cubes } := by
  unfold mapToCube
  rw [if_pos rfl]
  have : (if s.facetValue = false then 0 else (s.div : ℤ) - 1) = if s.facetValue then (s.div : ℤ) - 1 else 0 := by
    cases s.facetValue <;> rfl
  rw [this]
  by_cases h : cube s.facetCoord = if s.facetValue then (s.div : ℤ) - 1 else 0
  · rw [if_pos h]
    constructor
    · intro e
      exact ⟨h, (Option.some.inj e).symm⟩
    · rintro ⟨_, rfl⟩
      rfl
  · rw [if_neg h]
    simp [h]

theorem toSet_mapToCube {s t : FacetDivSubset n} (hs : s.WF) {cube : Cube (n + 1)} (h : s.mapToCube s.div cube = some t) :
    t.toSet = placed s.div cube s.toSet := by
  obtain ⟨hc, rfl⟩ := mapToCube_eq.1 h
  have hd' : (s.div : ℝ) ≠ 0 := by exact_mod_cast hs.div_pos.ne'
  have hk : ∀ v : ℝ, v = (((cube s.facetCoord : ℤ) : ℝ) + (if s.facetValue then 1 else 0)) / s.div ↔ v = (if s.facetValue then 1 else 0) := by
    intro v
    rw [hc]
    cases s.facetValue
    · simp
    · simp only [if_true, if_false]
      push_cast
      rw [sub_add_cancel, div_self hd']
  ext y
  unfold toSet placed
  simp only [Set.mem_setOf_eq]
  constructor
  · rintro ⟨h1, w, hw, h2⟩
    obtain ⟨x, hx1, hx2⟩ := exists_point s.facetCoord (if s.facetValue then 1 else 0) w
    refine ⟨x, ⟨hx1, by rw [hx2]; exact hw⟩, ?_⟩
    intro j
    rcases eq_or_ne j s.facetCoord with rfl | hj
    · rw [hx1, hk]; exact h1
    · obtain ⟨i, rfl⟩ := Fin.exists_succAbove_eq hj
      refine (h2 i).trans ?_
      rw [← hx2]
  · rintro ⟨x, ⟨hx1, hx2⟩, h⟩
    refine ⟨?_, _, hx2, fun i => h _⟩
    rw [← hk, ← hx1]
    exact h _

theorem mapToCube_wf {s t : FacetDivSubset n} (hs : s.WF) {cube : Cube (n + 1)} (hcube : ∀ j, 0 ≤ cube j ∧ cube j < s.div)
    (h : s.mapToCube s.div cube = some t) : t.WF := by
  obtain ⟨hc, rfl⟩ := mapToCube_eq.1 h
  refine ⟨hs.div_pos, ?_⟩
  intro c hc i
  rcases List.mem_cons.1 hc with rfl | hc
  · exact hcube _
  · exact hs.cubes c hc i

/-- The only neighbour. -/
theorem genNeighbours_spec {s : FacetDivSubset n} (hs : s.WF) : ∃ c t, s.genNeighbours = [(c, t)] ∧ t.WF ∧ t.div = s.div ∧ c ≠ 0 ∧
    s.toSet = translated c t.toSet ∧ s.toSet ⊆ boxAt c 1 ∧ ∀ c', c' ≠ 0 → (s.toSet ∩ boxAt c' 1).Nonempty → c' = c := by
  refine ⟨_, _, rfl, ⟨hs.div_pos, hs.cubes⟩, rfl, ?_, ?_, ?_, ?_⟩
  · intro h
    have := congrFun h s.facetCoord
    simp only [ne_eq, not_true, if_false, Pi.zero_apply] at this
    split at this <;> omega
  · ext x
    unfold toSet translated
    simp only [Set.mem_setOf_eq]
    constructor
    · rintro ⟨h1, h2⟩
      refine ⟨fun j => if j = s.facetCoord then x j - (if s.facetValue = false then -1 else 1) else x j, ⟨?_, ?_⟩, ?_⟩
      · simp only [if_true, h1]
        cases s.facetValue <;> simp
      · have : (fun i => if s.facetCoord.succAbove i = s.facetCoord then x (s.facetCoord.succAbove i) - (if s.facetValue = false then -1 else 1)
            else x (s.facetCoord.succAbove i)) = fun i => x (s.facetCoord.succAbove i) := by
          funext i
          rw [if_neg (Fin.succAbove_ne _ _)]
        rw [this]; exact h2
      · intro j
        by_cases hj : j = s.facetCoord
        · simp only [hj, if_true, ne_eq, not_true, if_false]
          cases s.facetValue <;> simp
        · simp [hj]
    · rintro ⟨y, ⟨h1, h2⟩, h3⟩
      refine ⟨?_, ?_⟩
      · rw [h3, h1]
        simp only [ne_eq, not_true, if_false]
        cases s.facetValue <;> simp
      · have : (fun i => x (s.facetCoord.succAbove i)) = fun i => y (s.facetCoord.succAbove i) := by
          funext i
          rw [h3, if_pos (Fin.succAbove_ne _ _)]
          simp
        rw [this]; exact h2
  · intro x hx j
    by_cases hj : j = s.facetCoord
    · subst hj
      rw [hx.1]
      simp only [ne_eq, not_true, if_false]
      cases s.facetValue <;> simp
    · beta_reduce
      rw [if_pos hj]
      have := toSet_unit hs hx hj
      simp only [Int.cast_zero, Int.cast_one, zero_add]
      exact ⟨this.1.le, this.2.le⟩
  · rintro c' hc' ⟨x, hx, hbox⟩
    have hother : ∀ j, j ≠ s.facetCoord → c' j = 0 := by
      intro j hj
      have h1 := toSet_unit hs hx hj
      have h2 := hbox j
      simp only [Int.cast_one] at h2
      have h3 : (c' j : ℝ) < ((1 : ℤ) : ℝ) := by push_cast; linarith
      have h4 : ((0 : ℤ) : ℝ) < ((c' j + 1 : ℤ) : ℝ) := by push_cast; linarith
      have h3 : c' j < 1 := by exact_mod_cast h3
      have h4 : 0 < c' j + 1 := by exact_mod_cast h4
      omega
    have hk : c' s.facetCoord ≠ 0 := by
      intro h0
      apply hc'
      funext j
      by_cases hj : j = s.facetCoord
      · subst hj; exact h0
      · exact hother j hj
    have h2 := hbox s.facetCoord
    rw [hx.1] at h2
    funext j
    by_cases hj : j = s.facetCoord
    · subst hj
      simp only [ne_eq, not_true, if_false]
      simp only [Int.cast_one] at h2
      cases hv : s.facetValue
      · rw [hv] at h2
        simp only [Bool.false_eq_true, if_false] at h2
        have h3 : c' s.facetCoord ≤ 0 := by exact_mod_cast h2.1
        have h4 : (0 : ℝ) ≤ ((c' s.facetCoord + 1 : ℤ) : ℝ) := by push_cast; exact h2.2
        have h4 : 0 ≤ c' s.facetCoord + 1 := by exact_mod_cast h4
        simp only [if_true]
        omega
      · rw [hv] at h2
        simp only [if_true] at h2
        have h3 : c' s.facetCoord ≤ 1 := by exact_mod_cast h2.1
        have h4 : ((1 : ℤ) : ℝ) ≤ ((c' s.facetCoord + 1 : ℤ) : ℝ) := by push_cast; exact h2.2
        have h4 : 1 ≤ c' s.facetCoord + 1 := by exact_mod_cast h4
        simp only [Bool.true_eq_false, if_false]
        omega
    · rw [if_pos hj]; exact hother j hj

/-- In the facet, the cell is the nested open cube. -/
theorem mem_cell {s : FacetDivSubset n} (hs : 0 < s.div) {c : Cube (n + 1)}
    (hc : c s.facetCoord = if s.facetValue then (s.div : ℤ) - 1 else 0) {x : Fin (n + 1) → ℝ}
    (hx : x s.facetCoord = if s.facetValue then 1 else 0) :
    x ∈ cellOpenBut s.facetCoord s.div c ↔ (fun i => x (s.facetCoord.succAbove i)) ∈ openNest s.div [fun i => c (s.facetCoord.succAbove i)] := by
  have hd : (0 : ℝ) < s.div := by exact_mod_cast hs
  unfold cellOpenBut
  simp only [Set.mem_setOf_eq, openNest]
  constructor
  · intro h
    refine ⟨fun i => x (s.facetCoord.succAbove i) * s.div - c (s.facetCoord.succAbove i), ?_, ?_⟩
    · intro i
      have := h (s.facetCoord.succAbove i)
      rw [if_neg (Fin.succAbove_ne _ _), div_lt_iff₀ hd, lt_div_iff₀ hd] at this
      constructor <;> linarith [this.1, this.2]
    · intro i
      field_simp
      ring
  · rintro ⟨w, hw, h⟩ j
    by_cases hj : j = s.facetCoord
    · rw [if_pos hj, hj, hx, hc]
      cases s.facetValue
      · simp
      · simp only [if_true]
        push_cast
        rw [sub_add_cancel, div_self hd.ne', div_le_one hd]
        constructor <;> linarith
    · rw [if_neg hj]
      obtain ⟨i, rfl⟩ := Fin.exists_succAbove_eq hj
      rw [h i]
      have := hw i
      rw [div_lt_div_iff_of_pos_right hd, div_lt_div_iff_of_pos_right hd]
      constructor <;> linarith [this.1, this.2]

/-- The cube of the facet with given in-facet coordinates. -/
def absCube (s : FacetDivSubset n) (fcube : Cube n) : Cube (n + 1) :=
  fun j => if j = s.facetCoord then (if s.facetValue = false then 0 else (s.div : ℤ) - 1)
        else if h : absToFacet s.facetCoord j < n then fcube ⟨absToFacet s.facetCoord j, h⟩ else 0

theorem absCube_facet (s : FacetDivSubset n) (fcube : Cube n) : absCube s fcube s.facetCoord = if s.facetValue then (s.div : ℤ) - 1 else 0 := by
  unfold absCube
  rw [if_pos rfl]
  cases s.facetValue <;> rfl

theorem absCube_other (s : FacetDivSubset n) (fcube : Cube n) : (fun i => absCube s fcube (s.facetCoord.succAbove i)) = fcube := by
  funext i
  unfold absCube
  rw [if_neg (Fin.succAbove_ne _ _)]
  simp only [absToFacet_succAbove]
  rw [dif_pos i.2]

theorem absCube_inj (s : FacetDivSubset n) : Function.Injective (absCube s) := by
  intro a b h
  rw [← absCube_other s a, ← absCube_other s b, h]

theorem absCube_range {s : FacetDivSubset n} (hs : 0 < s.div) {fcube : Cube n} (h : ∀ i, 0 ≤ fcube i ∧ fcube i < s.div) (j : Fin (n + 1)) :
    0 ≤ absCube s fcube j ∧ absCube s fcube j < s.div := by
  by_cases hj : j = s.facetCoord
  · rw [hj, absCube_facet]
    split <;> omega
  · obtain ⟨i, rfl⟩ := Fin.exists_succAbove_eq hj
    rw [congrFun (absCube_other s fcube) i]
    exact h i

theorem eq_absCube {s : FacetDivSubset n} {c : Cube (n + 1)} (hc : c s.facetCoord = if s.facetValue then (s.div : ℤ) - 1 else 0) :
    c = absCube s fun i => c (s.facetCoord.succAbove i) := by
  funext j
  by_cases hj : j = s.facetCoord
  · rw [hj, absCube_facet, hc]
  · obtain ⟨i, rfl⟩ := Fin.exists_succAbove_eq hj
    exact (congrFun (absCube_other s fun i => c (s.facetCoord.succAbove i)) i).symm

theorem cell_facet {s : FacetDivSubset n} (hs : s.WF) {c : Cube (n + 1)} (hr : ∀ j, 0 ≤ c j ∧ c j < s.div)
    {x : Fin (n + 1) → ℝ} (hx : x ∈ s.toSet) (hcell : x ∈ cellOpenBut s.facetCoord s.div c) :
    c s.facetCoord = if s.facetValue then (s.div : ℤ) - 1 else 0 := by
  have hd : (0 : ℝ) < s.div := by exact_mod_cast hs.div_pos
  have h := hcell s.facetCoord
  rw [if_pos rfl, hx.1, div_le_iff₀ hd, le_div_iff₀ hd] at h
  have h0 := hr s.facetCoord
  cases hv : s.facetValue
  · rw [hv] at h
    simp only [Bool.false_eq_true, if_false, zero_mul] at h ⊢
    have : c s.facetCoord ≤ 0 := by exact_mod_cast h.1
    omega
  · rw [hv] at h
    simp only [if_true, one_mul] at h ⊢
    have : (s.div : ℤ) ≤ c s.facetCoord + 1 := by exact_mod_cast h.2
    omega

theorem mem_facetCubes {div : ℕ} {c : Cube n} :
    c ∈ (Itertools.productRepeat (List.range div) n).map (fun l (i : Fin n) => ((l.getD i 0 : ℕ) : ℤ)) ↔ ∀ i, 0 ≤ c i ∧ c i < div := by
  simp only [List.mem_map, Itertools.mem_productRepeat, List.mem_range]
  constructor
  · rintro ⟨l, ⟨h1, h2⟩, rfl⟩ i
    have hi : i.val < l.length := by rw [h1]; exact i.2
    beta_reduce
    rw [List.getD_eq_getElem _ _ hi]
    have := h2 _ (List.getElem_mem hi)
    constructor <;> omega
  · intro h
    refine ⟨List.ofFn fun i => (c i).toNat, ⟨by simp, ?_⟩, ?_⟩
    · intro a ha
      rw [List.mem_ofFn] at ha
      obtain ⟨i, rfl⟩ := ha
      have := h i
      omega
    · funext i
      rw [List.getD_eq_getElem _ _ (by simp)]
      simp only [List.getElem_ofFn]
      exact Int.toNat_of_nonneg (h i).1

theorem nodup_facetCubes {div : ℕ} : ((Itertools.productRepeat (List.range div) n).map (fun l (i : Fin n) => ((l.getD i 0 : ℕ) : ℤ))).Nodup := by
  apply List.Nodup.map_on
  · intro a ha b hb hab
    rw [Itertools.mem_productRepeat] at ha hb
    apply List.ext_getElem (by rw [ha.1, hb.1])
    intro i h1 h2
    have := congrFun hab ⟨i, by omega⟩
    rw [List.getD_eq_getElem _ _ h1, List.getD_eq_getElem _ _ h2] at this
    exact_mod_cast this
  · exact Itertools.nodup_productRepeat (List.nodup_range) n

/-- `divide`. -/
theorem divide_spec {s : FacetDivSubset n} (hs : s.WF) : ∃ l, s.divide s.div = some l ∧ (l.map Prod.fst).Nodup ∧
    (∀ e ∈ l, e.2.WF ∧ e.2.div = s.div ∧ (∀ j, 0 ≤ e.1 j ∧ e.1 j < s.div) ∧ e.2.mapToCube s.div e.1 ≠ none ∧
      s.toSet ∩ cellOpenBut s.facetCoord s.div e.1 = placed s.div e.1 e.2.toSet) ∧
    ∀ c : Cube (n + 1), (∀ j, 0 ≤ c j ∧ c j < s.div) → (s.toSet ∩ cellOpenBut s.facetCoord s.div c).Nonempty → c ∈ l.map Prod.fst := by
  cases hcs : s.cubes with
  | nil =>
    refine ⟨((Itertools.productRepeat (List.range s.div) n).map (fun l (i : Fin n) => ((l.getD i 0 : ℕ) : ℤ))).map fun fc => (absCube s fc, s), ?_, ?_, ?_, ?_⟩
    · unfold divide
      rw [if_pos rfl, hcs]
      rfl
    · rw [List.map_map]
      exact nodup_facetCubes.map (fun a b h => absCube_inj s h)
    · intro e he
      obtain ⟨fc, hfc, rfl⟩ := List.mem_map.1 he
      rw [mem_facetCubes] at hfc
      have hm : s.mapToCube s.div (absCube s fc) = some { s with cubes := fc :: s.cubes } :=
        mapToCube_eq.2 ⟨absCube_facet s fc, by rw [absCube_other]⟩
      refine ⟨hs, rfl, absCube_range hs.div_pos hfc, by rw [hm]; simp, ?_⟩
      rw [← toSet_mapToCube hs hm]
      ext x
      constructor
      · rintro ⟨h1, h2⟩
        refine ⟨h1.1, ?_⟩
        rw [mem_cell hs.div_pos (absCube_facet s fc) h1.1, absCube_other] at h2
        rw [hcs]; exact h2
      · rintro ⟨h1, h2⟩
        rw [hcs] at h2
        refine ⟨⟨h1, ?_⟩, ?_⟩
        · rw [hcs]
          exact fun i => openNest_unit hs.div_pos (by simpa using hfc) h2 i
        · rw [mem_cell hs.div_pos (absCube_facet s fc) h1, absCube_other]; exact h2
    · rintro c hr ⟨x, hx, hcell⟩
      have hf := cell_facet hs hr hx hcell
      rw [List.map_map, List.mem_map]
      refine ⟨fun i => c (s.facetCoord.succAbove i), mem_facetCubes.2 fun i => hr _, ?_⟩
      exact (eq_absCube hf).symm
  | cons c0 cs =>
    have hwf : ({ s with cubes := cs } : FacetDivSubset n).WF := ⟨hs.div_pos, fun c hc => hs.cubes c (by rw [hcs]; exact List.mem_cons_of_mem _ hc)⟩
    have hr0 := hs.cubes c0 (by rw [hcs]; exact List.mem_cons_self)
    have hm : ({ s with cubes := cs } : FacetDivSubset n).mapToCube s.div (absCube s c0) = some s := by
      have : s = { s with cubes := (fun i => absCube s c0 (s.facetCoord.succAbove i)) :: cs } := by
        rw [absCube_other, ← hcs]
      rw [show s.div = ({ s with cubes := cs } : FacetDivSubset n).div from rfl]
      refine mapToCube_eq.2 ⟨absCube_facet s c0, this⟩
    have hcell : ∀ x ∈ s.toSet, x ∈ cellOpenBut s.facetCoord s.div (absCube s c0) := by
      intro x hx
      rw [mem_cell hs.div_pos (absCube_facet s c0) hx.1, absCube_other]
      refine openNest_subset hs.div_pos hs.cubes ?_ (by rw [hcs]; simp) hx.2
      rw [hcs, compatible_cons]
      exact ⟨rfl, by intro e h; simp at h⟩
    refine ⟨[(absCube s c0, { s with cubes := cs })], ?_, by simp, ?_, ?_⟩
    · unfold divide
      rw [if_pos rfl, hcs]
      rfl
    · intro e he
      cases List.mem_singleton.1 he
      refine ⟨hwf, rfl, absCube_range hs.div_pos hr0, by rw [hm]; simp, ?_⟩
      have hset := toSet_mapToCube hwf hm
      refine Eq.trans ?_ hset
      exact Set.inter_eq_left.2 hcell
    · rintro c hr ⟨x, hx, hcell'⟩
      have hf := cell_facet hs hr hx hcell'
      rw [List.map_singleton, List.mem_singleton]
      rw [eq_absCube hf]
      congr 1
      have h1 := hcell x hx
      rw [mem_cell hs.div_pos (absCube_facet s c0) hx.1, absCube_other] at h1
      rw [mem_cell hs.div_pos hf hx.1] at hcell'
      have := (openNest_inter hs.div_pos (by simpa using fun i => hr (s.facetCoord.succAbove i)) (by simpa using hr0)).1 ⟨_, hcell', h1⟩
      exact (compatible_cons.1 this).1

theorem argmulIntersect_eq (s t : FacetDivSubset n) (bms : List (BaseMap (n + 1))) :
    argmulIntersect s t bms = bms.filter fun a => (act a s).intersects t := by
  unfold argmulIntersect
  induction bms with
  | nil => rfl
  | cons a bms ih =>
    rw [List.filterMap_cons, List.filter_cons, ← ih]
    by_cases h : mapFacet a s.facetCoord s.facetValue = (t.facetCoord, t.facetValue)
    · rw [if_neg (by simpa using h)]
      by_cases h' : (act a s).intersects t = true <;> simp [h']
    · rw [if_pos h]
      have : (act a s).intersects t = false := by
        rw [← Bool.not_eq_true, intersects_iff]
        rintro ⟨h1, h2, _⟩
        exact h (Prod.ext h1 h2)
      simp [this]

end FacetDivSubset

theorem BaseMap.invert_injective {d : ℕ} : Function.Injective (BaseMap.invert : BaseMap d → BaseMap d) := by
  intro a b h
  have := congrArg BaseMap.invert h
  simp only [BaseMap.invert, Bool.not_not] at this
  exact this

theorem nodup_append_invert {d : ℕ} {L M : List (BaseMap d)} (hL : L.Nodup) (hM : M.Nodup) (h1 : ∀ a ∈ L, a.timeRev = false)
    (h2 : ∀ a ∈ M, a.timeRev = false) : (L ++ M.map BaseMap.invert).Nodup := by
  rw [List.nodup_append]
  refine ⟨hL, hM.map BaseMap.invert_injective, ?_⟩
  intro a ha b hb hab
  obtain ⟨c, hc, rfl⟩ := List.mem_map.1 hb
  have e1 := h1 a ha
  have e2 := h2 c hc
  rw [hab] at e1
  unfold BaseMap.invert at e1
  simp [e2] at e1

theorem mem_append_invert {d : ℕ} {L M : List (BaseMap d)} {a : BaseMap d} : a ∈ L ++ M.map BaseMap.invert ↔ a ∈ L ∨ a.invert ∈ M := by
  rw [List.mem_append, List.mem_map]
  have hinv : ∀ b : BaseMap d, b.invert.invert = b := by intro b; unfold BaseMap.invert; simp
  constructor
  · rintro (h | ⟨b, hb, rfl⟩)
    · exact Or.inl h
    · right; rw [hinv]; exact hb
  · rintro (h | h)
    · exact Or.inl h
    · exact Or.inr ⟨_, h, hinv a⟩

end Peano
