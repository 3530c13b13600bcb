import Verif.Lemmas.Facets
import Verif.Model.Paths

set_option autoImplicit false

/-! Base maps act on facet subsets and on links of facet subsets. -/
namespace Peano
variable {n : ℕ}

namespace FacetDivSubset

theorem mapFacet_unique {a : BaseMap (n + 1)} {fc j : Fin (n + 1)} {fv v : Bool} (h1 : (a.coords j).1 = fc) (h2 : v = if (a.coords j).2 then !fv else fv) :
    mapFacet a fc fv = (j, v) := by
  have e : (mapFacet a fc fv).1 = j := a.inj ((mapFacet_fst a fc fv).trans h1.symm)
  refine Prod.ext e ?_
  rw [mapFacet_snd, e, h2]

theorem mapFacet_mul (a b : BaseMap (n + 1)) (fc : Fin (n + 1)) (fv : Bool) :
    mapFacet (a * b) fc fv = mapFacet a (mapFacet b fc fv).1 (mapFacet b fc fv).2 := by
  have h2 := mapFacet_fst b fc fv
  have h2' := mapFacet_snd b fc fv
  generalize mapFacet b fc fv = p at h2 h2'
  have h1 := mapFacet_fst a p.1 p.2
  have h1' := mapFacet_snd a p.1 p.2
  generalize mapFacet a p.1 p.2 = q at h1 h1'
  obtain ⟨q1, q2⟩ := q
  obtain ⟨p1, p2⟩ := p
  dsimp only at *
  refine mapFacet_unique ?_ ?_
  · rw [BaseMap.mul_coords, h1]
    exact h2
  · rw [BaseMap.mul_coords, h1, h1', h2']
    cases (a.coords q1).2 <;> cases (b.coords p1).2 <;> simp

theorem mapFacet_one (fc : Fin (n + 1)) (fv : Bool) : mapFacet 1 fc fv = (fc, fv) := mapFacet_unique rfl rfl

theorem facetMap_coords (a : BaseMap (n + 1)) (fc : Fin (n + 1)) (fv : Bool) (i : Fin n) :
    fc.succAbove ((facetMap a fc fv).coords i).1 = (a.coords ((mapFacet a fc fv).1.succAbove i)).1 ∧
      ((facetMap a fc fv).coords i).2 = (a.coords ((mapFacet a fc fv).1.succAbove i)).2 :=
  ⟨facetMapCoord_fst a (mapFacet_fst a fc fv) i, rfl⟩

theorem facetMap_mul (a b : BaseMap (n + 1)) (fc : Fin (n + 1)) (fv : Bool) :
    facetMap (a * b) fc fv = facetMap a (mapFacet b fc fv).1 (mapFacet b fc fv).2 * facetMap b fc fv := by
  refine BaseMap.ext (fun i => ?_) rfl
  have h := facetMap_coords (a * b) fc fv i
  have ha := facetMap_coords a (mapFacet b fc fv).1 (mapFacet b fc fv).2 i
  have hb := facetMap_coords b fc fv ((facetMap a (mapFacet b fc fv).1 (mapFacet b fc fv).2).coords i).1
  rw [mapFacet_mul, BaseMap.mul_coords] at h
  rw [ha.1] at hb
  rw [BaseMap.mul_coords]
  refine Prod.ext ?_ ?_
  · apply Fin.succAbove_right_injective (p := fc)
    rw [h.1]
    exact hb.1.symm
  · rw [h.2, ha.2, hb.2]

theorem facetMap_one (fc : Fin (n + 1)) (fv : Bool) : facetMap 1 fc fv = 1 := by
  refine BaseMap.ext (fun i => ?_) rfl
  have h := facetMap_coords 1 fc fv i
  rw [mapFacet_one] at h
  refine Prod.ext ?_ h.2
  apply Fin.succAbove_right_injective (p := fc)
  rw [h.1]
  rfl

theorem act_mul (a b : BaseMap (n + 1)) (s : FacetDivSubset n) : act (a * b) s = act a (act b s) := by
  unfold act
  simp only [mapFacet_mul, facetMap_mul, List.map_map, FacetDivSubset.mk.injEq, true_and]
  apply List.map_congr_left
  intro c _
  simp only [Function.comp_apply]
  exact BaseMap.applyCube_mul _ _ _ _

theorem act_one (s : FacetDivSubset n) : act 1 s = s := by
  unfold act
  simp only [mapFacet_one, facetMap_one]
  cases s
  simp only [FacetDivSubset.mk.injEq, true_and]
  refine (List.map_congr_left fun c _ => ?_).trans (List.map_id _)
  exact BaseMap.applyCube_one _ _

theorem act_cubeMap (a : BaseMap (n + 1)) (s : FacetDivSubset n) : act a.cubeMap s = act a s := rfl
theorem act_invert (a : BaseMap (n + 1)) (s : FacetDivSubset n) : act a.invert s = act a s := rfl
@[simp] theorem act_div (a : BaseMap (n + 1)) (s : FacetDivSubset n) : (act a s).div = s.div := rfl

theorem intersects_comm (s t : FacetDivSubset n) : s.intersects t = t.intersects s := by
  rw [Bool.eq_iff_iff, intersects_iff, intersects_iff]
  exact ⟨fun h => ⟨h.1.symm, h.2.1.symm, compatible_symm h.2.2⟩, fun h => ⟨h.1.symm, h.2.1.symm, compatible_symm h.2.2⟩⟩

theorem toSet_nonempty {s : FacetDivSubset n} (hs : 0 < s.div) : s.toSet.Nonempty := by
  obtain ⟨u, hu⟩ := openNest_nonempty hs s.cubes
  obtain ⟨x, hx1, hx2⟩ := exists_point s.facetCoord (if s.facetValue then 1 else 0) u
  exact ⟨x, hx1, by rw [hx2]; exact hu⟩

/-- The facet of the cube placed on the boundary. -/
theorem mapToCube_facet {s : FacetDivSubset n} {cube : Cube (n + 1)} :
    (∃ t, s.mapToCube s.div cube = some t) ↔ cube s.facetCoord = if s.facetValue then (s.div : ℤ) - 1 else 0 := by
  constructor
  · rintro ⟨t, h⟩
    exact (mapToCube_eq.1 h).1
  · intro h
    exact ⟨_, mapToCube_eq.2 ⟨h, rfl⟩⟩

/-- Placement commutes with base maps. -/
theorem mapToCube_act {s t : FacetDivSubset n} {cube : Cube (n + 1)} (b : BaseMap (n + 1)) (h : s.mapToCube s.div cube = some t) :
    (act b s).mapToCube s.div (b.applyCube s.div cube) = some (act b t) := by
  obtain ⟨h1, rfl⟩ := mapToCube_eq.1 h
  have e1 := mapFacet_fst b s.facetCoord s.facetValue
  have e2 := mapFacet_snd b s.facetCoord s.facetValue
  rw [show s.div = (act b s).div from rfl, mapToCube_eq]
  constructor
  · show b.applyCube s.div cube (mapFacet b s.facetCoord s.facetValue).1 = if (mapFacet b s.facetCoord s.facetValue).2 then (s.div : ℤ) - 1 else 0
    unfold BaseMap.applyCube
    rw [e2, e1, h1]
    cases (b.coords (mapFacet b s.facetCoord s.facetValue).1).2 <;> cases s.facetValue <;> simp
  · unfold act
    simp only [FacetDivSubset.mk.injEq, true_and, List.map_cons, List.cons.injEq, and_true]
    funext i
    have h := facetMap_coords b s.facetCoord s.facetValue i
    unfold BaseMap.applyCube
    beta_reduce
    rw [h.1, h.2]

end FacetDivSubset

namespace Link

theorem act_def_facet (b : BaseMap (n + 1)) (l : Link (FacetDivSubset n)) : Link.act b l =
    if b.timeRev then ⟨FacetDivSubset.act b l.exit, FacetDivSubset.act b l.entrance⟩
    else ⟨FacetDivSubset.act b l.entrance, FacetDivSubset.act b l.exit⟩ := rfl

theorem act_mul_facet (a b : BaseMap (n + 1)) (l : Link (FacetDivSubset n)) : Link.act (a * b) l = Link.act a (Link.act b l) := by
  simp only [act_def_facet, FacetDivSubset.act_mul, BaseMap.mul_timeRev]
  cases a.timeRev <;> cases b.timeRev <;> simp

theorem act_one_facet (l : Link (FacetDivSubset n)) : Link.act (1 : BaseMap (n + 1)) l = l := by
  simp [act_def_facet, FacetDivSubset.act_one]

theorem act_invert_facet (a : BaseMap (n + 1)) (l : Link (FacetDivSubset n)) : Link.act a.invert l = (Link.act a l).invert := by
  simp only [act_def_facet, FacetDivSubset.act_invert, BaseMap.invert_timeRev]
  by_cases h : a.timeRev = true <;> simp [h, Link.invert]

theorem act_invert_right_facet (a : BaseMap (n + 1)) (l : Link (FacetDivSubset n)) : Link.act a l.invert = (Link.act a l).invert := by
  simp only [act_def_facet]
  by_cases h : a.timeRev = true <;> simp [h, Link.invert]

/-- Both subsets of the link belong to the `div`-grid. -/
def InDiv (div : ℕ) (l : Link (FacetDivSubset n)) : Prop :=
  (l.entrance.WF ∧ l.entrance.div = div) ∧ (l.exit.WF ∧ l.exit.div = div)

theorem InDiv.act {div : ℕ} {l : Link (FacetDivSubset n)} (h : l.InDiv div) (b : BaseMap (n + 1)) : (Link.act b l).InDiv div := by
  rw [act_def_facet]
  split
  · exact ⟨⟨FacetDivSubset.act_wf h.2.1 b, h.2.2⟩, ⟨FacetDivSubset.act_wf h.1.1 b, h.1.2⟩⟩
  · exact ⟨⟨FacetDivSubset.act_wf h.1.1 b, h.1.2⟩, ⟨FacetDivSubset.act_wf h.2.1 b, h.2.2⟩⟩

theorem InDiv.invert {div : ℕ} {l : Link (FacetDivSubset n)} (h : l.InDiv div) : l.invert.InDiv div := ⟨h.2, h.1⟩

end Link
end Peano
