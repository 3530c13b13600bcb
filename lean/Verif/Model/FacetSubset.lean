import Verif.Model.Subsets
import Mathlib.Order.Fin.Basic
import Mathlib.Data.Fin.SuccPred

set_option autoImplicit false

/-
Model of `FacetDivSubset`, `peano/subsets.py:146-285`.  The dimension is `n + 1` (a cube of dimension 0 has no facets).
-/
namespace Peano

/-- `class FacetDivSubset`, subsets.py:146-171, in dimension `n + 1`.  The facet value (0 or 1 in the code) is a `Bool`. -/
structure FacetDivSubset (n : ℕ) where
  div : ℕ
  facetCoord : Fin (n + 1)
  facetValue : Bool
  cubes : List (Cube n)

namespace FacetDivSubset
variable {n : ℕ}

/-- `__eq__`, subsets.py:188-193: comparison of `_data`. -/
instance : DecidableEq (FacetDivSubset n) := fun s t =>
  decidable_of_iff (s.div = t.div ∧ s.facetCoord = t.facetCoord ∧ s.facetValue = t.facetValue ∧ s.cubes = t.cubes) (by cases s; cases t; simp)

/-- `intersects`, subsets.py:173-178. -/
def intersects (s t : FacetDivSubset n) : Bool :=
  if (s.facetCoord, s.facetValue) ≠ (t.facetCoord, t.facetValue) then false
  else if (s.cubes.zip t.cubes).any (fun e => decide (e.1 ≠ e.2)) then false
  else true

/-- Comparison of tuples of cubes, in `__lt__`. -/
def cubesKey (l : List (Cube n)) : List (List ℤ) := l.map List.ofFn

/-- `__lt__`, subsets.py:198-199: comparison of `(dim, div, (coord, value), cubes)`. -/
def lt (s t : FacetDivSubset n) : Bool :=
  if s.div ≠ t.div then decide (s.div < t.div)
  else if s.facetCoord ≠ t.facetCoord then decide (s.facetCoord < t.facetCoord)
  else if s.facetValue ≠ t.facetValue then decide (s.facetValue.toNat < t.facetValue.toNat)
  else decide (cubesKey s.cubes < cubesKey t.cubes)

/-- `_map_facet`, subsets.py:201-205.  The loop always returns, as some `k` equals the facet coordinate; the last branch stands for
the value `None` of the code, which does not occur. -/
def mapFacet (a : BaseMap (n + 1)) (fc : Fin (n + 1)) (fv : Bool) : Fin (n + 1) × Bool :=
  match (List.finRange (n + 1)).find? fun j => decide ((a.coords j).1 = fc) with
  | some j => (j, if (a.coords j).2 then !fv else fv)
  | none => (fc, fv)

/-- `_abs_to_facet`, subsets.py:207-208. -/
def absToFacet (fc : Fin (n + 1)) (j : Fin (n + 1)) : ℕ := if j < fc then j else j - 1

theorem absToFacet_succAbove (fc : Fin (n + 1)) (i : Fin n) : absToFacet fc (fc.succAbove i) = i := by
  unfold absToFacet
  by_cases h : i.castSucc < fc
  · rw [Fin.succAbove_of_castSucc_lt _ _ h, if_pos h]; rfl
  · rw [Fin.succAbove_of_le_castSucc _ _ (not_lt.1 h), if_neg]
    · rfl
    · intro h'
      exact h (lt_trans (Fin.castSucc_lt_succ) h')

theorem mapFacet_fst (a : BaseMap (n + 1)) (fc : Fin (n + 1)) (fv : Bool) : (a.coords (mapFacet a fc fv).1).1 = fc := by
  unfold mapFacet
  obtain ⟨j, hj⟩ := a.coords_surj fc
  split
  · rename_i j' h
    simpa using List.find?_some h
  · rename_i h
    exact absurd hj (by simpa using List.find?_eq_none.1 h j (List.mem_finRange j))

/-- The pair `facet_map_data[i]`, subsets.py:218-224: the absolute coordinate with number `i` among those different from the new facet
coordinate is `succAbove i`. -/
def facetMapCoord (a : BaseMap (n + 1)) (fc newFc : Fin (n + 1)) (i : Fin n) : Fin n × Bool :=
  let k := (a.coords (newFc.succAbove i)).1
  let b := (a.coords (newFc.succAbove i)).2
  (if h : absToFacet fc k < n then ⟨absToFacet fc k, h⟩ else i, b)

theorem facetMapCoord_fst (a : BaseMap (n + 1)) {fc newFc : Fin (n + 1)} (h : (a.coords newFc).1 = fc) (i : Fin n) :
    fc.succAbove (facetMapCoord a fc newFc i).1 = (a.coords (newFc.succAbove i)).1 := by
  have hne : (a.coords (newFc.succAbove i)).1 ≠ fc := by
    intro h'
    rw [← h] at h'
    exact Fin.succAbove_ne newFc i (a.inj h')
  obtain ⟨m, hm⟩ := Fin.exists_succAbove_eq hne
  unfold facetMapCoord
  simp only [← hm, absToFacet_succAbove]
  rw [dif_pos m.2]

/-- The in-facet base map, subsets.py:216-226. -/
def facetMap (a : BaseMap (n + 1)) (fc : Fin (n + 1)) (fv : Bool) : BaseMap n where
  coords := facetMapCoord a fc (mapFacet a fc fv).1
  timeRev := false
  inj := by
    intro i j h
    have h' := congrArg fc.succAbove h
    beta_reduce at h'
    rw [facetMapCoord_fst a (mapFacet_fst a fc fv), facetMapCoord_fst a (mapFacet_fst a fc fv)] at h'
    exact Fin.succAbove_right_injective (a.inj h')

/-- `__rmul__`, subsets.py:210-228. -/
def act (a : BaseMap (n + 1)) (s : FacetDivSubset n) : FacetDivSubset n :=
  let newFacet := mapFacet a s.facetCoord s.facetValue
  { div := s.div
    facetCoord := newFacet.1
    facetValue := newFacet.2
    cubes := s.cubes.map ((facetMap a s.facetCoord s.facetValue).applyCube s.div) }

/-- `argmul_intersect`, subsets.py:236-244 (`bms` given; the default is `all_cube_maps`, the base maps without time reversal). -/
def argmulIntersect (s t : FacetDivSubset n) (bms : List (BaseMap (n + 1))) : List (BaseMap (n + 1)) :=
  bms.filterMap fun bm =>
    if mapFacet bm s.facetCoord s.facetValue ≠ (t.facetCoord, t.facetValue) then none
    else if intersects (act bm s) t then some bm else none

/-- `map_to_cube`, subsets.py:246-250: `none` is AssertionError. -/
def mapToCube (s : FacetDivSubset n) (div : ℕ) (cube : Cube (n + 1)) : Option (FacetDivSubset n) :=
  if div = s.div then
    if cube s.facetCoord = (if s.facetValue = false then 0 else (div : ℤ) - 1) then
      some { s with cubes := (fun i => cube (s.facetCoord.succAbove i)) :: s.cubes }
    else none
  else none

/-- `gen_neighbours`, subsets.py:252-260. -/
def genNeighbours (s : FacetDivSubset n) : List (Cube (n + 1) × FacetDivSubset n) :=
  let delta : ℤ := if s.facetValue = false then -1 else 1
  let newFacetValue := if s.facetValue = false then true else false
  [(fun j => if j ≠ s.facetCoord then 0 else delta, { s with facetValue := newFacetValue })]

/-- `divide`, subsets.py:262-278: `none` is AssertionError. -/
def divide (s : FacetDivSubset n) (div : ℕ) : Option (List (Cube (n + 1) × FacetDivSubset n)) :=
  if div = s.div then
    let facetCubes : List (Cube n) := match s.cubes with
      | c :: _ => [c]
      | [] => (Itertools.productRepeat (List.range div) n).map fun l i => (l.getD i 0 : ℕ)
    let newSet : FacetDivSubset n := match s.cubes with
      | _ :: cs => { s with cubes := cs }
      | [] => s
    some (facetCubes.map fun facetCube =>
      (fun j => if j = s.facetCoord then (if s.facetValue = false then 0 else (div : ℤ) - 1)
        else if h : absToFacet s.facetCoord j < n then facetCube ⟨absToFacet s.facetCoord j, h⟩ else 0, newSet))
  else none

/-- `Subset.std`, subsets.py:52-54, inherited by `FacetDivSubset`. -/
def std (s : FacetDivSubset n) : Option (FacetDivSubset n) :=
  pyMin lt ((BaseMap.genBaseMaps (n + 1) (some false)).map fun bm => act bm s)

/-- `FacetDivSubset` as a `Subset`; `transform` is not implemented (subsets.py:64-65). -/
instance : SubsetOps (FacetDivSubset n) (n + 1) where
  intersects := intersects
  mapToCube := mapToCube
  genNeighbours := genNeighbours
  divide := divide
  act := act
  shift _ _ := none
  std := std
  lt := lt
  isPoint := false

end FacetDivSubset

/-- `Link.argmul_intersect`, subsets.py:358-364, for facet subsets, whose `argmul_intersect` overrides the generic one. -/
def Link.argmulIntersectFacet {n : ℕ} (l m : Link (FacetDivSubset n)) : List (BaseMap (n + 1)) :=
  let all := BaseMap.genBaseMaps (n + 1) (some false)
  let bms1 := FacetDivSubset.argmulIntersect l.entrance m.entrance all
  let bms2 := FacetDivSubset.argmulIntersect l.entrance m.exit all
  FacetDivSubset.argmulIntersect l.exit m.exit bms1 ++ (FacetDivSubset.argmulIntersect l.exit m.entrance bms2).map BaseMap.invert

end Peano
