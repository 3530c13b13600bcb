import Verif.Spec.FacetPaths
import Verif.Spec.GeneratePaths
import Verif.Lemmas.FacetStd
import Verif.Lemmas.TuplesGen
import Mathlib.Tactic.FinCases

set_option autoImplicit false

/-!
C65: generation of paths whose links are pairs of facet subsets, for global links and for parent paths.
-/
namespace Peano
namespace PathsGen
variable {n : ℕ} (g : PathsGen (n + 1) (FacetDivSubset n)) (hash : Finset (Cube (n + 1)) × CubeTree.Node (n + 1) (Link (FacetDivSubset n)) → ℤ)
  (startMax finishMax : Option ℤ)

/-- C65. For facet links and at least two cubes, `generate_paths_generic(link)` does not raise and yields, each once, exactly the paths with
the given kinds of links that may be continuous and agree with the global link. -/
theorem C65_link (hM : 2 ≤ g.div ^ (n + 1)) (hL : ∀ m ∈ g.links, m.InDiv g.div) (link : Link (FacetDivSubset n)) (hlink : link.InDiv g.div) :
    ∃ out, g.generatePathsGeneric hash link false startMax finishMax = some out ∧ out.Nodup ∧
      ∀ p, p ∈ out ↔ FacetPath g.div g.links g.maxCdist p ∧ FacetPath.Agrees link p :=
  FacetGen.generic_all hL hM hash hlink startMax finishMax

/-- C65. With `std=True` only such paths are yielded, and exactly one of each class of paths equivalent under symmetries of the link. -/
theorem C65_link_std (hM : 2 ≤ g.div ^ (n + 1)) (hL : ∀ m ∈ g.links, m.InDiv g.div) (link : Link (FacetDivSubset n)) (hlink : link.InDiv g.div) :
    ∃ out, g.generatePathsGeneric hash link true startMax finishMax = some out ∧ out.Nodup ∧
      (∀ p ∈ out, FacetPath g.div g.links g.maxCdist p ∧ FacetPath.Agrees link p) ∧
      ∀ p, FacetPath g.div g.links g.maxCdist p ∧ FacetPath.Agrees link p → ∃! q, q ∈ out ∧ Path.SameUpToSymmetry link p q :=
  FacetGen.generic_std hL hM hash hlink startMax finishMax

/-- C65. For a parent that is a path of this kind (for possibly other links), `generate_paths_generic(parent=parent)` does not raise and
yields, each once, exactly the paths with the given kinds of links that refine the parent: the same cubes, compatible links. -/
theorem C65_parent (hM : 2 ≤ g.div ^ (n + 1)) (hL : ∀ m ∈ g.links, m.InDiv g.div) (parent : Path (FacetDivSubset n) (n + 1))
    (pLinks : List (Link (FacetDivSubset n))) (pDist : Option ℤ) (hpL : ∀ m ∈ pLinks, m.InDiv g.div) (hp : FacetPath g.div pLinks pDist parent) :
    ∃ out, g.generatePathsParent hash parent false startMax finishMax = some out ∧ out.Nodup ∧
      ∀ p, p ∈ out ↔ FacetPath g.div g.links g.maxCdist p ∧ FacetPath.Refines parent p :=
  FacetGen.parent_all hL hM hash (FacetGen.facetPath_parent hpL hp) startMax finishMax

/-- C65. With `std=True` exactly one path of each class of paths equivalent under symmetries of the parent is yielded. -/
theorem C65_parent_std (hM : 2 ≤ g.div ^ (n + 1)) (hL : ∀ m ∈ g.links, m.InDiv g.div) (parent : Path (FacetDivSubset n) (n + 1))
    (pLinks : List (Link (FacetDivSubset n))) (pDist : Option ℤ) (hpL : ∀ m ∈ pLinks, m.InDiv g.div) (hp : FacetPath g.div pLinks pDist parent) :
    ∃ out, g.generatePathsParent hash parent true startMax finishMax = some out ∧ out.Nodup ∧
      (∀ p ∈ out, FacetPath g.div g.links g.maxCdist p ∧ FacetPath.Refines parent p) ∧
      ∀ p, FacetPath g.div g.links g.maxCdist p ∧ FacetPath.Refines parent p → ∃! q, q ∈ out ∧ Path.SameUpToParentSymmetry parent p q :=
  FacetGen.parent_std hL hM hash (FacetGen.facetPath_parent hpL hp) startMax finishMax

/-- C65. `generate_paths` with facet links: exactly the tuples of such paths, each once. -/
theorem C65_tuples (links : Option (List (Link (FacetDivSubset n)))) (hM : 2 ≤ g.div ^ (n + 1)) (hL : ∀ m ∈ g.links, m.InDiv g.div)
    (hlinks : ∀ m ∈ links.getD g.links, m.InDiv g.div) :
    ∃ out, g.generatePaths hash links none false startMax finishMax = some out ∧ out.Nodup ∧
      ∀ ps, ps ∈ out ↔ List.Forall₂ (fun link p => FacetPath g.div g.links g.maxCdist p ∧ FacetPath.Agrees link p) (links.getD g.links) ps :=
  all_tuples g hash startMax finishMax Sum.inl_injective (by cases links <;> rfl) fun l hl => C65_link g hash startMax finishMax hM hL l (hlinks l hl)

/-- C65. With `std=True`: one tuple of each class of tuples that differ by symmetries of the links and permutations of paths with equal
links. -/
theorem C65_tuples_std (links : Option (List (Link (FacetDivSubset n)))) (hM : 2 ≤ g.div ^ (n + 1)) (hL : ∀ m ∈ g.links, m.InDiv g.div)
    (hlinks : ∀ m ∈ links.getD g.links, m.InDiv g.div) :
    ∃ out, g.generatePaths hash links none true startMax finishMax = some out ∧ out.Nodup ∧
      (∀ ps ∈ out, List.Forall₂ (fun link p => FacetPath g.div g.links g.maxCdist p ∧ FacetPath.Agrees link p) (links.getD g.links) ps) ∧
      ∀ ps, List.Forall₂ (fun link p => FacetPath g.div g.links g.maxCdist p ∧ FacetPath.Agrees link p) (links.getD g.links) ps →
        ∃! qs, qs ∈ out ∧ PathTuple.SameUpToSymmetry (links.getD g.links) ps qs :=
  std_tuples g hash startMax finishMax Sum.inl_injective (by cases links <;> rfl) fun l hl => C65_link_std g hash startMax finishMax hM hL l (hlinks l hl)

/-- C65. `generate_paths(parents=parents)`: exactly the tuples of refinements of the parents, each once. -/
theorem C65_parent_tuples (parents : List (Path (FacetDivSubset n) (n + 1))) (hM : 2 ≤ g.div ^ (n + 1)) (hL : ∀ m ∈ g.links, m.InDiv g.div)
    (pLinks : List (Link (FacetDivSubset n))) (pDist : Option ℤ) (hpL : ∀ m ∈ pLinks, m.InDiv g.div) (hp : ∀ parent ∈ parents, FacetPath g.div pLinks pDist parent) :
    ∃ out, g.generatePaths hash none (some parents) false startMax finishMax = some out ∧ out.Nodup ∧
      ∀ ps, ps ∈ out ↔ List.Forall₂ (fun parent p => FacetPath g.div g.links g.maxCdist p ∧ FacetPath.Refines parent p) parents ps :=
  all_tuples g hash startMax finishMax Sum.inr_injective rfl fun l hl => C65_parent g hash startMax finishMax hM hL l pLinks pDist hpL (hp l hl)

/-- C65. The same with `std=True`, up to symmetries of the parents and permutations of paths with equal parents. -/
theorem C65_parent_tuples_std (parents : List (Path (FacetDivSubset n) (n + 1))) (hM : 2 ≤ g.div ^ (n + 1)) (hL : ∀ m ∈ g.links, m.InDiv g.div)
    (pLinks : List (Link (FacetDivSubset n))) (pDist : Option ℤ) (hpL : ∀ m ∈ pLinks, m.InDiv g.div) (hp : ∀ parent ∈ parents, FacetPath g.div pLinks pDist parent) :
    ∃ out, g.generatePaths hash none (some parents) true startMax finishMax = some out ∧ out.Nodup ∧
      (∀ ps ∈ out, List.Forall₂ (fun parent p => FacetPath g.div g.links g.maxCdist p ∧ FacetPath.Refines parent p) parents ps) ∧
      ∀ ps, List.Forall₂ (fun parent p => FacetPath g.div g.links g.maxCdist p ∧ FacetPath.Refines parent p) parents ps →
        ∃! qs, qs ∈ out ∧ PathTuple.SameUpToParentSymmetry parents ps qs :=
  std_tuples g hash startMax finishMax Sum.inr_injective rfl fun l hl => C65_parent_std g hash startMax finishMax hM hL l pLinks pDist hpL (hp l hl)

/-- C65. `get_paths_example(parents=parents)` returns refinements of all parents, or `None` exactly if some parent has none. -/
theorem C65_parent_example (parents : List (Path (FacetDivSubset n) (n + 1))) (hM : 2 ≤ g.div ^ (n + 1)) (hL : ∀ m ∈ g.links, m.InDiv g.div)
    (pLinks : List (Link (FacetDivSubset n))) (pDist : Option ℤ) (hpL : ∀ m ∈ pLinks, m.InDiv g.div) (hp : ∀ parent ∈ parents, FacetPath g.div pLinks pDist parent) :
    (∃ ps, g.getPathsExampleFor hash none (some parents) false startMax finishMax = some (some ps) ∧
        List.Forall₂ (fun parent p => FacetPath g.div g.links g.maxCdist p ∧ FacetPath.Refines parent p) parents ps) ∨
      (g.getPathsExampleFor hash none (some parents) false startMax finishMax = some none ∧
        ∃ parent ∈ parents, ¬ ∃ p, FacetPath g.div g.links g.maxCdist p ∧ FacetPath.Refines parent p) := by
  change (∃ ps, g.exampleLoop hash false startMax finishMax (parents.map Sum.inr) = some (some ps) ∧ _) ∨
    (g.exampleLoop hash false startMax finishMax (parents.map Sum.inr) = some none ∧ _)
  induction parents with
  | nil => exact Or.inl ⟨[], rfl, List.Forall₂.nil⟩
  | cons parent rest ih =>
    obtain ⟨out, h1, _, h3⟩ := C65_parent g hash startMax finishMax hM hL parent pLinks pDist hpL (hp parent (by simp))
    have h1' : g.generateGeneric hash false startMax finishMax (Sum.inr parent) = some out := h1
    rw [List.map_cons]
    unfold exampleLoop
    rw [h1']
    cases out with
    | nil =>
      refine Or.inr ⟨rfl, parent, by simp, ?_⟩
      rintro ⟨p, hp⟩
      simpa using (h3 p).2 hp
    | cons p out =>
      have hpp := (h3 p).1 (by simp)
      rcases ih (fun q hq => hp q (List.mem_cons_of_mem _ hq)) with ⟨ps, e1, e2⟩ | ⟨e1, q, hq, e2⟩
      · refine Or.inl ⟨p :: ps, ?_, List.Forall₂.cons hpp e2⟩
        simp [e1]
      · refine Or.inr ⟨?_, q, List.mem_cons_of_mem _ hq, e2⟩
        simp [e1]

/-! ### The conditions hold in a non-trivial case -/

/-- A path through the four squares: each fraction enters and leaves through adjacent sides. -/
def facetExample : Path (FacetDivSubset 1) 2 where
  div := 2
  proto := [some ![0, 0], some ![0, 1], some ![1, 1], some ![1, 0]]
  links := [⟨⟨2, 0, false, []⟩, ⟨2, 1, true, []⟩⟩, ⟨⟨2, 1, false, []⟩, ⟨2, 0, true, []⟩⟩, ⟨⟨2, 0, false, []⟩, ⟨2, 1, false, []⟩⟩,
    ⟨⟨2, 1, true, []⟩, ⟨2, 0, true, []⟩⟩]
  link := ⟨⟨2, 0, false, [![0]]⟩, ⟨2, 0, true, [![0]]⟩⟩

/-- the link between adjacent sides -/
def facetExampleLink : Link (FacetDivSubset 1) := ⟨⟨2, 0, false, []⟩, ⟨2, 1, false, []⟩⟩

theorem facetExample_path : FacetPath 2 [facetExampleLink] (some 1) facetExample where
  div_eq := rfl
  made := by decide +kernel
  length := rfl
  cubes := by decide
  all := by
    intro c
    have e : c = ![c 0, c 1] := by funext j; fin_cases j <;> rfl
    constructor
    · intro h j
      simp only [facetExample, List.mem_cons, Option.some.injEq, List.not_mem_nil, or_false] at h
      rcases h with rfl | rfl | rfl | rfl <;> revert j <;> decide
    · intro h
      have h0 := h 0
      have h1 := h 1
      have k0 : c 0 = 0 ∨ c 0 = 1 := by omega
      have k1 : c 1 = 0 ∨ c 1 = 1 := by omega
      rw [e]
      rcases k0 with k0 | k0 <;> rcases k1 with k1 | k1 <;> rw [k0, k1] <;> decide
  once := by decide +kernel
  joined := by
    have key : ∀ (s t : FacetDivSubset 1) (c c' : Cube 2), s.cubes = [] → t.cubes = [] → (∃ x y : Fin 2 → ℝ,
        (∀ j, (c j : ℝ) + x j = c' j + y j) ∧ x s.facetCoord = (if s.facetValue then 1 else 0) ∧ y t.facetCoord = (if t.facetValue then 1 else 0) ∧
        (∀ j, j ≠ s.facetCoord → x j = 1 / 2) ∧ ∀ j, j ≠ t.facetCoord → y j = 1 / 2) → (placed 2 c s.toSet ∩ placed 2 c' t.toSet).Nonempty := by
      rintro s t c c' hs ht ⟨x, y, h, h1, h2, h3, h4⟩
      refine ⟨fun j => ((c j : ℝ) + x j) / 2, ⟨x, ⟨h1, ?_⟩, fun j => rfl⟩, y, ⟨h2, ?_⟩, fun j => by beta_reduce; rw [h j]; rfl⟩
      · rw [hs]
        intro i
        show 0 < x _ ∧ x _ < 1
        rw [h3 _ (Fin.succAbove_ne _ _)]
        constructor <;> norm_num
      · rw [ht]
        intro i
        show 0 < y _ ∧ y _ < 1
        rw [h4 _ (Fin.succAbove_ne _ _)]
        constructor <;> norm_num
    intro i c c' l l' h1 h2 h3 h4
    have hi : i < 3 := by
      have := (List.getElem?_eq_some_iff.1 h2).1
      simp [facetExample] at this
      omega
    have hi' : i = 0 ∨ i = 1 ∨ i = 2 := by omega
    rcases hi' with rfl | rfl | rfl <;> simp [facetExample] at h1 h2 h3 h4 <;> subst h1 h2 h3 h4 <;> refine key _ _ _ _ rfl rfl ?_
    · refine ⟨![1 / 2, 1], ![1 / 2, 0], ?_, rfl, rfl, ?_, ?_⟩ <;> intro j <;> fin_cases j <;> simp
    · refine ⟨![1, 1 / 2], ![0, 1 / 2], ?_, rfl, rfl, ?_, ?_⟩ <;> intro j <;> fin_cases j <;> simp
    · refine ⟨![1 / 2, 0], ![1 / 2, 1], ?_, rfl, rfl, ?_, ?_⟩ <;> intro j <;> fin_cases j <;> simp
  links_image := by
    have : ∀ l ∈ facetExample.links, ∃ a ∈ BaseMap.genBaseMaps 2 none, l = Link.act a facetExampleLink := by decide +kernel
    intro l hl
    obtain ⟨a, _, ha⟩ := this l hl
    exact ⟨a, _, List.mem_singleton.2 rfl, ha⟩
  cdist_le := by
    intro m hm i c c' h h'
    have hm := Option.some.inj hm
    subst hm
    have hi : i < 3 := by
      have := (List.getElem?_eq_some_iff.1 h').1
      simp [facetExample] at this
      omega
    have hi' : i = 0 ∨ i = 1 ∨ i = 2 := by omega
    rcases hi' with rfl | rfl | rfl <;> simp [facetExample] at h h' <;> subst h h' <;> decide

theorem facetExampleLink_inDiv : facetExampleLink.InDiv 2 := ⟨⟨⟨by decide, by decide⟩, rfl⟩, ⟨⟨by decide, by decide⟩, rfl⟩⟩

/-- The conditions of the theorems hold, and there is a path to be found for the global link between opposite sides. -/
example : ∃ out, (⟨2, [facetExampleLink], some 1⟩ : PathsGen 2 (FacetDivSubset 1)).generatePathsGeneric (fun _ => 0)
    ⟨⟨2, 0, false, []⟩, ⟨2, 0, true, []⟩⟩ false none none = some out ∧ facetExample ∈ out := by
  obtain ⟨out, h1, _, h3⟩ := C65_link (⟨2, [facetExampleLink], some 1⟩ : PathsGen 2 (FacetDivSubset 1)) (fun _ => 0) none none (by decide)
    (by intro m hm; rw [List.mem_singleton.1 hm]; exact facetExampleLink_inDiv) ⟨⟨2, 0, false, []⟩, ⟨2, 0, true, []⟩⟩
    ⟨⟨⟨by decide, by decide⟩, rfl⟩, ⟨⟨by decide, by decide⟩, rfl⟩⟩
  refine ⟨out, h1, (h3 _).2 ⟨facetExample_path, ?_, ?_⟩⟩
  · exact (FacetDivSubset.meets_iff (s := ⟨2, 0, false, [![0]]⟩) (t := ⟨2, 0, false, []⟩) ⟨by decide, by decide⟩ ⟨by decide, by decide⟩ rfl).1 (by decide)
  · exact (FacetDivSubset.meets_iff (s := ⟨2, 0, true, [![0]]⟩) (t := ⟨2, 0, true, []⟩) ⟨by decide, by decide⟩ ⟨by decide, by decide⟩ rfl).1 (by decide)

/-- The same for parents: the path refines itself. -/
example : ∃ out, (⟨2, [facetExampleLink], some 1⟩ : PathsGen 2 (FacetDivSubset 1)).generatePathsParent (fun _ => 0) facetExample false none none =
    some out ∧ facetExample ∈ out := by
  have hL : ∀ m ∈ [facetExampleLink], m.InDiv 2 := by intro m hm; rw [List.mem_singleton.1 hm]; exact facetExampleLink_inDiv
  obtain ⟨out, h1, _, h3⟩ := C65_parent (⟨2, [facetExampleLink], some 1⟩ : PathsGen 2 (FacetDivSubset 1)) (fun _ => 0) none none (by decide) hL
    facetExample [facetExampleLink] (some 1) hL facetExample_path
  refine ⟨out, h1, (h3 _).2 ⟨facetExample_path, rfl, ?_⟩⟩
  intro i l l' hl hl'
  rw [hl, Option.some.injEq] at hl'
  subst hl'
  have hin : l.InDiv 2 := by
    obtain ⟨a, m, hm, rfl⟩ := facetExample_path.links_image l (List.mem_of_getElem? hl)
    exact (hL m hm).act a
  have hne : ∀ {s : FacetDivSubset 1}, s.WF → s.Meets s := by
    intro s hs
    unfold FacetDivSubset.Meets
    rw [Set.inter_self]
    exact FacetDivSubset.toSet_nonempty hs.div_pos
  exact ⟨hne hin.1.1, hne hin.2.1⟩

end PathsGen
end Peano
