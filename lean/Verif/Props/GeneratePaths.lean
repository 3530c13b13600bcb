import Verif.Spec.GeneratePaths
import Verif.Props.PathsGen
import Verif.Lemmas.TuplesGen

set_option autoImplicit false

/-!
C63: generation of tuples of pointed paths.
-/
namespace Peano
namespace PathsGen
variable {d : ℕ}

theorem getRestrictions_links (g : PathsGen d (Point d)) (links : Option (List (Link (Point d)))) :
    g.getRestrictions links none = some ((links.getD g.links).map Sum.inl) := by cases links <;> rfl

/-- C63. For pointed links in the unit cube and at least two cubes, `generate_paths` (without `std`) does not raise and yields, each once,
exactly the tuples of paths of `generate_paths_generic` for the given links (by default for the links of the generator), for all limits. -/
theorem C63_all_tuples (g : PathsGen d (Point d)) (hash : Finset (Cube d) × CubeTree.Node d (Link (Point d)) → ℤ)
    (links : Option (List (Link (Point d)))) (startMax finishMax : Option ℤ) (hM : 2 ≤ g.div ^ d)
    (hunit : ∀ m ∈ g.links, ∀ j, (0 ≤ m.entrance j ∧ m.entrance j ≤ 1) ∧ (0 ≤ m.exit j ∧ m.exit j ≤ 1)) :
    ∃ out, g.generatePaths hash links none false startMax finishMax = some out ∧ out.Nodup ∧
      ∀ ps, ps ∈ out ↔ List.Forall₂ (fun link p => Generated g.div g.links g.maxCdist link p) (links.getD g.links) ps := by
  exact all_tuples g hash startMax finishMax Sum.inl_injective (getRestrictions_links g links)
    fun l _ => C39_generate_paths g hash l startMax finishMax hM hunit

/-- C63. With `std=True` (and the same conditions) only tuples of these paths are yielded, and every such tuple is represented by exactly
one of the yielded ones, up to symmetries of each path that preserve its link and permutations of paths with the same link. -/
theorem C63_std_tuples (g : PathsGen d (Point d)) (hash : Finset (Cube d) × CubeTree.Node d (Link (Point d)) → ℤ)
    (links : Option (List (Link (Point d)))) (startMax finishMax : Option ℤ) (hM : 2 ≤ g.div ^ d)
    (hunit : ∀ m ∈ g.links, ∀ j, (0 ≤ m.entrance j ∧ m.entrance j ≤ 1) ∧ (0 ≤ m.exit j ∧ m.exit j ≤ 1)) :
    ∃ out, g.generatePaths hash links none true startMax finishMax = some out ∧ out.Nodup ∧
      (∀ ps ∈ out, List.Forall₂ (fun link p => Generated g.div g.links g.maxCdist link p) (links.getD g.links) ps) ∧
      ∀ ps, List.Forall₂ (fun link p => Generated g.div g.links g.maxCdist link p) (links.getD g.links) ps →
        ∃! qs, qs ∈ out ∧ PathTuple.SameUpToSymmetry (links.getD g.links) ps qs := by
  refine std_tuples g hash startMax finishMax Sum.inl_injective (getRestrictions_links g links) fun l _ => ?_
  obtain ⟨out, h1, h2, h3, h4⟩ := C40_generate_std g hash l startMax finishMax hM hunit
  refine ⟨out, h1, ?_, h2, h4⟩
  refine h3.imp_of_mem ?_
  rintro p q hp _ h rfl
  exact h ⟨1, by simp, by rw [Path.act_eq (h2 p hp).wf]; exact congrArg some (Path.img_one p)⟩

/-- The conditions of C63 hold, and there is a tuple to be found: the Hilbert path, twice, for two equal links. -/
example : ∃ out, (⟨2, [⟨![0, 0], ![1, 0]⟩, ⟨![0, 0], ![1, 0]⟩], some 1⟩ : PathsGen 2 (Point 2)).generatePaths (fun _ => 0) none none true none none =
    some out ∧ out ≠ [] := by
  obtain ⟨h1, h2, h3⟩ := hilbert_generated
  have hl : ∀ m ∈ [(⟨![0, 0], ![1, 0]⟩ : Link (Point 2)), ⟨![0, 0], ![1, 0]⟩], m ∈ [(⟨![0, 0], ![1, 0]⟩ : Link (Point 2))] := by simp
  obtain ⟨out, e1, _, _, e4⟩ := C63_std_tuples ⟨2, [⟨![0, 0], ![1, 0]⟩, ⟨![0, 0], ![1, 0]⟩], some 1⟩ (fun _ => 0) none none none h1
    fun m hm => h2 m (hl m hm)
  have h4 : Generated 2 [⟨![0, 0], ![1, 0]⟩, ⟨![0, 0], ![1, 0]⟩] (some 1) ⟨![0, 0], ![1, 0]⟩ Path.hilbertPath := by
    refine { h3 with links_image := fun l hl => ?_ }
    obtain ⟨a, m, hm, h⟩ := h3.links_image l hl
    exact ⟨a, m, List.mem_cons_of_mem _ hm, h⟩
  obtain ⟨qs, ⟨hq, _⟩, _⟩ := e4 [Path.hilbertPath, Path.hilbertPath] (List.Forall₂.cons h4 (List.Forall₂.cons h4 List.Forall₂.nil))
  exact ⟨out, e1, List.ne_nil_of_mem hq⟩

end PathsGen
end Peano
