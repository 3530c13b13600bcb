import Verif.Lemmas.PathsGenStd
import Verif.Props.Paths
import Mathlib.Tactic.FinCases

set_option autoImplicit false

/-!
C39, C40: generation of pointed paths.
-/
namespace Peano
namespace PathsGen
variable {d : ℕ}

/-- C39. For pointed links in the unit cube and at least two cubes, `generate_paths_generic(link)` does not raise (in particular no
KeyError) and yields, each once, exactly the continuous paths through all cubes whose fraction links are images of the given links or
their reverses, whose steps respect `max_cdist` and whose global link is the requested one — for all limits and hash functions. -/
theorem C39_generate_paths (g : PathsGen d (Point d)) (hash : Finset (Cube d) × CubeTree.Node d (Link (Point d)) → ℤ) (link : Link (Point d))
    (startMax finishMax : Option ℤ) (hM : 2 ≤ g.div ^ d)
    (hunit : ∀ m ∈ g.links, ∀ j, (0 ≤ m.entrance j ∧ m.entrance j ≤ 1) ∧ (0 ≤ m.exit j ∧ m.exit j ≤ 1)) :
    ∃ out, g.generatePathsGeneric hash link false startMax finishMax = some out ∧ out.Nodup ∧
      ∀ p, p ∈ out ↔ Generated g.div g.links g.maxCdist link p := by
  obtain ⟨out, h1, h2, h3⟩ := rawPaths_spec hunit hM hash link startMax finishMax
  refine ⟨out, ?_, h2, h3⟩
  unfold generatePathsGeneric
  simp [h1]

/-- The hypotheses of C39 and C40 are met by the generator of paths with vertex links along an edge, and the Hilbert path is one of the
paths to find. -/
theorem hilbert_generated : 2 ≤ 2 ^ 2 ∧ (∀ m ∈ [(⟨![0, 0], ![1, 0]⟩ : Link (Point 2))], ∀ j, (0 ≤ m.entrance j ∧ m.entrance j ≤ 1) ∧ (0 ≤ m.exit j ∧ m.exit j ≤ 1)) ∧
    Generated 2 [⟨![0, 0], ![1, 0]⟩] (some 1) ⟨![0, 0], ![1, 0]⟩ Path.hilbertPath where
  left := by decide
  right := by
    refine ⟨by decide +kernel, ?_⟩
    have hwf : Path.hilbertPath.WF := ⟨by decide, rfl, by
      unfold Path.make Path.hilbertPath
      simp only [List.head?, List.getLast?, List.getLast, Option.bind_eq_bind, Option.bind_some, Option.pure_def]
      decide +kernel⟩
    exact {
      wf := hwf
      div_eq := rfl
      all := by
        intro c
        have e : c = ![c 0, c 1] := by funext j; fin_cases j <;> rfl
        constructor
        · intro h j
          simp only [Path.hilbertPath, List.mem_cons, Option.some.injEq, List.not_mem_nil, or_false] at h
          rcases h with rfl | rfl | rfl | rfl <;> revert j <;> decide
        · intro h
          have h0 := h 0
          have h1 := h 1
          have k0 : c 0 = 0 ∨ c 0 = 1 := by omega
          have k1 : c 1 = 0 ∨ c 1 = 1 := by omega
          rw [e]
          rcases k0 with k0 | k0 <;> rcases k1 with k1 | k1 <;> rw [k0, k1] <;> decide
      once := by decide +kernel
      joined := by rw [← (Path.C37_is_continuous _ hwf).2]; decide +kernel
      links_image := by
        have : ∀ l ∈ Path.hilbertPath.links, ∃ a ∈ BaseMap.genBaseMaps 2 none, (l.entrance = a.applyX 1 ![0, 0] ∧ l.exit = a.applyX 1 ![1, 0]) ∨
          (l.entrance = a.applyX 1 ![1, 0] ∧ l.exit = a.applyX 1 ![0, 0]) := by decide +kernel
        intro l hl
        obtain ⟨a, _, ha⟩ := this l hl
        exact ⟨a, _, List.mem_singleton.2 rfl, ha⟩
      cdist_le := by
        intro m hm i c c' h h'
        have hm := Option.some.inj hm
        subst hm
        have hi : i < 3 := by
          have := (List.getElem?_eq_some_iff.1 h').1
          simp [Path.hilbertPath] at this
          omega
        have hi' : i = 0 ∨ i = 1 ∨ i = 2 := by omega
        rcases hi' with rfl | rfl | rfl <;> simp [Path.hilbertPath] at h h' <;> subst h h' <;> decide
      link_eq := rfl }

/-- C39. `get_paths_example` returns an example for every link of the generator, or `None` exactly if some link has no path. -/
theorem C39_example (g : PathsGen d (Point d)) (hash : Finset (Cube d) × CubeTree.Node d (Link (Point d)) → ℤ) (links : List (Link (Point d)))
    (startMax finishMax : Option ℤ) (hM : 2 ≤ g.div ^ d)
    (hunit : ∀ m ∈ g.links, ∀ j, (0 ≤ m.entrance j ∧ m.entrance j ≤ 1) ∧ (0 ≤ m.exit j ∧ m.exit j ≤ 1)) :
    (∃ ps, g.getPathsExample hash startMax finishMax links = some (some ps) ∧
        List.Forall₂ (fun link p => Generated g.div g.links g.maxCdist link p) links ps) ∨
      (g.getPathsExample hash startMax finishMax links = some none ∧ ∃ link ∈ links, ¬ ∃ p, Generated g.div g.links g.maxCdist link p) := by
  induction links with
  | nil => exact Or.inl ⟨[], rfl, List.Forall₂.nil⟩
  | cons link rest ih =>
    obtain ⟨out, h1, _, h3⟩ := C39_generate_paths g hash link startMax finishMax hM hunit
    unfold getPathsExample
    rw [h1]
    cases out with
    | nil =>
      refine Or.inr ⟨rfl, link, by simp, ?_⟩
      rintro ⟨p, hp⟩
      have := (h3 p).2 hp
      simp at this
    | cons p out =>
      have hp := (h3 p).1 (by simp)
      simp only [Option.bind_eq_bind, Option.bind_some, List.head?_cons]
      rcases ih with ⟨ps, h4, h5⟩ | ⟨h4, l, hl, h5⟩
      · rw [h4]
        exact Or.inl ⟨p :: ps, rfl, List.Forall₂.cons hp h5⟩
      · rw [h4]
        exact Or.inr ⟨rfl, l, List.mem_cons_of_mem _ hl, h5⟩

/-- C40. With `std=True` only paths of C39 are yielded, no two of them are equivalent (one being the image of the other under a base map
that preserves the requested link), and every path of C39 is equivalent to exactly one of them. -/
theorem C40_generate_std (g : PathsGen d (Point d)) (hash : Finset (Cube d) × CubeTree.Node d (Link (Point d)) → ℤ) (link : Link (Point d))
    (startMax finishMax : Option ℤ) (hM : 2 ≤ g.div ^ d)
    (hunit : ∀ m ∈ g.links, ∀ j, (0 ≤ m.entrance j ∧ m.entrance j ≤ 1) ∧ (0 ≤ m.exit j ∧ m.exit j ≤ 1)) :
    ∃ out, g.generatePathsGeneric hash link true startMax finishMax = some out ∧
      (∀ p ∈ out, Generated g.div g.links g.maxCdist link p) ∧
      (out.Pairwise fun p q => ¬ ∃ b : BaseMap d, Link.act b link = link ∧ Path.act b p = some q) ∧
      ∀ p, Generated g.div g.links g.maxCdist link p → ∃! q, q ∈ out ∧ ∃ b : BaseMap d, Link.act b link = link ∧ Path.act b p = some q := by
  obtain ⟨paths, h1, h2, h3⟩ := rawPaths_spec hunit hM hash link startMax finishMax
  have hwf : ∀ p ∈ paths, p.WF := fun p hp => ((h3 p).1 hp).wf
  obtain ⟨out, k1, k2, _, k4, k5⟩ := stdLoop_spec link paths [] hwf
  have hequi : ∀ {p q : Path (Point d) d}, p.WF → ((∃ b : BaseMap d, Link.act b link = link ∧ Path.act b p = some q) ↔ Equi link p q) := by
    intro p q hp
    unfold Equi
    refine exists_congr fun b => ?_
    rw [mem_stab, Path.act_eq hp, Option.some.injEq]
    rfl
  have hout : ∀ p ∈ out, p.WF := fun p hp => hwf p (k2 p hp)
  refine ⟨out, ?_, fun p hp => (h3 p).1 (k2 p hp), ?_, ?_⟩
  · unfold generatePathsGeneric
    simp only [h1, Option.bind_eq_bind, Option.bind_some, if_true]
    exact k1
  · refine List.Pairwise.imp_of_mem ?_ k4
    intro p q hp hq hne h
    rw [hequi (hout p hp)] at h
    exact hne ((stdForm_eq_iff (hout p hp) (hout q hq)).2 h)
  · intro p hp
    have hpp := (h3 p).2 hp
    rcases k5 p hpp with h | ⟨q, hq, h⟩
    · simp at h
    · refine ⟨q, ⟨hq, (hequi hp.wf).2 ((stdForm_eq_iff hp.wf (hout q hq)).1 h.symm)⟩, ?_⟩
      rintro r ⟨hr, hre⟩
      rw [hequi hp.wf] at hre
      by_contra hne
      have e : stdForm link r = stdForm link q := by rw [h]; exact ((stdForm_eq_iff hp.wf (hout r hr)).2 hre).symm
      have hsym : ∀ {p q : Path (Point d) d}, stdForm link p ≠ stdForm link q → stdForm link q ≠ stdForm link p := fun h => h.symm
      exact (@List.Pairwise.forall _ _ _ ⟨fun _ _ => hsym⟩ k4 _ hr _ hq hne) e

end PathsGen
end Peano
