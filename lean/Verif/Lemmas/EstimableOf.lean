import Verif.Lemmas.FirstPairs
import Verif.Props.SAT
import Verif.Props.Curves

set_option autoImplicit false

/- Classes of curves for the estimators. -/
namespace Peano
variable {d : ℕ}
namespace FCurve
variable {c c' e : FCurve d}

/-- Complete curves of any class that passed `check()`. -/
theorem Full.possible_eq (h : c.Full) (hk : c.kind ≠ .fuzzy) : Possible c e ↔ e = { c with kind := .curve } := by
  have hs := fun p hp i hi => Option.isSome_iff_exists.1 (h.spec_def p hp i hi)
  have hall : ∀ p < c.mult, ∀ i < c.genus, ∃ s, c.spec? p i = some s ∧ c.genAllowedSpecs p i = some [s] := by
    intro p hp i hi
    obtain ⟨s, h1⟩ := hs p hp i hi
    exact ⟨s, h1, genAllowedSpecs_defined hk (raw_of_spec h1)⟩
  have hself : Possible c { c with kind := .curve } := by
    refine ⟨rfl, rfl, rfl, rfl, ?_, ?_⟩
    · intro p pat pat' h1 h2
      have h2 : c.patterns[p]? = some pat' := h2
      rw [h1] at h2
      cases h2
      exact ⟨rfl, h.specs_length pat (List.mem_of_getElem? h1)⟩
    · intro p hp i hi
      obtain ⟨s, h1, h2⟩ := hall p hp i hi
      exact ⟨[s], s, h2, by simp, h1⟩
  constructor
  · intro he
    refine he.ext hself fun p hp i hi => ?_
    obtain ⟨s, h1, h2⟩ := hall p hp i hi
    obtain ⟨s', h3, h4⟩ := he.spec_allowed hp hi h2
    rw [List.mem_singleton] at h3
    rw [h4, h3]
    exact h1.symm
  · rintro rfl
    exact hself

theorem estimable_of_full (h : c.Full) (hk : c.kind ≠ .fuzzy) (h0 : 0 < c.mult) (hc : c.check = some true) (hfill : c.FillsGrid) : c.Estimable := by
  refine ⟨h0, h.specs_length, ?_, ?_⟩
  · intro p hp i hi
    obtain ⟨s, h1⟩ := Option.isSome_iff_exists.1 (h.spec_def p hp i hi)
    exact ⟨[s], genAllowedSpecs_defined hk (raw_of_spec h1), by simp, by simp⟩
  · intro e he
    rw [h.possible_eq hk] at he
    subst he
    have hf : ({ c with kind := .curve } : FCurve d).Full :=
      ⟨⟨h.two_le_div, h.proto_length, h.specs_length, h.cube_range, h.spec_range⟩, h.cube_def, h.spec_def⟩
    obtain ⟨f, hr⟩ := (C12_check_iff c h).2.1 hc
    exact ⟨hf, (C12_check_iff _ hf).2.2 ⟨f, hr.mem_cube, hr.eqn⟩, hfill⟩

theorem estimable_of_pathFuzzy {paths : List (Path (Point d) d)} {group : Option (List (BaseMap d))} {t : Bool} {N : ℕ} (hN : 2 ≤ N)
    (hgrp : ∀ g, group = some g → IsSubgroupList g) (hv : ∀ path ∈ paths, path.Valid N)
    (hcont : ∀ path ∈ paths, path.isContinuous = some true) (hfill : ∀ path ∈ paths, path.FillsGrid N) (hc : PathFuzzy paths group t c) : c.Estimable := by
  have hinv := pathFuzzy_inv hgrp hv hc
  obtain ⟨hA, hne⟩ := hinv.allowedDefined hgrp hv
  obtain ⟨c0, hc0, hsd⟩ := hinv.data
  refine ⟨?_, hsd.sized.specs_length, ?_, ?_⟩
  · obtain ⟨first, D, fr, h1, h2, h3, rfl⟩ := initFromPaths_spec (effectiveGroup_isSubgroup hgrp t) hc0
    rw [hsd.mult]
    cases paths with
    | nil => cases h1
    | cons a l => simp [mult]
  · intro p hp i hi
    obtain ⟨l, h1, h2⟩ := hA p hp i hi
    exact ⟨l, h1, h2, fun h => hne p hp i hi (by rw [h1, h])⟩
  · intro e he
    have hfol := he.follows hgrp hv hinv
    refine ⟨hfol.full hN hv, hfol.check hN hv hcont, ?_⟩
    intro p hp cube hcube
    obtain ⟨pat, hpat⟩ := getElem?_of_lt hp
    have hp' : p < paths.length := by rw [← hfol.mult]; exact hp
    have hpath : paths[p]? = some paths[p] := List.getElem?_eq_getElem hp'
    have hproto := hfol.proto p _ pat hpath hpat
    rw [hfol.div] at hcube
    have hm := hfill _ (List.getElem_mem hp') cube hcube
    rw [← hproto] at hm
    obtain ⟨i, hi⟩ := List.mem_iff_getElem?.1 hm
    refine ⟨i, ?_, ?_⟩
    · have := (List.getElem?_eq_some_iff.1 hi).1
      rw [hproto, (hv _ (List.getElem_mem hp')).proto_length] at this
      rw [hfol.genus]
      exact this
    · unfold FCurve.cube?
      rw [hpat, Option.bind_some]; unfold Proto.cube?; rw [hi]
      rfl

end FCurve
end Peano
