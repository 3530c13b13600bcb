import Verif.Lemmas.Templates
import Verif.Lemmas.Forget
import Verif.Props.Fuzzy

/-!
Property C24: `get_junction_templates` characterizes the junctions of the possible curves.
-/

set_option autoImplicit false

namespace Peano
namespace FCurve

variable {d : ℕ}

/-- C24. For every path-fuzzy curve of valid continuous paths (at least two cubes) `get_junction_templates` succeeds, its keys are
distinct, and for every possible full curve: `gen_regular_junctions` succeeds, and the junctions it yields are exactly the keys of
the dictionary that list a template agreeing with the curve wherever the template is defined.  No key and no template is idle:
each key has a template, each template agrees with some possible curve. -/
theorem C24_templates (paths : List (Path (Point d) d)) (group : Option (List (BaseMap d))) (t : Bool) (N : ℕ) (c : FCurve d)
    (hd : d ≠ 0) (hN : 2 ≤ N) (hgrp : ∀ g, group = some g → IsSubgroupList g) (hv : ∀ path ∈ paths, path.Valid N)
    (hcont : ∀ path ∈ paths, path.isContinuous = some true) (hc : PathFuzzy paths group t c) :
    ∃ T, c.getJunctionTemplates = some T ∧ (T.map Prod.fst).Nodup ∧
      (∀ j ts, (j, ts) ∈ T → ts ≠ [] ∧ ∀ tmpl ∈ ts, ∃ c', Possible c c' ∧ ∀ p i s, tmpl.spec? p i = some s → c'.spec? p i = some s) ∧
      ∀ c', Possible c c' → ∃ l, c'.genRegularJunctions = some l ∧
      ∀ j, j ∈ l.map Prod.fst ↔ ∃ ts, (j, ts) ∈ T ∧ ∃ tmpl ∈ ts, ∀ p i s, tmpl.spec? p i = some s → c'.spec? p i = some s := by
  have hinv := pathFuzzy_inv hgrp hv hc
  obtain ⟨c0, hc0, hsd⟩ := hinv.data
  obtain ⟨g1, _⟩ := init_facts hgrp hv hc0
  obtain ⟨hA, hne⟩ := hinv.allowedDefined hgrp hv
  have hgen : c.genus = N ^ d := by unfold FCurve.genus; rw [hsd.div, g1]
  apply getJunctionTemplates_spec hsd.sized hA hne
  · rw [hgen]
    calc 2 ≤ N := hN
      _ = N ^ 1 := (pow_one N).symm
      _ ≤ N ^ d := Nat.pow_le_pow_right (by omega) (by omega)
  · intro e he
    have hfol := he.follows hgrp hv hinv
    exact ⟨hfol.full hN hv, hfol.check hN hv hcont⟩

/-- The hypotheses are met by the forgotten Hilbert curve. -/
example : ∃ paths c, (∀ path ∈ paths, path.Valid 2) ∧ (∀ path ∈ paths, path.isContinuous = some true) ∧
    PathFuzzy (d := 2) paths none false c ∧ Possible c Zoo.hilbert := by
  have hf : Zoo.hilbert.Full := full_of_fullB (by decide +kernel)
  obtain ⟨paths, h1, h2, h3, h4, h5⟩ := hf.getPaths_facts
  obtain ⟨f, e1, e2, _⟩ := C56_forget Zoo.hilbert none false (by decide +kernel) hf (by decide +kernel) (by simp) (by simp [InGroup])
  have hinit : initFromPaths paths none false = some f := by
    unfold forget at e1
    rw [h1] at e1
    exact e1
  have e3 : ({ Zoo.hilbert with pnum := 0 } : FCurve 2) = Zoo.hilbert := by decide +kernel
  rw [e3] at e2
  exact ⟨paths, f, h3, paths_continuous h1 (by decide +kernel), .init hinit, e2⟩

end FCurve
end Peano
