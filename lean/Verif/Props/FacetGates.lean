import Verif.Lemmas.FacetFinal
import Verif.Props.Gates

set_option autoImplicit false

/-
Properties C51 (both modes) and C66: the generation of gates.
-/
namespace Peano
namespace GatesGen
variable {n : ℕ}

/-- C51. For every configuration with `div ≥ 2`, and with `dim ≥ 2`, `mult ≥ 1` in the mode `only_facet=True`, `gen_gates` finishes without
an exception; it emits no tuple twice, and every emitted tuple is a sorted tuple of `mult` standard gates on the boundary of the cube (in
the mode `only_facet=True` strictly inside facets), such that for each of them there is a continuous path through all cubes built from
images of these gates. -/
theorem C51_gen_gates (g : GatesGen (n + 1)) (hashF : FacetHash n) (hash : Hash (n + 1)) (hdiv : 2 ≤ g.div)
    (hf : g.onlyFacet = true → 1 ≤ n ∧ 0 < g.mult) :
    ∃ out, g.genGates hashF hash = some out ∧ out.Nodup ∧ ∀ S ∈ out, GateTuple.Emittable g.div g.mult g.onlyFacet S := by
  unfold genGates
  by_cases h : g.onlyFacet = true
  · rw [if_pos h]
    obtain ⟨out, seen, h1, h2, _⟩ := genFacetGates_spec (hf h).1 hdiv (hf h).2 hashF hash
    exact ⟨out, h1, h2.nodup, fun S hS => h2.emittable hS⟩
  · rw [if_neg h]
    obtain ⟨out, seen, h1, h2, _⟩ := genAllGates_spec hdiv (by omega) hash
    exact ⟨out, h1, h2.nodup, fun S hS => h2.emittable hS⟩

/-- In dimension 1 the mode `only_facet=True` raises (the configuration excluded from C51). -/
theorem C51_facet_dim1_raises (g : GatesGen 1) (hashF : FacetHash 0) (hash : Hash 1) (h : g.onlyFacet = true) : g.genGates hashF hash = none := by
  unfold genGates genFacetGates linkVariants
  simp [h]

/-- C66. The gates of every valid curve of the configuration (dimension at least 2), if they are strictly inside facets of the cube, are
emitted in the mode `only_facet=True`: exactly one of the emitted tuples is the tuple of these gates up to their order and symmetries. -/
theorem C66_facet_complete (g : GatesGen (n + 1)) (hashF : FacetHash n) (hash : Hash (n + 1)) (hn : 1 ≤ n) (hf : g.onlyFacet = true)
    (c : FCurve (n + 1)) (hpos : 0 < c.mult) (h : c.Full) (hfill : c.FillsGrid) (hc : c.check = some true) (hdiv : c.div = g.div)
    (hm : c.mult = g.mult) (gates : GateTuple (n + 1)) (hgates : c.HasGates gates)
    (hI : ∀ l ∈ gates, l.entrance.InsideFacet ∧ l.exit.InsideFacet) :
    ∃ out, g.genGates hashF hash = some out ∧ ∃! S, S ∈ out ∧ GateTuple.SameUpToSymmetry gates S := by
  obtain ⟨out, seen, h1, h2, h3⟩ := h.facetGates_found hn hashF hash hc hfill hdiv hm (by omega) hf hgates hI
  refine ⟨out, by unfold genGates; rw [if_pos hf]; exact h1, sortedStd gates, ⟨h3, sameUpToSymmetry_sortedStd gates⟩, ?_⟩
  rintro S ⟨hS, hsame⟩
  have he := h2.emittable hS
  exact eq_sortedStd hsame he.sorted he.standard

/-- C66. So the two modes agree on such gates: the tuple emitted in one of them is emitted in the other. -/
theorem C66_modes_agree (g : GatesGen (n + 1)) (hashF hashF' : FacetHash n) (hash hash' : Hash (n + 1)) (hn : 1 ≤ n) (hf : g.onlyFacet = true)
    (c : FCurve (n + 1)) (hpos : 0 < c.mult) (h : c.Full) (hfill : c.FillsGrid) (hc : c.check = some true) (hdiv : c.div = g.div)
    (hm : c.mult = g.mult) (gates : GateTuple (n + 1)) (hgates : c.HasGates gates)
    (hI : ∀ l ∈ gates, l.entrance.InsideFacet ∧ l.exit.InsideFacet) :
    ∃ out out' std, g.genGates hashF hash = some out ∧ { g with onlyFacet := false }.genGates hashF' hash' = some out' ∧
      stdGates gates = some std ∧ std ∈ out ∧ std ∈ out' := by
  obtain ⟨out, seen, h1, h2, h3⟩ := h.facetGates_found hn hashF hash hc hfill hdiv hm (by omega) hf hgates hI
  obtain ⟨out', std, k1, k2, k3⟩ := C52_emitted_form { g with onlyFacet := false } hash' (by omega) rfl c hpos h hfill hc hdiv hm gates hgates
    fun l hl => ⟨⟨(hI l hl).1.1, (hI l hl).1.2.exists⟩, ⟨(hI l hl).2.1, (hI l hl).2.2.exists⟩⟩
  have he := stdGates_eq gates
  rw [k2] at he
  cases he
  exact ⟨out, out', _, by unfold genGates; rw [if_pos hf]; exact h1, by unfold genGates; simpa using k1, stdGates_eq gates, h3, k3⟩

/-! ### The hypotheses are met -/

/-- The curve beta-omega: gates strictly inside edges of the square. -/
example (hashF : FacetHash 1) (hash : Hash 2) : ∃ out, (⟨2, 2, true⟩ : GatesGen 2).genGates hashF hash = some out ∧
    ∃! S, S ∈ out ∧ GateTuple.SameUpToSymmetry betaOmegaGates S := by
  obtain ⟨h1, h2, h3, h4⟩ := Zoo.C57_zoo2 Zoo.betaOmega (by simp [Zoo.curves2])
  exact C66_facet_complete ⟨2, 2, true⟩ hashF hash (by norm_num) rfl Zoo.betaOmega h1 h2 h3 h4 (by decide +kernel) (by decide +kernel) _ betaOmega_hasGates
    betaOmega_insideFacet

/-- C51 in the facet mode for that configuration; by the previous example the list is not empty. -/
example (hashF : FacetHash 1) (hash : Hash 2) : ∃ out, (⟨2, 2, true⟩ : GatesGen 2).genGates hashF hash = some out ∧ out.Nodup ∧
    ∀ S ∈ out, GateTuple.Emittable 2 2 true S := C51_gen_gates ⟨2, 2, true⟩ hashF hash (by norm_num) (by norm_num)

end GatesGen
end Peano
