import Verif.Lemmas.FacetComplete

set_option autoImplicit false

/-! Gates of curves in the facet mode of the generator. -/
namespace Peano
namespace FCurve
variable {n : ℕ} {c : FCurve (n + 1)}

/-- The gates of a curve are found. -/
theorem Full.facetGates_found {g : GatesGen (n + 1)} (hn : 1 ≤ n) (hashF : GatesGen.FacetHash n) (hash : GatesGen.Hash (n + 1)) (h : c.Full)
    (hc : c.check = some true) (hfill : c.FillsGrid) (hdiv : c.div = g.div) (hm : c.mult = g.mult) (hpos : 0 < g.mult) (hfo : g.onlyFacet = true)
    {G : GateTuple (n + 1)} (hG : c.HasGates G) (hI : ∀ l ∈ G, l.entrance.InsideFacet ∧ l.exit.InsideFacet) :
    ∃ out seen, g.genFacetGates hashF hash = some out ∧ g.Inv seen out ∧ GatesGen.sortedStd G ∈ out := by
  have h2 : 2 ≤ g.div := hdiv ▸ h.two_le_div
  obtain ⟨out, seen, e1, e2, e3⟩ := GatesGen.genFacetGates_spec hn h2 hpos hashF hash
  refine ⟨out, seen, e1, e2, ?_⟩
  obtain ⟨Q, hQ1, hQ2, hQ3⟩ := h.exists_rat_gates
  have hGe := hG.eq hQ1
  have hmem : ∀ p < g.mult, gateLink Q p ∈ G := by
    intro p hp
    rw [hGe]; exact List.mem_map.2 ⟨p, List.mem_range.2 (by omega), rfl⟩
  have hpaths : ∀ p, ∃ path, p < c.mult → Generated c.div ((List.range c.mult).map (gateLink Q)) none (gateLink Q p) path ∧
      path.proto = ((List.range c.genus).map fun i => c.cubeD p i).map some ∧
      path.links = (List.range c.genus).map (fun i => Link.act (c.specD p i).baseMap (gateLink Q (c.specD p i).pnum)) := by
    intro p
    by_cases hp : p < c.mult
    · obtain ⟨path, hpath⟩ := h.hasPaths hc hfill hQ1 hp
      exact ⟨path, fun _ => hpath⟩
    · exact ⟨⟨0, [], [], gateLink Q 0⟩, fun h => absurd h hp⟩
  choose P hP using hpaths
  have hdata : FacetGates.Data g.mult g.div (gateLink Q) P (fun p => (List.range c.genus).map fun i => c.specD p i) := by
    refine ⟨?_, ?_, ?_, ?_⟩
    · intro p hp
      rw [← hm, ← hdiv]
      exact (hP p (by omega)).1
    · intro p hp s hs
      obtain ⟨i, hi, rfl⟩ := List.mem_map.1 hs
      rw [← hm]
      exact h.specD_lt (by omega) (List.mem_range.1 hi)
    · intro p hp
      rw [(hP p (by omega)).2.2, List.map_map]
      rfl
    · intro p hp
      have := hI _ (hmem p hp)
      exact ⟨this.1.2.exists, this.2.2.exists⟩
  have hstd : GatesGen.sortedStd G ∈ seen.std := by
    rw [hGe, hm]
    exact hdata.processed hn h2 hfo e3 fun p hp => hI _ (hmem p hp)
  rcases e2.std_out _ hstd with h' | h'
  · exact h'
  · refine absurd ?_ h'
    rw [hGe]
    exact h.hasPaths_std hc hfill hdiv (by omega) hQ1

end FCurve
end Peano
