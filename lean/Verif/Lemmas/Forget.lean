import Verif.Lemmas.PossibleB

/- `Curve.forget`. -/
namespace Peano
variable {d : ℕ}
namespace FCurve
variable {c c' : FCurve d}

/-- The paths of a full curve. -/
theorem Full.getPaths_facts (h : c.Full) : ∃ paths, c.getPaths = some paths ∧ paths.length = c.mult ∧ (∀ path ∈ paths, path.Valid c.div) ∧
    (∀ (p : ℕ) (path : Path (Point d) d), paths[p]? = some path → c.getEntrance p = some path.link.entrance ∧ c.getExit p = some path.link.exit) ∧
    FollowsPaths paths c.div c := by
  obtain ⟨g, hg⟩ := h.exists_endEqs
  obtain ⟨Q, hQ1, hQ2⟩ := h.exists_gates hg
  obtain ⟨paths, hp1, hp2, hp3⟩ := h.getPaths_eq hQ1
  have hvalid : ∀ path ∈ paths, path.Valid c.div := by
    intro path hm
    obtain ⟨p, hp⟩ := List.mem_iff_getElem?.1 hm
    have hpm : p < c.mult := by rw [← hp2]; exact (List.getElem?_eq_some_iff.1 hp).1
    obtain ⟨h1, h2, h3, h4⟩ := hp3 p path hp
    refine ⟨h1, by rw [h2]; simp [FCurve.genus], by rw [h3]; simp [FCurve.genus], ?_, h4⟩
    intro o ho
    rw [h2] at ho
    obtain ⟨cube, hcube, rfl⟩ := List.mem_map.1 ho
    obtain ⟨i, hi, rfl⟩ := List.mem_map.1 hcube
    exact ⟨_, rfl, fun j => h.cubeD_range hpm (List.mem_range.1 hi) j⟩
  have hlink : ∀ (p : ℕ) (path : Path (Point d) d), paths[p]? = some path → path.link = gateLink Q p := by
    intro p path hp
    have hpm : p < c.mult := by rw [← hp2]; exact (List.getElem?_eq_some_iff.1 hp).1
    obtain ⟨h1, h2, h3, h4⟩ := hp3 p path hp
    have key : ∀ last, (if last then path.link.exit else path.link.entrance) = Q last p := by
      intro last
      obtain ⟨cube, link, e1, e2, e3⟩ := make_link h.two_le_div (hvalid path (List.mem_of_getElem? hp)) last
      have hi := endIdx_lt h.genus_pos last
      change path.proto[endIdx c.genus last]? = _ at e1
      change path.links[endIdx c.genus last]? = _ at e2
      rw [h2] at e1
      rw [h3] at e2
      simp only [List.getElem?_map, List.getElem?_range hi, Option.map_some, Option.some.injEq] at e1 e2
      subst e1 e2
      rw [e3]
      funext j
      rw [← Rat.cast_inj (α := ℝ), hQ2 last p hpm j, hg last p _ _ (h.cube_eq hpm hi) (h.spec_eq hpm hi)]
      have := act_link_exit (Q := Q) (g := g) (s := c.specD p (endIdx c.genus last))
        (fun l j => hQ2 l _ (h.specD_lt hpm hi) j) j
      cases last
      · push_cast
        rw [← this.2]
        try simp only [Bool.false_eq_true, if_false]
        ring
      · push_cast
        rw [← this.1]
        try simp only [if_true]
        ring
    have k1 := key false
    have k2 := key true
    simp only [Bool.false_eq_true, if_false, if_true] at k1 k2
    unfold gateLink
    rw [← k1, ← k2]
  refine ⟨paths, hp1, hp2, hvalid, ?_, rfl, hp2.symm, h.specs_length, ?_, ?_⟩
  · intro p path hp
    have hpm : p < c.mult := by rw [← hp2]; exact (List.getElem?_eq_some_iff.1 hp).1
    rw [hlink p path hp]
    exact hQ1 p hpm
  · intro p path pat hp hpat
    rw [(hp3 p path hp).2.1]
    exact h.pattern_proto hpat
  · intro p path i link hp hi
    have hpm : p < c.mult := by rw [← hp2]; exact (List.getElem?_eq_some_iff.1 hp).1
    have hig : i < c.genus := by
      have := (List.getElem?_eq_some_iff.1 hi).1
      rwa [(hvalid path (List.mem_of_getElem? hp)).links_length] at this
    rw [(hp3 p path hp).2.2.1] at hi
    simp only [List.getElem?_map, List.getElem?_range hig, Option.map_some, Option.some.injEq] at hi
    have hl : (c.specD p i).pnum < paths.length := by rw [hp2]; exact h.specD_lt hpm hig
    refine ⟨c.specD p i, paths[(c.specD p i).pnum], h.spec_eq hpm hig, List.getElem?_eq_getElem hl, ?_⟩
    rw [hlink _ _ (List.getElem?_eq_getElem hl)]
    exact hi

theorem paths_continuous {paths : List (Path (Point d) d)} (hp : c.getPaths = some paths) (hc : c.check = some true) :
    ∀ path ∈ paths, path.isContinuous = some true := by
  unfold check at hc
  rw [hp] at hc
  simp only [Option.bind_eq_bind, Option.bind_some] at hc
  have key : ∀ (l : List (Path (Point d) d)) (b : Bool), l.foldlM (fun ok p => if ok then p.isContinuous else some false) b = some true →
      b = true ∧ ∀ path ∈ l, path.isContinuous = some true := by
    intro l
    induction l with
    | nil => intro b hb; simpa using hb
    | cons a l ih =>
      intro b hb
      rw [List.foldlM_cons, Option.bind_eq_bind, Option.bind_eq_some_iff] at hb
      obtain ⟨b', h1, h2⟩ := hb
      obtain ⟨rfl, h3⟩ := ih b' h2
      cases b
      · simp at h1
      · refine ⟨rfl, ?_⟩
        intro path hm
        rcases List.mem_cons.1 hm with rfl | hm
        · simpa using h1
        · exact h3 path hm
  exact (key paths true hc).2

end FCurve
end Peano
