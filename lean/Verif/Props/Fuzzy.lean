import Verif.Lemmas.Forget
import Verif.Lemmas.Valid
import Verif.Model.Zoo

set_option autoImplicit false

/-
Properties C18, C19, C20, C56: allowed specs and possible curves of path-fuzzy curves.
-/
namespace Peano
variable {d : ℕ}
namespace FCurve

/-- C18. `init_from_paths` succeeds iff there is a path and the link of every fraction is the image of the global link of some path
under a base map of the group. -/
theorem C18_init_iff (paths : List (Path (Point d) d)) (group : Option (List (BaseMap d))) (t : Bool)
    (hgrp : ∀ g, group = some g → IsSubgroupList g) :
    (∃ c, initFromPaths paths group t = some c) ↔ paths ≠ [] ∧ ∀ path ∈ paths, ∀ link ∈ path.links,
      ∃ q ∈ paths, ∃ b, InGroup group t b ∧ Link.act b q.link = link := by
  have hg := effectiveGroup_isSubgroup hgrp t
  obtain ⟨D, hD1, hD2⟩ := buildLinksStd_spec hg paths
  have key : ∀ link, (fractionLink (effectiveGroup d group t) D link).isSome ↔ ∃ q ∈ paths, ∃ b, InGroup group t b ∧ Link.act b q.link = link := by
    intro link
    rw [(fractionLink_spec hg hD2 link).1]
    constructor
    · rintro ⟨p, q, b, hp, hb, he⟩
      exact ⟨q, List.mem_of_getElem? hp, b, mem_effectiveGroup.1 hb, he⟩
    · rintro ⟨q, hq, b, hb, he⟩
      obtain ⟨p, hp⟩ := List.mem_iff_getElem?.1 hq
      exact ⟨p, q, b, hp, mem_effectiveGroup.2 hb, he⟩
  constructor
  · rintro ⟨c, hc⟩
    obtain ⟨first, D', fr, h1, h2, h3, _⟩ := initFromPaths_spec hg hc
    rw [hD1] at h2
    cases h2
    refine ⟨fun h => by simp [h] at h1, ?_⟩
    intro path hpath link hlink
    rw [← key]
    have e1 := (mapM_isSome_iff.1 (by rw [h3]; rfl)) path hpath
    exact (mapM_isSome_iff.1 e1) link hlink
  · rintro ⟨hne, hall⟩
    obtain ⟨first, hfirst⟩ : ∃ f, paths.head? = some f := by
      cases paths with
      | nil => exact absurd rfl hne
      | cons a l => exact ⟨a, rfl⟩
    have h3 : (paths.mapM fun (path : Path (Point d) d) => path.links.mapM fun l => fractionLink (effectiveGroup d group t) D l).isSome := by
      rw [mapM_isSome_iff]
      intro path hpath
      rw [mapM_isSome_iff]
      intro link hlink
      rw [key]
      exact hall path hpath link hlink
    obtain ⟨fr, hfr⟩ := Option.isSome_iff_exists.1 h3
    unfold initFromPaths
    simp only [hfirst, hD1, Option.bind_eq_bind, Option.bind_some, Option.pure_def]
    rw [hfr]
    exact ⟨_, rfl⟩

/-- C18. In a path-fuzzy curve built from paths and a group, at an undefined position `(p, i)` the allowed specs are exactly the
`(b, n)` with `b` in the group and `b * (global link of path n)` equal to the link of the fraction; each is yielded once, and there is at
least one.  `c'` is the curve itself or any curve obtained from it by specifying specs at other positions. -/
theorem C18_allowed_specs (paths : List (Path (Point d) d)) (group : Option (List (BaseMap d))) (t : Bool) (c c' : FCurve d)
    (hgrp : ∀ g, group = some g → IsSubgroupList g) (hc : initFromPaths paths group t = some c) (hk : c'.kind = c.kind)
    (p i : ℕ) (path : Path (Point d) d) (link : Link (Point d)) (hp : paths[p]? = some path) (hi : path.links[i]? = some link)
    (pat : Pattern d) (hpat : c'.patterns[p]? = some pat) (hu : pat.specs[i]? = some none) :
    ∃ l, c'.genAllowedSpecs p i = some l ∧ l.Nodup ∧ l ≠ [] ∧
      ∀ s, s ∈ l ↔ InGroup group t s.baseMap ∧ ∃ q, paths[s.pnum]? = some q ∧ Link.act s.baseMap q.link = link :=
  allowed_undefined hgrp hc hk hp hi hpat hu

/-- C18. The same after a base map is applied to the curve: the allowed specs of `b * c'` at position `i` are exactly the `(b', n)`,
where `b'` belongs to the conjugated group, that map the (mapped) global link of path `n` to the (mapped) link of the fraction. -/
theorem C18_after_map (paths : List (Path (Point d) d)) (group : Option (List (BaseMap d))) (t : Bool) (c c' : FCurve d)
    (hgrp : ∀ g, group = some g → IsSubgroupList g) (hc : initFromPaths paths group t = some c) (hk : c'.kind = c.kind)
    (hs : c'.Shape) (hlen : ∀ path ∈ paths, path.links.length = c'.genus) (b : BaseMap d)
    (p i : ℕ) (hig : i < c'.genus) (path : Path (Point d) d) (link : Link (Point d)) (hp : paths[p]? = some path)
    (hi : path.links[b.applyCnum c'.genus i]? = some link)
    (pat : Pattern d) (hpat : c'.patterns[p]? = some pat) (hu : pat.specs[b.applyCnum c'.genus i]? = some none) :
    ∃ l, (act b c').genAllowedSpecs p i = some l ∧ l.Nodup ∧ l ≠ [] ∧
      ∀ s, s ∈ l ↔ InGroup group t (b.cubeMap⁻¹ * s.baseMap * b.cubeMap) ∧
        ∃ q, paths[s.pnum]? = some q ∧ Link.act s.baseMap (Link.act b q.link) = Link.act b link := by
  obtain ⟨l, h1, h2, h3, h4⟩ := allowed_undefined hgrp hc hk hp hi hpat hu
  have hg := effectiveGroup_isSubgroup hgrp t
  have hlens : ∀ x, c'.kind = .path x → (∀ l ∈ x.patternLinks, l.length = c'.genus) ∧ ∀ l ∈ x.patternReprs, l.length = c'.genus := by
    intro x hx
    obtain ⟨first, D, fr, e1, e2, e3, rfl⟩ := initFromPaths_spec hg hc
    rw [hk] at hx
    cases hx
    have : ∀ l ∈ fr, l.length = c'.genus := by
      intro l hl
      obtain ⟨n, hn⟩ := List.mem_iff_getElem?.1 hl
      obtain ⟨q, hq1, hq2⟩ := forall₂_getElem? (mapM_eq_some.1 e3) n l hn
      rw [← hlen q (List.mem_of_getElem? hq1), ← (mapM_eq_some.1 hq2).length_eq]
    constructor <;>
    · intro l hl
      obtain ⟨l', hl', rfl⟩ := List.mem_map.1 hl
      rw [List.length_map]
      exact this l' hl'
  refine ⟨l.map fun s => s.conjugateBy b.cubeMap, ?_, ?_, ?_, ?_⟩
  · rw [genAllowedSpecs_act hs hlens b hig, h1]; rfl
  · refine h2.map ?_
    intro s s' hss
    have e1 := congrArg Spec.baseMap hss
    have e2 := congrArg Spec.pnum hss
    simp only [Spec.conjugateBy, BaseMap.conjugateBy] at e1 e2
    cases s; cases s'
    simp only [Spec.mk.injEq] at *
    exact ⟨mul_left_cancel (mul_right_cancel e1), e2⟩
  · simpa using h3
  · intro s
    have hlink : ∀ (x : BaseMap d) (l : Link (Point d)), Link.act (b.cubeMap * x * b.cubeMap⁻¹) (Link.act b l) = Link.act b (Link.act x l) := by
      intro x l
      rw [← Link.act_mul, ← Link.act_mul]
      congr 1
      exact conj_cubeMap_mul b x
    rw [List.mem_map]
    constructor
    · rintro ⟨s0, hs0, rfl⟩
      obtain ⟨g1, q, g2, g3⟩ := (h4 s0).1 hs0
      refine ⟨?_, q, g2, ?_⟩
      · have : b.cubeMap⁻¹ * (s0.conjugateBy b.cubeMap).baseMap * b.cubeMap = s0.baseMap := by
          show b.cubeMap⁻¹ * (b.cubeMap * s0.baseMap * b.cubeMap⁻¹) * b.cubeMap = s0.baseMap
          group
        rw [this]; exact g1
      · show Link.act (b.cubeMap * s0.baseMap * b.cubeMap⁻¹) (Link.act b q.link) = _
        rw [hlink, g3]
    · rintro ⟨g1, q, g2, g3⟩
      refine ⟨⟨b.cubeMap⁻¹ * s.baseMap * b.cubeMap, s.pnum⟩, (h4 _).2 ⟨g1, q, g2, ?_⟩, ?_⟩
      · have := hlink (b.cubeMap⁻¹ * s.baseMap * b.cubeMap) q.link
        have e : b.cubeMap * (b.cubeMap⁻¹ * s.baseMap * b.cubeMap) * b.cubeMap⁻¹ = s.baseMap := by group
        rw [e, g3] at this
        have := congrArg (Link.act b⁻¹) this
        rw [← Link.act_mul, ← Link.act_mul, inv_mul_cancel, Link.act_one, Link.act_one] at this
        exact this.symm
      · cases s
        simp only [Spec.conjugateBy, Spec.mk.injEq, and_true]
        show b.cubeMap * _ * b.cubeMap⁻¹ = _
        group

/-! ### C19, C20 -/

/-- C19. For a path-fuzzy curve `gen_possible_curves` yields, without repetition, exactly the full curves with the same prototypes and
allowed specs; `count_possible_curves` is their number. -/
theorem C19_possible_curves (paths : List (Path (Point d) d)) (group : Option (List (BaseMap d))) (t : Bool) (N : ℕ) (c : FCurve d)
    (hgrp : ∀ g, group = some g → IsSubgroupList g) (hv : ∀ path ∈ paths, path.Valid N) (hc : PathFuzzy paths group t c) :
    ∃ L, c.genPossibleCurves = some L ∧ L.Nodup ∧ (∀ c', c' ∈ L ↔ Possible c c') ∧ c.countPossibleCurves = some L.length :=
  genPossibleCurves_spec ((pathFuzzy_inv hgrp hv hc).allowedDefined hgrp hv).1

/-- C19. Every possible curve is fully defined and has the entrances and exits prescribed by the paths. -/
theorem C19_gates (paths : List (Path (Point d) d)) (group : Option (List (BaseMap d))) (t : Bool) (N : ℕ) (hN : 2 ≤ N) (c c' : FCurve d)
    (hgrp : ∀ g, group = some g → IsSubgroupList g) (hv : ∀ path ∈ paths, path.Valid N) (hc : PathFuzzy paths group t c)
    (hp : Possible c c') :
    c'.Full ∧ c'.mult = paths.length ∧ ∀ (p : ℕ) (path : Path (Point d) d), paths[p]? = some path →
      c'.getEntrance p = some path.link.entrance ∧ c'.getExit p = some path.link.exit := by
  have hf := hp.follows hgrp hv (pathFuzzy_inv hgrp hv hc)
  exact ⟨hf.full hN hv, hf.mult, fun p path h => hf.gates hN hv h⟩

/-- C19. If the paths are continuous then every possible curve passes `check()`. -/
theorem C19_checked (paths : List (Path (Point d) d)) (group : Option (List (BaseMap d))) (t : Bool) (N : ℕ) (hN : 2 ≤ N) (c c' : FCurve d)
    (hgrp : ∀ g, group = some g → IsSubgroupList g) (hv : ∀ path ∈ paths, path.Valid N)
    (hcont : ∀ path ∈ paths, path.isContinuous = some true) (hc : PathFuzzy paths group t c) (hp : Possible c c') : c'.check = some true :=
  (hp.follows hgrp hv (pathFuzzy_inv hgrp hv hc)).check hN hv hcont

/-- C19. `get_curve_example` succeeds and its value is (up to the class of the object) one of the possible curves; in particular there is
at least one. -/
theorem C19_example (paths : List (Path (Point d) d)) (group : Option (List (BaseMap d))) (t : Bool) (N : ℕ) (c : FCurve d)
    (hgrp : ∀ g, group = some g → IsSubgroupList g) (hv : ∀ path ∈ paths, path.Valid N) (hc : PathFuzzy paths group t c) :
    ∃ e, c.getCurveExample = some e ∧ Possible c { e with kind := .curve } := by
  have hi := pathFuzzy_inv hgrp hv hc
  obtain ⟨c0, hc0, hsd⟩ := hi.data
  exact getCurveExample_spec hsd.sized (hi.allowedDefined hgrp hv).1 (hi.allowedDefined hgrp hv).2

/-- C20. `specify` raises ValueError iff the spec is not allowed at the position, that is, iff no possible curve has it there. -/
theorem C20_value_error (paths : List (Path (Point d) d)) (group : Option (List (BaseMap d))) (t : Bool) (N : ℕ) (c : FCurve d)
    (hgrp : ∀ g, group = some g → IsSubgroupList g) (hv : ∀ path ∈ paths, path.Valid N) (hc : PathFuzzy paths group t c)
    (p i : ℕ) (hp : p < c.mult) (hi : i < c.genus) (s : Spec d) :
    (c.specify p i s = .valueError ↔ ∀ l, c.genAllowedSpecs p i = some l → s ∉ l) ∧
    (c.specify p i s = .valueError ↔ ¬ ∃ c', Possible c c' ∧ c'.spec? p i = some s) := by
  have hinv := pathFuzzy_inv hgrp hv hc
  obtain ⟨c0, hc0, hsd⟩ := hinv.data
  obtain ⟨hA, hne⟩ := hinv.allowedDefined hgrp hv
  obtain ⟨l, hl, hn⟩ := hA p hp i hi
  have key : c.specify p i s = .valueError ↔ s ∉ l := by
    constructor
    · intro h hs
      obtain ⟨c', h1, _⟩ := specify_ok hsd.sized hp hi hl hs
      rw [h1] at h
      cases h
    · exact specify_valueError hl
  have key2 : s ∈ l ↔ ∃ c', Possible c c' ∧ c'.spec? p i = some s := by
    constructor
    · intro hs
      obtain ⟨c1, h1, h2, h3⟩ := specify_ok hsd.sized hp hi hl hs
      have hc1 : PathFuzzy paths group t c1 := .specify hc hp hi h1
      have hinv1 := pathFuzzy_inv hgrp hv hc1
      obtain ⟨_, _, hsd1⟩ := hinv1.data
      obtain ⟨e, _, he⟩ := getCurveExample_spec hsd1.sized (hinv1.allowedDefined hgrp hv).1 (hinv1.allowedDefined hgrp hv).2
      exact ⟨_, (possible_specify h2 hp hi hl hs h3 _).1 he⟩
    · rintro ⟨c', h1, h2⟩
      obtain ⟨s', h3, h4⟩ := h1.spec_allowed hp hi hl
      rw [h2] at h4
      cases h4
      exact h3
  constructor
  · rw [key]
    constructor
    · intro h l' hl'
      rw [hl] at hl'
      cases hl'
      exact h
    · intro h
      exact h l hl
  · rw [key, key2]

/-- C20. If the spec is allowed then `specify` returns a curve of which the possible curves are exactly those of the original curve that
have this spec at this position. -/
theorem C20_specify (paths : List (Path (Point d) d)) (group : Option (List (BaseMap d))) (t : Bool) (N : ℕ) (c : FCurve d)
    (hgrp : ∀ g, group = some g → IsSubgroupList g) (hv : ∀ path ∈ paths, path.Valid N) (hc : PathFuzzy paths group t c)
    (p i : ℕ) (hp : p < c.mult) (hi : i < c.genus) (s : Spec d) (l : List (Spec d)) (hl : c.genAllowedSpecs p i = some l) (hs : s ∈ l) :
    ∃ c₁, c.specify p i s = .ok c₁ ∧ ∀ c', Possible c₁ c' ↔ Possible c c' ∧ c'.spec? p i = some s := by
  obtain ⟨c0, hc0, hsd⟩ := (pathFuzzy_inv hgrp hv hc).data
  obtain ⟨c1, h1, h2, h3⟩ := specify_ok hsd.sized hp hi hl hs
  exact ⟨c1, h1, fun c' => possible_specify h2 hp hi hl hs h3 c'⟩

/-! ### C56 -/

/-- C56. For a full curve whose base maps belong to the chosen group (no condition with the default arguments), `forget` succeeds; the
curve itself (with the pattern number reset to 0) is one of the possible curves of the result; all possible curves have the same
prototypes, entrances and exits. -/
theorem C56_forget (c : FCurve d) (group : Option (List (BaseMap d))) (t : Bool) (hk : c.kind = .curve) (hf : c.Full) (hm : 0 < c.mult)
    (hgrp : ∀ g, group = some g → IsSubgroupList g)
    (hin : ∀ p i s, c.spec? p i = some s → InGroup group t s.baseMap) :
    ∃ f, c.forget group t = some f ∧ Possible f { c with pnum := 0 } ∧
      ∀ c', Possible f c' → c'.div = c.div ∧ c'.mult = c.mult ∧ c'.patterns.map Pattern.proto = c.patterns.map Pattern.proto ∧
        ∀ p < c.mult, c'.getEntrance p = c.getEntrance p ∧ c'.getExit p = c.getExit p := by
  obtain ⟨paths, h1, h2, h3, h4, h5⟩ := hf.getPaths_facts
  obtain ⟨f, hinit⟩ := (C18_init_iff paths group t hgrp).2 ⟨by
    intro h0
    rw [h0] at h2
    simp at h2
    omega, by
    intro path hpath link hlink
    obtain ⟨p, hp⟩ := List.mem_iff_getElem?.1 hpath
    obtain ⟨i, hi⟩ := List.mem_iff_getElem?.1 hlink
    obtain ⟨s, q, e1, e2, e3⟩ := h5.spec p path i link hp hi
    exact ⟨q, List.mem_of_getElem? e2, s.baseMap, hin p i s e1, e3⟩⟩
  obtain ⟨g1, g2, g3, g4, g5, g6, _⟩ := init_facts hgrp h3 hinit
  have hinv := pathFuzzy_inv hgrp h3 (PathFuzzy.init hinit)
  have hfm : f.mult = c.mult := g2.trans h2
  have hfg : f.genus = c.genus := by unfold FCurve.genus; rw [g1]
  have hpaths : ∀ (p : ℕ) (pat : Pattern d) (path : Path (Point d) d), f.patterns[p]? = some pat → paths[p]? = some path → pat.proto = path.proto := by
    intro p pat path e1 e2
    have := congrArg (fun l => l[p]?) g4
    simpa [e1, e2] using this
  refine ⟨f, ?_, ?_, ?_⟩
  · unfold forget
    rw [h1]
    exact hinit
  · refine ⟨hk, g1.symm, ?_, hfm.symm, ?_, ?_⟩
    · obtain ⟨_, _, _, _, _, _, rfl⟩ := initFromPaths_spec (effectiveGroup_isSubgroup hgrp t) hinit
      rfl
    · intro p pat pat' e1 e2
      have hpl : p < paths.length := by rw [← g2]; exact (List.getElem?_eq_some_iff.1 e1).1
      have e2' : c.patterns[p]? = some pat' := e2
      refine ⟨?_, ?_⟩
      · rw [h5.proto p _ pat' (List.getElem?_eq_getElem hpl) e2', hpaths p pat _ e1 (List.getElem?_eq_getElem hpl)]
      · rw [hfg]; exact hf.specs_length pat' (List.mem_of_getElem? e2')
    · intro p hp i hi
      obtain ⟨path, link, e1, e2⟩ := hinv.exists_link hgrp h3 hp hi
      have hr := g5 p hp i hi
      unfold raw at hr
      rw [Option.bind_eq_some_iff] at hr
      obtain ⟨pat, hpat, hu⟩ := hr
      obtain ⟨l, k1, k2, k3, k4⟩ := allowed_undefined hgrp hinit rfl e1 e2 hpat hu
      obtain ⟨s, q, m1, m2, m3⟩ := h5.spec p path i link e1 e2
      exact ⟨l, s, k1, (k4 s).2 ⟨hin p i s m1, q, m2, m3⟩, m1⟩
  · intro c' hc'
    have hfol := hc'.follows hgrp h3 hinv
    refine ⟨hfol.div, hfol.mult.trans h2, ?_, ?_⟩
    · apply List.ext_getElem?
      intro p
      rw [List.getElem?_map, List.getElem?_map]
      by_cases hp : p < c.mult
      · have hpl : p < paths.length := by omega
        obtain ⟨p1, e1⟩ := getElem?_of_lt hp
        obtain ⟨p2, e2⟩ := getElem?_of_lt (c := c') (p := p) (by rw [hfol.mult]; exact hpl)
        rw [e1, e2, Option.map_some, Option.map_some, h5.proto p _ p1 (List.getElem?_eq_getElem hpl) e1,
          hfol.proto p _ p2 (List.getElem?_eq_getElem hpl) e2]
      · have e1 : c.patterns.length ≤ p := by unfold FCurve.mult at hp; omega
        have e2 : c'.patterns.length ≤ p := by
          have := hfol.mult
          unfold FCurve.mult at this hp h2
          omega
        rw [List.getElem?_eq_none e1, List.getElem?_eq_none e2]
    · intro p hp
      have hpl : p < paths.length := by omega
      have e1 := h4 p _ (List.getElem?_eq_getElem hpl)
      have e2 := hfol.gates hf.two_le_div h3 (List.getElem?_eq_getElem hpl)
      rw [e1.1, e1.2, e2.1, e2.2]
      exact ⟨rfl, rfl⟩

/-- C56. If in addition the curve passes `check()` then so does every possible curve of `forget()`. -/
theorem C56_forget_checked (c f c' : FCurve d) (group : Option (List (BaseMap d))) (t : Bool) (hf : c.Full)
    (hcheck : c.check = some true) (hgrp : ∀ g, group = some g → IsSubgroupList g) (hfor : c.forget group t = some f) (hp : Possible f c') :
    c'.check = some true := by
  obtain ⟨paths, h1, h2, h3, h4, h5⟩ := hf.getPaths_facts
  unfold forget at hfor
  rw [h1] at hfor
  exact (hp.follows hgrp h3 (pathFuzzy_inv hgrp h3 (PathFuzzy.init hfor))).check hf.two_le_div h3 (paths_continuous h1 hcheck)

/-! The hypotheses are met: the paths of the Hilbert curve and of a bifractal curve, all base maps. -/

example : ∃ paths c, (∀ path ∈ paths, path.Valid 2) ∧ (∀ path ∈ paths, path.isContinuous = some true) ∧
    PathFuzzy (d := 2) paths none false c ∧ c.mult = 2 ∧ c.genus = 4 := by
  have hf : Zoo.betaOmega.Full := full_of_fullB (by decide +kernel)
  obtain ⟨paths, h1, h2, h3, h4, h5⟩ := hf.getPaths_facts
  obtain ⟨f, e1, e2, _⟩ := C56_forget Zoo.betaOmega none false (by decide +kernel) hf (by decide +kernel) (by simp) (by simp [InGroup])
  have hinit : initFromPaths paths none false = some f := by
    unfold forget at e1
    rw [h1] at e1
    exact e1
  refine ⟨paths, f, h3, paths_continuous h1 (by decide +kernel), .init hinit, ?_, ?_⟩
  · have := e2.mult
    rw [← this]
    decide +kernel
  · have := e2.div
    unfold FCurve.genus
    rw [← this]
    decide +kernel

/-- A non-trivial position: the first fraction of the forgotten Hilbert curve has several allowed specs. -/
example : ((Zoo.hilbert.forget none false).bind fun f => (f.genAllowedSpecs 0 0).map List.length) = some 2 := by decide +kernel
example : IsSubgroupList (BaseMap.genBaseMaps 2 none) := IsSubgroupList.all

end FCurve
end Peano
