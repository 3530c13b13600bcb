import Verif.Lemmas.Possible
import Verif.Lemmas.Fuzzy
import Verif.Lemmas.Check

/- Specification; possible curves of path-fuzzy curves. -/
namespace Peano
variable {d : ℕ}
namespace FCurve
variable {c c' : FCurve d}

/-- Same immutable data. -/
structure SameData (c c' : FCurve d) : Prop where
  div : c'.div = c.div
  pnum : c'.pnum = c.pnum
  kind : c'.kind = c.kind
  mult : c'.mult = c.mult
  sized : c'.Sized
  protos : c'.patterns.map Pattern.proto = c.patterns.map Pattern.proto

theorem SameData.genus (h : SameData c c') : c'.genus = c.genus := by unfold FCurve.genus; rw [h.div]

theorem SameData.trans {c1 c2 c3 : FCurve d} (h : SameData c1 c2) (h' : SameData c2 c3) : SameData c1 c3 :=
  ⟨h'.div.trans h.div, h'.pnum.trans h.pnum, h'.kind.trans h.kind, h'.mult.trans h.mult, h'.sized, h'.protos.trans h.protos⟩

theorem SameData.proto (h : SameData c c') {p : ℕ} {pat pat' : Pattern d} (h1 : c.patterns[p]? = some pat) (h2 : c'.patterns[p]? = some pat') :
    pat'.proto = pat.proto := by
  have := congrArg (fun l => l[p]?) h.protos
  simpa [h1, h2] using this

theorem SameData.cube? (h : SameData c c') (p i : ℕ) : c'.cube? p i = c.cube? p i := by
  have := congrArg (fun l => l[p]?) h.protos
  simp only [List.getElem?_map] at this
  unfold FCurve.cube?
  cases h1 : c.patterns[p]? <;> cases h2 : c'.patterns[p]? <;> rw [h1, h2] at this <;> simp_all

theorem specify_ok (hs : c.Sized) {p i : ℕ} (hp : p < c.mult) (hi : i < c.genus) {l : List (Spec d)} (hl : c.genAllowedSpecs p i = some l)
    {s : Spec d} (h : s ∈ l) :
    ∃ c', c.specify p i s = .ok c' ∧ SameData c c' ∧ ∀ p' i', c'.raw p' i' = if (p', i') = (p, i) then some (some s) else c.raw p' i' := by
  obtain ⟨o, ho⟩ := hs.raw_isSome hp hi
  cases o with
  | some s' =>
    have := genAllowedSpecs_defined (genAllowedSpecs_kind hl) ho
    rw [hl] at this
    cases this
    cases List.mem_singleton.1 h
    refine ⟨c, ?_, ⟨rfl, rfl, rfl, rfl, hs, rfl⟩, ?_⟩
    · unfold specify
      rw [hl]
      simp only [h, if_true]
      unfold raw at ho
      rw [ho]
    · intro p' i'
      split
      · rename_i he; cases he; exact ho
      · rfl
  | none =>
    obtain ⟨c', h1, h2, h3, h4, h5, h6, h7, h8⟩ := specifyAllowed_spec [((p, i), s)] (by simp) hs (by simp [hp, hi])
    refine ⟨c', ?_, ⟨h2, h3, h4, h5, h6, h7⟩, ?_⟩
    · unfold specify
      rw [hl]
      simp only [h, if_true]
      unfold raw at ho
      rw [ho, h1]
    · intro p' i'
      rw [h8]
      by_cases he : (p', i') = (p, i)
      · rw [he]; simp
      · have : ((p', i') == (p, i)) = false := by simpa using he
        rw [List.lookup_cons, this, if_neg he]
        rfl

theorem specify_valueError {p i : ℕ} {l : List (Spec d)} (hl : c.genAllowedSpecs p i = some l) {s : Spec d} (h : s ∉ l) :
    c.specify p i s = .valueError := by
  unfold specify
  rw [hl]
  simp [h]

/-- Effect of a specification on allowed specs. -/
theorem allowed_of_raw (hd : SameData c c') (hk : c.kind ≠ .fuzzy) {p i : ℕ} {s : Spec d}
    (hr : ∀ p' i', c'.raw p' i' = if (p', i') = (p, i) then some (some s) else c.raw p' i') (p' i' : ℕ) :
    c'.genAllowedSpecs p' i' = if (p', i') = (p, i) then some [s] else c.genAllowedSpecs p' i' := by
  split
  · rename_i he
    have := hr p' i'
    rw [if_pos he] at this
    exact genAllowedSpecs_defined (by rw [hd.kind]; exact hk) this
  · rename_i he
    have := hr p' i'
    rw [if_neg he] at this
    exact genAllowedSpecs_congr hd.kind this

theorem possible_specify (hd : SameData c c') {p i : ℕ} (hp : p < c.mult) (hi : i < c.genus) {s : Spec d} {l : List (Spec d)}
    (hl : c.genAllowedSpecs p i = some l) (hs : s ∈ l)
    (hr : ∀ p' i', c'.raw p' i' = if (p', i') = (p, i) then some (some s) else c.raw p' i') (e : FCurve d) :
    Possible c' e ↔ Possible c e ∧ e.spec? p i = some s := by
  have hall := allowed_of_raw hd (genAllowedSpecs_kind hl) hr
  have hpat : ∀ (q : ℕ), (∃ pat, c.patterns[q]? = some pat) ↔ ∃ pat, c'.patterns[q]? = some pat := by
    intro q
    have := congrArg (fun l => (l[q]?).isSome) hd.protos
    simp only [List.getElem?_map, Option.isSome_map] at this
    rw [← Option.isSome_iff_exists, ← Option.isSome_iff_exists, this]
  constructor
  · intro h
    have hspec : e.spec? p i = some s := by
      obtain ⟨l', s', h1, h2, h3⟩ := h.allowed p (by rw [hd.mult]; exact hp) i (by rw [hd.genus]; exact hi)
      rw [hall, if_pos rfl] at h1
      cases h1
      rw [h3, List.mem_singleton.1 h2]
    refine ⟨⟨h.kind, h.div.trans hd.div, h.pnum.trans hd.pnum, h.mult.trans hd.mult, ?_, ?_⟩, hspec⟩
    · intro q pat pat' h1 h2
      obtain ⟨pc, hpc⟩ := (hpat q).1 ⟨pat, h1⟩
      obtain ⟨g1, g2⟩ := h.pattern q pc pat' hpc h2
      exact ⟨g1.trans (hd.proto h1 hpc), g2.trans hd.genus⟩
    · intro q hq j hj
      obtain ⟨l', s', h1, h2, h3⟩ := h.allowed q (by rw [hd.mult]; exact hq) j (by rw [hd.genus]; exact hj)
      rw [hall] at h1
      split at h1
      · rename_i he
        cases he; cases h1
        rw [List.mem_singleton.1 h2] at h3
        exact ⟨l, s, hl, hs, h3⟩
      · exact ⟨l', s', h1, h2, h3⟩
  · rintro ⟨h, hspec⟩
    refine ⟨h.kind, h.div.trans hd.div.symm, h.pnum.trans hd.pnum.symm, h.mult.trans hd.mult.symm, ?_, ?_⟩
    · intro q pat pat' h1 h2
      obtain ⟨pc, hpc⟩ := (hpat q).2 ⟨pat, h1⟩
      obtain ⟨g1, g2⟩ := h.pattern q pc pat' hpc h2
      exact ⟨g1.trans (hd.proto hpc h1).symm, g2.trans hd.genus.symm⟩
    · intro q hq j hj
      obtain ⟨l', s', h1, h2, h3⟩ := h.allowed q (by rw [← hd.mult]; exact hq) j (by rw [← hd.genus]; exact hj)
      rw [hall]
      split
      · rename_i he
        cases he
        exact ⟨[s], s, rfl, by simp, hspec⟩
      · exact ⟨l', s', h1, h2, h3⟩

/-! ### Path-fuzzy curves -/

variable {paths : List (Path (Point d) d)} {group : Option (List (BaseMap d))} {t : Bool} {N : ℕ}

/-- The curve made by `init_from_paths`. -/
theorem init_facts (hgrp : ∀ g, group = some g → IsSubgroupList g) (hv : ∀ path ∈ paths, path.Valid N)
    (hc : initFromPaths paths group t = some c) :
    c.div = N ∧ c.mult = paths.length ∧ c.Sized ∧ c.patterns.map Pattern.proto = paths.map Path.proto ∧
      (∀ p < c.mult, ∀ i < c.genus, c.raw p i = some none) ∧ c.kind ≠ .fuzzy ∧ ∀ p i, c.raw p i ≠ none → i < c.genus := by
  obtain ⟨first, D, fr, h1, h2, h3, rfl⟩ := initFromPaths_spec (effectiveGroup_isSubgroup hgrp t) hc
  have hf := hv first (List.mem_of_mem_head? h1)
  have hdiv : first.div = N := hf.div_eq
  have hraw : ∀ (p i : ℕ) (path : Path (Point d) d), paths[p]? = some path →
      (((paths.map fun path => (⟨path.proto, List.replicate path.proto.length none⟩ : Pattern d))[p]?).bind fun pat => pat.specs[i]?) =
        if i < N ^ d then some none else none := by
    intro p i path hp
    simp only [List.getElem?_map, hp, Option.map_some, Option.bind_some, (hv path (List.mem_of_getElem? hp)).proto_length]
    rw [List.getElem?_replicate]
  refine ⟨hdiv, by simp [mult], ⟨?_⟩, ?_, ?_, by simp, ?_⟩
  · intro pat hpat
    obtain ⟨path, hpath, rfl⟩ := List.mem_map.1 hpat
    simp only [List.length_replicate, FCurve.genus, hdiv]
    exact (hv path hpath).proto_length
  · rw [List.map_map]; rfl
  · intro p hp i hi
    have hp' : p < paths.length := by simpa [mult] using hp
    have hi' : i < N ^ d := by simpa [FCurve.genus, hdiv] using hi
    unfold raw
    simp only
    rw [hraw p i _ (List.getElem?_eq_getElem hp'), if_pos hi']
  · intro p i hr
    unfold raw at hr
    simp only at hr
    cases hp : paths[p]? with
    | none =>
      rw [List.getElem?_map, hp] at hr
      simp at hr
    | some path =>
      rw [hraw p i path hp] at hr
      simp only [FCurve.genus, hdiv]
      by_contra hcon
      rw [if_neg hcon] at hr
      exact hr rfl

/-- The invariant of path-fuzzy curves. -/
structure FuzzyInv (paths : List (Path (Point d) d)) (group : Option (List (BaseMap d))) (t : Bool) (c : FCurve d) : Prop where
  data : ∃ c0, initFromPaths paths group t = some c0 ∧ SameData c0 c
  allowed : ∀ p < c.mult, ∀ i < c.genus, ∀ path link, paths[p]? = some path → path.links[i]? = some link →
    ∃ l, c.genAllowedSpecs p i = some l ∧ l.Nodup ∧ l ≠ [] ∧
      ∀ s ∈ l, InGroup group t s.baseMap ∧ ∃ q, paths[s.pnum]? = some q ∧ Link.act s.baseMap q.link = link

theorem pathFuzzy_inv (hgrp : ∀ g, group = some g → IsSubgroupList g) (hv : ∀ path ∈ paths, path.Valid N)
    (h : PathFuzzy paths group t c) : FuzzyInv paths group t c := by
  induction h with
  | @init c hc =>
    obtain ⟨g1, g2, g3, g4, g5, g6, _⟩ := init_facts hgrp hv hc
    refine ⟨⟨c, hc, rfl, rfl, rfl, rfl, g3, rfl⟩, ?_⟩
    intro p hp i hi path link hpath hlink
    have hr := g5 p hp i hi
    unfold raw at hr
    rw [Option.bind_eq_some_iff] at hr
    obtain ⟨pat, hpat, hu⟩ := hr
    obtain ⟨l, h1, h2, h3, h4⟩ := allowed_undefined hgrp hc rfl hpath hlink hpat hu
    exact ⟨l, h1, h2, h3, fun s hs => (h4 s).1 hs⟩
  | @specify c c' p i s _ hp hi hok ih =>
    obtain ⟨⟨c0, hc0, hsd⟩, hall⟩ := ih
    obtain ⟨g1, g2, g3, g4, g5, g6, _⟩ := init_facts hgrp hv hc0
    have hpl : p < paths.length := by rw [← g2, ← hsd.mult]; exact hp
    have hil : i < (paths[p]).links.length := by
      rw [(hv _ (List.getElem_mem hpl)).links_length, ← g1, ← hsd.div]; exact hi
    obtain ⟨l, h1, h2, h3, h4⟩ := hall p hp i hi _ _ (List.getElem?_eq_getElem hpl) (List.getElem?_eq_getElem hil)
    by_cases hs : s ∈ l
    · obtain ⟨c'', e1, e2, e3⟩ := specify_ok hsd.sized hp hi h1 hs
      rw [e1] at hok
      cases hok
      refine ⟨⟨c0, hc0, hsd.trans e2⟩, ?_⟩
      intro p' hp' i' hi' path link hpath hlink
      rw [allowed_of_raw e2 (genAllowedSpecs_kind h1) e3]
      split
      · rename_i he
        cases he
        refine ⟨[s], rfl, by simp, by simp, ?_⟩
        intro s' hs'
        cases List.mem_singleton.1 hs'
        have := h4 s hs
        rw [List.getElem?_eq_getElem hpl] at hpath
        cases hpath
        rw [List.getElem?_eq_getElem hil] at hlink
        cases hlink
        exact this
      · exact hall p' (by rw [← e2.mult]; exact hp') i' (by rw [← e2.genus]; exact hi') path link hpath hlink
    · rw [specify_valueError h1 hs] at hok
      cases hok

theorem FuzzyInv.exists_link (hgrp : ∀ g, group = some g → IsSubgroupList g) (hv : ∀ path ∈ paths, path.Valid N) (h : FuzzyInv paths group t c)
    {p i : ℕ} (hp : p < c.mult) (hi : i < c.genus) :
    ∃ path link, paths[p]? = some path ∧ path.links[i]? = some link := by
  obtain ⟨⟨c0, hc0, hsd⟩, hall⟩ := h
  obtain ⟨g1, g2, g3, g4, g5, g6, _⟩ := init_facts hgrp hv hc0
  have hpl : p < paths.length := by rw [← g2, ← hsd.mult]; exact hp
  have hil : i < (paths[p]).links.length := by
    rw [(hv _ (List.getElem_mem hpl)).links_length, ← g1, ← hsd.div]; exact hi
  exact ⟨_, _, List.getElem?_eq_getElem hpl, List.getElem?_eq_getElem hil⟩

theorem FuzzyInv.allowedDefined (hgrp : ∀ g, group = some g → IsSubgroupList g) (hv : ∀ path ∈ paths, path.Valid N) (h : FuzzyInv paths group t c) :
    c.AllowedDefined ∧ ∀ p < c.mult, ∀ i < c.genus, c.genAllowedSpecs p i ≠ some [] := by
  constructor
  · intro p hp i hi
    obtain ⟨path, link, h1, h2⟩ := h.exists_link hgrp hv hp hi
    obtain ⟨l, g1, g2, _⟩ := h.allowed p hp i hi path link h1 h2
    exact ⟨l, g1, g2⟩
  · intro p hp i hi hcon
    obtain ⟨path, link, h1, h2⟩ := h.exists_link hgrp hv hp hi
    obtain ⟨l, g1, g2, g3, _⟩ := h.allowed p hp i hi path link h1 h2
    rw [hcon] at g1
    cases g1
    exact g3 rfl

/-- Possible curves of a path-fuzzy curve. -/
structure FollowsPaths (paths : List (Path (Point d) d)) (N : ℕ) (c' : FCurve d) : Prop where
  div : c'.div = N
  mult : c'.mult = paths.length
  specs_length : ∀ p ∈ c'.patterns, p.specs.length = c'.genus
  proto : ∀ (p : ℕ) (path : Path (Point d) d) (pat : Pattern d), paths[p]? = some path → c'.patterns[p]? = some pat → pat.proto = path.proto
  spec : ∀ (p : ℕ) (path : Path (Point d) d) (i : ℕ) (link : Link (Point d)), paths[p]? = some path → path.links[i]? = some link →
    ∃ s q, c'.spec? p i = some s ∧ paths[s.pnum]? = some q ∧ Link.act s.baseMap q.link = link

theorem Possible.follows (hgrp : ∀ g, group = some g → IsSubgroupList g) (hv : ∀ path ∈ paths, path.Valid N) (h : FuzzyInv paths group t c)
    (hp : Possible c c') : FollowsPaths paths N c' := by
  obtain ⟨⟨c0, hc0, hsd⟩, hall⟩ := h
  obtain ⟨g1, g2, g3, g4, g5, g6, _⟩ := init_facts hgrp hv hc0
  have hmult : c.mult = paths.length := hsd.mult.trans g2
  have hdiv : c.div = N := hsd.div.trans g1
  refine ⟨hp.div.trans hdiv, hp.mult.trans hmult, ?_, ?_, ?_⟩
  · intro pat hpat
    obtain ⟨p, hpp⟩ := List.mem_iff_getElem?.1 hpat
    have : p < c.mult := by rw [← hp.mult]; exact (List.getElem?_eq_some_iff.1 hpp).1
    obtain ⟨pc, hpc⟩ := getElem?_of_lt this
    rw [(hp.pattern p pc pat hpc hpp).2]
    unfold FCurve.genus
    rw [hp.div]
  · intro p path pat hpath hpat
    have : p < c.mult := by rw [← hp.mult]; exact (List.getElem?_eq_some_iff.1 hpat).1
    obtain ⟨pc, hpc⟩ := getElem?_of_lt this
    rw [(hp.pattern p pc pat hpc hpat).1]
    have e : c.patterns.map Pattern.proto = paths.map Path.proto := hsd.protos.trans g4
    have := congrArg (fun l => l[p]?) e
    simpa [hpc, hpath] using this
  · intro p path i link hpath hlink
    have hpm : p < c.mult := by rw [hmult]; exact (List.getElem?_eq_some_iff.1 hpath).1
    have hi : i < c.genus := by
      unfold FCurve.genus
      rw [hdiv, ← (hv path (List.mem_of_getElem? hpath)).links_length]
      exact (List.getElem?_eq_some_iff.1 hlink).1
    obtain ⟨l, h1, _, _, h4⟩ := hall p hpm i hi path link hpath hlink
    obtain ⟨s, hs, hsp⟩ := hp.spec_allowed hpm hi h1
    obtain ⟨_, q, h5, h6⟩ := h4 s hs
    exact ⟨s, q, hsp, h5, h6⟩

theorem FollowsPaths.genus (h : FollowsPaths paths N c') : c'.genus = N ^ d := by unfold FCurve.genus; rw [h.div]

theorem FollowsPaths.full (hN : 2 ≤ N) (hv : ∀ path ∈ paths, path.Valid N) (h : FollowsPaths paths N c') : c'.Full where
  two_le_div := by rw [h.div]; exact hN
  proto_length := by
    intro pat hpat
    obtain ⟨p, hp⟩ := List.mem_iff_getElem?.1 hpat
    have hpl : p < paths.length := by rw [← h.mult]; exact (List.getElem?_eq_some_iff.1 hp).1
    rw [h.proto p _ pat (List.getElem?_eq_getElem hpl) hp, (hv _ (List.getElem_mem hpl)).proto_length, h.genus]
  specs_length := h.specs_length
  cube_range := by
    intro p i cube hc
    have hp := cube?_lt hc
    obtain ⟨pat, hpat⟩ := getElem?_of_lt hp
    have hpl : p < paths.length := by rw [← h.mult]; exact hp
    unfold FCurve.cube? at hc
    rw [hpat, Option.bind_some] at hc
    rw [h.proto p _ pat (List.getElem?_eq_getElem hpl) hpat] at hc
    unfold Proto.cube? at hc
    rw [Option.join_eq_some_iff] at hc
    obtain ⟨cube', e1, e2⟩ := (hv _ (List.getElem_mem hpl)).cube_def _ (List.mem_of_getElem? hc)
    cases e1
    rw [h.div]
    exact e2
  spec_range := by
    intro p i s hs
    have hp : p < paths.length := by
      rw [← h.mult]
      unfold FCurve.spec? at hs
      by_contra hcon
      rw [List.getElem?_eq_none (by unfold FCurve.mult at hcon; omega)] at hs
      cases hs
    have hi : i < (paths[p]).links.length := by
      rw [(hv _ (List.getElem_mem hp)).links_length, ← h.genus]
      obtain ⟨pat, hpat⟩ := getElem?_of_lt (c := c') (p := p) (by rw [h.mult]; exact hp)
      unfold FCurve.spec? at hs
      rw [hpat, Option.bind_some] at hs
      rw [← h.specs_length pat (List.mem_of_getElem? hpat)]
      by_contra hcon
      rw [List.getElem?_eq_none (by omega)] at hs
      cases hs
    obtain ⟨s', q, h1, h2, _⟩ := h.spec p _ i _ (List.getElem?_eq_getElem hp) (List.getElem?_eq_getElem hi)
    rw [hs] at h1
    cases h1
    rw [h.mult]
    exact (List.getElem?_eq_some_iff.1 h2).1
  cube_def := by
    intro p hp i hi
    obtain ⟨pat, hpat⟩ := getElem?_of_lt hp
    have hpl : p < paths.length := by rw [← h.mult]; exact hp
    unfold FCurve.cube?
    rw [hpat, Option.bind_some, h.proto p _ pat (List.getElem?_eq_getElem hpl) hpat]
    have hv' := hv _ (List.getElem_mem hpl)
    have hil : i < (paths[p]).proto.length := by rw [hv'.proto_length, ← h.genus]; exact hi
    obtain ⟨cube, e1, _⟩ := hv'.cube_def _ (List.getElem_mem hil)
    unfold Proto.cube?
    rw [List.getElem?_eq_getElem hil, e1]
    rfl
  spec_def := by
    intro p hp i hi
    have hpl : p < paths.length := by rw [← h.mult]; exact hp
    have hil : i < (paths[p]).links.length := by rw [(hv _ (List.getElem_mem hpl)).links_length, ← h.genus]; exact hi
    obtain ⟨s', q, h1, h2, _⟩ := h.spec p _ i _ (List.getElem?_eq_getElem hpl) (List.getElem?_eq_getElem hil)
    rw [h1]; rfl

/-- Gates of the paths. -/
def pathGate (paths : List (Path (Point d) d)) (last : Bool) (p : ℕ) : Point d :=
  match paths[p]? with
  | some path => if last then path.link.exit else path.link.entrance
  | none => 0

theorem make_link {N : ℕ} (hN : 2 ≤ N) {path : Path (Point d) d} (hv : path.Valid N) (last : Bool) :
    ∃ cube link, path.proto[endIdx (N ^ d) last]? = some (some cube) ∧ path.links[endIdx (N ^ d) last]? = some link ∧
      (if last then path.link.exit else path.link.entrance) = fun j => ((if last then link.exit else link.entrance) j + cube j) * (1 / N) := by
  have hm := hv.made
  unfold Path.make at hm
  simp only [Option.bind_eq_bind, Option.bind_eq_some_iff, Option.pure_def, Option.some.injEq] at hm
  obtain ⟨l0, h1, l1, h2, oc0, h3, c0, h3', oc1, h4, c1, h4', e, h5, x, h6, h7⟩ := hm
  have key : ∀ (q : Point d) (cube : Cube d) (r : Point d), SubsetOps.mapToCube q N cube = some r → r = fun j => (q j + cube j) * (1 / N) := by
    intro q cube r hr
    have hr' : Point.mapToCube q N cube = some r := hr
    unfold Point.mapToCube at hr'
    rw [if_neg (by omega)] at hr'
    cases hr'
    rfl
  have hlink : path.link = ⟨e, x⟩ := by rw [← h7]
  cases last
  · refine ⟨c0, l0, ?_, ?_, ?_⟩
    · rw [List.head?_eq_getElem?] at h3
      simp [endIdx, h3, h3']
    · rw [List.head?_eq_getElem?] at h1
      exact h1
    · rw [hlink]; exact key _ _ _ h5
  · refine ⟨c1, l1, ?_, ?_, ?_⟩
    · rw [List.getLast?_eq_getElem?, hv.proto_length] at h4
      simp [endIdx, h4, h4']
    · rw [List.getLast?_eq_getElem?, hv.links_length] at h2
      exact h2
    · rw [hlink]; exact key _ _ _ h6

theorem FollowsPaths.endPt (h : FollowsPaths paths N c') {p i : ℕ} {path : Path (Point d) d} {link : Link (Point d)} {s : Spec d}
    (hp : paths[p]? = some path) (hl : path.links[i]? = some link) (hs : c'.spec? p i = some s) (last : Bool) (j : Fin d) :
    Peano.endPt (fun last p j => (pathGate paths last p j : ℝ)) last s j = ((if last then link.exit else link.entrance) j : ℝ) := by
  obtain ⟨s', q, h1, h2, h3⟩ := h.spec p path i link hp hl
  rw [hs] at h1
  cases h1
  rw [← h3]
  unfold Peano.endPt
  have e : ∀ b, (fun j => (pathGate paths b s.pnum j : ℝ)) = fun j => ((if b then q.link.exit else q.link.entrance) j : ℝ) := by
    intro b
    funext j
    unfold pathGate
    rw [h2]
  beta_reduce
  rw [e, Link.act_def]
  have hact : ∀ q : Point d, Point.act s.baseMap q = s.baseMap.applyX 1 q := fun _ => rfl
  cases last <;> by_cases hr : s.baseMap.timeRev = true <;> simp [hr, hact, applyX_cast]

theorem FollowsPaths.endEqs (hN : 2 ≤ N) (hv : ∀ path ∈ paths, path.Valid N) (h : FollowsPaths paths N c') :
    c'.EndEqs fun last p j => (pathGate paths last p j : ℝ) := by
  intro last p cube s hc hs
  have hp := cube?_lt hc
  have hpl : p < paths.length := by rw [← h.mult]; exact hp
  obtain ⟨pat, hpat⟩ := getElem?_of_lt hp
  have hget := List.getElem?_eq_getElem hpl
  obtain ⟨cube', link, h1, h2, h3⟩ := make_link hN (hv _ (List.getElem_mem hpl)) last
  rw [h.genus] at hc hs
  unfold FCurve.cube? at hc
  rw [hpat, Option.bind_some, h.proto p _ pat hget hpat] at hc
  unfold Proto.cube? at hc
  rw [h1] at hc
  cases hc
  funext j
  rw [h.endPt hget h2 hs last j]
  have : pathGate paths last p = if last then (paths[p]).link.exit else (paths[p]).link.entrance := by
    unfold pathGate
    rw [hget]
  beta_reduce
  rw [this, h3, h.div]
  push_cast
  ring

/-- Every possible curve has the gates of the paths; it is continuous iff the paths are. -/
theorem FollowsPaths.gates (hN : 2 ≤ N) (hv : ∀ path ∈ paths, path.Valid N) (h : FollowsPaths paths N c') {p : ℕ} {path : Path (Point d) d}
    (hp : paths[p]? = some path) : c'.getEntrance p = some path.link.entrance ∧ c'.getExit p = some path.link.exit := by
  have hf := h.full hN hv
  have hpm : p < c'.mult := by rw [h.mult]; exact (List.getElem?_eq_some_iff.1 hp).1
  have key : ∀ last, c'.getCubeLimit p (endIdx c'.genus last) = some (pathGate paths last p) := by
    intro last
    obtain ⟨q, h1, h2⟩ := getCubeLimit_spec hf.gates (h.endEqs hN hv) hpm last
    rw [h1]
    congr 1
    funext j
    exact_mod_cast h2 j
  have e1 := key false
  have e2 := key true
  unfold pathGate at e1 e2
  rw [hp] at e1 e2
  exact ⟨e1, e2⟩

theorem FollowsPaths.check (hN : 2 ≤ N) (hv : ∀ path ∈ paths, path.Valid N) (hcont : ∀ path ∈ paths, path.isContinuous = some true)
    (h : FollowsPaths paths N c') : c'.check = some true := by
  have hf := h.full hN hv
  obtain ⟨b, hb1, hb2⟩ := hf.check_spec (h.endEqs hN hv)
  rw [hb1]
  congr 1
  rw [hb2]
  intro p hp i hi j
  have hpl : p < paths.length := by rw [← h.mult]; exact hp
  have hget := List.getElem?_eq_getElem hpl
  have hvp := hv _ (List.getElem_mem hpl)
  obtain ⟨pat, hpat⟩ := getElem?_of_lt hp
  have hproto : (paths[p]).proto = ((List.range c'.genus).map fun i => c'.cubeD p i).map some := by
    rw [← h.proto p _ pat hget hpat]
    exact hf.pattern_proto hpat
  obtain ⟨b', hc1, hc2⟩ := isContinuous_eq hproto (by have := hf.genus_pos; simp; omega) (by rw [hvp.links_length]; simp [h.genus])
  rw [hcont _ (List.getElem_mem hpl)] at hc1
  cases hc1
  have hchain := hc2.1 rfl
  rw [List.isChain_iff_getElem] at hchain
  have hll : (paths[p]).links.length = c'.genus := by rw [hvp.links_length, h.genus]
  have := hchain i (by simp [hll]; omega)
  simp only [List.getElem_zip, List.getElem_map, List.getElem_range, LinkGlue] at this
  have e1 := h.endPt hget (List.getElem?_eq_getElem (by omega : i < (paths[p]).links.length)) (hf.spec_eq hp (by omega)) true j
  have e2 := h.endPt hget (List.getElem?_eq_getElem (by omega : i + 1 < (paths[p]).links.length)) (hf.spec_eq hp hi) false j
  simp only [if_true, Bool.false_eq_true, if_false] at e1 e2
  rw [e1, e2, this]
  simp only [Point.shift]
  push_cast
  ring

end FCurve
end Peano
