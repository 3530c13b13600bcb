import Verif.Spec.Fuzzy
import Verif.Lemmas.Order
import Verif.Lemmas.Allowed
import Verif.Lemmas.ListM

/- Path-fuzzy curves: allowed specs. -/
namespace Peano
variable {d : ℕ}

section dict
variable {α β : Type} [DecidableEq α]

theorem lookup_dictAdd (k k' : α) (v : β) (D : List (α × List β)) :
    (dictAdd k v D).lookup k' = if k' = k then some ((D.lookup k).getD [] ++ [v]) else D.lookup k' := by
  induction D with
  | nil =>
    by_cases h : k' = k
    · simp [dictAdd, h]
    · have : (k' == k) = false := by simpa using h
      simp [dictAdd, h, List.lookup_cons, this]
  | cons e D ih =>
    obtain ⟨k0, ws⟩ := e
    unfold dictAdd
    by_cases h0 : k0 = k
    · subst h0
      rw [if_pos rfl]
      by_cases h : k' = k0
      · simp [h]
      · have : (k' == k0) = false := by simpa using h
        simp [h, List.lookup_cons, this]
    · rw [if_neg h0]
      have hk : (k == k0) = false := by simpa using fun h => h0 h.symm
      by_cases h : k' = k0
      · subst h
        simp [h0]
      · have : (k' == k0) = false := by simpa using h
        simp only [List.lookup_cons, this, ih, hk]

theorem lookup_map_key {γ : Type} (F : α → γ) (D : List (α × β)) (k : α) :
    (D.map fun e => (e.1, F e.1)).lookup k = (D.lookup k).map fun _ => F k := by
  induction D with
  | nil => rfl
  | cons e D ih =>
    obtain ⟨k0, ws⟩ := e
    by_cases h : k = k0
    · subst h; simp
    · have : (k == k0) = false := by simpa using h
      simp only [List.map_cons, List.lookup_cons, this, ih]

end dict

namespace IsSubgroupList
variable {g : List (BaseMap d)}

theorem one' (h : IsSubgroupList g) : (1 : BaseMap d) ∈ g := h.one

theorem filter_noRev (h : IsSubgroupList g) : IsSubgroupList (g.filter fun bm => !bm.timeRev) where
  one := List.mem_filter.2 ⟨h.one, rfl⟩
  mul a ha b hb := by
    rw [List.mem_filter] at *
    refine ⟨h.mul a ha.1 b hb.1, ?_⟩
    have h1 : a.timeRev = false := by simpa using ha.2
    have h2 : b.timeRev = false := by simpa using hb.2
    simp [h1, h2]
  inv a ha := by
    rw [List.mem_filter] at *
    refine ⟨h.inv a ha.1, ?_⟩
    have h1 : a.timeRev = false := by simpa using ha.2
    simp [h1]
  nodup := h.nodup.filter _

theorem all : IsSubgroupList (BaseMap.genBaseMaps d none) where
  one := BaseMap.mem_genBaseMaps.2 (by simp)
  mul _ _ _ _ := BaseMap.mem_genBaseMaps.2 (by simp)
  inv _ _ := BaseMap.mem_genBaseMaps.2 (by simp)
  nodup := BaseMap.nodup_genBaseMaps _

end IsSubgroupList

namespace FCurve
variable {g : List (BaseMap d)}

theorem effectiveGroup_isSubgroup {group : Option (List (BaseMap d))} (h : ∀ g, group = some g → IsSubgroupList g) (t : Bool) :
    IsSubgroupList (effectiveGroup d group t) := by
  have : IsSubgroupList (group.getD (BaseMap.genBaseMaps d none)) := by
    cases group with
    | none => exact IsSubgroupList.all
    | some g => exact h g rfl
  unfold effectiveGroup
  cases t
  · simpa using this
  · simpa using this.filter_noRev

theorem stdLink_mem {l m : Link (Point d)} (h : stdLink g l = some m) : ∃ b ∈ g, Link.act b l = m := by
  have := ((pyMin_spec Link.keyOrder).1 h).1
  simpa using this

theorem stdLink_isSome (hg : IsSubgroupList g) (l : Link (Point d)) : ∃ m, stdLink g l = some m := by
  apply pyMin_isSome
  intro h
  have := List.map_eq_nil_iff.1 h
  have h1 := hg.one
  rw [this] at h1
  simp at h1

theorem stdLink_act (hg : IsSubgroupList g) {b : BaseMap d} (hb : b ∈ g) (l : Link (Point d)) : stdLink g (Link.act b l) = stdLink g l := by
  apply pyMin_congr Link.keyOrder
  intro x
  simp only [List.mem_map]
  constructor
  · rintro ⟨a, ha, rfl⟩
    exact ⟨a * b, hg.mul a ha b hb, by rw [Link.act_mul]⟩
  · rintro ⟨a, ha, rfl⟩
    exact ⟨a * b⁻¹, hg.mul a ha _ (hg.inv b hb), by rw [← Link.act_mul, inv_mul_cancel_right]⟩

/-- Two links have the same standard link iff they are images of each other. -/
theorem stdLink_eq_iff (hg : IsSubgroupList g) {l l' : Link (Point d)} : stdLink g l = stdLink g l' ↔ ∃ b ∈ g, Link.act b l = l' := by
  constructor
  · intro h
    obtain ⟨m, hm⟩ := stdLink_isSome hg l
    obtain ⟨a, ha, e1⟩ := stdLink_mem hm
    obtain ⟨b, hb, e2⟩ := stdLink_mem (h ▸ hm)
    refine ⟨b⁻¹ * a, hg.mul _ (hg.inv b hb) a ha, ?_⟩
    rw [Link.act_mul, e1, ← e2, ← Link.act_mul, inv_mul_cancel, Link.act_one]
  · rintro ⟨b, hb, rfl⟩
    rw [stdLink_act hg hb]

/-- Entries contributed to the dictionary `links_std` at key `std`. -/
def stdEntries (g : List (BaseMap d)) (std : Link (Point d)) (l : List (Path (Point d) d × ℕ)) : List (ℕ × BaseMap d) :=
  l.filterMap fun pp => if stdLink g pp.1.link = some std then (g.find? fun bm => decide (Link.act bm pp.1.link = std)).map fun m => (pp.2, m) else none

theorem find_std (hg : IsSubgroupList g) {l std : Link (Point d)} (h : stdLink g l = some std) :
    ∃ m, g.find? (fun bm => decide (Link.act bm l = std)) = some m ∧ m ∈ g ∧ Link.act m l = std := by
  obtain ⟨b, hb, he⟩ := stdLink_mem h
  have : (g.find? fun bm => decide (Link.act bm l = std)).isSome := by
    rw [List.find?_isSome]
    exact ⟨b, hb, by simpa using he⟩
  obtain ⟨m, hm⟩ := Option.isSome_iff_exists.1 this
  exact ⟨m, hm, List.mem_of_find?_eq_some hm, by simpa using List.find?_some hm⟩

theorem buildLinksStd_aux (hg : IsSubgroupList g) (l : List (Path (Point d) d × ℕ)) (acc : List (Link (Point d) × List (ℕ × BaseMap d))) :
    ∃ D, l.foldlM (fun acc pp => do
      let std ← stdLink g pp.1.link
      let m ← g.find? fun bm => decide (Link.act bm pp.1.link = std)
      return dictAdd std (pp.2, m) acc) acc = some D ∧
      ∀ std, D.lookup std = if stdEntries g std l = [] then acc.lookup std else some ((acc.lookup std).getD [] ++ stdEntries g std l) := by
  induction l generalizing acc with
  | nil => exact ⟨acc, rfl, fun std => by simp [stdEntries]⟩
  | cons pp l ih =>
    obtain ⟨s, hs⟩ := stdLink_isSome hg pp.1.link
    obtain ⟨m, hm, _⟩ := find_std hg hs
    obtain ⟨D, hD1, hD2⟩ := ih (dictAdd s (pp.2, m) acc)
    refine ⟨D, ?_, ?_⟩
    · simp only [List.foldlM_cons, hs, hm, Option.bind_eq_bind, Option.bind_some, Option.pure_def]
      exact hD1
    · intro std
      rw [hD2, lookup_dictAdd]
      by_cases h : std = s
      · subst h
        have e : stdEntries g std (pp :: l) = (pp.2, m) :: stdEntries g std l := by
          unfold stdEntries
          rw [List.filterMap_cons_some (b := (pp.2, m)) (by rw [if_pos hs, hm]; rfl)]
        rw [e]
        by_cases hn : stdEntries g std l = [] <;> simp [hn]
      · have e : stdEntries g std (pp :: l) = stdEntries g std l := by
          unfold stdEntries
          rw [List.filterMap_cons_none (by rw [if_neg (by rw [hs]; simpa using fun h' => h h'.symm)])]
        rw [e]
        simp [h]

theorem buildLinksStd_spec (hg : IsSubgroupList g) (paths : List (Path (Point d) d)) :
    ∃ D, buildLinksStd g paths = some D ∧
      ∀ std, D.lookup std = if stdEntries g std paths.zipIdx = [] then none else some (stdEntries g std paths.zipIdx) := by
  obtain ⟨D, h1, h2⟩ := buildLinksStd_aux hg paths.zipIdx []
  exact ⟨D, h1, fun std => by rw [h2]; simp⟩

theorem mem_stdEntries (hg : IsSubgroupList g) {paths : List (Path (Point d) d)} {std : Link (Point d)} {e : ℕ × BaseMap d}
    (h : e ∈ stdEntries g std paths.zipIdx) :
    ∃ path, paths[e.1]? = some path ∧ stdLink g path.link = some std ∧ e.2 ∈ g ∧ Link.act e.2 path.link = std := by
  unfold stdEntries at h
  rw [List.mem_filterMap] at h
  obtain ⟨pp, hpp, he⟩ := h
  split at he
  · rename_i hs
    obtain ⟨m, hm, h1, h2⟩ := find_std hg hs
    rw [hm] at he
    cases he
    exact ⟨pp.1, List.mk_mem_zipIdx_iff_getElem?.1 hpp, hs, h1, h2⟩
  · cases he

theorem exists_stdEntries (hg : IsSubgroupList g) {paths : List (Path (Point d) d)} {std : Link (Point d)} {p : ℕ} {path : Path (Point d) d}
    (hp : paths[p]? = some path) (hs : stdLink g path.link = some std) : ∃ m, (p, m) ∈ stdEntries g std paths.zipIdx := by
  obtain ⟨m, hm, h1, h2⟩ := find_std hg hs
  refine ⟨m, ?_⟩
  unfold stdEntries
  rw [List.mem_filterMap]
  exact ⟨(path, p), List.mk_mem_zipIdx_iff_getElem?.2 hp, by rw [if_pos hs, hm]; rfl⟩

theorem stdEntries_keys_nodup (std : Link (Point d)) (paths : List (Path (Point d) d)) :
    ((stdEntries g std paths.zipIdx).map Prod.fst).Nodup := by
  have hsub : ((stdEntries g std paths.zipIdx).map Prod.fst).Sublist (paths.zipIdx.map Prod.snd) := by
    unfold stdEntries
    generalize paths.zipIdx = l
    induction l with
    | nil => simp
    | cons pp l ih =>
      rw [List.filterMap_cons]
      split
      · exact ih.cons _
      · rename_i b hb
        have : b.1 = pp.2 := by
          split at hb
          · rw [Option.map_eq_some_iff] at hb
            obtain ⟨m, _, rfl⟩ := hb
            rfl
          · cases hb
        simp only [List.map_cons, this]
        exact ih.cons_cons _
  refine hsub.nodup ?_
  rw [List.zipIdx_map_snd]
  exact List.nodup_range'

/-- The link of fraction is an image of a global link. -/
theorem fractionLink_spec (hg : IsSubgroupList g) {paths : List (Path (Point d) d)} {D : List (Link (Point d) × List (ℕ × BaseMap d))}
    (hD : ∀ std, D.lookup std = if stdEntries g std paths.zipIdx = [] then none else some (stdEntries g std paths.zipIdx)) (l : Link (Point d)) :
    ((fractionLink g D l).isSome ↔ ∃ (p : ℕ) (path : Path (Point d) d) (b : BaseMap d), paths[p]? = some path ∧ b ∈ g ∧ Link.act b path.link = l) ∧
    ∀ r, fractionLink g D l = some r → stdLink g l = some r.2 ∧ r.1 ∈ g ∧ Link.act r.1 r.2 = l ∧ stdEntries g r.2 paths.zipIdx ≠ [] := by
  obtain ⟨s, hs⟩ := stdLink_isSome hg l
  obtain ⟨b, hb, he⟩ := stdLink_mem hs
  have hfind : ∃ r, g.find? (fun bm => decide (Link.act bm s = l)) = some r ∧ r ∈ g ∧ Link.act r s = l := by
    have : (g.find? fun bm => decide (Link.act bm s = l)).isSome := by
      rw [List.find?_isSome]
      exact ⟨b⁻¹, hg.inv b hb, by simpa using (Link.act_inv_eq.1 he).symm⟩
    obtain ⟨m, hm⟩ := Option.isSome_iff_exists.1 this
    exact ⟨m, hm, List.mem_of_find?_eq_some hm, by simpa using List.find?_some hm⟩
  obtain ⟨r, hr1, hr2, hr3⟩ := hfind
  have heq : fractionLink g D l = if stdEntries g s paths.zipIdx = [] then none else some (r, s) := by
    unfold fractionLink
    simp only [hs, Option.bind_eq_bind, Option.bind_some, hD, hr1, Option.pure_def]
    split <;> rfl
  constructor
  · rw [heq]
    constructor
    · intro h
      split at h
      · cases h
      · rename_i hne
        obtain ⟨e, hmem⟩ := List.exists_mem_of_ne_nil _ hne
        obtain ⟨path, h1, h2, h3, h4⟩ := mem_stdEntries hg hmem
        refine ⟨e.1, path, r * e.2, h1, hg.mul _ hr2 _ h3, ?_⟩
        rw [Link.act_mul, h4, hr3]
    · rintro ⟨p, path, b', hp, hb', rfl⟩
      have : stdLink g path.link = some s := by rw [← hs, stdLink_act hg hb']
      obtain ⟨m, hm⟩ := exists_stdEntries hg hp this
      rw [if_neg (List.ne_nil_of_mem hm)]
      rfl
  · intro r' hr'
    rw [heq] at hr'
    split at hr'
    · cases hr'
    · rename_i hne
      cases hr'
      exact ⟨hs, hr2, hr3, hne⟩

/-- What `init_from_paths` stores. -/
theorem initFromPaths_spec {paths : List (Path (Point d) d)} {group : Option (List (BaseMap d))} {t : Bool}
    (hg : IsSubgroupList (effectiveGroup d group t)) {c : FCurve d} (hc : initFromPaths paths group t = some c) :
    ∃ first D fr, paths.head? = some first ∧ buildLinksStd (effectiveGroup d group t) paths = some D ∧
      paths.mapM (fun path => path.links.mapM fun l => fractionLink (effectiveGroup d group t) D l) = some fr ∧
      c = { div := first.div
            patterns := paths.map fun path => ⟨path.proto, List.replicate path.proto.length none⟩
            pnum := 0
            kind := .path {
              linksSymmetries := D.map fun e => (e.1, (effectiveGroup d group t).filter fun bm => decide (Link.act bm e.1 = e.1))
              linksStd := D
              patternLinks := fr.map fun l => l.map Prod.snd
              patternReprs := fr.map fun l => l.map Prod.fst } } := by
  unfold initFromPaths at hc
  simp only [Option.bind_eq_bind, Option.bind_eq_some_iff, Option.pure_def, Option.some.injEq] at hc
  obtain ⟨first, h1, D, h2, fr, h3, h4⟩ := hc
  exact ⟨first, D, fr, h1, h2, h3, h4.symm⟩

/-- Allowed specs where nothing is specified: list of products. -/
theorem allowed_products (hg : IsSubgroupList g) {paths : List (Path (Point d) d)} {std l : Link (Point d)} {r : BaseMap d} (hr : r ∈ g)
    (hrl : Link.act r std = l) (hs : stdLink g l = some std) (hne : stdEntries g std paths.zipIdx ≠ []) :
    let res := (stdEntries g std paths.zipIdx).flatMap fun q => (g.filter fun bm => decide (Link.act bm std = std)).map fun symm =>
      (⟨r * symm * q.2, q.1⟩ : Spec d)
    res.Nodup ∧ res ≠ [] ∧ ∀ s : Spec d, s ∈ res ↔ s.baseMap ∈ g ∧ ∃ path, paths[s.pnum]? = some path ∧ Link.act s.baseMap path.link = l := by
  intro res
  refine ⟨?_, ?_, ?_⟩
  · show (List.flatMap _ _).Nodup
    rw [List.nodup_flatMap]
    constructor
    · intro q _
      refine (hg.nodup.filter _).map ?_
      intro a b hab
      simp only [Spec.mk.injEq, and_true] at hab
      exact mul_left_cancel (mul_right_cancel hab)
    · have := stdEntries_keys_nodup (g := g) std paths
      rw [List.Nodup, List.pairwise_map] at this
      refine this.imp ?_
      intro a b hab
      simp only [Function.onFun, List.disjoint_left, List.mem_map, not_exists, not_and]
      rintro s ⟨x, _, rfl⟩ y _ hy
      simp only [Spec.mk.injEq] at hy
      exact hab hy.2.symm
  · obtain ⟨e, he⟩ := List.exists_mem_of_ne_nil _ hne
    apply List.ne_nil_of_mem (a := (⟨r * 1 * e.2, e.1⟩ : Spec d))
    exact List.mem_flatMap.2 ⟨e, he, List.mem_map.2 ⟨1, List.mem_filter.2 ⟨hg.one', by simp⟩, rfl⟩⟩
  · intro s
    show s ∈ List.flatMap _ _ ↔ _
    simp only [List.mem_flatMap, List.mem_map, List.mem_filter, decide_eq_true_eq]
    constructor
    · rintro ⟨e, he, x, ⟨hx, hxs⟩, rfl⟩
      obtain ⟨path, h1, h2, h3, h4⟩ := mem_stdEntries hg he
      refine ⟨hg.mul _ (hg.mul _ hr _ hx) _ h3, path, h1, ?_⟩
      rw [Link.act_mul, Link.act_mul, h4, hxs, hrl]
    · rintro ⟨hb, path, hp, hl⟩
      have hs' : stdLink g path.link = some std := by rw [← hs, ← hl, stdLink_act hg hb]
      obtain ⟨m, hm⟩ := exists_stdEntries hg hp hs'
      obtain ⟨path', h1, _, h3, h4⟩ := mem_stdEntries hg hm
      rw [hp] at h1
      cases h1
      refine ⟨(s.pnum, m), hm, r⁻¹ * s.baseMap * m⁻¹, ⟨hg.mul _ (hg.mul _ (hg.inv _ hr) _ hb) _ (hg.inv _ h3), ?_⟩, ?_⟩
      · rw [Link.act_mul, Link.act_mul]
        rw [← Link.act_inv_eq.1 h4, hl]
        exact (Link.act_inv_eq.1 hrl).symm
      · cases s
        simp only [Spec.mk.injEq, and_true]
        group

end FCurve
end Peano

namespace Peano
variable {d : ℕ}
namespace FCurve

theorem mem_effectiveGroup {group : Option (List (BaseMap d))} {t : Bool} {b : BaseMap d} : b ∈ effectiveGroup d group t ↔ InGroup group t b := by
  unfold effectiveGroup InGroup
  have : b ∈ group.getD (BaseMap.genBaseMaps d none) ↔ ∀ g, group = some g → b ∈ g := by
    cases group with
    | none => simp [BaseMap.mem_genBaseMaps]
    | some g => simp
  cases t
  · simp [this]
  · simp [List.mem_filter, this]

theorem mapM_getElem? {α β : Type} {f : α → Option β} {l : List α} {r : List β} (h : l.mapM f = some r) {i : ℕ} {a : α} (ha : l[i]? = some a) :
    ∃ b, r[i]? = some b ∧ f a = some b := by
  have h2 := mapM_eq_some.1 h
  have hi : i < r.length := by rw [← h2.length_eq]; exact (List.getElem?_eq_some_iff.1 ha).1
  obtain ⟨a', h3, h4⟩ := forall₂_getElem? h2 i _ (List.getElem?_eq_getElem hi)
  rw [ha] at h3
  cases h3
  exact ⟨_, List.getElem?_eq_getElem hi, h4⟩

theorem conj_cubeMap_mul (b x : BaseMap d) : b.cubeMap * x * b.cubeMap⁻¹ * b = b * x := by
  by_cases h : b.timeRev = true
  · have e : b = b.cubeMap.invert := by cases b; simp only at h; subst h; rfl
    conv_lhs => rw [e]
    conv_rhs => rw [e]
    rw [BaseMap.mul_invert, BaseMap.invert_mul]
    have : b.cubeMap.invert.cubeMap = b.cubeMap := rfl
    rw [this, inv_mul_cancel_right]
  · have e : b.cubeMap = b := by cases b; simp only [Bool.not_eq_true] at h; subst h; rfl
    rw [e, inv_mul_cancel_right]

/-- Allowed specs at undefined positions. -/
theorem allowed_undefined {paths : List (Path (Point d) d)} {group : Option (List (BaseMap d))} {t : Bool} {c c' : FCurve d}
    (hgrp : ∀ g, group = some g → IsSubgroupList g) (hc : initFromPaths paths group t = some c) (hk : c'.kind = c.kind)
    {p i : ℕ} {path : Path (Point d) d} {link : Link (Point d)} {pat : Pattern d} (hp : paths[p]? = some path) (hi : path.links[i]? = some link)
    (hpat : c'.patterns[p]? = some pat) (hu : pat.specs[i]? = some none) :
    ∃ l, c'.genAllowedSpecs p i = some l ∧ l.Nodup ∧ l ≠ [] ∧
      ∀ s, s ∈ l ↔ InGroup group t s.baseMap ∧ ∃ q, paths[s.pnum]? = some q ∧ Link.act s.baseMap q.link = link := by
  have hg := effectiveGroup_isSubgroup hgrp t
  obtain ⟨first, D, fr, h1, h2, h3, rfl⟩ := initFromPaths_spec hg hc
  obtain ⟨D', hD1, hD2⟩ := buildLinksStd_spec hg paths
  rw [h2] at hD1
  cases hD1
  obtain ⟨frp, hfr1, hfr2⟩ := mapM_getElem? h3 hp
  obtain ⟨rs, hrs1, hrs2⟩ := mapM_getElem? hfr2 hi
  obtain ⟨hs1, hs2, hs3, hs4⟩ := (fractionLink_spec hg hD2 link).2 _ hrs2
  obtain ⟨ha, hb, hcc⟩ := allowed_products hg (paths := paths) hs2 hs3 hs1 hs4
  refine ⟨_, ?_, ha, hb, ?_⟩
  · unfold genAllowedSpecs
    rw [hk]
    simp only [hpat, hu, Option.bind_eq_bind, Option.bind_some, List.getElem?_map, hfr1, Option.map_some, hrs1]
    rw [lookup_map_key (fun k => (effectiveGroup d group t).filter fun bm => decide (Link.act bm k = k))]
    simp only [hD2, hs4, if_false, Option.map_some, Option.bind_some, Option.pure_def]
  · intro s
    rw [hcc, mem_effectiveGroup]

end FCurve
end Peano
