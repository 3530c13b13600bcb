import Verif.Lemmas.FacetAct
import Verif.Lemmas.PathsGen
import Verif.Spec.FacetPaths

set_option autoImplicit false

/-! Lemmas about the generation of paths with facet links. -/
namespace Peano
variable {n : ℕ}

theorem FacetImageOf.act {links : List (Link (FacetDivSubset n))} {l : Link (FacetDivSubset n)} (h : FacetImageOf links l) (b : BaseMap (n + 1)) :
    FacetImageOf links (Link.act b l) := by
  obtain ⟨a, m, hm, rfl⟩ := h
  exact ⟨b * a, m, hm, (Link.act_mul_facet b a m).symm⟩

theorem FacetImageOf.invert {links : List (Link (FacetDivSubset n))} {l : Link (FacetDivSubset n)} (h : FacetImageOf links l) :
    FacetImageOf links l.invert := by
  obtain ⟨a, m, hm, rfl⟩ := h
  exact ⟨a.invert, m, hm, (Link.act_invert_facet a m).symm⟩

theorem facetImageOf_invert {links : List (Link (FacetDivSubset n))} {l : Link (FacetDivSubset n)} : FacetImageOf links l.invert ↔ FacetImageOf links l :=
  ⟨fun h => h.invert, fun h => h.invert⟩

theorem FacetImageOf.self {links : List (Link (FacetDivSubset n))} {l : Link (FacetDivSubset n)} (h : l ∈ links) : FacetImageOf links l :=
  ⟨1, l, h, (Link.act_one_facet l).symm⟩

theorem facetImageOf_iff {links : List (Link (FacetDivSubset n))} {e x : FacetDivSubset n} :
    FacetImageOf links ⟨e, x⟩ ↔ ∃ a : BaseMap (n + 1), a.timeRev = false ∧ ∃ m ∈ links,
      (e = FacetDivSubset.act a m.entrance ∧ x = FacetDivSubset.act a m.exit) ∨ (e = FacetDivSubset.act a m.exit ∧ x = FacetDivSubset.act a m.entrance) := by
  constructor
  · rintro ⟨a, m, hm, h⟩
    refine ⟨a.cubeMap, rfl, m, hm, ?_⟩
    rw [Link.act_def_facet] at h
    by_cases ht : a.timeRev = true
    · rw [if_pos ht, Link.mk.injEq] at h
      exact Or.inr h
    · rw [if_neg ht, Link.mk.injEq] at h
      exact Or.inl h
  · rintro ⟨a, ha, m, hm, ⟨rfl, rfl⟩ | ⟨rfl, rfl⟩⟩
    · exact ⟨a, m, hm, by rw [Link.act_def_facet, ha]; rfl⟩
    · exact ⟨a.invert, m, hm, by rw [Link.act_invert_facet, Link.act_def_facet, ha]; rfl⟩

namespace FacetGen
open PathsGen
variable (g : PathsGen (n + 1) (FacetDivSubset n))

theorem entr2links_spec :
    (g.entr2links.map Prod.fst).Nodup ∧
    (∀ e ls, Dict.get? e g.entr2links = some ls → ls.Nodup ∧ ls ≠ [] ∧ ∀ l, l ∈ ls ↔ l.entrance = e ∧ FacetImageOf g.links l) ∧
    ∀ e, Dict.get? e g.entr2links = none ↔ ∀ l, FacetImageOf g.links l → l.entrance ≠ e := by
  set pairs := (BaseMap.genBaseMaps (n + 1) (some false)).flatMap fun bm => g.links.flatMap fun link =>
    [((SubsetOps.act bm link.entrance : FacetDivSubset n), (SubsetOps.act bm link.exit : FacetDivSubset n)),
      (SubsetOps.act bm link.exit, SubsetOps.act bm link.entrance)] with hpairs
  set ex := pairs.foldl (fun dict e => addExit e.1 e.2 dict) [] with hex
  have hdef : g.entr2links = ex.map fun e => (e.1, e.2.map fun exit => ⟨e.1, exit⟩) := rfl
  obtain ⟨h1, h2, h3⟩ := foldl_addExit pairs [] (by simp) (by simp [Dict.get?])
  simp only [Dict.get?, reduceCtorEq, false_and, exists_false, false_or] at h3
  rw [← hex] at h1 h2 h3
  have hp : ∀ e x, (e, x) ∈ pairs ↔ FacetImageOf g.links ⟨e, x⟩ := by
    intro e x
    rw [facetImageOf_iff, hpairs]
    simp only [List.mem_flatMap, BaseMap.mem_genBaseMaps, Option.mem_some_iff, forall_eq', List.mem_cons, Prod.mk.injEq, List.not_mem_nil, or_false]
    rfl
  have hget : ∀ e, Dict.get? e g.entr2links = (Dict.get? e ex).map fun xs => xs.map fun exit => ⟨e, exit⟩ := by
    intro e
    rw [hdef]
    generalize ex = l
    induction l with
    | nil => rfl
    | cons a l ih =>
      obtain ⟨k, xs⟩ := a
      simp only [List.map_cons, Dict.get?]
      by_cases hk : k = e
      · subst hk; simp
      · rw [if_neg hk, if_neg hk, ih]
  refine ⟨?_, ?_, ?_⟩
  · rw [hdef, List.map_map]; exact h1
  · intro e ls hls
    rw [hget, Option.map_eq_some_iff] at hls
    obtain ⟨xs, hxs, rfl⟩ := hls
    obtain ⟨hn, hne⟩ := h2 e xs hxs
    refine ⟨hn.map fun a b h => by simpa using h, by simpa using hne, ?_⟩
    rintro ⟨e', x⟩
    rw [List.mem_map]
    constructor
    · rintro ⟨x', hx', h⟩
      rw [Link.mk.injEq] at h
      obtain ⟨rfl, rfl⟩ := h
      exact ⟨rfl, (hp _ _).1 ((h3 _ _).1 ⟨xs, hxs, hx'⟩)⟩
    · rintro ⟨rfl, h⟩
      obtain ⟨ys, hys, hx⟩ := (h3 _ _).2 ((hp _ _).2 h)
      rw [hxs, Option.some.injEq] at hys
      subst hys
      exact ⟨x, hx, rfl⟩
  · intro e
    rw [hget, Option.map_eq_none_iff]
    constructor
    · rintro h ⟨e', x⟩ hl rfl
      obtain ⟨ys, hys, _⟩ := (h3 _ _).2 ((hp _ _).2 hl)
      rw [h] at hys
      simp at hys
    · intro h
      cases hg : Dict.get? e ex with
      | none => rfl
      | some xs =>
        obtain ⟨x, hx⟩ := List.exists_mem_of_ne_nil _ (h2 e xs hg).2
        exact absurd rfl (h _ ((hp _ _).1 ((h3 e x).1 ⟨xs, hg, hx⟩)))

/-- the subset is an end of an image of a link -/
def End (e : FacetDivSubset n) : Prop := ∃ l, FacetImageOf g.links l ∧ l.entrance = e

theorem mem_keys (e : FacetDivSubset n) : e ∈ g.entr2links.map Prod.fst ↔ End g e := by
  rw [← not_iff_not, ← Dict.get?_eq_none, (entr2links_spec g).2.2]
  unfold End
  push Not
  rfl

theorem end_exit {l : Link (FacetDivSubset n)} (h : FacetImageOf g.links l) : End g l.exit := ⟨l.invert, h.invert, rfl⟩

variable {g}

theorem End.act {e : FacetDivSubset n} (h : End g e) (b : BaseMap (n + 1)) : End g (FacetDivSubset.act b e) := by
  obtain ⟨l, hl, rfl⟩ := h
  exact ⟨Link.act b.cubeMap l, hl.act _, rfl⟩

theorem end_act_iff {e : FacetDivSubset n} (b : BaseMap (n + 1)) : End g (FacetDivSubset.act b e) ↔ End g e := by
  refine ⟨fun h => ?_, fun h => h.act b⟩
  have := h.act b⁻¹
  rwa [← FacetDivSubset.act_mul, inv_mul_cancel, FacetDivSubset.act_one] at this

theorem mem_genIntersectedEntr {s e : FacetDivSubset n} : e ∈ g.genIntersectedEntr s ↔ End g e ∧ e.intersects s = true := by
  unfold genIntersectedEntr
  have : SubsetOps.isPoint (FacetDivSubset n) = false := rfl
  simp only [this, Bool.false_eq_true, if_false, List.mem_filter, mem_keys]
  rfl

theorem nodup_genIntersectedEntr (s : FacetDivSubset n) : (g.genIntersectedEntr s).Nodup := by
  unfold genIntersectedEntr
  have : SubsetOps.isPoint (FacetDivSubset n) = false := rfl
  simp only [this, Bool.false_eq_true, if_false]
  exact (entr2links_spec g).1.filter _

variable (g) in
/-- images of links that begin at the subset -/
def linksFrom (e : FacetDivSubset n) : List (Link (FacetDivSubset n)) := (Dict.get? e g.entr2links).getD []

theorem mem_linksFrom {e : FacetDivSubset n} {l : Link (FacetDivSubset n)} : l ∈ linksFrom g e ↔ l.entrance = e ∧ FacetImageOf g.links l := by
  unfold linksFrom
  cases h : Dict.get? e g.entr2links with
  | none =>
    rw [(entr2links_spec g).2.2] at h
    simp only [Option.getD_none, List.not_mem_nil, false_iff]
    rintro ⟨h1, h2⟩
    exact h l h2 h1
  | some ls => exact ((entr2links_spec g).2.1 e ls h).2.2 l

theorem nodup_linksFrom (e : FacetDivSubset n) : (linksFrom g e).Nodup := by
  unfold linksFrom
  cases h : Dict.get? e g.entr2links with
  | none => simp
  | some ls => exact ((entr2links_spec g).2.1 e ls h).1

theorem get?_entr2links {e : FacetDivSubset n} (h : End g e) : Dict.get? e g.entr2links = some (linksFrom g e) := by
  unfold linksFrom
  cases h' : Dict.get? e g.entr2links with
  | none =>
    rw [(entr2links_spec g).2.2] at h'
    obtain ⟨l, hl, he⟩ := h
    exact absurd he (h' l hl)
  | some ls => rfl

theorem genIntersectedLinks_eq (s : FacetDivSubset n) : ∃ ls, g.genIntersectedLinks s = some ls ∧ ls.Nodup ∧
    ∀ l, l ∈ ls ↔ l.entrance.intersects s = true ∧ FacetImageOf g.links l := by
  unfold genIntersectedLinks
  rw [mapM_eq_some_map (g := linksFrom g)]
  · refine ⟨_, rfl, ?_, ?_⟩
    · rw [← List.flatMap_def, List.nodup_flatMap]
      refine ⟨fun x _ => nodup_linksFrom x, ?_⟩
      refine (nodup_genIntersectedEntr s).imp ?_
      intro a b hab l ha hb
      rw [mem_linksFrom] at ha hb
      exact hab (ha.1.symm.trans hb.1)
    · intro l
      rw [← List.flatMap_def, List.mem_flatMap]
      constructor
      · rintro ⟨e', he', hl⟩
        rw [mem_genIntersectedEntr] at he'
        rw [mem_linksFrom] at hl
        rw [hl.1]
        exact ⟨he'.2, hl.2⟩
      · rintro ⟨h1, h2⟩
        exact ⟨l.entrance, mem_genIntersectedEntr.2 ⟨⟨l, h2, rfl⟩, h1⟩, mem_linksFrom.2 ⟨rfl, h2⟩⟩
  · intro a ha
    rw [mem_genIntersectedEntr] at ha
    exact get?_entr2links ha.1

/-! ### continuations -/

variable (g) in
/-- All links of the generator belong to the grid. -/
def Good : Prop := 0 < g.div ∧ ∀ m ∈ g.links, m.InDiv g.div

theorem Good.image (hg : Good g) {l : Link (FacetDivSubset n)} (h : FacetImageOf g.links l) : l.InDiv g.div := by
  obtain ⟨a, m, hm, rfl⟩ := h
  exact (hg.2 m hm).act a

theorem Good.end_ (hg : Good g) {e : FacetDivSubset n} (h : End g e) : e.WF ∧ e.div = g.div := by
  obtain ⟨l, hl, rfl⟩ := h
  exact (hg.image hl).1

variable (g) in
/-- the steps from exit `s` -/
def Step (s : FacetDivSubset n) (c : Cube (n + 1)) (l : Link (FacetDivSubset n)) : Prop :=
  c ≠ 0 ∧ (s.toSet ∩ translated c l.entrance.toSet).Nonempty ∧ (∀ m, g.maxCdist = some m → cdist c ≤ m) ∧ FacetImageOf g.links l

theorem translated_box {s : FacetDivSubset n} (hs : s.WF) {c : Cube (n + 1)} {x : Fin (n + 1) → ℝ} (h : x ∈ translated c s.toSet) : x ∈ boxAt c 1 := by
  obtain ⟨y, hy, he⟩ := h
  intro j
  rw [he j]
  by_cases hj : j = s.facetCoord
  · subst hj
    rw [hy.1]
    cases s.facetValue <;> simp [add_comm]
  · have := FacetDivSubset.toSet_unit hs hy hj
    simp only [Int.cast_one]
    constructor <;> linarith [this.1, this.2]

/-- `gen_neighbours` and `intersects` in terms of sets. -/
theorem neighbour_iff {s e : FacetDivSubset n} (hs : s.WF) (he : e.WF) (hd : e.div = s.div) (c : Cube (n + 1)) :
    (∃ t, (c, t) ∈ s.genNeighbours ∧ e.intersects t = true) ↔ c ≠ 0 ∧ (s.toSet ∩ translated c e.toSet).Nonempty := by
  obtain ⟨c0, t0, h1, h2, h3, h4, h5, h6, h7⟩ := FacetDivSubset.genNeighbours_spec hs
  rw [h1]
  simp only [List.mem_singleton, Prod.mk.injEq]
  constructor
  · rintro ⟨t, ⟨rfl, rfl⟩, h⟩
    refine ⟨h4, ?_⟩
    rw [FacetDivSubset.toSet_inter he h2 (hd.trans h3.symm)] at h
    obtain ⟨x, hx1, hx2⟩ := h
    refine ⟨fun j => x j + c j, ?_, ⟨x, hx1, fun _ => rfl⟩⟩
    rw [h5]
    exact ⟨x, hx2, fun _ => rfl⟩
  · rintro ⟨hc, x, hx1, hx2⟩
    have hcc := h7 c hc ⟨x, hx1, translated_box he hx2⟩
    subst hcc
    refine ⟨t0, ⟨rfl, rfl⟩, ?_⟩
    rw [FacetDivSubset.toSet_inter he h2 (hd.trans h3.symm)]
    obtain ⟨y, hy, e1⟩ := hx2
    rw [h5] at hx1
    obtain ⟨z, hz, e2⟩ := hx1
    refine ⟨y, hy, ?_⟩
    have : y = z := by
      funext j
      have := (e1 j).symm.trans (e2 j)
      linarith
    rw [this]; exact hz

theorem mem_stdNext (hg : Good g) {s : FacetDivSubset n} (hs : s.WF) (hd : s.div = g.div) {c : Cube (n + 1)} {e : FacetDivSubset n} :
    (c, e) ∈ g.stdNext s ↔ c ≠ 0 ∧ (s.toSet ∩ translated c e.toSet).Nonempty ∧ (∀ m, g.maxCdist = some m → cdist c ≤ m) ∧ End g e := by
  have hnb : ∀ c q, (c, q) ∈ (SubsetOps.genNeighbours s : List (Cube (n + 1) × FacetDivSubset n)) ↔ (c, q) ∈ s.genNeighbours := fun _ _ => Iff.rfl
  unfold PathsGen.stdNext
  simp only [List.mem_flatMap, List.mem_filter, List.mem_map, Prod.exists, Prod.mk.injEq, hnb, mem_genIntersectedEntr]
  constructor
  · rintro ⟨c', q, ⟨h1, h4⟩, e', ⟨h5, h6⟩, rfl, rfl⟩
    obtain ⟨h7, h8⟩ := hg.end_ h5
    have := (neighbour_iff hs h7 (h8.trans hd.symm) c').1 ⟨q, h1, h6⟩
    refine ⟨this.1, this.2, ?_, h5⟩
    intro m hm
    rw [hm] at h4
    simpa using h4
  · rintro ⟨h1, h2, h3, h4⟩
    obtain ⟨h7, h8⟩ := hg.end_ h4
    obtain ⟨q, h5, h6⟩ := (neighbour_iff hs h7 (h8.trans hd.symm) c).2 ⟨h1, h2⟩
    refine ⟨c, q, ⟨h5, ?_⟩, e, ⟨h4, h6⟩, rfl, rfl⟩
    cases hm : g.maxCdist with
    | none => rfl
    | some m => simpa using h3 m hm

theorem nodup_stdNext (s : FacetDivSubset n) : (g.stdNext s).Nodup := by
  unfold PathsGen.stdNext
  rw [List.nodup_flatMap]
  constructor
  · intro e _
    exact (nodup_genIntersectedEntr _).map fun a b h => (Prod.mk.inj h).2
  · refine List.Pairwise.filter _ ?_
    exact List.pairwise_singleton _ _

theorem translated_act (b : BaseMap (n + 1)) (s e : FacetDivSubset n) (hs : s.WF) (he : e.WF) (c : Cube (n + 1)) :
    ((FacetDivSubset.act b s).toSet ∩ translated (b.applyVec c) (FacetDivSubset.act b e).toSet).Nonempty ↔ (s.toSet ∩ translated c e.toSet).Nonempty := by
  have key : ∀ x y : Fin (n + 1) → ℝ, (∀ j, b.applyX 1 x j = b.applyX 1 y j + ((b.applyVec c j : ℤ) : ℝ)) ↔ ∀ j, x j = y j + c j := by
    intro x y
    constructor
    · intro h j
      obtain ⟨i, hi⟩ := b.coords_surj j
      have := h i
      unfold BaseMap.applyX BaseMap.applyVec at this
      rw [show (b.coords i).1 = j from hi] at this
      split at this
      · push_cast at this; linarith
      · exact this
    · intro h i
      have := h (b.coords i).1
      unfold BaseMap.applyX BaseMap.applyVec
      split
      · push_cast; linarith
      · exact this
  constructor
  · rintro ⟨x, hx, y, hy, h⟩
    obtain ⟨x, rfl⟩ : ∃ x', b.applyX 1 x' = x := ⟨b⁻¹.applyX 1 x, by simp⟩
    obtain ⟨y, rfl⟩ : ∃ y', b.applyX 1 y' = y := ⟨b⁻¹.applyX 1 y, by simp⟩
    rw [FacetDivSubset.mem_act hs] at hx
    rw [FacetDivSubset.mem_act he] at hy
    exact ⟨x, hx, y, hy, (key x y).1 h⟩
  · rintro ⟨x, hx, y, hy, h⟩
    exact ⟨b.applyX 1 x, (FacetDivSubset.mem_act hs b x).2 hx, b.applyX 1 y, (FacetDivSubset.mem_act he b y).2 hy, (key x y).2 h⟩

theorem applyVec_ne_zero (b : BaseMap (n + 1)) {c : Cube (n + 1)} : b.applyVec c ≠ 0 ↔ c ≠ 0 := by
  have h0 : ∀ b : BaseMap (n + 1), b.applyVec (0 : Cube (n + 1)) = 0 := by
    intro b
    funext i
    unfold BaseMap.applyVec
    split <;> simp
  rw [not_iff_not]
  constructor
  · intro h
    have := congrArg b⁻¹.applyVec h
    rwa [BaseMap.applyVec_inv_applyVec, h0] at this
  · rintro rfl
    exact h0 b

theorem nextPos_spec (hg : Good g) (b : BaseMap (n + 1)) {s : FacetDivSubset n} (hs : s.WF) (hd : s.div = g.div) :
    ∃ L, g.nextPos b (g.stdNext s) = some L ∧ L.Nodup ∧ ∀ c l, (c, l) ∈ L ↔ Step g (FacetDivSubset.act b s) c l := by
  unfold nextPos
  have hm : (g.stdNext s).mapM (fun e => do
      let nextLinks ← Dict.get? (SubsetOps.act b e.2) g.entr2links
      return nextLinks.map fun l => (b.applyCubeStart e.1 1, l)) =
      some ((g.stdNext s).map fun e => (linksFrom g (FacetDivSubset.act b e.2)).map fun l => (b.applyCubeStart e.1 1, l)) := by
    refine mapM_eq_some_map ?_
    rintro ⟨c, e⟩ h
    rw [mem_stdNext hg hs hd] at h
    have : Dict.get? (SubsetOps.act b e) g.entr2links = some (linksFrom g (FacetDivSubset.act b e)) :=
      get?_entr2links (h.2.2.2.act b)
    simp only [this, Option.bind_eq_bind, Option.bind_some, Option.pure_def]
  rw [hm]
  simp only [Option.bind_eq_bind, Option.bind_some, Option.pure_def, Option.some.injEq, exists_eq_left', ← List.flatMap_def, applyCubeStart_one]
  constructor
  · rw [List.nodup_flatMap]
    constructor
    · intro e _
      exact (nodup_linksFrom _).map fun a b h => (Prod.mk.inj h).2
    · refine List.Pairwise.imp_of_mem ?_ (nodup_stdNext s)
      rintro ⟨c, e⟩ ⟨c', e'⟩ h h' hne ⟨c'', l⟩ hx hx'
      rw [List.mem_map] at hx hx'
      obtain ⟨a, ha1, ha⟩ := hx
      obtain ⟨a', ha1', ha'⟩ := hx'
      rw [Prod.mk.injEq] at ha ha'
      dsimp only at ha ha' ha1 ha1'
      have hc : c = c' := by
        have : b⁻¹.applyVec (b.applyVec c) = b⁻¹.applyVec (b.applyVec c') := by rw [ha.1, ha'.1]
        simpa using this
      subst hc
      refine hne ?_
      rw [Prod.mk.injEq]
      refine ⟨rfl, ?_⟩
      rw [mem_linksFrom] at ha1 ha1'
      rw [ha.2] at ha1
      rw [ha'.2] at ha1'
      have := congrArg (FacetDivSubset.act b⁻¹) (ha1.1.symm.trans ha1'.1)
      rwa [← FacetDivSubset.act_mul, ← FacetDivSubset.act_mul, inv_mul_cancel, FacetDivSubset.act_one, FacetDivSubset.act_one] at this
  · intro c l
    simp only [List.mem_flatMap, List.mem_map, Prod.exists, Prod.mk.injEq, mem_stdNext hg hs hd, mem_linksFrom, Step]
    constructor
    · rintro ⟨c', e, ⟨h1, h2, h4, h5⟩, l', ⟨h6, h7⟩, rfl, rfl⟩
      refine ⟨(applyVec_ne_zero b).2 h1, ?_, by rw [cdist_applyVec]; exact h4, h7⟩
      rw [h6, translated_act b s e hs (hg.end_ h5).1]
      exact h2
    · rintro ⟨h1, h2, h3, h4⟩
      have hE : End g (FacetDivSubset.act b⁻¹ l.entrance) := End.act ⟨l, h4, rfl⟩ _
      have he : FacetDivSubset.act b (FacetDivSubset.act b⁻¹ l.entrance) = l.entrance := by
        rw [← FacetDivSubset.act_mul, mul_inv_cancel, FacetDivSubset.act_one]
      refine ⟨b⁻¹.applyVec c, FacetDivSubset.act b⁻¹ l.entrance, ⟨(applyVec_ne_zero _).2 h1, ?_, ?_, hE⟩, l, ⟨he.symm, h4⟩, by simp, rfl⟩
      · rw [← translated_act b s _ hs (hg.end_ hE).1, he]
        simpa using h2
      · rw [cdist_applyVec]; exact h3

/-- the values of the dictionary are right -/
def GoodDict (g : PathsGen (n + 1) (FacetDivSubset n)) (dict : List (FacetDivSubset n × List (Cube (n + 1) × Link (FacetDivSubset n)))) : Prop :=
  ∀ x L, Dict.get? x dict = some L → L.Nodup ∧ ∀ c l, (c, l) ∈ L ↔ Step g x c l

theorem inner_loop (hg : Good g) {x : FacetDivSubset n} (hs : x.WF) (hxd : x.div = g.div) (bms : List (BaseMap (n + 1)))
    (dict : List (FacetDivSubset n × List (Cube (n + 1) × Link (FacetDivSubset n)))) (hd : GoodDict g dict) :
    ∃ dict', bms.foldlM (g.addNext x (g.stdNext x)) dict = some dict' ∧ GoodDict g dict' ∧
      (∀ y, Dict.get? y dict ≠ none → Dict.get? y dict' ≠ none) ∧ ∀ bm ∈ bms, Dict.get? (FacetDivSubset.act bm x) dict' ≠ none := by
  induction bms generalizing dict with
  | nil => exact ⟨dict, rfl, hd, fun _ h => h, by simp⟩
  | cons b bms ih =>
    have hact : (SubsetOps.act b x : FacetDivSubset n) = FacetDivSubset.act b x := rfl
    cases hgt : Dict.get? (FacetDivSubset.act b x) dict with
    | some L =>
      obtain ⟨dict', h1, h2, h3, h4⟩ := ih dict hd
      refine ⟨dict', ?_, h2, h3, ?_⟩
      · simp only [List.foldlM_cons, addNext, hact, hgt, Option.bind_eq_bind, Option.bind_some]
        exact h1
      · intro bm hbm
        rcases List.mem_cons.1 hbm with rfl | hbm
        · exact h3 _ (by rw [hgt]; simp)
        · exact h4 bm hbm
    | none =>
      obtain ⟨L, hL1, hL2, hL3⟩ := nextPos_spec hg b hs hxd
      have hd' : GoodDict g (Dict.set (FacetDivSubset.act b x) L dict) := by
        intro y M hM
        rw [Dict.get?_set] at hM
        split at hM
        · rename_i hy
          rw [Option.some.injEq] at hM
          subst hM
          rw [← hy]
          exact ⟨hL2, hL3⟩
        · exact hd y M hM
      obtain ⟨dict', h1, h2, h3, h4⟩ := ih _ hd'
      refine ⟨dict', ?_, h2, ?_, ?_⟩
      · simp only [List.foldlM_cons, addNext, hact, hgt, Option.bind_eq_bind, hL1, Option.map_some, Option.bind_some]
        exact h1
      · intro y hy
        refine h3 y ?_
        rw [Dict.get?_set]
        split
        · simp
        · exact hy
      · intro bm hbm
        rcases List.mem_cons.1 hbm with rfl | hbm
        · refine h3 _ ?_
          rw [Dict.get?_set, if_pos rfl]
          simp
        · exact h4 bm hbm

theorem outer_loop (hg : Good g) (xs : List (FacetDivSubset n)) (hxs : ∀ x ∈ xs, x.WF ∧ x.div = g.div)
    (dict : List (FacetDivSubset n × List (Cube (n + 1) × Link (FacetDivSubset n)))) (hd : GoodDict g dict) :
    ∃ dict', xs.foldlM (fun dict stdExit =>
      (BaseMap.genBaseMaps (n + 1) (some false)).foldlM (g.addNext stdExit (g.stdNext stdExit)) dict) dict = some dict' ∧ GoodDict g dict' ∧
      (∀ y, Dict.get? y dict ≠ none → Dict.get? y dict' ≠ none) ∧
      ∀ x ∈ xs, ∀ b : BaseMap (n + 1), Dict.get? (FacetDivSubset.act b x) dict' ≠ none := by
  induction xs generalizing dict with
  | nil => exact ⟨dict, rfl, hd, fun _ h => h, by simp⟩
  | cons x xs ih =>
    have hx := hxs x (by simp)
    obtain ⟨d1, h1, h2, h3, h4⟩ := inner_loop hg hx.1 hx.2 (BaseMap.genBaseMaps (n + 1) (some false)) dict hd
    obtain ⟨d2, k1, k2, k3, k4⟩ := ih (fun y hy => hxs y (List.mem_cons_of_mem _ hy)) d1 h2
    refine ⟨d2, ?_, k2, fun y hy => k3 y (h3 y hy), ?_⟩
    · simp only [List.foldlM_cons, Option.bind_eq_bind]
      rw [h1, Option.bind_some]
      exact k1
    · intro y hy b
      rcases List.mem_cons.1 hy with rfl | hy
      · exact k3 _ (h4 b.cubeMap (BaseMap.mem_genBaseMaps.2 (by simp [BaseMap.cubeMap])))
      · exact k4 y hy b

theorem pyMin_mem {α : Type*} {lt : α → α → Bool} {l : List α} {a : α} (h : pyMin lt l = some a) : a ∈ l := by
  cases l with
  | nil => simp [pyMin] at h
  | cons b l =>
    simp only [pyMin, Option.some.injEq] at h
    subst h
    induction l generalizing b with
    | nil => simp
    | cons c l ih =>
      rw [List.foldl_cons]
      have := ih (if lt c b then c else b)
      rcases List.mem_cons.1 this with h | h
      · rw [h]
        split <;> simp
      · exact List.mem_cons_of_mem _ (List.mem_cons_of_mem _ h)

theorem pyMin_some {α : Type*} {lt : α → α → Bool} {l : List α} (h : l ≠ []) : ∃ a, pyMin lt l = some a := by
  cases l with
  | nil => exact absurd rfl h
  | cons b l => exact ⟨_, rfl⟩

theorem std_spec (s : FacetDivSubset n) : ∃ t, s.std = some t ∧ ∃ b : BaseMap (n + 1), FacetDivSubset.act b s = t := by
  unfold FacetDivSubset.std
  have hne : ((BaseMap.genBaseMaps (n + 1) (some false)).map fun bm => FacetDivSubset.act bm s) ≠ [] := by
    intro h
    have h1 : (1 : BaseMap (n + 1)) ∈ BaseMap.genBaseMaps (n + 1) (some false) := BaseMap.mem_genBaseMaps.2 (by simp)
    rw [List.map_eq_nil_iff] at h
    rw [h] at h1
    simp at h1
  obtain ⟨t, ht⟩ := pyMin_some (lt := FacetDivSubset.lt) hne
  refine ⟨t, ht, ?_⟩
  obtain ⟨b, _, hb⟩ := List.mem_map.1 (pyMin_mem ht)
  exact ⟨b, hb⟩

theorem stdExits_spec (hg : Good g) : ∃ xs, g.stdExits = some xs ∧ (∀ x ∈ xs, x.WF ∧ x.div = g.div) ∧
    ∀ e, End g e → ∃ x ∈ xs, ∃ b : BaseMap (n + 1), FacetDivSubset.act b x = e := by
  choose F hF1 hF2 using std_spec (n := n)
  unfold stdExits
  have hm : g.links.mapM (fun link => do
      let x ← SubsetOps.std link.exit
      let e ← SubsetOps.std link.entrance
      return [x, e]) = some (g.links.map fun link : Link (FacetDivSubset n) => [F link.exit, F link.entrance]) := by
    refine mapM_eq_some_map (fun l _ => ?_)
    have h1 : SubsetOps.std l.exit = some (F l.exit) := hF1 _
    have h2 : SubsetOps.std l.entrance = some (F l.entrance) := hF1 _
    rw [h1, h2]
    rfl
  rw [hm]
  have hFwf : ∀ s : FacetDivSubset n, s.WF ∧ s.div = g.div → (F s).WF ∧ (F s).div = g.div := by
    intro s h
    obtain ⟨b, hb⟩ := hF2 s
    rw [← hb]
    exact ⟨FacetDivSubset.act_wf h.1 b, h.2⟩
  refine ⟨_, rfl, ?_, ?_⟩
  · intro x hx
    rw [List.mem_dedup, List.mem_flatten] at hx
    obtain ⟨l, hl, hx⟩ := hx
    obtain ⟨m, hm, rfl⟩ := List.mem_map.1 hl
    have := hg.2 m hm
    simp only [List.mem_cons, List.not_mem_nil, or_false] at hx
    rcases hx with rfl | rfl
    · exact hFwf _ this.2
    · exact hFwf _ this.1
  · rintro e ⟨l, ⟨a, m, hm, rfl⟩, rfl⟩
    have key : ∀ q : FacetDivSubset n, q = m.exit ∨ q = m.entrance →
        ∃ x ∈ (g.links.map fun link : Link (FacetDivSubset n) => [F link.exit, F link.entrance]).flatten.dedup,
          ∃ b : BaseMap (n + 1), FacetDivSubset.act b x = FacetDivSubset.act a q := by
      intro q hq
      refine ⟨F q, ?_, ?_⟩
      · rw [List.mem_dedup, List.mem_flatten]
        refine ⟨_, List.mem_map_of_mem hm, ?_⟩
        rcases hq with rfl | rfl <;> simp
      · obtain ⟨b, hb⟩ := hF2 q
        refine ⟨a * b⁻¹, ?_⟩
        rw [← hb, ← FacetDivSubset.act_mul, inv_mul_cancel_right]
    rw [Link.act_def_facet]
    split
    · exact key _ (Or.inl rfl)
    · exact key _ (Or.inr rfl)

theorem exit2next_spec (hg : Good g) : ∃ dict, g.exit2next = some dict ∧ GoodDict g dict ∧ ∀ e, End g e → ∃ L, Dict.get? e dict = some L := by
  obtain ⟨xs, h1, h0, h2⟩ := stdExits_spec hg
  obtain ⟨dict, k1, k2, _, k4⟩ := outer_loop hg xs h0 [] (by intro x L h; simp [Dict.get?] at h)
  refine ⟨dict, ?_, k2, ?_⟩
  · unfold exit2next
    rw [h1]
    exact k1
  · intro e he
    obtain ⟨x, hx, b, rfl⟩ := h2 e he
    obtain ⟨L, hL⟩ := Option.ne_none_iff_exists'.1 (k4 x hx b)
    exact ⟨L, hL⟩

/-! ### the tree -/

theorem step_rev {l l' : Link (FacetDivSubset n)} (h : FacetImageOf g.links l) (h' : FacetImageOf g.links l') {c : Cube (n + 1)} :
    Step g l.exit c l' ↔ Step g l'.entrance (fun j => -c j) l.invert := by
  unfold Step
  have hc : cdist (fun j => -c j) = cdist c := by rw [cdist_eq, cdist_eq]; simp
  have h0 : c ≠ 0 ↔ (fun j => -c j) ≠ 0 := by
    rw [not_iff_not]
    constructor
    · rintro rfl; funext j; simp
    · intro h; funext j; have := congrFun h j; simp only [Pi.zero_apply] at this ⊢; omega
  rw [hc, ← h0]
  have hm : (l.exit.toSet ∩ translated c l'.entrance.toSet).Nonempty ↔
      (l'.entrance.toSet ∩ translated (fun j => -c j) l.invert.entrance.toSet).Nonempty := by
    constructor
    · rintro ⟨x, hx, y, hy, he⟩
      refine ⟨y, hy, x, hx, fun j => ?_⟩
      rw [he j]; push_cast; ring
    · rintro ⟨y, hy, x, hx, he⟩
      refine ⟨x, hx, y, hy, fun j => ?_⟩
      rw [he j]; push_cast; ring
  rw [hm]
  simp only [h.invert, h', and_true]

section tree
variable {dict : List (FacetDivSubset n × List (Cube (n + 1) × Link (FacetDivSubset n)))} (hgood : GoodDict g dict)
  (hall : ∀ e, End g e → ∃ L, Dict.get? e dict = some L)
include hgood hall

theorem follows_next {a b : CubeTree.Node (n + 1) (Link (FacetDivSubset n))} (ha : FacetImageOf g.links a.2) :
    CubeTree.Follows (nextOf dict) a b ↔ Step g a.2.exit (fun j => b.1 j - a.1 j) b.2 := by
  obtain ⟨L, hL⟩ := hall _ (end_exit g ha)
  unfold CubeTree.Follows nextOf
  rw [hL]
  exact (hgood _ _ hL).2 _ _

theorem follows_prev {a b : CubeTree.Node (n + 1) (Link (FacetDivSubset n))} (hb : FacetImageOf g.links b.2) :
    CubeTree.Follows (prevOf dict) b a ↔ Step g b.2.entrance (fun j => a.1 j - b.1 j) a.2.invert := by
  obtain ⟨L, hL⟩ := hall b.2.entrance ⟨b.2, hb, rfl⟩
  unfold CubeTree.Follows prevOf
  rw [hL, ← (hgood _ _ hL).2]
  simp only [Option.getD_some, List.mem_map, Prod.exists, Prod.mk.injEq]
  constructor
  · rintro ⟨c, l, h, rfl, h2⟩
    rw [← h2]
    exact h
  · intro h
    exact ⟨_, _, h, rfl, rfl⟩

theorem closed_next (N : ℕ) : CubeTree.Closed N (fun n => FacetImageOf g.links n.2) (nextOf dict) := by
  intro a b _ _ ha h
  rw [follows_next hgood hall ha] at h
  exact h.2.2.2

theorem closed_prev (N : ℕ) : CubeTree.Closed N (fun n => FacetImageOf g.links n.2) (prevOf dict) := by
  intro a b _ _ ha h
  rw [follows_prev hgood hall ha] at h
  exact facetImageOf_invert.1 h.2.2.2

theorem isReverse (N : ℕ) : CubeTree.IsReverse N (fun n => FacetImageOf g.links n.2) (nextOf dict) (prevOf dict) := by
  intro a b _ _ ha hb
  rw [follows_next hgood hall ha, follows_prev hgood hall hb, step_rev ha hb]
  simp only [neg_sub]

omit hgood in
theorem genNext_eq {a : CubeTree.Node (n + 1) (Link (FacetDivSubset n))} (ha : FacetImageOf g.links a.2) :
    genNext dict a.1 a.2 = some (nextOf dict a.1 a.2) := by
  obtain ⟨L, hL⟩ := hall _ (end_exit g ha)
  unfold genNext nextOf
  rw [hL]
  rfl

omit hgood in
theorem genPrev_eq {a : CubeTree.Node (n + 1) (Link (FacetDivSubset n))} (ha : FacetImageOf g.links a.2) :
    genPrev dict a.1 a.2 = some (prevOf dict a.1 a.2) := by
  obtain ⟨L, hL⟩ := hall a.2.entrance ⟨a.2, ha, rfl⟩
  unfold genPrev prevOf
  rw [hL]
  rfl

omit hall in
theorem nodup_next (c : Cube (n + 1)) (l : Link (FacetDivSubset n)) : (nextOf dict c l).Nodup := by
  unfold nextOf
  cases h : Dict.get? l.exit dict with
  | none => simp
  | some L => exact (hgood _ _ h).1

omit hall in
theorem nodup_prev (c : Cube (n + 1)) (l : Link (FacetDivSubset n)) : (prevOf dict c l).Nodup := by
  unfold prevOf
  cases h : Dict.get? l.entrance dict with
  | none => simp
  | some L =>
    refine (hgood _ _ h).1.map ?_
    rintro ⟨a, ⟨b, c⟩⟩ ⟨a', ⟨b', c'⟩⟩ h
    simp only [Link.invert, Prod.mk.injEq, Link.mk.injEq] at h ⊢
    tauto

end tree

end FacetGen
end Peano
