import Verif.Model.PathsGen
import Verif.Spec.PathsGen
import Verif.Lemmas.Dict
import Verif.Lemmas.Points
import Verif.Lemmas.Paths
import Verif.Lemmas.CubePathTreeB
import Verif.Lemmas.CubePathTreeE
import Verif.Lemmas.ListM
import Verif.Props.Subsets

set_option autoImplicit false

/-! Lemmas about the generation of pointed paths (C39, C40). -/
namespace Peano
variable {d : ℕ}

namespace PathsGen

/-- `genNext` without exceptions (they are never raised, see `rawPaths_spec`) -/
def nextOf {S : Type} [DecidableEq S] (exit2next : List (S × List (Cube d × Link S))) : CubeTree.NextFunc d (Link S) :=
  fun _ link => (Dict.get? link.exit exit2next).getD []

/-- `genPrev` without exceptions -/
def prevOf {S : Type} [DecidableEq S] (exit2next : List (S × List (Cube d × Link S))) : CubeTree.NextFunc d (Link S) :=
  fun _ link => ((Dict.get? link.entrance exit2next).getD []).map fun e => (e.1, e.2.invert)

end PathsGen

theorem imageOf_iff {links : List (Link (Point d))} {l : Link (Point d)} :
    ImageOf links l ↔ ∃ a : BaseMap d, a.timeRev = false ∧ ∃ m ∈ links,
      (l.entrance = Point.act a m.entrance ∧ l.exit = Point.act a m.exit) ∨ (l.entrance = Point.act a m.exit ∧ l.exit = Point.act a m.entrance) := by
  constructor
  · rintro ⟨a, m, hm, h⟩
    exact ⟨a.cubeMap, rfl, m, hm, h⟩
  · rintro ⟨a, _, m, hm, h⟩
    exact ⟨a, m, hm, h⟩

theorem ImageOf.invert {links : List (Link (Point d))} {l : Link (Point d)} (h : ImageOf links l) : ImageOf links l.invert := by
  obtain ⟨a, m, hm, h⟩ := h
  exact ⟨a, m, hm, h.symm.imp And.symm And.symm⟩

theorem imageOf_invert {links : List (Link (Point d))} {l : Link (Point d)} : ImageOf links l.invert ↔ ImageOf links l :=
  ⟨fun h => h.invert, fun h => h.invert⟩

theorem ImageOf.act {links : List (Link (Point d))} {l : Link (Point d)} (b : BaseMap d) (h : ImageOf links l) : ImageOf links (Link.act b l) := by
  obtain ⟨a, m, hm, h⟩ := h
  refine ⟨b * a, m, hm, ?_⟩
  rw [Link.act_def]
  have e : ∀ p : Point d, (b * a).applyX 1 p = Point.act b (a.applyX 1 p) := fun p => Point.act_mul b a p
  simp only [e]
  by_cases ht : b.timeRev = true
  · simp only [ht, if_true]
    rcases h with ⟨h1, h2⟩ | ⟨h1, h2⟩
    · right; rw [h1, h2]; exact ⟨rfl, rfl⟩
    · left; rw [h1, h2]; exact ⟨rfl, rfl⟩
  · simp only [ht]
    rcases h with ⟨h1, h2⟩ | ⟨h1, h2⟩
    · left; rw [h1, h2]; exact ⟨rfl, rfl⟩
    · right; rw [h1, h2]; exact ⟨rfl, rfl⟩

namespace PathsGen

section dict
variable {S : Type} [DecidableEq S]

theorem get?_addExit (e x e' : S) (l : List (S × List S)) : Dict.get? e' (addExit e x l) =
    if e = e' then some (match Dict.get? e l with | none => [x] | some xs => if x ∈ xs then xs else xs ++ [x]) else Dict.get? e' l := by
  induction l with
  | nil => simp only [addExit, Dict.get?]
  | cons a l ih =>
    obtain ⟨k, xs⟩ := a
    simp only [addExit, Dict.get?]
    by_cases hk : k = e
    · subst hk
      simp only [if_true, Dict.get?]
      by_cases hk' : k = e' <;> simp [hk']
    · rw [if_neg hk, Dict.get?, ih]
      rw [if_neg hk]
      by_cases hk' : k = e'
      · subst hk'
        rw [if_pos rfl, if_neg (Ne.symm hk), if_pos rfl]
      · rw [if_neg hk', if_neg hk']

theorem keys_addExit (e x : S) (l : List (S × List S)) (y : S) : y ∈ (addExit e x l).map Prod.fst ↔ y = e ∨ y ∈ l.map Prod.fst := by
  rw [← not_iff_not, ← Dict.get?_eq_none, get?_addExit, not_or, ← Dict.get?_eq_none]
  by_cases h : e = y
  · simp [h]
  · rw [if_neg h]
    constructor
    · intro h'; exact ⟨fun h'' => h h''.symm, h'⟩
    · exact fun h' => h'.2

theorem nodup_addExit (e x : S) (l : List (S × List S)) (h : (l.map Prod.fst).Nodup) : ((addExit e x l).map Prod.fst).Nodup := by
  induction l with
  | nil => simp [addExit]
  | cons a l ih =>
    obtain ⟨k, xs⟩ := a
    rw [List.map_cons, List.nodup_cons] at h
    unfold addExit
    split
    · rw [List.map_cons, List.nodup_cons]; exact h
    · rename_i hk
      rw [List.map_cons, List.nodup_cons]
      refine ⟨?_, ih h.2⟩
      rw [keys_addExit]
      rintro (h' | h')
      · exact hk h'
      · exact h.1 h'

theorem foldl_addExit (pairs : List (S × S)) (acc : List (S × List S)) (hn : (acc.map Prod.fst).Nodup)
    (h : ∀ e xs, Dict.get? e acc = some xs → xs.Nodup ∧ xs ≠ []) :
    let r := pairs.foldl (fun dict e => addExit e.1 e.2 dict) acc
    (r.map Prod.fst).Nodup ∧ (∀ e xs, Dict.get? e r = some xs → xs.Nodup ∧ xs ≠ []) ∧
      ∀ e x, (∃ xs, Dict.get? e r = some xs ∧ x ∈ xs) ↔ (∃ xs, Dict.get? e acc = some xs ∧ x ∈ xs) ∨ (e, x) ∈ pairs := by
  induction pairs generalizing acc with
  | nil => exact ⟨hn, h, by simp⟩
  | cons p pairs ih =>
    obtain ⟨e0, x0⟩ := p
    have hstep : ∀ e xs, Dict.get? e (addExit e0 x0 acc) = some xs → xs.Nodup ∧ xs ≠ [] := by
      intro e xs hxs
      rw [get?_addExit] at hxs
      split at hxs
      · rw [Option.some.injEq] at hxs
        subst hxs
        split
        · simp
        · rename_i ys hys
          obtain ⟨h1, h2⟩ := h _ _ hys
          split
          · exact ⟨h1, h2⟩
          · rename_i hx
            refine ⟨?_, by simp⟩
            rw [List.nodup_append]
            exact ⟨h1, by simp, by rintro a ha b hb rfl; exact hx (by simpa [List.mem_singleton.1 hb] using ha)⟩
      · exact h _ _ hxs
    obtain ⟨i1, i2, i3⟩ := ih (addExit e0 x0 acc) (nodup_addExit _ _ _ hn) hstep
    refine ⟨i1, i2, ?_⟩
    intro e x
    rw [List.foldl_cons, i3, get?_addExit, List.mem_cons, Prod.mk.injEq, ← or_assoc]
    refine or_congr_left ?_
    by_cases he : e0 = e
    · subst he
      rw [if_pos rfl]
      simp only [Option.some.injEq, exists_eq_left', true_and]
      cases hg : Dict.get? e0 acc with
      | none => simp
      | some ys =>
        simp only [Option.some.injEq, exists_eq_left']
        split
        · rename_i hx
          constructor
          · exact Or.inl
          · rintro (h | rfl)
            · exact h
            · exact hx
        · simp
    · rw [if_neg he]
      simp [Ne.symm he]

end dict

variable (g : PathsGen d (Point d))

theorem entr2links_spec :
    (g.entr2links.map Prod.fst).Nodup ∧
    (∀ e ls, Dict.get? e g.entr2links = some ls → ls.Nodup ∧ ls ≠ [] ∧ ∀ l, l ∈ ls ↔ l.entrance = e ∧ ImageOf g.links l) ∧
    ∀ e, Dict.get? e g.entr2links = none ↔ ∀ l, ImageOf g.links l → l.entrance ≠ e := by
  set pairs := (BaseMap.genBaseMaps d (some false)).flatMap fun bm => g.links.flatMap fun link =>
    [((SubsetOps.act bm link.entrance : Point d), (SubsetOps.act bm link.exit : Point d)), (SubsetOps.act bm link.exit, SubsetOps.act bm link.entrance)] with hpairs
  set ex := pairs.foldl (fun dict e => addExit e.1 e.2 dict) [] with hex
  have hdef : g.entr2links = ex.map fun e => (e.1, e.2.map fun exit => ⟨e.1, exit⟩) := rfl
  obtain ⟨h1, h2, h3⟩ := foldl_addExit pairs [] (by simp) (by simp [Dict.get?])
  simp only [Dict.get?, reduceCtorEq, false_and, exists_false, false_or] at h3
  rw [← hex] at h1 h2 h3
  have hp : ∀ e x, (e, x) ∈ pairs ↔ ImageOf g.links ⟨e, x⟩ := by
    intro e x
    rw [imageOf_iff, hpairs]
    simp only [List.mem_flatMap, BaseMap.mem_genBaseMaps, Option.mem_some_iff, forall_eq', List.mem_cons, Prod.mk.injEq, List.not_mem_nil, or_false]
    rfl
  have hget : ∀ e, Dict.get? e g.entr2links = (Dict.get? e ex).map fun xs => xs.map fun exit => ⟨e, exit⟩ := by
    intro e
    rw [hdef]
    generalize ex = l
    induction l with
    | nil => rfl
    | cons a l ih =>
      obtain ⟨k, xs⟩ := a
      simp only [List.map_cons, Dict.get?]
      by_cases hk : k = e
      · subst hk; simp
      · rw [if_neg hk, if_neg hk, ih]
  refine ⟨?_, ?_, ?_⟩
  · rw [hdef, List.map_map]; exact h1
  · intro e ls hls
    rw [hget, Option.map_eq_some_iff] at hls
    obtain ⟨xs, hxs, rfl⟩ := hls
    obtain ⟨hn, hne⟩ := h2 e xs hxs
    refine ⟨hn.map fun a b h => by simpa using h, by simpa using hne, ?_⟩
    rintro ⟨e', x⟩
    rw [List.mem_map]
    constructor
    · rintro ⟨x', hx', h⟩
      rw [Link.mk.injEq] at h
      obtain ⟨rfl, rfl⟩ := h
      exact ⟨rfl, (hp _ _).1 ((h3 _ _).1 ⟨xs, hxs, hx'⟩)⟩
    · rintro ⟨rfl, h⟩
      obtain ⟨ys, hys, hx⟩ := (h3 _ _).2 ((hp _ _).2 h)
      rw [hxs, Option.some.injEq] at hys
      subst hys
      exact ⟨x, hx, rfl⟩
  · intro e
    rw [hget, Option.map_eq_none_iff]
    constructor
    · rintro h ⟨e', x⟩ hl rfl
      obtain ⟨ys, hys, _⟩ := (h3 _ _).2 ((hp _ _).2 hl)
      rw [h] at hys
      simp at hys
    · intro h
      cases hg : Dict.get? e ex with
      | none => rfl
      | some xs =>
        obtain ⟨x, hx⟩ := List.exists_mem_of_ne_nil _ (h2 e xs hg).2
        exact absurd rfl (h _ ((hp _ _).1 ((h3 e x).1 ⟨xs, hg, hx⟩)))

/-- the point is an end of an image of a link -/
def End (e : Point d) : Prop := ∃ l, ImageOf g.links l ∧ l.entrance = e

theorem mem_keys (e : Point d) : e ∈ g.entr2links.map Prod.fst ↔ g.End e := by
  rw [← not_iff_not, ← Dict.get?_eq_none, (entr2links_spec g).2.2]
  unfold End
  push Not
  rfl

theorem end_exit {l : Link (Point d)} (h : ImageOf g.links l) : g.End l.exit := ⟨l.invert, h.invert, rfl⟩

theorem End.act {e : Point d} (h : g.End e) (b : BaseMap d) : g.End (Point.act b e) := by
  obtain ⟨l, hl, rfl⟩ := h
  refine ⟨Link.act b.cubeMap l, hl.act _, ?_⟩
  rw [Link.act_def]
  rfl

theorem end_act_iff {e : Point d} (b : BaseMap d) : g.End (Point.act b e) ↔ g.End e := by
  refine ⟨fun h => ?_, fun h => h.act g b⟩
  have := h.act g b⁻¹
  rwa [← Point.act_mul, inv_mul_cancel, Point.act_one] at this

theorem mem_genIntersectedEntr {e e' : Point d} : e' ∈ g.genIntersectedEntr e ↔ e' = e ∧ g.End e := by
  unfold genIntersectedEntr
  have : SubsetOps.isPoint (Point d) = true := rfl
  simp only [this, if_true]
  have hk := mem_keys g e
  by_cases h : g.End e
  · rw [if_pos (hk.2 h)]; simp [h]
  · rw [if_neg fun h' => h (hk.1 h')]; simp [h]

theorem nodup_genIntersectedEntr (e : Point d) : (g.genIntersectedEntr e).Nodup := by
  unfold genIntersectedEntr
  have : SubsetOps.isPoint (Point d) = true := rfl
  simp only [this, if_true]
  split <;> simp

/-- images of links that begin at the point -/
def linksFrom (e : Point d) : List (Link (Point d)) := (Dict.get? e g.entr2links).getD []

theorem mem_linksFrom {e : Point d} {l : Link (Point d)} : l ∈ g.linksFrom e ↔ l.entrance = e ∧ ImageOf g.links l := by
  unfold linksFrom
  cases h : Dict.get? e g.entr2links with
  | none =>
    rw [(entr2links_spec g).2.2] at h
    simp only [Option.getD_none, List.not_mem_nil, false_iff]
    rintro ⟨h1, h2⟩
    exact h l h2 h1
  | some ls => exact ((entr2links_spec g).2.1 e ls h).2.2 l

theorem nodup_linksFrom (e : Point d) : (g.linksFrom e).Nodup := by
  unfold linksFrom
  cases h : Dict.get? e g.entr2links with
  | none => simp
  | some ls => exact ((entr2links_spec g).2.1 e ls h).1

theorem get?_entr2links {e : Point d} (h : g.End e) : Dict.get? e g.entr2links = some (g.linksFrom e) := by
  unfold linksFrom
  cases h' : Dict.get? e g.entr2links with
  | none =>
    rw [(entr2links_spec g).2.2] at h'
    obtain ⟨l, hl, he⟩ := h
    exact absurd he (h' l hl)
  | some ls => rfl

theorem genIntersectedLinks_eq (e : Point d) : ∃ ls, g.genIntersectedLinks e = some ls ∧ ls.Nodup ∧
    ∀ l, l ∈ ls ↔ l.entrance = e ∧ ImageOf g.links l := by
  unfold genIntersectedLinks
  rw [mapM_eq_some_map (g := g.linksFrom)]
  · refine ⟨_, rfl, ?_, ?_⟩
    · rw [← List.flatMap_def, List.nodup_flatMap]
      refine ⟨fun x _ => nodup_linksFrom g x, ?_⟩
      refine (nodup_genIntersectedEntr g e).imp ?_
      intro a b hab l ha hb
      rw [mem_linksFrom] at ha hb
      exact hab (ha.1.symm.trans hb.1)
    · intro l
      rw [← List.flatMap_def, List.mem_flatMap]
      constructor
      · rintro ⟨e', he', hl⟩
        rw [mem_genIntersectedEntr] at he'
        rw [mem_linksFrom, he'.1] at hl
        exact hl
      · rintro ⟨h1, h2⟩
        exact ⟨e, (mem_genIntersectedEntr g).2 ⟨rfl, l, h2, h1⟩, (mem_linksFrom g).2 ⟨h1, h2⟩⟩
  · intro a ha
    rw [mem_genIntersectedEntr] at ha
    rw [ha.1]
    exact get?_entr2links g ha.2

/-! ### continuations -/

theorem cdist_eq (c : Cube d) : cdist c = ∑ j, |c j| := by
  unfold cdist
  rw [Finset.sum_eq_multiset_sum]
  rfl

/-- the steps from exit `x` -/
def Step (x : Point d) (c : Cube d) (l : Link (Point d)) : Prop :=
  (∃ j, c j ≠ 0) ∧ (∀ j, (c j : ℚ) ≤ x j ∧ x j ≤ (c j : ℚ) + 1) ∧ (∀ j, l.entrance j = x j - c j) ∧ (∀ m, g.maxCdist = some m → cdist c ≤ m) ∧
    ImageOf g.links l

theorem mem_genNeighbours (p : Point d) (c : Cube d) (q : Point d) : (c, q) ∈ p.genNeighbours ↔
      (∃ j, c j ≠ 0) ∧ (∀ j, (c j : ℚ) ≤ p j ∧ p j ≤ (c j : ℚ) + 1) ∧ ∀ j, q j = p j - c j := by
  unfold Point.genNeighbours
  simp only [List.mem_map, List.mem_filter, mem_genIntegerCubes, Bool.not_eq_true', decide_eq_false_iff_not, Prod.mk.injEq]
  constructor
  · rintro ⟨c', ⟨h1, h2⟩, rfl, rfl⟩
    refine ⟨by push Not at h2; exact h2, h1, fun j => ?_⟩
    unfold Point.shift
    push_cast
    ring
  · rintro ⟨h1, h2, h3⟩
    refine ⟨c, ⟨h2, by push Not; exact h1⟩, rfl, ?_⟩
    funext j
    rw [h3]
    unfold Point.shift
    push_cast
    ring

theorem mem_stdNext {x : Point d} {c : Cube d} {e : Point d} : (c, e) ∈ g.stdNext x ↔
    (∃ j, c j ≠ 0) ∧ (∀ j, (c j : ℚ) ≤ x j ∧ x j ≤ (c j : ℚ) + 1) ∧ (∀ j, e j = x j - c j) ∧ (∀ m, g.maxCdist = some m → cdist c ≤ m) ∧
    g.End e := by
  have hnb : ∀ c q, (c, q) ∈ (SubsetOps.genNeighbours x : List (Cube d × Point d)) ↔ (c, q) ∈ x.genNeighbours := fun _ _ => Iff.rfl
  unfold stdNext
  simp only [List.mem_flatMap, List.mem_filter, List.mem_map, Prod.exists, Prod.mk.injEq, hnb, mem_genNeighbours, mem_genIntersectedEntr]
  constructor
  · rintro ⟨c', q, ⟨⟨h1, h2, h3⟩, h4⟩, e', ⟨rfl, h5⟩, rfl, rfl⟩
    refine ⟨h1, h2, h3, ?_, h5⟩
    intro m hm
    rw [hm] at h4
    simpa using h4
  · rintro ⟨h1, h2, h3, h4, h5⟩
    refine ⟨c, e, ⟨⟨h1, h2, h3⟩, ?_⟩, e, ⟨rfl, h5⟩, rfl, rfl⟩
    cases hm : g.maxCdist with
    | none => rfl
    | some m => simpa using h4 m hm

theorem nodup_stdNext (x : Point d) : (g.stdNext x).Nodup := by
  unfold stdNext
  have hn : (Point.genNeighbours x).Nodup ∧ ∀ c q q', (c, q) ∈ Point.genNeighbours x → (c, q') ∈ Point.genNeighbours x → q = q' := by
    constructor
    · exact ((nodup_genIntegerCubes x).filter _).map (fun a b h => (Prod.mk.inj h).1)
    · intro c q q' h h'
      rw [mem_genNeighbours] at h h'
      funext j
      rw [h.2.2, h'.2.2]
  rw [List.nodup_flatMap]
  constructor
  · intro e _
    exact (nodup_genIntersectedEntr g _).map fun a b h => (Prod.mk.inj h).2
  · refine List.Pairwise.imp_of_mem ?_ (hn.1.filter _)
    rintro ⟨c, q⟩ ⟨c', q'⟩ h h' hne ⟨c'', e⟩ hx hx'
    rw [List.mem_map] at hx hx'
    obtain ⟨a, _, ha⟩ := hx
    obtain ⟨a', _, ha'⟩ := hx'
    have e1 := (Prod.mk.inj ha).1
    have e2 := (Prod.mk.inj ha').1
    dsimp only at e1 e2
    subst e1
    subst e2
    exact hne (by rw [hn.2 _ _ _ (List.mem_of_mem_filter h) (List.mem_of_mem_filter h')])

theorem applyCubeStart_one (b : BaseMap d) (c : Cube d) : b.applyCubeStart c 1 = b.applyVec c := by
  funext j
  unfold BaseMap.applyCubeStart BaseMap.applyVec
  split <;> simp

theorem act_shift_cube (b : BaseMap d) (x : Point d) (c : Cube d) :
    Point.act b (fun j => x j - c j) = fun j => Point.act b x j - (b.applyVec c j : ℤ) := by
  funext j
  unfold Point.act BaseMap.applyX BaseMap.applyVec
  split
  · push_cast; ring
  · rfl

theorem cdist_applyVec (b : BaseMap d) (c : Cube d) : cdist (b.applyVec c) = cdist c := by
  rw [cdist_eq, cdist_eq]
  have e : ∀ j, |b.applyVec c j| = |c (b.coords j).1| := by
    intro j
    unfold BaseMap.applyVec
    split <;> simp
  simp only [e]
  obtain ⟨σ, hσ⟩ := b.exists_perm
  rw [← Equiv.sum_comp σ fun j => |c j|]
  exact Finset.sum_congr rfl fun j _ => by rw [hσ]

theorem step_act {x : Point d} {c : Cube d} (b : BaseMap d) :
    ((∃ j, c j ≠ 0) ∧ (∀ j, (c j : ℚ) ≤ x j ∧ x j ≤ (c j : ℚ) + 1)) →
    ((∃ j, b.applyVec c j ≠ 0) ∧ (∀ j, ((b.applyVec c j : ℤ) : ℚ) ≤ Point.act b x j ∧ Point.act b x j ≤ ((b.applyVec c j : ℤ) : ℚ) + 1)) := by
  rintro ⟨⟨j, hj⟩, h⟩
  constructor
  · obtain ⟨i, hi⟩ := b.coords_surj j
    refine ⟨i, ?_⟩
    unfold BaseMap.applyVec
    have hi' : (b.coords i).1 = j := hi
    rw [hi']
    split <;> simpa using hj
  · intro i
    have := h (b.coords i).1
    unfold BaseMap.applyVec Point.act BaseMap.applyX
    split
    · push_cast
      constructor <;> linarith
    · exact this

theorem nextPos_spec (b : BaseMap d) (x : Point d) : ∃ L, g.nextPos b (g.stdNext x) = some L ∧ L.Nodup ∧
    ∀ c l, (c, l) ∈ L ↔ g.Step (Point.act b x) c l := by
  unfold nextPos
  have hm : (g.stdNext x).mapM (fun e => do
      let nextLinks ← Dict.get? (SubsetOps.act b e.2) g.entr2links
      return nextLinks.map fun l => (b.applyCubeStart e.1 1, l)) =
      some ((g.stdNext x).map fun e => (g.linksFrom (Point.act b e.2)).map fun l => (b.applyCubeStart e.1 1, l)) := by
    refine mapM_eq_some_map ?_
    rintro ⟨c, e⟩ h
    rw [mem_stdNext] at h
    have : Dict.get? (SubsetOps.act b e) g.entr2links = some (g.linksFrom (Point.act b e)) :=
      get?_entr2links g (h.2.2.2.2.act g b)
    simp only [this, Option.bind_eq_bind, Option.bind_some, Option.pure_def]
  rw [hm]
  simp only [Option.bind_eq_bind, Option.bind_some, Option.pure_def, Option.some.injEq, exists_eq_left', ← List.flatMap_def, applyCubeStart_one]
  constructor
  · rw [List.nodup_flatMap]
    constructor
    · intro e _
      exact (nodup_linksFrom g _).map fun a b h => (Prod.mk.inj h).2
    · refine List.Pairwise.imp_of_mem ?_ (nodup_stdNext g x)
      rintro ⟨c, e⟩ ⟨c', e'⟩ h h' hne ⟨c'', l⟩ hx hx'
      rw [List.mem_map] at hx hx'
      obtain ⟨a, ha1, ha⟩ := hx
      obtain ⟨a', ha1', ha'⟩ := hx'
      rw [Prod.mk.injEq] at ha ha'
      dsimp only at ha ha'
      have hc : c = c' := by
        have : b⁻¹.applyVec (b.applyVec c) = b⁻¹.applyVec (b.applyVec c') := by rw [ha.1, ha'.1]
        simpa using this
      subst hc
      rw [mem_stdNext] at h h'
      refine hne ?_
      rw [Prod.mk.injEq]
      refine ⟨rfl, ?_⟩
      funext j
      rw [h.2.2.1, h'.2.2.1]
  · intro c l
    simp only [List.mem_flatMap, List.mem_map, Prod.exists, Prod.mk.injEq, mem_stdNext, mem_linksFrom, Step]
    constructor
    · rintro ⟨c', e, ⟨h1, h2, h3, h4, h5⟩, l', ⟨h6, h7⟩, rfl, rfl⟩
      obtain ⟨k1, k2⟩ := step_act b ⟨h1, h2⟩
      refine ⟨k1, k2, ?_, ?_, h7⟩
      · have : e = fun j => x j - c' j := funext h3
        intro j
        rw [h6, this, act_shift_cube]
      · rw [cdist_applyVec]; exact h4
    · rintro ⟨h1, h2, h3, h4, h5⟩
      obtain ⟨k1, k2⟩ := step_act b⁻¹ ⟨h1, h2⟩
      rw [← Point.act_mul, inv_mul_cancel, Point.act_one] at k2
      have he : Point.act b (fun j => x j - (b⁻¹.applyVec c j : ℤ)) = l.entrance := by
        rw [act_shift_cube]
        funext j
        rw [h3]
        simp
      refine ⟨b⁻¹.applyVec c, fun j => x j - (b⁻¹.applyVec c j : ℤ), ⟨k1, k2, fun _ => rfl, ?_, ?_⟩, l, ⟨he.symm, h5⟩, by simp, rfl⟩
      · rw [cdist_applyVec]; exact h4
      · rw [← end_act_iff g b, he]
        exact ⟨l, h5, rfl⟩

/-- the values of the dictionary are right -/
def GoodDict (dict : List (Point d × List (Cube d × Link (Point d)))) : Prop :=
  ∀ x L, Dict.get? x dict = some L → L.Nodup ∧ ∀ c l, (c, l) ∈ L ↔ g.Step x c l

theorem inner_loop (x : Point d) (bms : List (BaseMap d)) (dict : List (Point d × List (Cube d × Link (Point d)))) (hd : g.GoodDict dict) :
    ∃ dict', bms.foldlM (g.addNext x (g.stdNext x)) dict = some dict' ∧ g.GoodDict dict' ∧
      (∀ y, Dict.get? y dict ≠ none → Dict.get? y dict' ≠ none) ∧ ∀ bm ∈ bms, Dict.get? (Point.act bm x) dict' ≠ none := by
  induction bms generalizing dict with
  | nil => exact ⟨dict, rfl, hd, fun _ h => h, by simp⟩
  | cons b bms ih =>
    have hact : (SubsetOps.act b x : Point d) = Point.act b x := rfl
    cases hg : Dict.get? (Point.act b x) dict with
    | some L =>
      obtain ⟨dict', h1, h2, h3, h4⟩ := ih dict hd
      refine ⟨dict', ?_, h2, h3, ?_⟩
      · simp only [List.foldlM_cons, addNext, hact, hg, Option.bind_eq_bind, Option.bind_some]
        exact h1
      · intro bm hbm
        rcases List.mem_cons.1 hbm with rfl | hbm
        · exact h3 _ (by rw [hg]; simp)
        · exact h4 bm hbm
    | none =>
      obtain ⟨L, hL1, hL2, hL3⟩ := nextPos_spec g b x
      have hd' : g.GoodDict (Dict.set (Point.act b x) L dict) := by
        intro y M hM
        rw [Dict.get?_set] at hM
        split at hM
        · rename_i hy
          rw [Option.some.injEq] at hM
          subst hM
          rw [← hy]
          exact ⟨hL2, hL3⟩
        · exact hd y M hM
      obtain ⟨dict', h1, h2, h3, h4⟩ := ih _ hd'
      refine ⟨dict', ?_, h2, ?_, ?_⟩
      · simp only [List.foldlM_cons, addNext, hact, hg, Option.bind_eq_bind, hL1, Option.map_some, Option.bind_some]
        exact h1
      · intro y hy
        refine h3 y ?_
        rw [Dict.get?_set]
        split
        · simp
        · exact hy
      · intro bm hbm
        rcases List.mem_cons.1 hbm with rfl | hbm
        · refine h3 _ ?_
          rw [Dict.get?_set, if_pos rfl]
          simp
        · exact h4 bm hbm

theorem outer_loop (xs : List (Point d)) (dict : List (Point d × List (Cube d × Link (Point d)))) (hd : g.GoodDict dict) :
    ∃ dict', xs.foldlM (fun dict stdExit =>
      (BaseMap.genBaseMaps d (some false)).foldlM (g.addNext stdExit (g.stdNext stdExit)) dict) dict = some dict' ∧ g.GoodDict dict' ∧
      (∀ y, Dict.get? y dict ≠ none → Dict.get? y dict' ≠ none) ∧
      ∀ x ∈ xs, ∀ b : BaseMap d, Dict.get? (Point.act b x) dict' ≠ none := by
  induction xs generalizing dict with
  | nil => exact ⟨dict, rfl, hd, fun _ h => h, by simp⟩
  | cons x xs ih =>
    obtain ⟨d1, h1, h2, h3, h4⟩ := inner_loop g x (BaseMap.genBaseMaps d (some false)) dict hd
    obtain ⟨d2, k1, k2, k3, k4⟩ := ih d1 h2
    refine ⟨d2, ?_, k2, fun y hy => k3 y (h3 y hy), ?_⟩
    · simp only [List.foldlM_cons, Option.bind_eq_bind]
      rw [h1, Option.bind_some]
      exact k1
    · intro y hy b
      rcases List.mem_cons.1 hy with rfl | hy
      · exact k3 _ (h4 b.cubeMap (BaseMap.mem_genBaseMaps.2 (by simp [BaseMap.cubeMap])))
      · exact k4 y hy b

theorem stdExits_spec : ∃ xs, g.stdExits = some xs ∧ ∀ e, g.End e → ∃ x ∈ xs, ∃ b : BaseMap d, Point.act b x = e := by
  unfold stdExits
  have hm : g.links.mapM (fun link => do
      let x ← SubsetOps.std link.exit
      let e ← SubsetOps.std link.entrance
      return [x, e]) = some (g.links.map fun link : Link (Point d) => [link.exit.std, link.entrance.std]) :=
    mapM_eq_some_map (fun _ _ => rfl)
  rw [hm]
  refine ⟨_, rfl, ?_⟩
  rintro e ⟨l, ⟨a, m, hm, h⟩, rfl⟩
  have key : ∀ q : Point d, q = m.exit ∨ q = m.entrance → l.entrance = a.applyX 1 q →
      ∃ x ∈ (g.links.map fun link : Link (Point d) => [link.exit.std, link.entrance.std]).flatten.dedup, ∃ b : BaseMap d, Point.act b x = l.entrance := by
    intro q hq hl
    refine ⟨q.std, ?_, ?_⟩
    · rw [List.mem_dedup, List.mem_flatten]
      refine ⟨_, List.mem_map_of_mem hm, ?_⟩
      rcases hq with rfl | rfl <;> simp
    · obtain ⟨b, _, hb⟩ := Point.exists_act_std q
      refine ⟨a * b⁻¹, ?_⟩
      rw [← hb, Point.act_mul, ← Point.act_mul b⁻¹, inv_mul_cancel, Point.act_one, hl]
      rfl
  rcases h with ⟨h1, h2⟩ | ⟨h1, h2⟩
  · exact key _ (Or.inr rfl) h1
  · exact key _ (Or.inl rfl) h1

theorem exit2next_spec : ∃ dict, g.exit2next = some dict ∧ g.GoodDict dict ∧ ∀ e, g.End e → ∃ L, Dict.get? e dict = some L := by
  obtain ⟨xs, h1, h2⟩ := stdExits_spec g
  obtain ⟨dict, k1, k2, _, k4⟩ := outer_loop g xs [] (by intro x L h; simp [Dict.get?] at h)
  refine ⟨dict, ?_, k2, ?_⟩
  · unfold exit2next
    rw [h1]
    exact k1
  · intro e he
    obtain ⟨x, hx, b, rfl⟩ := h2 e he
    obtain ⟨L, hL⟩ := Option.ne_none_iff_exists'.1 (k4 x hx b)
    exact ⟨L, hL⟩

/-! ### the tree -/

/-- all ends of links are in the unit cube -/
def Unit : Prop := ∀ m ∈ g.links, ∀ j, (0 ≤ m.entrance j ∧ m.entrance j ≤ 1) ∧ (0 ≤ m.exit j ∧ m.exit j ≤ 1)

theorem act_unit (b : BaseMap d) {p : Point d} (h : ∀ j, 0 ≤ p j ∧ p j ≤ 1) (j : Fin d) : 0 ≤ b.applyX 1 p j ∧ b.applyX 1 p j ≤ 1 := by
  have := h (b.coords j).1
  unfold BaseMap.applyX
  split
  · constructor <;> linarith
  · exact this

variable {g}

theorem Unit.image (hu : g.Unit) {l : Link (Point d)} (h : ImageOf g.links l) (j : Fin d) :
    (0 ≤ l.entrance j ∧ l.entrance j ≤ 1) ∧ (0 ≤ l.exit j ∧ l.exit j ≤ 1) := by
  obtain ⟨a, m, hm, h⟩ := h
  have h1 : ∀ j, 0 ≤ m.entrance j ∧ m.entrance j ≤ 1 := fun j => (hu m hm j).1
  have h2 : ∀ j, 0 ≤ m.exit j ∧ m.exit j ≤ 1 := fun j => (hu m hm j).2
  rcases h with ⟨e1, e2⟩ | ⟨e1, e2⟩
  · rw [e1, e2]; exact ⟨act_unit a h1 j, act_unit a h2 j⟩
  · rw [e1, e2]; exact ⟨act_unit a h2 j, act_unit a h1 j⟩

theorem step_iff (hu : g.Unit) {l l' : Link (Point d)} (h' : ImageOf g.links l') {c : Cube d} : g.Step l.exit c l' ↔
    (∃ j, c j ≠ 0) ∧ (∀ j, l'.entrance j = l.exit j - c j) ∧ (∀ m, g.maxCdist = some m → cdist c ≤ m) := by
  unfold Step
  constructor
  · rintro ⟨h1, _, h3, h4, _⟩; exact ⟨h1, h3, h4⟩
  · rintro ⟨h1, h3, h4⟩
    refine ⟨h1, fun j => ?_, h3, h4, h'⟩
    have := (hu.image h' j).1
    rw [h3] at this
    constructor <;> linarith

theorem step_rev (hu : g.Unit) {l l' : Link (Point d)} (h : ImageOf g.links l) (h' : ImageOf g.links l') {c : Cube d} :
    g.Step l.exit c l' ↔ g.Step l'.entrance (fun j => -c j) l.invert := by
  have e : l'.entrance = l'.invert.exit := rfl
  rw [e, step_iff hu h', step_iff hu h.invert]
  have hc : cdist (fun j => -c j) = cdist c := by rw [cdist_eq, cdist_eq]; simp
  rw [hc]
  have : (∃ j, c j ≠ 0) ↔ ∃ j, -c j ≠ 0 := by simp
  rw [this]
  have : (∀ j, l'.entrance j = l.exit j - c j) ↔ ∀ j, l.invert.entrance j = l'.invert.exit j - ((-c j : ℤ) : ℚ) := by
    refine forall_congr' fun j => ?_
    show _ ↔ l.exit j = l'.entrance j - ((-c j : ℤ) : ℚ)
    push_cast
    constructor <;> intro h <;> linarith
  rw [this]

section tree
variable {dict : List (Point d × List (Cube d × Link (Point d)))} (hgood : g.GoodDict dict)
  (hall : ∀ e, g.End e → ∃ L, Dict.get? e dict = some L)
include hgood hall

theorem follows_next {a b : CubeTree.Node d (Link (Point d))} (ha : ImageOf g.links a.2) :
    CubeTree.Follows (nextOf dict) a b ↔ g.Step a.2.exit (fun j => b.1 j - a.1 j) b.2 := by
  obtain ⟨L, hL⟩ := hall _ (end_exit g ha)
  unfold CubeTree.Follows nextOf
  rw [hL]
  exact (hgood _ _ hL).2 _ _

theorem follows_prev {a b : CubeTree.Node d (Link (Point d))} (hb : ImageOf g.links b.2) :
    CubeTree.Follows (prevOf dict) b a ↔ g.Step b.2.entrance (fun j => a.1 j - b.1 j) a.2.invert := by
  obtain ⟨L, hL⟩ := hall b.2.entrance ⟨b.2, hb, rfl⟩
  unfold CubeTree.Follows prevOf
  rw [hL, ← (hgood _ _ hL).2]
  simp only [Option.getD_some, List.mem_map, Prod.exists, Prod.mk.injEq]
  constructor
  · rintro ⟨c, l, h, rfl, h2⟩
    rw [← h2]
    exact h
  · intro h
    exact ⟨_, _, h, rfl, rfl⟩

theorem closed_next (N : ℕ) : CubeTree.Closed N (fun n => ImageOf g.links n.2) (nextOf dict) := by
  intro a b _ _ ha h
  rw [follows_next hgood hall ha] at h
  exact h.2.2.2.2

theorem closed_prev (N : ℕ) : CubeTree.Closed N (fun n => ImageOf g.links n.2) (prevOf dict) := by
  intro a b _ _ ha h
  rw [follows_prev hgood hall ha] at h
  exact imageOf_invert.1 h.2.2.2.2

theorem isReverse (hu : g.Unit) (N : ℕ) : CubeTree.IsReverse N (fun n => ImageOf g.links n.2) (nextOf dict) (prevOf dict) := by
  intro a b _ _ ha hb
  rw [follows_next hgood hall ha, follows_prev hgood hall hb, step_rev hu ha hb]
  simp only [neg_sub]

omit hgood in
theorem genNext_eq {a : CubeTree.Node d (Link (Point d))} (ha : ImageOf g.links a.2) : genNext dict a.1 a.2 = some (nextOf dict a.1 a.2) := by
  obtain ⟨L, hL⟩ := hall _ (end_exit g ha)
  unfold genNext nextOf
  rw [hL]
  rfl

omit hgood in
theorem genPrev_eq {a : CubeTree.Node d (Link (Point d))} (ha : ImageOf g.links a.2) : genPrev dict a.1 a.2 = some (prevOf dict a.1 a.2) := by
  obtain ⟨L, hL⟩ := hall a.2.entrance ⟨a.2, ha, rfl⟩
  unfold genPrev prevOf
  rw [hL]
  rfl

omit hall in
theorem nodup_next (c : Cube d) (l : Link (Point d)) : (nextOf dict c l).Nodup := by
  unfold nextOf
  cases h : Dict.get? l.exit dict with
  | none => simp
  | some L => exact (hgood _ _ h).1

omit hall in
theorem nodup_prev (c : Cube d) (l : Link (Point d)) : (prevOf dict c l).Nodup := by
  unfold prevOf
  cases h : Dict.get? l.entrance dict with
  | none => simp
  | some L =>
    refine (hgood _ _ h).1.map ?_
    rintro ⟨a, ⟨b, c⟩⟩ ⟨a', ⟨b', c'⟩⟩ h
    simp only [Link.invert, Prod.mk.injEq, Link.mk.injEq] at h ⊢
    tauto

end tree

/-- start or finish nodes -/
theorem nodes_spec (hd : 0 < g.div) (p : Point d) (f : Link (Point d) → Link (Point d)) (hf : Function.Injective f) :
    ∃ r, (do
      let sets ← SubsetOps.divide p g.div
      let parts ← sets.mapM fun e => do
        let links ← g.genIntersectedLinks e.2
        return links.map fun l => (e.1, f l)
      return parts.flatten : Option (List (CubeTree.Node d (Link (Point d))))) = some r ∧ r.Nodup ∧
      ∀ n, n ∈ r ↔ CubeTree.InGrid g.div n.1 ∧ ∃ l, n.2 = f l ∧ ImageOf g.links l ∧
        (∀ j, (n.1 j : ℚ) / g.div ≤ p j ∧ p j ≤ ((n.1 j : ℚ) + 1) / g.div) ∧ ∀ j, p j = ((n.1 j : ℚ) + l.entrance j) / g.div := by
  obtain ⟨hdn, hdm⟩ := C31_divide p g.div hd
  choose F hF1 hF2 hF3 using genIntersectedLinks_eq g
  have hm : (Point.divide p g.div).mapM (fun e => do
        let links ← g.genIntersectedLinks e.2
        return links.map fun l => (e.1, f l)) = some ((Point.divide p g.div).map fun e => (F e.2).map fun l => (e.1, f l)) := by
    refine mapM_eq_some_map ?_
    intro e _
    rw [hF1]
    rfl
  refine ⟨((Point.divide p g.div).map fun e => (F e.2).map fun l => (e.1, f l)).flatten, ?_, ?_, ?_⟩
  · have : (SubsetOps.divide p g.div : Option (List (Cube d × Point d))) = some (Point.divide p g.div) := rfl
    rw [this]
    simp only [Option.bind_eq_bind, Option.bind_some]
    simp only [Option.bind_eq_bind] at hm
    rw [hm]
    rfl
  · rw [← List.flatMap_def, List.nodup_flatMap]
    constructor
    · intro e _
      exact (hF2 _).map fun a b h => hf (Prod.mk.inj h).2
    · refine List.Pairwise.imp_of_mem ?_ hdn
      rintro ⟨c, q⟩ ⟨c', q'⟩ h h' hne ⟨c'', l⟩ hx hx'
      rw [List.mem_map] at hx hx'
      obtain ⟨a, ha1, ha⟩ := hx
      obtain ⟨a', ha1', ha'⟩ := hx'
      rw [Prod.mk.injEq] at ha ha'
      dsimp only at ha ha'
      rw [hdm] at h h'
      have hc : c = c' := ha.1.trans ha'.1.symm
      subst hc
      refine hne ?_
      rw [Prod.mk.injEq]
      refine ⟨rfl, ?_⟩
      funext j
      have h1 := h.2.2 j
      rw [h'.2.2 j] at h1
      have hd' : (g.div : ℚ) ≠ 0 := by exact_mod_cast hd.ne'
      field_simp at h1
      linarith
  · rintro ⟨c, l⟩
    simp only [← List.flatMap_def, List.mem_flatMap, List.mem_map, Prod.exists, Prod.mk.injEq, hdm, hF3]
    constructor
    · rintro ⟨c', q, ⟨h1, h2, h3⟩, l', ⟨rfl, h5⟩, rfl, rfl⟩
      exact ⟨h1, l', rfl, h5, h2, h3⟩
    · rintro ⟨h1, l', rfl, h5, h2, h3⟩
      exact ⟨c, l'.entrance, ⟨h1, h2, h3⟩, l', ⟨rfl, h5⟩, rfl, rfl⟩

theorem start_spec (hd : 0 < g.div) (link : Link (Point d)) : ∃ r, g.startNodes link = some r ∧ r.Nodup ∧
      ∀ n, n ∈ r ↔ CubeTree.InGrid g.div n.1 ∧ ImageOf g.links n.2 ∧
        (∀ j, (n.1 j : ℚ) / g.div ≤ link.entrance j ∧ link.entrance j ≤ ((n.1 j : ℚ) + 1) / g.div) ∧
        ∀ j, link.entrance j = ((n.1 j : ℚ) + n.2.entrance j) / g.div := by
  obtain ⟨r, h1, h2, h3⟩ := nodes_spec hd link.entrance id Function.injective_id
  refine ⟨r, h1, h2, fun n => ?_⟩
  rw [h3]
  refine and_congr_right fun _ => ?_
  constructor
  · rintro ⟨l, h, h'⟩
    simp only [id] at h
    rw [h]
    exact h'
  · intro h
    exact ⟨n.2, rfl, h⟩

theorem finish_spec (hd : 0 < g.div) (link : Link (Point d)) : ∃ r, g.finishNodes link = some r ∧ r.Nodup ∧
      ∀ n, n ∈ r ↔ CubeTree.InGrid g.div n.1 ∧ ImageOf g.links n.2 ∧
        (∀ j, (n.1 j : ℚ) / g.div ≤ link.exit j ∧ link.exit j ≤ ((n.1 j : ℚ) + 1) / g.div) ∧
        ∀ j, link.exit j = ((n.1 j : ℚ) + n.2.exit j) / g.div := by
  obtain ⟨r, h1, h2, h3⟩ := nodes_spec hd link.exit Link.invert (by
    rintro ⟨a, b⟩ ⟨a', b'⟩ h
    simp only [Link.invert, Link.mk.injEq] at h ⊢
    tauto)
  refine ⟨r, h1, h2, fun n => ?_⟩
  rw [h3]
  refine and_congr_right fun _ => ?_
  constructor
  · rintro ⟨l, h, h1, h2, h3⟩
    rw [h]
    exact ⟨h1.invert, h2, h3⟩
  · rintro ⟨h1, h2, h3⟩
    exact ⟨n.2.invert, rfl, h1.invert, h2, h3⟩

/-- the path made of the nodes -/
def toPath (div : ℕ) (L : List (CubeTree.Node d (Link (Point d)))) : Path (Point d) d where
  div := div
  proto := L.map fun n => some n.1
  links := L.map Prod.snd
  link := ⟨fun j => match L.head? with
    | some n => (n.2.entrance j + n.1 j) * (1 / div)
    | none => 0, fun j => match L.getLast? with
    | some n => (n.2.exit j + n.1 j) * (1 / div)
    | none => 0⟩

theorem make_toPath {div : ℕ} (hd : div ≠ 0) {L : List (CubeTree.Node d (Link (Point d)))} (hL : L ≠ []) :
    Path.make div (L.map fun n => some n.1) (L.map Prod.snd) = some (toPath div L) := by
  rw [Path.make_iff]
  obtain ⟨n0, h0⟩ : ∃ n, L.head? = some n := ⟨_, List.head?_eq_some_head hL⟩
  obtain ⟨n1, h1⟩ : ∃ n, L.getLast? = some n := ⟨_, List.getLast?_eq_some_getLast hL⟩
  refine ⟨hd, n0.1, n1.1, n0.2, n1.2, ?_, ?_, ?_, ?_, ?_⟩
  · rw [List.head?_map, h0]; rfl
  · rw [List.getLast?_map, h1]; rfl
  · rw [List.head?_map, h0]; rfl
  · rw [List.getLast?_map, h1]; rfl
  · unfold toPath
    rw [h0, h1]

theorem toPath_injective (div : ℕ) : Function.Injective (toPath (d := d) div) := by
  intro L M h
  have h1 := congrArg Path.proto h
  have h2 := congrArg Path.links h
  simp only [toPath] at h1 h2
  apply List.ext_getElem?
  intro i
  have e1 := congrArg (fun l : List (Option (Cube d)) => l[i]?) h1
  have e2 := congrArg (fun l : List (Link (Point d)) => l[i]?) h2
  simp only [List.getElem?_map] at e1 e2
  cases hL : L[i]? with
  | none =>
    rw [hL] at e1
    cases hM : M[i]? with
    | none => rfl
    | some n => rw [hM] at e1; simp at e1
  | some n =>
    rw [hL] at e1 e2
    cases hM : M[i]? with
    | none => rw [hM] at e1; simp at e1
    | some m =>
      rw [hM] at e1 e2
      simp at e1 e2
      rw [Prod.ext e1 e2]

theorem toPath_wf {div : ℕ} (hd : div ≠ 0) {L : List (CubeTree.Node d (Link (Point d)))} (hL : L ≠ []) : (toPath div L).WF where
  cubes := by
    intro c hc
    simp only [toPath, List.mem_map] at hc
    obtain ⟨n, _, rfl⟩ := hc
    simp
  length := by simp [toPath]
  made := make_toPath hd hL

theorem exists_toPath {p : Path (Point d) d} (h : p.WF) : ∃ L, L ≠ [] ∧ p = toPath p.div L := by
  obtain ⟨cs, hcs, hne, hlen⟩ := h.data
  have hz : (cs.zip p.links).map Prod.fst = cs := List.map_fst_zip (by omega)
  have hz2 : (cs.zip p.links).map Prod.snd = p.links := List.map_snd_zip (by omega)
  have hL : cs.zip p.links ≠ [] := by
    intro h'
    rw [h'] at hz
    exact hne hz.symm
  refine ⟨cs.zip p.links, hL, ?_⟩
  have hm := h.made
  have hd : p.div ≠ 0 := (Path.make_iff.1 hm).1
  have := make_toPath hd hL
  have e1 : (cs.zip p.links).map (fun n => some n.1) = p.proto := by
    rw [hcs]
    conv_rhs => rw [← hz]
    rw [List.map_map]
    rfl
  rw [e1, hz2, hm, Option.some.injEq] at this
  exact this

theorem generated_iff (hu : g.Unit) (hd : 0 < g.div) {dict : List (Point d × List (Cube d × Link (Point d)))} (hgood : g.GoodDict dict)
    (hall : ∀ e, g.End e → ∃ L, Dict.get? e dict = some L) {link : Link (Point d)} {start finish : List (CubeTree.Node d (Link (Point d)))}
    (hs : g.startNodes link = some start) (hf : g.finishNodes link = some finish) {L : List (CubeTree.Node d (Link (Point d)))} (hL : L ≠ []) :
    Generated g.div g.links g.maxCdist link (toPath g.div L) ↔ CubeTree.Fills g.div (nextOf dict) start finish L := by
  obtain ⟨s, hs1, _, hs3⟩ := start_spec hd link
  obtain ⟨f, hf1, _, hf3⟩ := finish_spec hd link
  rw [hs, Option.some.injEq] at hs1
  rw [hf, Option.some.injEq] at hf1
  subst hs1 hf1
  have hd' : (g.div : ℚ) ≠ 0 := by exact_mod_cast hd.ne'
  have hdp : (0 : ℚ) < g.div := by exact_mod_cast hd
  obtain ⟨n0, h0⟩ : ∃ n, L.head? = some n := ⟨_, List.head?_eq_some_head hL⟩
  obtain ⟨n1, h1⟩ : ∃ n, L.getLast? = some n := ⟨_, List.getLast?_eq_some_getLast hL⟩
  have hlink : (toPath g.div L).link = ⟨fun j => (n0.2.entrance j + n0.1 j) * (1 / g.div), fun j => (n1.2.exit j + n1.1 j) * (1 / g.div)⟩ := by
    simp only [toPath, h0, h1]
  have hproto : ∀ (i : ℕ) (c : Cube d), (toPath g.div L).proto[i]? = some (some c) ↔ ∃ l, L[i]? = some (c, l) := by
    intro i c
    simp only [toPath, List.getElem?_map, Option.map_eq_some_iff, Option.some.injEq, Prod.exists]
    constructor
    · rintro ⟨a, b, h, rfl⟩; exact ⟨b, h⟩
    · rintro ⟨b, h⟩; exact ⟨c, b, h, rfl⟩
  have hlinks : ∀ (i : ℕ) (l : Link (Point d)), (toPath g.div L).links[i]? = some l ↔ ∃ c, L[i]? = some (c, l) := by
    intro i c
    simp only [toPath, List.getElem?_map, Option.map_eq_some_iff, Prod.exists]
    constructor
    · rintro ⟨a, b, h, rfl⟩; exact ⟨a, h⟩
    · rintro ⟨b, h⟩; exact ⟨b, c, h, rfl⟩
  have hm : ∀ c : Cube d, some c ∈ (toPath g.div L).proto ↔ c ∈ L.map Prod.fst := by
    intro c
    simp [toPath]
  constructor
  · rintro ⟨_, _, hall', honce, hjoin, himg, hcd, hl⟩
    have himg' : ∀ n ∈ L, ImageOf g.links n.2 := fun n hn => himg _ (by simp only [toPath]; exact List.mem_map_of_mem hn)
    have hnd : (L.map Prod.fst).Nodup := by
      have : (toPath g.div L).proto = (L.map Prod.fst).map some := by simp [toPath]
      rw [this] at honce
      exact honce.of_map _
    have hgrid : ∀ n ∈ L, CubeTree.InGrid g.div n.1 := fun n hn => (hall' _).1 ((hm _).2 (List.mem_map_of_mem hn))
    have hn0 : n0 ∈ L := List.mem_of_head? h0
    have hn1 : n1 ∈ L := List.mem_of_getLast? h1
    rw [hlink] at hl
    refine ⟨⟨n0, (hs3 n0).2 ⟨hgrid _ hn0, himg' _ hn0, ?_, ?_⟩, h0⟩, ⟨n1, (hf3 n1).2 ⟨hgrid _ hn1, himg' _ hn1, ?_, ?_⟩, h1⟩, ?_, hnd, ?_⟩
    · intro j
      rw [← hl]
      have := (hu.image (himg' _ hn0) j).1
      rw [div_le_iff₀ hdp, le_div_iff₀ hdp]
      dsimp only
      field_simp
      constructor <;> linarith
    · intro j
      rw [← hl]
      dsimp only
      ring
    · intro j
      rw [← hl]
      have := (hu.image (himg' _ hn1) j).2
      rw [div_le_iff₀ hdp, le_div_iff₀ hdp]
      dsimp only
      field_simp
      constructor <;> linarith
    · intro j
      rw [← hl]
      dsimp only
      ring
    · intro i a b ha hb
      have ha' := himg' _ (List.mem_of_getElem? ha)
      have hb' := himg' _ (List.mem_of_getElem? hb)
      rw [follows_next hgood hall ha', step_iff hu hb']
      refine ⟨?_, ?_, ?_⟩
      · by_contra hcon
        push Not at hcon
        have hab : a.1 = b.1 := by
          funext j
          have := hcon j
          omega
        obtain ⟨hi, ha2⟩ := List.getElem?_eq_some_iff.1 ha
        obtain ⟨hi', hb2⟩ := List.getElem?_eq_some_iff.1 hb
        have := (List.nodup_iff_injective_getElem.1 hnd) (a₁ := ⟨i, by simpa using hi⟩) (a₂ := ⟨i + 1, by simpa using hi'⟩)
          (by simp [ha2, hb2, hab])
        simp at this
      · intro j
        have := hjoin i a.1 b.1 a.2 b.2 ((hproto _ _).2 ⟨_, ha⟩) ((hproto _ _).2 ⟨_, hb⟩) ((hlinks _ _).2 ⟨_, ha⟩) ((hlinks _ _).2 ⟨_, hb⟩) j
        push_cast
        linarith
      · intro m hm
        rw [cdist_eq]
        exact hcd m hm i a.1 b.1 ((hproto _ _).2 ⟨_, ha⟩) ((hproto _ _).2 ⟨_, hb⟩)
    · intro c
      rw [← hm]
      exact hall' c
  · intro hF
    have himg : ∀ n ∈ L, ImageOf g.links n.2 := by
      refine CubeTree.Tree.closed_all (closed_next hgood hall g.div) hF.okF ?_
      intro n hn
      obtain ⟨m, hm, hm'⟩ := hF.start
      rw [hn, Option.some.injEq] at hm'
      rw [hm']
      exact ((hs3 m).1 hm).2.1
    have hstep : ∀ (i : ℕ) (a b : CubeTree.Node d (Link (Point d))), L[i]? = some a → L[i + 1]? = some b →
        (∀ j, b.2.entrance j = a.2.exit j - (b.1 j - a.1 j : ℤ)) ∧ (∀ m, g.maxCdist = some m → cdist (fun j => b.1 j - a.1 j) ≤ m) := by
      intro i a b ha hb
      have := hF.follows i a b ha hb
      rw [follows_next hgood hall (himg _ (List.mem_of_getElem? ha)), step_iff hu (himg _ (List.mem_of_getElem? hb))] at this
      exact this.2
    refine ⟨toPath_wf hd.ne' hL, rfl, ?_, ?_, ?_, ?_, ?_, ?_⟩
    · intro c
      rw [hm]
      exact hF.all c
    · have : (toPath g.div L).proto = (L.map Prod.fst).map some := by simp [toPath]
      rw [this]
      exact hF.once.map (Option.some_injective _)
    · intro i c c' l l' e1 e2 e3 e4 j
      rw [hproto] at e1 e2
      rw [hlinks] at e3 e4
      obtain ⟨x1, e1⟩ := e1
      obtain ⟨x2, e2⟩ := e2
      obtain ⟨x3, e3⟩ := e3
      obtain ⟨x4, e4⟩ := e4
      rw [e1, Option.some.injEq, Prod.mk.injEq] at e3
      rw [e2, Option.some.injEq, Prod.mk.injEq] at e4
      obtain ⟨rfl, rfl⟩ := e3
      obtain ⟨rfl, rfl⟩ := e4
      have := (hstep i _ _ e1 e2).1 j
      push_cast at this
      linarith
    · intro l hl
      simp only [toPath, List.mem_map] at hl
      obtain ⟨n, hn, rfl⟩ := hl
      exact himg n hn
    · intro m hmm i c c' e1 e2
      rw [hproto] at e1 e2
      obtain ⟨x1, e1⟩ := e1
      obtain ⟨x2, e2⟩ := e2
      have := (hstep i _ _ e1 e2).2 m hmm
      rw [cdist_eq] at this
      exact this
    · rw [hlink]
      obtain ⟨m, hm1, hm2⟩ := hF.start
      obtain ⟨m', hm1', hm2'⟩ := hF.finish
      rw [h0, Option.some.injEq] at hm2
      rw [h1, Option.some.injEq] at hm2'
      subst hm2 hm2'
      have k1 := ((hs3 _).1 hm1).2.2.2
      have k2 := ((hf3 _).1 hm1').2.2.2
      obtain ⟨e, x⟩ := link
      rw [Link.mk.injEq]
      constructor
      · funext j
        have := k1 j
        dsimp only at this
        rw [this]; ring
      · funext j
        have := k2 j
        dsimp only at this
        rw [this]; ring

/-- The search of paths finds exactly the required paths, each once. -/
theorem rawPaths_spec (hu : g.Unit) (hM : 2 ≤ g.div ^ d) (hash : Finset (Cube d) × CubeTree.Node d (Link (Point d)) → ℤ)
    (link : Link (Point d)) (sm fm : Option ℤ) :
    ∃ out, g.rawPaths hash link sm fm = some out ∧ out.Nodup ∧ ∀ p, p ∈ out ↔ Generated g.div g.links g.maxCdist link p := by
  have hd : 0 < g.div := by
    rcases Nat.eq_zero_or_pos g.div with h | h
    · rw [h] at hM
      rcases Nat.eq_zero_or_pos d with h' | h'
      · subst h'; simp at hM
      · rw [zero_pow h'.ne'] at hM; omega
    · exact h
  obtain ⟨dict, hx1, hgood, hall⟩ := exit2next_spec g
  obtain ⟨s, hs1, hs2, hs3⟩ := start_spec hd link
  obtain ⟨f, hf1, hf2, hf3⟩ := finish_spec hd link
  set tree : CubeTree.Tree d (Link (Point d)) := { div := g.div, nextFunc := nextOf dict, prevFunc := some (prevOf dict) } with htree
  obtain ⟨found, hg1, hg2, hg3⟩ := CubeTree.Tree.grow_spec tree hash s f sm fm hM (fun n hn => ((hs3 n).1 hn).1) (fun n hn => ((hf3 n).1 hn).1)
    (fun n => ImageOf g.links n.2) (fun n hn => ((hs3 n).1 hn).2.1) (fun n hn => ((hf3 n).1 hn).2.1) (closed_next hgood hall _)
    (by
      intro prev hp
      rw [htree] at hp
      simp only [Option.some.injEq] at hp
      subst hp
      exact ⟨closed_prev hgood hall _, isReverse hgood hall hu _⟩) (by simp [htree])
  have hne : ∀ L ∈ found, L ≠ [] := by
    rintro L hL rfl
    obtain ⟨n, _, hn⟩ := ((hg2 _).1 hL).start
    simp at hn
  refine ⟨found.map (toPath g.div), ?_, ?_, ?_⟩
  · unfold rawPaths
    rw [hx1, hs1, hf1]
    simp only [Option.bind_eq_bind, Option.bind_some]
    rw [CubeTree.TreeE.grow_eq (t' := tree) rfl hash sm fm rfl rfl hM (P := fun p => CubeTree.InGrid g.div p.head.1 ∧ ImageOf g.links p.head.2)
      (Q := fun p => CubeTree.InGrid g.div p.head.1 ∧ ImageOf g.links p.head.2) (fun n hn => ⟨((hs3 n).1 hn).1, ((hs3 n).1 hn).2.1⟩)
      (fun n hn => ⟨((hf3 n).1 hn).1, ((hf3 n).1 hn).2.1⟩)
      (CubeTree.TreeE.safe_of_closed _ (R := fun n => ImageOf g.links n.2) (fun a ha => genNext_eq hall ha) (closed_next hgood hall _))
      (CubeTree.TreeE.safe_of_closed _ (R := fun n => ImageOf g.links n.2) (fun a ha => genPrev_eq hall ha) (closed_prev hgood hall _)),
      hg1, Option.bind_some]
    exact mapM_eq_some_map fun L hL => make_toPath hd.ne' (hne L hL)
  · refine (hg3 hs2 hf2 (nodup_next hgood) ?_).map (toPath_injective _)
    intro prev hp
    rw [htree] at hp
    simp only [Option.some.injEq] at hp
    subst hp
    exact nodup_prev hgood
  · intro p
    rw [List.mem_map]
    constructor
    · rintro ⟨L, hL, rfl⟩
      rw [generated_iff hu hd hgood hall hs1 hf1 (hne L hL)]
      exact (hg2 L).1 hL
    · intro hp
      obtain ⟨L, hL, hpL⟩ := exists_toPath hp.wf
      rw [hp.div_eq] at hpL
      refine ⟨L, ?_, hpL.symm⟩
      rw [hpL, generated_iff hu hd hgood hall hs1 hf1 hL] at hp
      exact (hg2 L).2 hp

end PathsGen
end Peano
