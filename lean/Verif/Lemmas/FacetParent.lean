import Verif.Lemmas.FacetPathsB

set_option autoImplicit false

/-! Paths that refine a parent path. -/
namespace Peano
variable {n : ℕ}

theorem pyIndex_nat {α : Type} (l : List α) (i : ℕ) : pyIndex l (i : ℤ) = l[i]? := by
  unfold pyIndex
  rw [if_pos (by omega), Int.toNat_natCast]

theorem pyIndex_neg_one {α : Type} {l : List α} (h : l ≠ []) : pyIndex l (-1) = l[l.length - 1]? := by
  have := List.length_pos_of_ne_nil h
  unfold pyIndex
  rw [if_neg (by omega), if_pos (by omega)]
  rfl

theorem filterCheck_eq {α : Type} {f : α → Option Bool} {b : α → Bool} (l : List α) (h : ∀ a ∈ l, f a = some (b a)) :
    PathsGen.filterCheck f l = some (l.filter b) := by
  induction l with
  | nil => rfl
  | cons a l ih =>
    unfold PathsGen.filterCheck
    rw [h a List.mem_cons_self, ih fun x hx => h x (List.mem_cons_of_mem _ hx)]
    show some (if b a = true then a :: l.filter b else l.filter b) = _
    rw [List.filter_cons]

theorem Link.intersects_facet (l m : Link (FacetDivSubset n)) : Link.intersects (d := n + 1) l m = (l.entrance.intersects m.entrance && l.exit.intersects m.exit) := rfl

namespace FacetGen
open PathsGen
variable {g : PathsGen (n + 1) (FacetDivSubset n)}

/-- `genNextParent` without exceptions (they are never raised in the search, see `rawPathsParent_spec`) -/
def nextOfParent (parent : Path (FacetDivSubset n) (n + 1)) (exit2next : List (FacetDivSubset n × List (Cube (n + 1) × Link (FacetDivSubset n)))) :
    CubeTree.NextFunc (n + 1) (Link (FacetDivSubset n)) :=
  fun cube link => ((Dict.get? link.exit exit2next).getD []).filter fun e => (checkNext parent cube e.1 e.2 false).getD false

/-- `genPrevParent` without exceptions -/
def prevOfParent (parent : Path (FacetDivSubset n) (n + 1)) (exit2next : List (FacetDivSubset n × List (Cube (n + 1) × Link (FacetDivSubset n)))) :
    CubeTree.NextFunc (n + 1) (Link (FacetDivSubset n)) :=
  fun cube link => (((Dict.get? link.entrance exit2next).getD []).map fun e => (e.1, e.2.invert)).filter fun e =>
    (checkNext parent cube e.1 e.2 true).getD false

/-- what is needed of the parent -/
structure Parent (g : PathsGen (n + 1) (FacetDivSubset n)) (parent : Path (FacetDivSubset n) (n + 1)) : Prop where
  div_eq : parent.div = g.div
  made : Path.make parent.div parent.proto parent.links = some parent
  length : parent.links.length = parent.proto.length
  cubes : ∀ c ∈ parent.proto, c ≠ none
  all : ∀ c : Cube (n + 1), some c ∈ parent.proto ↔ CubeTree.InGrid g.div c
  once : parent.proto.Nodup
  links : ∀ l ∈ parent.links, l.InDiv g.div

/-- the node agrees with fraction `i` of the parent -/
def At (parent : Path (FacetDivSubset n) (n + 1)) (i : ℕ) (m : CubeTree.Node (n + 1) (Link (FacetDivSubset n))) : Prop :=
  parent.proto[i]? = some (some m.1) ∧ ∃ l, parent.links[i]? = some l ∧ Link.intersects (d := n + 1) m.2 l = true

variable {parent : Path (FacetDivSubset n) (n + 1)}

theorem At.lt {i : ℕ} {m : CubeTree.Node (n + 1) (Link (FacetDivSubset n))} (h : At parent i m) : i < parent.proto.length :=
  (List.getElem?_eq_some_iff.1 h.1).1

theorem proto_inj (hp : Parent g parent) {i j : ℕ} {c : Option (Cube (n + 1))} (hi : parent.proto[i]? = some c) (hj : parent.proto[j]? = some c) : i = j := by
  obtain ⟨h1, e1⟩ := List.getElem?_eq_some_iff.1 hi
  obtain ⟨h2, e2⟩ := List.getElem?_eq_some_iff.1 hj
  have := (List.nodup_iff_injective_getElem.1 hp.once) (a₁ := ⟨i, h1⟩) (a₂ := ⟨j, h2⟩) (by simp [e1, e2])
  simpa using this

theorem cube2cnum_get (hp : Parent g parent) {i : ℕ} {c : Option (Cube (n + 1))} (h : parent.proto[i]? = some c) :
    Dict.get? c (cube2cnum parent) = some i := by
  have key : ∀ (l : List (Option (Cube (n + 1)) × ℕ)) (dict : List (Option (Cube (n + 1)) × ℕ)), (∀ e ∈ l, ∀ e' ∈ l, e.1 = e'.1 → e.2 = e'.2) →
      (c, i) ∈ l → Dict.get? c (l.foldl (fun dict e => Dict.set e.1 e.2 dict) dict) = some i := by
    intro l
    induction l with
    | nil => intro _ _ h; simp at h
    | cons a l ih =>
      intro dict hn hm
      rw [List.foldl_cons]
      by_cases hm' : (c, i) ∈ l
      · exact ih _ (fun e he e' he' => hn e (List.mem_cons_of_mem _ he) e' (List.mem_cons_of_mem _ he')) hm'
      · have ha : a = (c, i) := by
          rcases List.mem_cons.1 hm with h | h
          · exact h.symm
          · exact absurd h hm'
        have hother : ∀ e ∈ l, e.1 ≠ c := by
          intro e he hec
          have := hn e (List.mem_cons_of_mem _ he) (c, i) hm hec
          apply hm'
          rw [← show e = (c, i) from Prod.ext hec this]
          exact he
        have : ∀ (l : List (Option (Cube (n + 1)) × ℕ)) (dict : List (Option (Cube (n + 1)) × ℕ)), (∀ e ∈ l, e.1 ≠ c) →
            Dict.get? c (l.foldl (fun dict e => Dict.set e.1 e.2 dict) dict) = Dict.get? c dict := by
          intro l
          induction l with
          | nil => intros; rfl
          | cons b l ih =>
            intro dict h
            rw [List.foldl_cons, ih _ fun e he => h e (List.mem_cons_of_mem _ he), Dict.get?_set, if_neg (h b List.mem_cons_self)]
        rw [this l _ hother, ha, Dict.get?_set, if_pos rfl]
  apply key
  · rintro ⟨a, i⟩ ha ⟨b, j⟩ hb hab
    rw [List.mem_zipIdx_iff_getElem?] at ha hb
    dsimp only at hab ha hb ⊢
    subst hab
    exact proto_inj hp ha hb
  · rw [List.mem_zipIdx_iff_getElem?]
    exact h

theorem checkParent_nat (hp : Parent g parent) (i : ℕ) (c : Cube (n + 1)) (l : Link (FacetDivSubset n)) :
    (checkParent parent (i : ℤ) c l).getD false = true ↔ At parent i (c, l) := by
  unfold checkParent At
  rw [pyIndex_nat, pyIndex_nat]
  cases hi : parent.proto[i]? with
  | none => simp
  | some x =>
    simp only [Option.bind_eq_bind, Option.bind_some, Option.some.injEq]
    by_cases hx : some c = x
    · rw [if_pos hx]
      cases hl : parent.links[i]? with
      | none =>
        have := (List.getElem?_eq_some_iff.1 hi).1
        rw [List.getElem?_eq_none_iff, hp.length] at hl
        omega
      | some l' => simp [hx]
    · rw [if_neg hx]
      simp [Ne.symm hx]

theorem proto_ne_nil (hp : Parent g parent) : parent.proto ≠ [] := by
  obtain ⟨c0, _, _, _, _, _, h, _⟩ := make_iff.1 hp.made
  intro h'
  rw [h'] at h
  simp at h

theorem checkParent_last (hp : Parent g parent) (c : Cube (n + 1)) (l : Link (FacetDivSubset n)) :
    (checkParent parent (-1) c l).getD false = true ↔ At parent (parent.proto.length - 1) (c, l) := by
  rw [← checkParent_nat hp]
  have h1 := proto_ne_nil hp
  have h2 : parent.links ≠ [] := by
    intro h
    have := hp.length
    rw [h] at this
    exact h1 (List.length_eq_zero_iff.1 this.symm)
  unfold checkParent
  rw [pyIndex_nat, pyIndex_nat, pyIndex_neg_one h1, pyIndex_neg_one h2, hp.length]

section tree
variable {dict : List (FacetDivSubset n × List (Cube (n + 1) × Link (FacetDivSubset n)))} {a b : CubeTree.Node (n + 1) (Link (FacetDivSubset n))} {i : ℕ}

theorem follows_nextParent (hp : Parent g parent) (ha : parent.proto[i]? = some (some a.1)) :
    CubeTree.Follows (nextOfParent parent dict) a b ↔ CubeTree.Follows (nextOf dict) a b ∧ At parent (i + 1) b := by
  unfold CubeTree.Follows nextOfParent nextOf
  rw [List.mem_filter]
  refine and_congr_right fun _ => ?_
  unfold checkNext
  rw [cube2cnum_get hp ha]
  simp only [Option.bind_eq_bind, Option.bind_some, Bool.false_eq_true, if_false]
  have e : (fun j => a.1 j + (b.1 j - a.1 j)) = b.1 := by funext j; ring
  rw [e, show ((i : ℤ) + 1) = ((i + 1 : ℕ) : ℤ) by push_cast; rfl, checkParent_nat hp]

theorem follows_prevParent (hp : Parent g parent) (hb : parent.proto[i]? = some (some b.1)) :
    CubeTree.Follows (prevOfParent parent dict) b a ↔ CubeTree.Follows (prevOf dict) b a ∧
      At parent (if i = 0 then parent.proto.length - 1 else i - 1) a := by
  unfold CubeTree.Follows prevOfParent prevOf
  rw [List.mem_filter]
  refine and_congr_right fun _ => ?_
  unfold checkNext
  rw [cube2cnum_get hp hb]
  simp only [Option.bind_eq_bind, Option.bind_some, if_true]
  have e : (fun j => b.1 j + (a.1 j - b.1 j)) = a.1 := by funext j; ring
  rw [e]
  cases i with
  | zero => rw [if_pos rfl, ← checkParent_last hp]; rfl
  | succ i =>
    rw [if_neg (by omega), ← checkParent_nat hp, show (((i + 1 : ℕ) : ℤ) + -1) = ((i + 1 - 1 : ℕ) : ℤ) by push_cast; omega]

/-- nodes considered in the search -/
def Node (g : PathsGen (n + 1) (FacetDivSubset n)) (parent : Path (FacetDivSubset n) (n + 1)) (m : CubeTree.Node (n + 1) (Link (FacetDivSubset n))) : Prop :=
  FacetImageOf g.links m.2 ∧ ∃ i, At parent i m

variable (hgood : GoodDict g dict) (hall : ∀ e, End g e → ∃ L, Dict.get? e dict = some L)
include hgood hall

theorem closed_nextParent (hp : Parent g parent) (N : ℕ) : CubeTree.Closed N (Node g parent) (nextOfParent parent dict) := by
  rintro a b _ _ ⟨h1, i, h2⟩ h
  rw [follows_nextParent hp h2.1, follows_next hgood hall h1] at h
  exact ⟨h.1.2.2.2, _, h.2⟩

theorem closed_prevParent (hp : Parent g parent) (N : ℕ) : CubeTree.Closed N (Node g parent) (prevOfParent parent dict) := by
  rintro a b _ _ ⟨h1, i, h2⟩ h
  rw [follows_prevParent hp h2.1, follows_prev hgood hall h1] at h
  exact ⟨facetImageOf_invert.1 h.1.2.2.2, _, h.2⟩

theorem isReverseParent (hp : Parent g parent) (N : ℕ) {c : Cube (n + 1)} (hc : parent.proto[parent.proto.length - 1]? = some (some c)) :
    CubeTree.Tree.IsReverseBut N (Node g parent) c (nextOfParent parent dict) (prevOfParent parent dict) := by
  rintro a b h1 h2 ⟨ha, i, hi⟩ ⟨hb, k, hk⟩ hne
  rw [follows_nextParent hp hi.1, follows_prevParent hp hk.1, isReverse hgood hall N a b h1 h2 ha hb]
  refine and_congr_right fun _ => ?_
  constructor
  · intro h
    have := proto_inj hp hk.1 h.1
    rw [if_neg (by omega), this]
    exact hi
  · intro h
    split at h
    · rw [h.1] at hc
      simp only [Option.some.injEq] at hc
      exact absurd hc hne
    · have := proto_inj hp hi.1 h.1
      rw [show i + 1 = k by omega]
      exact hk

omit hall in
theorem nodup_nextParent (c : Cube (n + 1)) (l : Link (FacetDivSubset n)) : (nextOfParent parent dict c l).Nodup :=
  (nodup_next hgood c l).filter _

omit hall in
theorem nodup_prevParent (c : Cube (n + 1)) (l : Link (FacetDivSubset n)) : (prevOfParent parent dict c l).Nodup :=
  (nodup_prev hgood c l).filter _

end tree

theorem checkParent_some (hp : Parent g parent) {i : ℕ} (hi : i < parent.proto.length) (c : Cube (n + 1)) (l : Link (FacetDivSubset n)) :
    ∃ b, checkParent parent (i : ℤ) c l = some b := by
  unfold checkParent
  rw [pyIndex_nat, pyIndex_nat, List.getElem?_eq_getElem hi, List.getElem?_eq_getElem (by rw [hp.length]; exact hi)]
  simp only [Option.bind_eq_bind, Option.bind_some]
  split <;> exact ⟨_, rfl⟩

theorem Parent.proto_length (h : Parent g parent) : parent.proto.length = g.div ^ (n + 1) := by
  have h1 : parent.proto.toFinset = (Fintype.piFinset fun _ : Fin (n + 1) => Finset.Ico (0 : ℤ) g.div).map Function.Embedding.some := by
    ext o
    rw [List.mem_toFinset, Finset.mem_map]
    constructor
    · intro ho
      cases o with
      | none => exact absurd rfl (h.cubes none ho)
      | some c =>
        refine ⟨c, ?_, rfl⟩
        rw [Fintype.mem_piFinset]
        intro j
        exact Finset.mem_Ico.2 ((h.all c).1 ho j)
    · rintro ⟨c, hc, rfl⟩
      rw [Fintype.mem_piFinset] at hc
      exact (h.all c).2 fun j => Finset.mem_Ico.1 (hc j)
  rw [← List.toFinset_card_of_nodup h.once, h1, Finset.card_map]
  simp

section safe
variable {dict : List (FacetDivSubset n × List (Cube (n + 1) × Link (FacetDivSubset n)))}

theorem genNextParent_eq (hp : Parent g parent) (hall : ∀ e, End g e → ∃ L, Dict.get? e dict = some L)
    {a : CubeTree.Node (n + 1) (Link (FacetDivSubset n))} {i : ℕ} (hi : At parent i a) (hl : i + 1 < parent.proto.length)
    (ha : FacetImageOf g.links a.2) : genNextParent parent dict a.1 a.2 = some (nextOfParent parent dict a.1 a.2) := by
  obtain ⟨L, hL⟩ := hall _ (end_exit g ha)
  unfold genNextParent nextOfParent
  rw [hL, Option.getD_some]
  simp only [Option.bind_eq_bind, Option.bind_some]
  refine filterCheck_eq L fun e _ => ?_
  unfold checkNext
  rw [cube2cnum_get hp hi.1]
  simp only [Option.bind_eq_bind, Option.bind_some, Bool.false_eq_true, if_false]
  rw [show ((i : ℤ) + 1) = ((i + 1 : ℕ) : ℤ) by push_cast; rfl]
  obtain ⟨b, hb⟩ := checkParent_some hp hl (fun j => a.1 j + e.1 j) e.2
  rw [hb]
  rfl

theorem genPrevParent_eq (hp : Parent g parent) (hall : ∀ e, End g e → ∃ L, Dict.get? e dict = some L)
    {a : CubeTree.Node (n + 1) (Link (FacetDivSubset n))} {i : ℕ} (hi : At parent (i + 1) a)
    (ha : FacetImageOf g.links a.2) : genPrevParent parent dict a.1 a.2 = some (prevOfParent parent dict a.1 a.2) := by
  obtain ⟨L, hL⟩ := hall a.2.entrance ⟨a.2, ha, rfl⟩
  unfold genPrevParent prevOfParent
  rw [hL, Option.getD_some]
  simp only [Option.bind_eq_bind, Option.bind_some]
  refine filterCheck_eq _ fun e _ => ?_
  unfold checkNext
  rw [cube2cnum_get hp hi.1]
  simp only [Option.bind_eq_bind, Option.bind_some, if_true]
  rw [show (((i + 1 : ℕ) : ℤ) + -1) = (i : ℤ) by push_cast; ring]
  obtain ⟨b, hb⟩ := checkParent_some hp (by have := hi.lt; omega : i < _) (fun j => a.1 j + e.1 j) e.2
  rw [hb]
  rfl

theorem safe_next (hp : Parent g parent) (hgood : GoodDict g dict) (hall : ∀ e, End g e → ∃ L, Dict.get? e dict = some L)
    {t : CubeTree.TreeE (n + 1) (Link (FacetDivSubset n))} :
    t.Safe (genNextParent parent dict) (nextOfParent parent dict) (g.div ^ (n + 1) - 1)
      fun p => ∃ i, p.length = i + 1 ∧ At parent i p.head ∧ FacetImageOf g.links p.head.2 := by
  rintro p ⟨i, h1, h2, h3⟩ hl
  have := hp.proto_length
  have := h2.lt
  refine ⟨genNextParent_eq hp hall h2 (by omega) h3, fun q hq => ?_⟩
  have hlen := CubeTree.TreeE.length_continue hq
  obtain ⟨_, k1, _⟩ := (CubeTree.Tree.mem_continuePath _ _).1 hq
  rw [follows_nextParent hp h2.1, follows_next hgood hall h3] at k1
  exact ⟨i + 1, by omega, k1.2, k1.1.2.2.2⟩

theorem safe_prev (hp : Parent g parent) (hgood : GoodDict g dict) (hall : ∀ e, End g e → ∃ L, Dict.get? e dict = some L)
    {t : CubeTree.TreeE (n + 1) (Link (FacetDivSubset n))} :
    t.Safe (genPrevParent parent dict) (prevOfParent parent dict) (g.div ^ (n + 1) - 1)
      fun p => ∃ i, p.length + i = parent.proto.length ∧ At parent i p.head ∧ FacetImageOf g.links p.head.2 := by
  rintro p ⟨i, h1, h2, h3⟩ hl
  have := hp.proto_length
  have := h2.lt
  obtain ⟨k, rfl⟩ : ∃ k, i = k + 1 := ⟨i - 1, by omega⟩
  refine ⟨genPrevParent_eq hp hall h2 h3, fun q hq => ?_⟩
  have hlen := CubeTree.TreeE.length_continue hq
  obtain ⟨_, k1, _⟩ := (CubeTree.Tree.mem_continuePath _ _).1 hq
  rw [follows_prevParent hp h2.1, follows_prev hgood hall h3, if_neg (by omega)] at k1
  exact ⟨k, by omega, k1.2, facetImageOf_invert.1 k1.1.2.2.2⟩

end safe

theorem checkParent_neg (hp : Parent g parent) (c : Cube (n + 1)) (l : Link (FacetDivSubset n)) :
    checkParent parent (-1) c l = checkParent parent ((parent.proto.length - 1 : ℕ) : ℤ) c l := by
  have h1 := proto_ne_nil hp
  have h2 : parent.links ≠ [] := by
    intro h
    have := hp.length
    rw [h] at this
    exact h1 (List.length_eq_zero_iff.1 this.symm)
  unfold checkParent
  rw [pyIndex_nat, pyIndex_nat, pyIndex_neg_one h1, pyIndex_neg_one h2, hp.length]

theorem length_pos (hp : Parent g parent) : 0 < parent.proto.length := List.length_pos_of_ne_nil (proto_ne_nil hp)

theorem start_specParent (hp : Parent g parent) : ∃ r, g.startNodesParent parent = some r ∧ r.Nodup ∧
    ∀ m, m ∈ r ↔ FacetImageOf g.links m.2 ∧ At parent 0 m := by
  obtain ⟨c0, c1, l0, l1, e, x, h1, h2, h3, h4, _, _, _⟩ := make_iff.1 hp.made
  obtain ⟨ls, k1, k2, k3⟩ := genIntersectedLinks_eq (g := g) l0.entrance
  choose B hB using fun l => checkParent_some hp (length_pos hp) c0 l
  have hB' : ∀ l, checkParent parent 0 c0 l = some (B l) := fun l => hB l
  refine ⟨(ls.filter B).map fun l => (c0, l), ?_, (k2.filter _).map fun a b h => (Prod.mk.inj h).2, ?_⟩
  · unfold startNodesParent
    rw [h1, h3]
    simp only [Option.bind_eq_bind, Option.bind_some]
    rw [k1, Option.bind_some, filterCheck_eq ls (fun l _ => hB' l)]
    rfl
  · rintro ⟨c, l⟩
    simp only [List.mem_map, List.mem_filter, Prod.mk.injEq, k3]
    have hBA : ∀ l, B l = true ↔ At parent 0 (c0, l) := by
      intro l
      have := checkParent_nat hp 0 c0 l
      rw [hB l] at this
      exact this
    rw [List.head?_eq_getElem?] at h1 h3
    constructor
    · rintro ⟨l', ⟨⟨h5, h6⟩, h7⟩, rfl, rfl⟩
      exact ⟨h6, (hBA _).1 h7⟩
    · rintro ⟨h5, h6⟩
      have hc : c = c0 := by
        have := h6.1
        rw [h1] at this
        simpa using this.symm
      subst hc
      refine ⟨l, ⟨⟨?_, h5⟩, (hBA _).2 h6⟩, rfl, rfl⟩
      obtain ⟨l', hl', hi⟩ := h6.2
      rw [h3, Option.some.injEq] at hl'
      subst hl'
      rw [Link.intersects_facet, Bool.and_eq_true] at hi
      exact hi.1

theorem finish_specParent (hp : Parent g parent) : ∃ r, g.finishNodesParent parent = some r ∧ r.Nodup ∧
    ∀ m, m ∈ r ↔ FacetImageOf g.links m.2 ∧ At parent (parent.proto.length - 1) m := by
  obtain ⟨c0, c1, l0, l1, e, x, h1, h2, h3, h4, _, _, _⟩ := make_iff.1 hp.made
  obtain ⟨ls, k1, k2, k3⟩ := genIntersectedLinks_eq (g := g) l1.exit
  have hlt : parent.proto.length - 1 < parent.proto.length := by have := length_pos hp; omega
  choose B hB using fun l => checkParent_some hp hlt c1 l
  have hB' : ∀ l, checkParent parent (-1) c1 l = some (B l) := fun l => (checkParent_neg hp c1 l).trans (hB l)
  have hinv : Function.Injective (Link.invert (S := FacetDivSubset n)) := by
    rintro ⟨a, b⟩ ⟨a', b'⟩ h
    simp only [Link.invert, Link.mk.injEq] at h ⊢
    tauto
  refine ⟨((ls.map Link.invert).filter B).map fun l => (c1, l), ?_, ((k2.map hinv).filter _).map fun a b h => (Prod.mk.inj h).2, ?_⟩
  · unfold finishNodesParent
    rw [h2, h4]
    simp only [Option.bind_eq_bind, Option.bind_some]
    rw [k1, Option.bind_some, filterCheck_eq (ls.map Link.invert) (fun l _ => hB' l)]
    rfl
  · rintro ⟨c, l⟩
    simp only [List.mem_map, List.mem_filter, Prod.mk.injEq, k3]
    have hBA : ∀ l, B l = true ↔ At parent (parent.proto.length - 1) (c1, l) := by
      intro l
      have := checkParent_nat hp (parent.proto.length - 1) c1 l
      rw [hB l] at this
      exact this
    rw [List.getLast?_eq_getElem?] at h2 h4
    rw [hp.length] at h4
    constructor
    · rintro ⟨l', ⟨⟨l'', ⟨h5, h6⟩, rfl⟩, h7⟩, rfl, rfl⟩
      exact ⟨h6.invert, (hBA _).1 h7⟩
    · rintro ⟨h5, h6⟩
      have hc : c = c1 := by
        have := h6.1
        rw [h2] at this
        simpa using this.symm
      subst hc
      refine ⟨l, ⟨⟨l.invert, ⟨?_, h5.invert⟩, rfl⟩, (hBA _).2 h6⟩, rfl, rfl⟩
      obtain ⟨l', hl', hi⟩ := h6.2
      rw [h4, Option.some.injEq] at hl'
      subst hl'
      rw [Link.intersects_facet, Bool.and_eq_true] at hi
      exact hi.2

/-- The search of paths that refine a parent finds exactly those paths, each once. -/
theorem rawPathsParent_spec (hL : ∀ m ∈ g.links, m.InDiv g.div) (hM : 2 ≤ g.div ^ (n + 1))
    (hash : Finset (Cube (n + 1)) × CubeTree.Node (n + 1) (Link (FacetDivSubset n)) → ℤ) (hp : Parent g parent)
    (sm fm : Option ℤ) : ∃ out, g.rawPathsParent hash parent sm fm = some out ∧ out.Nodup ∧
      ∀ p, p ∈ out ↔ FacetPath g.div g.links g.maxCdist p ∧ FacetPath.Refines parent p := by
  have hg : Good g := ⟨pow_pos_of hM, hL⟩
  obtain ⟨dict, hx1, hgood, hall⟩ := exit2next_spec hg
  obtain ⟨s, hs1, hs2, hs3⟩ := start_specParent hp
  obtain ⟨f, hf1, hf2, hf3⟩ := finish_specParent hp
  have hgrid : ∀ {i : ℕ} {m : CubeTree.Node (n + 1) (Link (FacetDivSubset n))}, At parent i m → CubeTree.InGrid g.div m.1 :=
    fun h => (hp.all _).1 (List.mem_of_getElem? h.1)
  set tree : CubeTree.Tree (n + 1) (Link (FacetDivSubset n)) :=
    { div := g.div, nextFunc := nextOfParent parent dict, prevFunc := some (prevOfParent parent dict) } with htree
  obtain ⟨found, hg1, hg2, hg3⟩ := CubeTree.Tree.grow_spec' tree hash s f sm fm hM (fun n hn => hgrid ((hs3 n).1 hn).2) (fun n hn => hgrid ((hf3 n).1 hn).2)
    (Node g parent) (fun n hn => ⟨((hs3 n).1 hn).1, _, ((hs3 n).1 hn).2⟩) (fun n hn => ⟨((hf3 n).1 hn).1, _, ((hf3 n).1 hn).2⟩)
    (closed_nextParent hgood hall hp _)
    (by
      intro prev hpr
      rw [htree] at hpr
      simp only [Option.some.injEq] at hpr
      subst hpr
      exact ⟨closed_prevParent hgood hall hp _, fun m hm => isReverseParent hgood hall hp _ ((hf3 m).1 hm).2.1⟩) (by simp [htree])
  have hmeets : ∀ {i : ℕ} {l l' : Link (FacetDivSubset n)}, l.InDiv g.div → parent.links[i]? = some l' →
      (Link.intersects (d := n + 1) l l' = true ↔ l.entrance.Meets l'.entrance ∧ l.exit.Meets l'.exit) := by
    intro i l l' hl hl'
    have h := hp.links l' (List.mem_of_getElem? hl')
    rw [Link.intersects_facet, Bool.and_eq_true, FacetDivSubset.meets_iff hl.1.1 h.1.1 (hl.1.2.trans h.1.2.symm),
      FacetDivSubset.meets_iff hl.2.1 h.2.1 (hl.2.2.trans h.2.2.symm)]
  have key : ∀ L, CubeTree.Fills g.div (nextOfParent parent dict) s f L ↔
      ∃ p, mk g.div L = some p ∧ FacetPath g.div g.links g.maxCdist p ∧ FacetPath.Refines parent p := by
    intro L
    constructor
    · intro hF
      obtain ⟨n0, hn0, h0⟩ := hF.start
      obtain ⟨n1, hn1, h1⟩ := hF.finish
      have hN : ∀ m ∈ L, Node g parent m := by
        refine CubeTree.Tree.closed_all (closed_nextParent hgood hall hp g.div) hF.okF ?_
        intro m hm
        rw [hm, Option.some.injEq] at h0
        rw [h0]
        exact ⟨((hs3 n0).1 hn0).1, _, ((hs3 n0).1 hn0).2⟩
      have hat : ∀ (i : ℕ) (m : CubeTree.Node (n + 1) (Link (FacetDivSubset n))), L[i]? = some m → At parent i m := by
        intro i
        induction i with
        | zero =>
          intro m hm
          rw [← List.head?_eq_getElem?, h0, Option.some.injEq] at hm
          rw [← hm]
          exact ((hs3 n0).1 hn0).2
        | succ i ih =>
          intro m hm
          obtain ⟨hi, _⟩ := List.getElem?_eq_some_iff.1 hm
          have hpv : L[i]? = some L[i] := List.getElem?_eq_getElem _
          have := hF.follows i _ _ hpv hm
          rw [follows_nextParent hp (ih _ hpv).1] at this
          exact this.2
      have hlen : L.length = parent.proto.length := by
        have e1 := hF.all
        have : (L.map Prod.fst).Perm (parent.proto.filterMap id) := by
          rw [List.perm_ext_iff_of_nodup hF.once]
          · intro c
            rw [e1, ← hp.all]
            simp
          · exact hp.once.filterMap (by intro a b c h1 h2; simp at h1 h2; rw [h1, h2])
        have h2 := this.length_eq
        rw [List.length_map] at h2
        rw [h2]
        have hc := hp.cubes
        generalize parent.proto = l at hc
        induction l with
        | nil => rfl
        | cons a l ih =>
          obtain ⟨b, hb⟩ := Option.ne_none_iff_exists'.1 (hc a List.mem_cons_self)
          subst hb
          rw [show List.filterMap id (some b :: l) = b :: List.filterMap id l from rfl, List.length_cons, List.length_cons,
            ih fun c h => hc c (List.mem_cons_of_mem _ h)]
      -- ends
      obtain ⟨c0, c1, l0, l1, e, x, a1, a2, a3, a4, a5, a6, _⟩ := make_iff.1 hp.made
      rw [hp.div_eq] at a5 a6
      have hl0 := hp.links l0 (List.mem_of_head? a3)
      have hl1 := hp.links l1 (List.mem_of_getLast? a4)
      have b0 := ((hs3 n0).1 hn0)
      have b1 := ((hf3 n1).1 hn1)
      rw [List.head?_eq_getElem?] at a1 a3
      rw [List.getLast?_eq_getElem?] at a2 a4
      rw [hp.length] at a4
      have c0e : c0 = n0.1 := by have := b0.2.1; rw [a1] at this; simpa using this
      have c1e : c1 = n1.1 := by have := b1.2.1; rw [a2] at this; simpa using this
      obtain ⟨l0', d1, d2⟩ := b0.2.2
      rw [a3, Option.some.injEq] at d1
      subst d1
      obtain ⟨l1', f1, f2⟩ := b1.2.2
      rw [a4, Option.some.injEq] at f1
      subst f1
      rw [Link.intersects_facet, Bool.and_eq_true] at d2 f2
      have i0 := hg.image b0.1
      have i1 := hg.image b1.1
      rw [c0e, ← hl0.1.2] at a5
      rw [c1e, ← hl1.2.2] at a6
      obtain ⟨e', he'⟩ := FacetDivSubset.mapToCube_of_intersects a5 d2.1 (i0.1.2.trans hl0.1.2.symm)
      obtain ⟨x', hx'⟩ := FacetDivSubset.mapToCube_of_intersects a6 f2.2 (i1.2.2.trans hl1.2.2.symm)
      rw [hl0.1.2] at he'
      rw [hl1.2.2] at hx'
      have hpm := mk_iff.2 ⟨n0, n1, e', x', h0, h1, he', hx', rfl⟩
      refine ⟨_, hpm, (facetPath_iff hg hgood hall hpm).2 ⟨fun m hm => (hN m hm).1, ?_, hF.once, hF.all⟩, ?_, ?_⟩
      · intro i a b ha hb
        have := hF.follows i a b ha hb
        rw [follows_nextParent hp (hat i a ha).1] at this
        exact this.1
      · apply List.ext_getElem?
        intro i
        show (L.map fun m => some m.1)[i]? = parent.proto[i]?
        rw [List.getElem?_map]
        rcases lt_or_ge i L.length with hi | hi
        · have hm : L[i]? = some L[i] := List.getElem?_eq_getElem _
          rw [hm, (hat i _ hm).1]
          rfl
        · rw [List.getElem?_eq_none hi, List.getElem?_eq_none (by omega)]
          rfl
      · intro i l l' hl hl'
        have hl : (L.map Prod.snd)[i]? = some l := hl
        rw [List.getElem?_map, Option.map_eq_some_iff] at hl
        obtain ⟨m, hm, rfl⟩ := hl
        obtain ⟨l'', hl'', hi⟩ := (hat i m hm).2
        rw [hl', Option.some.injEq] at hl''
        subst hl''
        exact (hmeets (hg.image (hN m (List.mem_of_getElem? hm)).1) hl').1 hi
    · rintro ⟨p, hpm, h1, h2⟩
      have hN := (facetPath_iff hg hgood hall hpm).1 h1
      obtain ⟨_, hpr, hli⟩ := mk_fields hpm
      obtain ⟨n0, n1, e, x, k1, k2, k3, k4, _⟩ := mk_iff.1 hpm
      have m0 := List.mem_of_head? k1
      have m1 := List.mem_of_getLast? k2
      have hlen : L.length = parent.proto.length := by rw [← h2.1, hpr, List.length_map]
      have hat : ∀ (i : ℕ) (m : CubeTree.Node (n + 1) (Link (FacetDivSubset n))), L[i]? = some m → At parent i m := by
        intro i m hm
        have hi := (List.getElem?_eq_some_iff.1 hm).1
        refine ⟨?_, ?_⟩
        · rw [← h2.1, hpr, List.getElem?_map, hm]; rfl
        · have hl' : parent.links[i]? = some (parent.links[i]'(by rw [hp.length, ← hlen]; exact hi)) := List.getElem?_eq_getElem _
          refine ⟨_, hl', ?_⟩
          rw [hmeets (hg.image (hN.image m (List.mem_of_getElem? hm))) hl']
          exact h2.2 i m.2 _ (by rw [hli, List.getElem?_map, hm]; rfl) hl'
      refine ⟨⟨n0, (hs3 n0).2 ⟨hN.image _ m0, hat 0 n0 (by rw [← List.head?_eq_getElem?]; exact k1)⟩, k1⟩,
        ⟨n1, (hf3 n1).2 ⟨hN.image _ m1, hat _ n1 (by rw [← hlen, ← List.getLast?_eq_getElem?]; exact k2)⟩, k2⟩, ?_, hN.once, hN.all⟩
      intro i a b ha hb
      rw [follows_nextParent hp (hat i a ha).1]
      exact ⟨hN.follows i a b ha hb, hat _ b hb⟩
  obtain ⟨out, ho1, ho2, ho3⟩ := mapM_spec (f := mk g.div) (l := found)
    (fun L hL => by
      obtain ⟨p, hp, _⟩ := (key L).1 ((hg2 L).1 hL)
      exact ⟨p, hp⟩) (fun L _ M _ p h1 h2 => mk_inj h1 h2)
  refine ⟨out, ?_, ?_, ?_⟩
  · unfold rawPathsParent
    rw [hx1, hs1, hf1]
    simp only [Option.bind_eq_bind, Option.bind_some]
    have hlen := length_pos hp
    rw [CubeTree.TreeE.grow_eq (t' := tree) rfl hash sm fm rfl rfl hM
      (P := fun p => ∃ i, p.length = i + 1 ∧ At parent i p.head ∧ FacetImageOf g.links p.head.2)
      (Q := fun p => ∃ i, p.length + i = parent.proto.length ∧ At parent i p.head ∧ FacetImageOf g.links p.head.2)
      (fun n hn => ⟨0, rfl, ((hs3 n).1 hn).2, ((hs3 n).1 hn).1⟩)
      (fun n hn => ⟨_, by show 1 + (parent.proto.length - 1) = _; omega, ((hf3 n).1 hn).2, ((hf3 n).1 hn).1⟩)
      (safe_next hp hgood hall) (safe_prev hp hgood hall), hg1, Option.bind_some]
    exact ho1
  · refine ho2 (hg3 hs2 hf2 (nodup_nextParent hgood) ?_)
    intro prev hp
    rw [htree] at hp
    simp only [Option.some.injEq] at hp
    subst hp
    exact nodup_prevParent hgood
  · intro p
    rw [ho3]
    constructor
    · rintro ⟨L, hL, hp⟩
      obtain ⟨p', hp', h⟩ := (key L).1 ((hg2 L).1 hL)
      rw [hp, Option.some.injEq] at hp'
      rw [hp']; exact h
    · intro h
      obtain ⟨L, hL⟩ := exists_nodes h.1.made h.1.length h.1.cubes
      rw [h.1.div_eq] at hL
      exact ⟨L, (hg2 L).2 ((key L).2 ⟨p, hL, h⟩), hL⟩

end FacetGen
end Peano
