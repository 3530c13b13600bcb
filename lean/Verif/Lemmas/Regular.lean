import Verif.Lemmas.Tree

set_option autoImplicit false

/- The estimator for regular curves. -/
namespace Peano
variable {d : ℕ} {r : Ratio} {f : ℕ → ℝ → Fin d → ℝ}
open FCurve (PairOK SubCurve Possible SoundBounds)

namespace FCurve
variable {c c' : FCurve d}

theorem SubCurve.full (h : SubCurve c c') (hc : c.Full) : c'.Full := by
  obtain ⟨e, he⟩ := h.estimable.exists_possible
  have hf := (h.estimable.possible e he).1
  refine ⟨⟨by rw [h.div]; exact hc.two_le_div, ?_, h.estimable.specs_length, ?_, ?_⟩, ?_, ?_⟩
  · intro pat hpat
    obtain ⟨p, hp⟩ := List.mem_iff_getElem?.1 hpat
    obtain ⟨pat', h1, h2⟩ := he.exists_pattern hp
    rw [← h2, hf.proto_length pat' (List.mem_of_getElem? h1), he.genus]
  · intro p i x hx
    rw [← he.cube?] at hx
    rw [← he.div]
    exact hf.cube_range p i x hx
  · intro p i s hs
    rw [← he.mult]
    exact hf.spec_range p i s (h.estimable.agrees he p i s hs)
  · intro p hp i hi
    rw [← he.cube?]
    exact hf.cube_def p (by rw [he.mult]; exact hp) i (by rw [he.genus]; exact hi)
  · intro p hp i hi
    obtain ⟨s, hs⟩ := Option.isSome_iff_exists.1 (hc.spec_def p (by rw [← h.mult]; exact hp) i (by rw [← h.genus]; exact hi))
    rw [h.mono p i s hs]
    rfl

end FCurve

namespace Dilation
variable {c e : FCurve d} {Q : HeapQ (HNode (BoundedPair d)) HNode.lt} {D : ℝ} {stash : Stash d}

/-- Curves with one possible curve. -/
structure RegCtx (c e : FCurve d) (f : ℕ → ℝ → Fin d → ℝ) (r : Ratio) (D : ℝ) (stash : Stash d) : Prop where
  dim : d ≠ 0
  ratio : r.Ok d
  est : c.Estimable
  poss : Possible c e
  uniq : ∀ e', Possible c e' → e' = e
  real : e.Realizes f
  great : IsGreatest (e.ratios r f) D
  stashOk : FCurve.StashOK f c.mult stash
  full : stash.isSome → c.Full

/-- The greatest ratio is that of points in the item. -/
def Tracks (c : FCurve d) (r : Ratio) (f : ℕ → ℝ → Fin d → ℝ) (D : ℝ) (x : BoundedPair d) : Prop :=
  ∃ u v : ℝ, c.InLo x.pair.junc.spec1 x.pair.pos1 u ∧ c.InHi x.pair.junc.spec2 x.pair.pos2 v ∧ D = x.pair.junc.ratio r f u v

namespace RegCtx
variable (h : RegCtx c e f r D stash)
include h

theorem possible {p : PiecePair d} (hp : PairOK c p) : Possible p.curve e := by
  obtain ⟨e', he'⟩ := hp.sub.estimable.exists_possible
  have := h.uniq e' ((hp.sub.possible e').1 he').1
  rwa [← this]

theorem has {p : PiecePair d} (hp : PairOK c p) : e.HasJunction p.junc := by
  obtain ⟨e', h1, h2⟩ := h.est.candidate_has h.dim hp.junc
  rwa [h.uniq e' h1] at h2

theorem pairFull {p : PiecePair d} (hp : PairOK c p) (hs : stash.isSome) : p.curve.Full := hp.sub.full (h.full hs)

theorem allBounds : AllBounds c r stash := by
  intro p hp
  obtain ⟨b, _, hb, _⟩ := hp.bounds h.dim h.ratio (h.possible hp) h.real h.stashOk (h.pairFull hp)
  exact ⟨b, hb⟩

theorem sound {x : BoundedPair d} (hx : ItemOK c r stash x) : SoundBounds c r f x.pair ⟨x.lo, x.up, x.argmax⟩ :=
  hx.sound h.dim h.ratio (h.possible hx.pair) h.real h.stashOk (h.pairFull hx.pair)

theorem lo_le {x : BoundedPair d} (hx : ItemOK c r stash x) : (x.lo : ℝ) ≤ D := by
  obtain ⟨u, v, hu, hv, huv⟩ := (h.sound hx).lo
  exact huv.trans (h.great.2 (hx.pair.ratio_mem h.ratio (h.possible hx.pair) h.real (h.has hx.pair) hu hv))

theorem lt_up {x : BoundedPair d} (hx : ItemOK c r stash x) (ht : Tracks c r f D x) : D < x.up := by
  obtain ⟨u, v, hu, hv, huv⟩ := ht
  rw [huv]
  exact (h.sound hx).up_lt u v hu hv

end RegCtx

/-- Invariant of the loop of `estimate_dilation_regular`. -/
structure RegInv (Q : HeapQ (HNode (BoundedPair d)) HNode.lt) (c : FCurve d) (f : ℕ → ℝ → Fin d → ℝ) (r : Ratio) (D : ℝ) (stash : Stash d) (st : RegularState d) : Prop where
  inv : st.tree.Inv Q
  items : ∀ x ∈ st.tree.items, ItemOK c r stash x
  keep : st.tree.keepMax = true
  nobad : st.tree.badThr = none
  good : st.tree.goodThr = some st.lo
  max : ∃ P : Multiset (BoundedPair d), st.tree.MaxInv P ∧ (∀ x ∈ P, ItemOK c r stash x) ∧ (∀ x ∈ st.tree.items, x ∈ P) ∧ (∀ x ∈ P, x.lo ≤ st.lo) ∧
    ∃ m ∈ P, m.lo = st.lo ∧ m.argmax = st.argmax
  track : ∃ x ∈ st.tree.items, Tracks c r f D x
  up : D ≤ st.up
  up_top : ∀ y, st.tree.top = some y → st.up ≤ y.up

/-- One iteration: the first item `w` of the tree is replaced by its parts `xs`, and items that cannot matter are dropped. -/
def RegStep (c : FCurve d) (r : Ratio) (stash : Stash d) (st st' : RegularState d) : Prop :=
  ∃ (w : BoundedPair d) (J xs act J' : List (BoundedPair d)) (subs : List (PiecePair d)), st.tree.top = some w ∧ st.tree.items.Perm (w :: J) ∧
    w.pair.divideBalanced = some subs ∧ FCurve.PairDivided c w.pair subs ∧ xs.map BoundedPair.pair = subs ∧ (∀ x ∈ xs, ItemOK c r stash x) ∧ (∀ x ∈ act, x ∈ xs) ∧
    J'.Sublist J ∧ st'.tree.items.Perm (act ++ J') ∧ (∀ x, x ∈ xs ∨ x ∈ J → x ∈ st'.tree.items ∨ x.up ≤ st'.lo) ∧ (∀ x ∈ xs, x.lo ≤ st'.lo) ∧ st.lo ≤ st'.lo

namespace RegCtx
variable (h : RegCtx c e f r D stash)
include h

theorem children {p : PiecePair d} {subs : List (PiecePair d)} {xs : List (BoundedPair d)} {w : BoundedPair d} (hw : w.pair = p) (hwo : ItemOK c r stash w)
    (hd : FCurve.PairDivided c p subs) (hxs : xs.map BoundedPair.pair = subs) (ht : Tracks c r f D w) : ∃ x ∈ xs, Tracks c r f D x := by
  subst hw
  obtain ⟨u, v, hu, hv, huv⟩ := ht
  obtain ⟨p', hp', _, h2, h3⟩ := hd.half e (h.possible hwo.pair) u v hu hv
  rw [← hxs, List.mem_map] at hp'
  obtain ⟨x, hx, rfl⟩ := hp'
  refine ⟨x, hx, u, v, h2, h3, ?_⟩
  rw [(hd.ok x.pair (by rw [← hxs]; exact List.mem_map.2 ⟨x, hx, rfl⟩)).2.1]
  exact huv

/-- Pushing items, when nothing is bad. -/
theorem extend {tree : ItemsHeap (BoundedPair d)} {xs : List (BoundedPair d)} (hi : tree.Inv Q) (hx : ∀ x ∈ tree.items, ItemOK c r stash x)
    (hxs : ∀ x ∈ xs, ItemOK c r stash x) (hk : tree.keepMax = true) (hb : tree.badThr = none) (hg : ∀ g, tree.goodThr = some g → (g : ℝ) ≤ D)
    {P : Multiset (BoundedPair d)} (hm : tree.MaxInv P) (hP : ∀ x ∈ P, ItemOK c r stash x) (hPi : ∀ x ∈ tree.items, x ∈ P)
    (ht : (∃ x ∈ tree.items, Tracks c r f D x) ∨ ∃ x ∈ xs, Tracks c r f D x) :
    (tree.extend Q xs).Inv Q ∧ (∀ x ∈ (tree.extend Q xs).items, ItemOK c r stash x) ∧ (tree.extend Q xs).keepMax = true ∧ (tree.extend Q xs).badThr = none ∧
      (tree.extend Q xs).goodThr = tree.goodThr ∧
      (∃ P' : Multiset (BoundedPair d), P ≤ P' ∧ (tree.extend Q xs).MaxInv P' ∧ (∀ x ∈ P', ItemOK c r stash x) ∧ (∀ x ∈ (tree.extend Q xs).items, x ∈ P') ∧ ∀ x ∈ xs, x ∈ P') ∧
      (∃ x ∈ (tree.extend Q xs).items, Tracks c r f D x) ∧
      ∃ act : List (BoundedPair d), (tree.extend Q xs).items.Perm (act ++ tree.items) ∧ (∀ x ∈ act, x ∈ xs) ∧ ∀ x ∈ xs, x ∈ act ∨ ∃ g, tree.goodThr = some g ∧ x.up ≤ g := by
  obtain ⟨g1, g2, g3, g4, act, bad, drop, g5, g6, g7, g8, g9⟩ := ItemsHeap.inv_extend xs hi
  have hact : ∀ x ∈ act, x ∈ xs := fun x hx => g5.mem_iff.2 (by simp [hx])
  refine ⟨g1, ?_, by rw [g4, hk], by rw [g3, hb], g2, ⟨(xs : Multiset _) + P, Multiset.le_add_left _ _, ItemsHeap.maxInv_extend (P := P) xs hm, ?_, ?_, ?_⟩, ?_, act, g6, hact, ?_⟩
  · intro x hx'
    rcases List.mem_append.1 (g6.mem_iff.1 hx') with hx' | hx'
    · exact hxs x (hact x hx')
    · exact hx x hx'
  · intro x hx'
    rcases Multiset.mem_add.1 hx' with hx' | hx'
    · exact hxs x (Multiset.mem_coe.1 hx')
    · exact hP x hx'
  · intro x hx'
    rcases List.mem_append.1 (g6.mem_iff.1 hx') with hx' | hx'
    · exact Multiset.mem_add.2 (Or.inl (Multiset.mem_coe.2 (hact x hx')))
    · exact Multiset.mem_add.2 (Or.inr (hPi x hx'))
  · intro x hx'
    exact Multiset.mem_add.2 (Or.inl (Multiset.mem_coe.2 hx'))
  · rcases ht with ⟨x, hx', ht⟩ | ⟨x, hx', ht⟩
    · exact ⟨x, g6.mem_iff.2 (List.mem_append_right _ hx'), ht⟩
    · have := g5.mem_iff.1 hx'
      simp only [List.mem_append] at this
      rcases this with (hm' | hm') | hm'
      · exact ⟨x, g6.mem_iff.2 (List.mem_append_left _ hm'), ht⟩
      · obtain ⟨⟨thr, hthr, _⟩, _⟩ := g9 x hm'
        rw [hb] at hthr
        cases hthr
      · obtain ⟨thr, hthr, hle⟩ := g8 x hm'
        exfalso
        have h1 := hg thr hthr
        have h2 := h.lt_up (hxs x hx') ht
        have h3 : (x.up : ℝ) ≤ thr := by exact_mod_cast hle
        linarith
  · intro x hx'
    have := g5.mem_iff.1 hx'
    simp only [List.mem_append] at this
    rcases this with (hm' | hm') | hm'
    · exact Or.inl hm'
    · obtain ⟨⟨thr, hthr, _⟩, _⟩ := g9 x hm'
      rw [hb] at hthr
      cases hthr
    · exact Or.inr (g8 x hm')

/-- Raising the threshold. -/
theorem raise {tree : ItemsHeap (BoundedPair d)} (hi : tree.Inv Q) (hx : ∀ x ∈ tree.items, ItemOK c r stash x) {lo : ℚ} (hlo : (lo : ℝ) ≤ D)
    (hg : ∀ g, tree.goodThr = some g → g ≤ lo) {P : Multiset (BoundedPair d)} (hm : tree.MaxInv P) (hPi : ∀ x ∈ tree.items, x ∈ P)
    (ht : ∃ x ∈ tree.items, Tracks c r f D x) :
    ∃ tree', tree.updateGoodThreshold Q lo = some tree' ∧ tree'.Inv Q ∧ (∀ x ∈ tree'.items, x ∈ tree.items ∧ lo < x.up) ∧ tree'.keepMax = tree.keepMax ∧
      tree'.badThr = tree.badThr ∧ tree'.goodThr = some lo ∧ tree'.MaxInv P ∧ tree'.maxLoItem = tree.maxLoItem ∧ (∃ x ∈ tree'.items, Tracks c r f D x) ∧
      tree'.items.Perm (tree.items.filter fun x => decide (BoundedItem.up x > lo)) := by
  cases hu : tree.updateGoodThreshold Q lo with
  | none =>
    rw [ItemsHeap.update_eq_none_iff] at hu
    obtain ⟨old, h1, h2⟩ := hu
    exact absurd (hg old h1) (not_le.2 h2)
  | some tree' =>
    obtain ⟨g1, g2, g3, g4, g5, g6, g7⟩ := ItemsHeap.inv_update hi hu
    obtain ⟨k1, k2⟩ := ItemsHeap.update_maxLo hm hPi hu
    refine ⟨tree', rfl, g1, ?_, g4, g3, g2, k1, k2, ?_, g7⟩
    · intro x hx'
      have := List.mem_filter.1 (g7.mem_iff.1 hx')
      exact ⟨this.1, of_decide_eq_true this.2⟩
    · obtain ⟨x, hx', ht⟩ := ht
      refine ⟨x, g7.mem_iff.2 (List.mem_filter.2 ⟨hx', ?_⟩), ht⟩
      have h1 := h.lt_up (hx x hx') ht
      have h2 : (lo : ℝ) < x.up := lt_of_le_of_lt hlo h1
      have h3 : lo < x.up := by exact_mod_cast h2
      exact decide_eq_true h3

theorem top {tree : ItemsHeap (BoundedPair d)} (hi : tree.Inv Q) (hx : ∀ x ∈ tree.items, ItemOK c r stash x) (ht : ∃ x ∈ tree.items, Tracks c r f D x) :
    ∃ y, tree.top = some y ∧ y ∈ tree.items ∧ D < y.up ∧ ∀ x ∈ tree.items, x.up ≤ y.up := by
  obtain ⟨x, hx', ht⟩ := ht
  rcases ItemsHeap.inv_pop hi with ⟨h1, _⟩ | ⟨y, rest, h1, h2, h3, h4, _⟩
  · rw [h1] at hx'; cases hx'
  · refine ⟨y, h1, h3, lt_of_lt_of_le (h.lt_up (hx x hx') ht) ?_, h4⟩
    exact_mod_cast h4 x hx'

theorem maxLo {tree : ItemsHeap (BoundedPair d)} (hk : tree.keepMax = true) {P : Multiset (BoundedPair d)} (hm : tree.MaxInv P) (hP : ∀ x ∈ P, ItemOK c r stash x)
    (hne : ∃ x, x ∈ P) : ∃ m, tree.maxLoItem = some m ∧ m ∈ P ∧ ItemOK c r stash m ∧ ∀ x ∈ P, x.lo ≤ m.lo := by
  obtain ⟨x, hx⟩ := hne
  obtain ⟨h1, h2⟩ := hm hk
  obtain ⟨m, hm1, _⟩ := h1 x hx
  refine ⟨m, hm1, h2 m hm1, hP m (h2 m hm1), ?_⟩
  intro y hy
  obtain ⟨m', hm', hle⟩ := h1 y hy
  rw [hm1] at hm'
  cases hm'
  exact hle

/-- Before the loop. -/
theorem init : ∃ st, regularInit (m := Option) Q (pureB r) c stash = some st ∧ RegInv Q c f r D stash st ∧ ∃ xs : List (BoundedPair d), (∀ y : Junction d × ℕ × ℕ, c.FirstPair y → ∃ x ∈ xs, x.pair.junc = y.1 ∧ x.pair.pos1.cnums = [y.2.1] ∧ x.pair.pos2.cnums = [y.2.2] ∧ PiecePair.initFirstOrder c y.1 y.2.1 y.2.2 = some x.pair) ∧
      (∀ x ∈ xs, ItemOK c r stash x ∧ x.pair.curve = c) ∧ ∀ x ∈ xs, x.lo ≤ st.lo ∧ (x ∈ st.tree.items ∨ x.up ≤ st.lo) := by
  obtain ⟨xs, h1, h2, h3⟩ := createTree_eq (Q := Q) h.est h.dim h.allBounds none none true
  obtain ⟨y, hy, hj, hyp⟩ := h.est.firstCover h.dim h.ratio h.poss h.real h.great.1
  obtain ⟨x, hx, a1, a2, a3, _⟩ := h3 y hy
  have hempty : (ItemsHeap.init none none true : ItemsHeap (BoundedPair d)).items = [] := rfl
  obtain ⟨g1, g2, g3, g4, g5, ⟨P, _, g6, g7, g8, g8'⟩, g9, act, a4, a5, a6⟩ := h.extend (Q := Q) (tree := ItemsHeap.init none none true) (xs := xs) (ItemsHeap.inv_init _ _ _)
    (by rw [hempty]; simp) (fun x hx => (h1 x hx).1) rfl rfl (by intro g hg; cases hg) (P := 0)
    (by intro _; exact ⟨by simp, by intro m hm; cases hm⟩) (by simp) (by rw [hempty]; simp) (Or.inr ⟨x, hx, hyp x.pair a1 a2 a3⟩)
  obtain ⟨m, m1, m2, m3, m4⟩ := h.maxLo g3 g6 g7 (by obtain ⟨x0, hx0, _⟩ := g9; exact ⟨x0, g8 x0 hx0⟩)
  obtain ⟨tree', t1, t2, t3, t4, t5, t6, t7, t8, t9, t10⟩ := h.raise g1 g2 (h.lo_le m3) (by intro g hg; rw [g5] at hg; cases hg) g6 g8 g9
  have hit : ∀ x ∈ tree'.items, ItemOK c r stash x := fun x hx => g2 x (t3 x hx).1
  obtain ⟨top, k1, k2, k3, _⟩ := h.top t2 hit t9
  refine ⟨⟨tree', m.lo, top.up, m.argmax⟩, ?_, ⟨t2, hit, t4.trans g3, t5.trans g4, t6, ⟨P, t7, g7, fun x hx => g8 x (t3 x hx).1, m4, m, m2, rfl, rfl⟩, t9, k3.le, ?_⟩, xs, h3, h1, ?_⟩
  rotate_left
  · intro y hy
    have hy : tree'.top = some y := hy
    rw [k1] at hy
    cases hy
    exact le_rfl
  · intro x hx'
    refine ⟨m4 x (g8' x hx'), ?_⟩
    rcases a6 x hx' with ha | ⟨g, hg, _⟩
    · by_cases hlt : m.lo < x.up
      · refine Or.inl (t10.mem_iff.2 (List.mem_filter.2 ⟨a4.mem_iff.2 (List.mem_append_left _ ha), decide_eq_true hlt⟩))
      · exact Or.inr (not_lt.1 hlt)
    · cases hg
  unfold regularInit
  rw [h2]
  show Option.bind _ _ = _
  rw [Option.bind_some]
  show Option.bind (ItemsHeap.maxLoItem _) _ = _
  rw [m1]
  show Option.bind (ItemsHeap.updateGoodThreshold Q (ItemsHeap.extend Q (ItemsHeap.init none none true) xs) m.lo) _ = _
  rw [t1]
  show Option.bind tree'.top _ = _
  rw [k1]
  rfl

/-- The loop body. -/
theorem step {st : RegularState d} (hI : RegInv Q c f r D stash st) :
    ∃ st', regularStep (m := Option) Q (pureB r) stash st = some st' ∧ RegInv Q c f r D stash st' ∧ RegStep c r stash st st' := by
  obtain ⟨x0, hx0, ht0⟩ := hI.track
  have hne : st.tree.items ≠ [] := List.ne_nil_of_mem hx0
  obtain ⟨worst, rest, subs, xs, h1, h2, h3, h4, h5, h6, h7, h8, h9, h10, h11, h12, h13, h14, h15⟩ := divideTree_eq h.allBounds hI.inv hI.items hne
  obtain ⟨P, p1, p2, p3, p4, m0, q1, q2, q3⟩ := hI.max
  have hrest : ∀ x ∈ rest.items, x ∈ st.tree.items := fun x hx => h4.mem_iff.2 (List.mem_cons_of_mem _ hx)
  have hlo : (st.lo : ℝ) ≤ D := by rw [← q2]; exact h.lo_le (p2 m0 q1)
  have htr : (∃ x ∈ rest.items, Tracks c r f D x) ∨ ∃ x ∈ xs, Tracks c r f D x := by
    rcases List.mem_cons.1 (h4.mem_iff.1 hx0) with rfl | hx
    · exact Or.inr (h.children rfl (hI.items _ h2) h11 h12 ht0)
    · exact Or.inl ⟨x0, hx, ht0⟩
  have hmr : rest.MaxInv P := by
    intro hk
    rw [h8] at hk
    rw [h10]
    exact p1 hk
  obtain ⟨g1, g2, g3, g4, g5, ⟨P', gP, g6, g7, g8, g8'⟩, g9, act, a4, a5, a6⟩ := h.extend h5 (fun x hx => hI.items x (hrest x hx)) h13 (h8.trans hI.keep) (h7.trans hI.nobad)
    (by intro g hg; rw [h6, hI.good] at hg; cases hg; exact hlo) hmr p2 (fun x hx => p3 x (hrest x hx)) htr
  have g5' : (rest.extend Q xs).goodThr = some st.lo := by rw [g5, h6, hI.good]
  obtain ⟨m, m1, m2, m3, m4⟩ := h.maxLo g3 g6 g7 ⟨m0, Multiset.mem_of_le gP q1⟩
  unfold regularStep
  rw [h14]
  show ∃ st', Option.bind _ _ = _ ∧ _
  rw [Option.bind_some]
  show ∃ st', Option.bind (rest.extend Q xs).maxLoItem _ = _ ∧ _
  rw [m1, Option.bind_some]
  by_cases hgt : m.lo > st.lo
  · obtain ⟨tree', t1, t2, t3, t4, t5, t6, t7, t8, t9, t10⟩ := h.raise g1 g2 (h.lo_le m3) (by intro g hg; rw [g5'] at hg; cases hg; exact hgt.le) g6 g8 g9
    have hit : ∀ x ∈ tree'.items, ItemOK c r stash x := fun x hx => g2 x (t3 x hx).1
    obtain ⟨top, k1, k2, k3, _⟩ := h.top t2 hit t9
    refine ⟨⟨tree', m.lo, if top.up < st.up then top.up else st.up, m.argmax⟩, ?_, ⟨t2, hit, t4.trans g3, t5.trans g4, t6,
      ⟨P', t7, g7, fun x hx => g8 x (t3 x hx).1, m4, m, m2, rfl, rfl⟩, t9, ?_, ?_⟩,
      worst, rest.items, xs, act.filter (fun x => decide (x.up > m.lo)), rest.items.filter (fun x => decide (x.up > m.lo)), subs, h1, h4, h15, h11, h12, h13, ?_, List.filter_sublist, ?_, ?_, ?_, hgt.le⟩
    · rw [if_pos hgt]
      show Option.bind (ItemsHeap.updateGoodThreshold Q (rest.extend Q xs) m.lo) _ = _
      rw [t1]
      show Option.bind tree'.top _ = _
      rw [k1]
      rfl
    · show D ≤ ((if top.up < st.up then top.up else st.up : ℚ) : ℝ)
      split
      · exact k3.le
      · exact hI.up
    · intro y hy
      have hy : tree'.top = some y := hy
      rw [k1] at hy
      cases hy
      show (if top.up < st.up then top.up else st.up) ≤ top.up
      split
      · exact le_rfl
      · exact not_lt.1 ‹_›
    · intro x hx
      exact a5 x (List.mem_filter.1 hx).1
    · rw [← List.filter_append]
      exact t10.trans (a4.filter _)
    · intro x hx
      by_cases hlt : m.lo < x.up
      · rcases hx with hx | hx
        · rcases a6 x hx with ha | ⟨g, hg, hle⟩
          · exact Or.inl (t10.mem_iff.2 (List.mem_filter.2 ⟨a4.mem_iff.2 (List.mem_append_left _ ha), decide_eq_true hlt⟩))
          · rw [← g5, g5'] at hg
            cases hg
            exact Or.inr (hle.trans hgt.le)
        · exact Or.inl (t10.mem_iff.2 (List.mem_filter.2 ⟨a4.mem_iff.2 (List.mem_append_right _ hx), decide_eq_true hlt⟩))
      · exact Or.inr (not_lt.1 hlt)
    · exact fun x hx => m4 x (g8' x hx)
  · obtain ⟨top, k1, k2, k3, _⟩ := h.top g1 g2 g9
    refine ⟨⟨rest.extend Q xs, st.lo, if top.up < st.up then top.up else st.up, st.argmax⟩, ?_, ⟨g1, g2, g3, g4, g5',
      ⟨P', g6, g7, g8, fun x hx => (m4 x hx).trans (not_lt.1 hgt), m0, Multiset.mem_of_le gP q1, q2, q3⟩, g9, ?_, ?_⟩,
      worst, rest.items, xs, act, rest.items, subs, h1, h4, h15, h11, h12, h13, a5, List.Sublist.refl _, a4, ?_, fun x hx => (m4 x (g8' x hx)).trans (not_lt.1 hgt), le_rfl⟩
    · rw [if_neg hgt]
      show Option.bind (rest.extend Q xs).top _ = _
      rw [k1]
      rfl
    · show D ≤ ((if top.up < st.up then top.up else st.up : ℚ) : ℝ)
      split
      · exact k3.le
      · exact hI.up
    · intro y hy
      have hy : (rest.extend Q xs).top = some y := hy
      rw [k1] at hy
      cases hy
      show (if top.up < st.up then top.up else st.up) ≤ top.up
      split
      · exact le_rfl
      · exact not_lt.1 ‹_›
    · intro x hx
      rcases hx with hx | hx
      · rcases a6 x hx with ha | ⟨g, hg, hle⟩
        · exact Or.inl (a4.mem_iff.2 (List.mem_append_left _ ha))
        · rw [← g5, g5'] at hg
          cases hg
          exact Or.inr hle
      · exact Or.inl (a4.mem_iff.2 (List.mem_append_right _ hx))

/-- The loop. -/
theorem loop (p : RegularParams) (tol : Option ℚ) (fuel : ℕ) : ∀ (n : ℕ) (st : RegularState d), RegInv Q c f r D stash st →
    ∃ res, regularLoop (m := Option) Q (pureB r) p tol stash fuel n st = some res ∧
      ∀ lo up a, res = .ok lo up a → ∃ st' n', RegInv Q c f r D stash st' ∧ st'.lo = lo ∧ st'.up = up ∧ st'.argmax = a ∧ regularStop p tol n' st' = true := by
  induction fuel with
  | zero =>
    intro n st hI
    exact ⟨.outOfFuel, rfl, by intro lo up a ha; cases ha⟩
  | succ fuel ih =>
    intro n st hI
    unfold regularLoop
    by_cases hs : regularStop p tol (n + 1) st = true
    · rw [if_pos hs]
      refine ⟨_, rfl, ?_⟩
      intro lo up a ha
      cases ha
      exact ⟨st, n + 1, hI, rfl, rfl, rfl, hs⟩
    · rw [if_neg hs]
      obtain ⟨st', h1, h2, _⟩ := h.step hI
      show ∃ res, Option.bind _ _ = _ ∧ _
      rw [h1]
      exact ih (n + 1) st' h2

end RegCtx
end Dilation
end Peano
