import Verif.Lemmas.FirstPairs
import Verif.Lemmas.Heap

set_option autoImplicit false

/- The tree of pairs. -/
namespace Peano
variable {d : ℕ} {r : Ratio} {f : ℕ → ℝ → Fin d → ℝ}
open FCurve (PairOK SubCurve Possible SoundBounds)
namespace Dilation
variable {c e : FCurve d} {Q : HeapQ (HNode (BoundedPair d)) HNode.lt}

/-- The method without the cache. -/
abbrev pureB (r : Ratio) : Key d → Option (PairBounds d) := keyBounds r

/-- The item has the bounds of its pair. -/
structure ItemOK (c : FCurve d) (r : Ratio) (stash : Stash d) (x : BoundedPair d) : Prop where
  pair : PairOK c x.pair
  bounds : getBounds (m := Option) (pureB r) stash x.pair = some ⟨x.lo, x.up, x.argmax⟩

/-- Bounds are defined for all pairs. -/
def AllBounds (c : FCurve d) (r : Ratio) (stash : Stash d) : Prop := ∀ p, PairOK c p → ∃ b, getBounds (m := Option) (pureB r) stash p = some b

theorem pushTree_eq {stash : Stash d} {tree : ItemsHeap (BoundedPair d)} {p : PiecePair d} {b : PairBounds d}
    (h : getBounds (m := Option) (pureB r) stash p = some b) :
    pushTree (m := Option) Q (pureB r) stash tree p = some (tree.push Q ⟨b.lo, b.up, p, b.argmax⟩) := by
  unfold pushTree
  rw [h]
  rfl

theorem pushAll_eq {stash : Stash d} (hB : AllBounds c r stash) (ps : List (PiecePair d)) (hps : ∀ p ∈ ps, PairOK c p) :
    ∃ xs : List (BoundedPair d), xs.map BoundedPair.pair = ps ∧ (∀ x ∈ xs, ItemOK c r stash x) ∧
      ∀ tree : ItemsHeap (BoundedPair d), ps.foldlM (pushTree (m := Option) Q (pureB r) stash) tree = some (tree.extend Q xs) := by
  induction ps with
  | nil => exact ⟨[], rfl, by simp, fun _ => rfl⟩
  | cons p ps ih =>
    obtain ⟨xs, h1, h2, h3⟩ := ih fun q hq => hps q (List.mem_cons_of_mem _ hq)
    obtain ⟨b, hb⟩ := hB p (hps p List.mem_cons_self)
    refine ⟨⟨b.lo, b.up, p, b.argmax⟩ :: xs, by simp [h1], ?_, ?_⟩
    · intro x hx
      rcases List.mem_cons.1 hx with rfl | hx
      · exact ⟨hps p List.mem_cons_self, hb⟩
      · exact h2 x hx
    · intro tree
      rw [List.foldlM_cons, pushTree_eq hb]
      exact h3 _

theorem createTree_eq (hE : c.Estimable) (hd : d ≠ 0) {stash : Stash d} (hB : AllBounds c r stash) (g b : Option ℚ) (km : Bool) :
    ∃ xs : List (BoundedPair d), (∀ x ∈ xs, ItemOK c r stash x ∧ x.pair.curve = c) ∧
      createTree (m := Option) Q (pureB r) c g b km stash = some ((ItemsHeap.init g b km).extend Q xs) ∧
      ∀ y, c.FirstPair y → ∃ x ∈ xs, x.pair.junc = y.1 ∧ x.pair.pos1.cnums = [y.2.1] ∧ x.pair.pos2.cnums = [y.2.2] ∧ PiecePair.initFirstOrder c y.1 y.2.1 y.2.2 = some x.pair := by
  obtain ⟨data, h1, h2⟩ := hE.pairData hd
  have key : ∀ l : List (Junction d × ℕ × ℕ), (∀ y ∈ l, c.FirstPair y) → ∃ xs : List (BoundedPair d), (∀ x ∈ xs, ItemOK c r stash x ∧ x.pair.curve = c) ∧
      (∀ tree : ItemsHeap (BoundedPair d), l.foldlM (fun tree e => (do
        let pair ← liftM (PiecePair.initFirstOrder c e.1 e.2.1 e.2.2)
        pushTree Q (pureB r) stash tree pair : Option _)) tree = some (tree.extend Q xs)) ∧
      ∀ y ∈ l, ∃ x ∈ xs, x.pair.junc = y.1 ∧ x.pair.pos1.cnums = [y.2.1] ∧ x.pair.pos2.cnums = [y.2.2] ∧ PiecePair.initFirstOrder c y.1 y.2.1 y.2.2 = some x.pair := by
    intro l hl
    induction l with
    | nil => exact ⟨[], by simp, fun _ => rfl, by simp⟩
    | cons y l ih =>
      obtain ⟨xs, g1, g2, g3⟩ := ih fun q hq => hl q (List.mem_cons_of_mem _ hq)
      obtain ⟨p, q1, q2, q3, q4, q5, q6⟩ := hE.firstPair hd (hl y List.mem_cons_self)
      obtain ⟨b, hb⟩ := hB p q2
      refine ⟨⟨b.lo, b.up, p, b.argmax⟩ :: xs, ?_, ?_, ?_⟩
      · intro x hx
        rcases List.mem_cons.1 hx with rfl | hx
        · exact ⟨⟨q2, hb⟩, q3⟩
        · exact g1 x hx
      · intro tree
        rw [List.foldlM_cons]
        show Option.bind (Option.bind (PiecePair.initFirstOrder c y.1 y.2.1 y.2.2) fun pair => pushTree Q (pureB r) stash tree pair) _ = _
        rw [q1, Option.bind_some, pushTree_eq hb, Option.bind_some]
        exact g2 _
      · intro z hz
        rcases List.mem_cons.1 hz with rfl | hz
        · exact ⟨_, List.mem_cons_self, q4, q5, q6, q1⟩
        · obtain ⟨x, hx, h⟩ := g3 z hz
          exact ⟨x, List.mem_cons_of_mem _ hx, h⟩
  obtain ⟨xs, g1, g2, g3⟩ := key data fun y hy => (h2 y).1 hy
  refine ⟨xs, g1, ?_, fun y hy => g3 y ((h2 y).2 hy)⟩
  unfold createTree
  show Option.bind (pairData c) _ = _
  rw [h1]
  exact g2 _

/-- Result of `_divide_tree`. -/
theorem divideTree_eq {stash : Stash d} (hB : AllBounds c r stash) {tree : ItemsHeap (BoundedPair d)} (hi : tree.Inv Q)
    (hx : ∀ x ∈ tree.items, ItemOK c r stash x) (hne : tree.items ≠ []) :
    ∃ (worst : BoundedPair d) (rest : ItemsHeap (BoundedPair d)) (subs : List (PiecePair d)) (xs : List (BoundedPair d)), tree.top = some worst ∧ worst ∈ tree.items ∧ (∀ y ∈ tree.items, y.up ≤ worst.up) ∧ tree.items.Perm (worst :: rest.items) ∧ rest.Inv Q ∧
      rest.goodThr = tree.goodThr ∧ rest.badThr = tree.badThr ∧ rest.keepMax = tree.keepMax ∧ rest.badItems = tree.badItems ∧ rest.maxLoItem = tree.maxLoItem ∧
      FCurve.PairDivided c worst.pair subs ∧ xs.map BoundedPair.pair = subs ∧ (∀ x ∈ xs, ItemOK c r stash x) ∧
      divideTree (m := Option) Q (pureB r) stash tree = some (rest.extend Q xs) ∧ worst.pair.divideBalanced = some subs := by
  rcases ItemsHeap.inv_pop hi with ⟨h, _⟩ | ⟨worst, rest, h1, h2, h3, h4, h5, h6, h7, h8, h9, h10, h11⟩
  · exact absurd h hne
  · obtain ⟨subs, g1, g2⟩ := (hx worst h3).pair.divide
    obtain ⟨xs, k1, k2, k3⟩ := pushAll_eq (Q := Q) hB subs fun p hp => (g2.ok p hp).1
    refine ⟨worst, rest, subs, xs, h1, h3, h4, h5, h6, h7, h8, h9, h10, h11, g2, k1, k2, ?_, g1⟩
    unfold divideTree
    show Option.bind (tree.pop Q) _ = _
    rw [h2]
    show Option.bind worst.pair.divideBalanced _ = _
    rw [g1]
    exact k3 rest

theorem allBounds_none (hE : c.Estimable) (hd : d ≠ 0) (hr : r.Ok d) (hreal : ∀ e, Possible c e → ∃ f, e.Realizes f) : AllBounds c r none := by
  intro p hp
  obtain ⟨e, he⟩ := hp.sub.estimable.exists_possible
  obtain ⟨f, hf⟩ := hreal e ((hp.sub.possible e).1 he).1
  obtain ⟨b, _, hb, _⟩ := hp.bounds hd hr he hf (stash := none) trivial (by simp)
  exact ⟨b, hb⟩

theorem ItemOK.sound {stash : Stash d} {x : BoundedPair d} (h : ItemOK c r stash x) (hd : d ≠ 0) (hr : r.Ok d) (he : Possible x.pair.curve e) (hf : e.Realizes f)
    (hst : FCurve.StashOK f c.mult stash) (hfull : stash.isSome → x.pair.curve.Full) : SoundBounds c r f x.pair ⟨x.lo, x.up, x.argmax⟩ := by
  obtain ⟨b, _, hb, _, hs, _⟩ := h.pair.bounds hd hr he hf hst hfull
  rw [h.bounds] at hb
  cases hb
  exact hs

end Dilation
end Peano
