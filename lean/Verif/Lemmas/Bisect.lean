import Verif.Lemmas.Termination
import Verif.Lemmas.SATB

set_option autoImplicit false

/- Bisection for fuzzy curves. -/
namespace Peano
variable {d : ℕ} {r : Ratio} {c e : FCurve d} {f : ℕ → ℝ → Fin d → ℝ} {D : ℝ}
open FCurve (PairOK SubCurve Possible SoundBounds)
namespace Dilation
variable {Q : HeapQ (HNode (BoundedPair d)) HNode.lt}

/-- A possible curve with its maps and its dilation. -/
structure Wit (c : FCurve d) (r : Ratio) (e : FCurve d) (f : ℕ → ℝ → Fin d → ℝ) (D : ℝ) : Prop where
  poss : Possible c e
  real : e.Realizes f
  great : IsGreatest (e.ratios r f) D

/-- The dilation of the possible curve is that of points in the item. -/
structure Trk (c : FCurve d) (r : Ratio) (e : FCurve d) (f : ℕ → ℝ → Fin d → ℝ) (D : ℝ) (x : BoundedPair d) : Prop where
  poss : Possible x.pair.curve e
  has : e.HasJunction x.pair.junc
  track : Tracks c r f D x

/-- Pairs with lower bounds above the threshold are forbidden. -/
def ForbOK (c : FCurve d) (r : Ratio) (bad : ℚ) (forb : List (Junction d × FCurve d)) : Prop :=
  ∀ y ∈ forb, ∃ x, ItemOK c r none x ∧ bad ≤ x.lo ∧ y = (x.pair.junc, x.pair.curve)

/-- Each possible curve is good, or is forbidden, or has its dilation in one of the items. -/
def Covers (c : FCurve d) (r : Ratio) (good : ℚ) (forb : List (Junction d × FCurve d)) (P : BoundedPair d → Prop) : Prop :=
  ∀ e f D, Wit c r e f D → D ≤ good ∨ (∃ y ∈ forb, e.Violates y) ∨ ∃ x, P x ∧ Trk c r e f D x

/-- Invariant of the loop of `bisect_dilation_fuzzy`. -/
structure BisInv (Q : HeapQ (HNode (BoundedPair d)) HNode.lt) (c : FCurve d) (r : Ratio) (good bad : ℚ) (tree : ItemsHeap (BoundedPair d)) (adapter : Sat.Adapter d) : Prop where
  inv : tree.Inv Q
  items : ∀ x ∈ tree.items, ItemOK c r none x
  goodThr : tree.goodThr = some good
  badThr : tree.badThr = some bad
  noBad : tree.badItems = []
  forb : ∃ forb, Sat.Built c adapter forb ∧ ForbOK c r bad forb ∧ Covers c r good forb (· ∈ tree.items)

theorem trk_lt_up (hd : d ≠ 0) (hr : r.Ok d) {x : BoundedPair d} (hx : ItemOK c r none x) (hf : e.Realizes f) (h : Trk c r e f D x) : D < x.up := by
  obtain ⟨u, v, hu, hv, huv⟩ := h.track
  rw [huv]
  exact (hx.sound hd hr h.poss hf (by trivial) (by simp)).up_lt u v hu hv

theorem wit_lo_le (hd : d ≠ 0) (hr : r.Ok d) (h : Wit c r e f D) {x : BoundedPair d} (hx : ItemOK c r none x) (hv : e.Violates (x.pair.junc, x.pair.curve)) : (x.lo : ℝ) ≤ D := by
  have hp : Possible x.pair.curve e := (hx.pair.sub.possible e).2 ⟨h.poss, hv.2⟩
  obtain ⟨u, v, hu, hv', huv⟩ := (hx.sound hd hr hp h.real (by trivial) (by simp)).lo
  exact huv.trans (h.great.2 (hx.pair.ratio_mem hr hp h.real hv.1 hu hv'))

theorem built_forbid (xs : List (BoundedPair d)) : ∀ {st : Sat.Adapter d} {forb : List (Junction d × FCurve d)}, Sat.Built c st forb →
    ∃ forb', Sat.Built c (xs.foldl (fun st item => Sat.addForbidClause st item.pair.junc item.pair.curve) st) forb' ∧
      ∀ y, y ∈ forb' ↔ y ∈ forb ∨ ∃ x ∈ xs, y = (x.pair.junc, x.pair.curve) := by
  induction xs with
  | nil => intro st forb h; exact ⟨forb, h, by simp⟩
  | cons x xs ih =>
    intro st forb h
    obtain ⟨forb', h1, h2⟩ := ih (Sat.Built.forbid x.pair.junc x.pair.curve h)
    refine ⟨forb', h1, fun y => ?_⟩
    rw [h2]
    simp only [List.mem_cons]
    constructor
    · rintro ((h | h) | ⟨x', h, h'⟩)
      · exact Or.inr ⟨x, Or.inl rfl, h⟩
      · exact Or.inl h
      · exact Or.inr ⟨x', Or.inr h, h'⟩
    · rintro (h | ⟨x', rfl | h, h'⟩)
      · exact Or.inl (Or.inr h)
      · exact Or.inl (Or.inl h')
      · exact Or.inr ⟨x', h, h'⟩

/-- Pushing items and forbidding the bad ones. -/
theorem extend_forbid (hd : d ≠ 0) (hr : r.Ok d) {good bad : ℚ} {tree : ItemsHeap (BoundedPair d)} {adapter : Sat.Adapter d} {xs : List (BoundedPair d)}
    {forb : List (Junction d × FCurve d)} (hi : tree.Inv Q) (hx : ∀ x ∈ tree.items, ItemOK c r none x) (hg : tree.goodThr = some good) (hb : tree.badThr = some bad)
    (hn : tree.badItems = []) (hB : Sat.Built c adapter forb) (hF : ForbOK c r bad forb) (hxs : ∀ x ∈ xs, ItemOK c r none x)
    (hcov : Covers c r good forb fun x => x ∈ tree.items ∨ x ∈ xs) :
    BisInv Q c r good bad (forbid (tree.extend Q xs) adapter).1 (forbid (tree.extend Q xs) adapter).2 ∧
      ∃ act : List (BoundedPair d), (forbid (tree.extend Q xs) adapter).1.items.Perm (act ++ tree.items) ∧ ∀ x ∈ act, x ∈ xs := by
  obtain ⟨g1, g2, g3, g4, act, bads, drop, g5, g6, g7, g8, g9⟩ := ItemsHeap.inv_extend xs hi
  rw [hn, List.nil_append] at g7
  have hmem : ∀ x, x ∈ xs ↔ x ∈ act ∨ x ∈ bads ∨ x ∈ drop := by
    intro x
    rw [g5.mem_iff]
    simp [or_assoc]
  obtain ⟨forb', f1, f2⟩ := built_forbid (tree.extend Q xs).badItems hB
  refine ⟨⟨ItemsHeap.inv_popBad g1, ?_, g2.trans hg, g3.trans hb, rfl, forb', f1, ?_, ?_⟩, act, g6, fun x hx => (hmem x).2 (Or.inl hx)⟩
  · intro x hx'
    rcases List.mem_append.1 (g6.mem_iff.1 hx') with hx' | hx'
    · exact hxs x ((hmem x).2 (Or.inl hx'))
    · exact hx x hx'
  · intro y hy
    rcases (f2 y).1 hy with hy | ⟨x, hx', rfl⟩
    · exact hF y hy
    · rw [g7] at hx'
      obtain ⟨⟨thr, h1, h2⟩, _⟩ := g9 x hx'
      rw [hb] at h1
      cases h1
      exact ⟨x, hxs x ((hmem x).2 (Or.inr (Or.inl hx'))), h2, rfl⟩
  · intro e f D hw
    rcases hcov e f D hw with h | ⟨y, hy, hv⟩ | ⟨x, hx', ht⟩
    · exact Or.inl h
    · exact Or.inr (Or.inl ⟨y, (f2 y).2 (Or.inl hy), hv⟩)
    · rcases hx' with hx' | hx'
      · exact Or.inr (Or.inr ⟨x, g6.mem_iff.2 (List.mem_append_right _ hx'), ht⟩)
      · rcases (hmem x).1 hx' with ha | ha | ha
        · exact Or.inr (Or.inr ⟨x, g6.mem_iff.2 (List.mem_append_left _ ha), ht⟩)
        · refine Or.inr (Or.inl ⟨(x.pair.junc, x.pair.curve), (f2 _).2 (Or.inr ⟨x, by rw [g7]; exact ha, rfl⟩), ht.has, ?_⟩)
          exact (((hxs x hx').pair.sub.possible e).1 ht.poss).2
        · obtain ⟨thr, h1, h2⟩ := g8 x ha
          rw [hg] at h1
          cases h1
          left
          have h3 := trk_lt_up hd hr (hxs x hx') hw.real ht
          have h4 : (x.up : ℝ) ≤ good := by exact_mod_cast h2
          linarith

theorem allB (hE : c.Estimable) (hd : d ≠ 0) (hr : r.Ok d) : AllBounds c r none :=
  allBounds_none hE hd hr fun e he => (hE.possible e he).1.realizes_of_check (hE.possible e he).2.1

/-- Division of the first item. -/
theorem BisInv.step (hE : c.Estimable) (hd : d ≠ 0) (hr : r.Ok d) {good bad : ℚ} {tree : ItemsHeap (BoundedPair d)} {adapter : Sat.Adapter d}
    (h : BisInv Q c r good bad tree adapter) (hne : tree.items ≠ []) :
    ∃ tree', divideTree (m := Option) Q (pureB r) none tree = some tree' ∧ BisInv Q c r good bad (forbid tree' adapter).1 (forbid tree' adapter).2 ∧
      ∃ (w : BoundedPair d) (J act : List (BoundedPair d)), tree.items.Perm (w :: J) ∧ (forbid tree' adapter).1.items.Perm (act ++ J) ∧
        ∀ x ∈ act, x.pair.level = w.pair.level + 1 := by
  obtain ⟨worst, rest, subs, xs, h1, h2, h3, h4, h5, h6, h7, h8, h9, h10, h11, h12, h13, h14, h15⟩ := divideTree_eq (allB hE hd hr) h.inv h.items hne
  obtain ⟨forb, b1, b2, b3⟩ := h.forb
  have hrest : ∀ x ∈ rest.items, x ∈ tree.items := fun x hx => h4.mem_iff.2 (List.mem_cons_of_mem _ hx)
  obtain ⟨k1, act, k2, k3⟩ := extend_forbid hd hr h5 (fun x hx => h.items x (hrest x hx)) (h6.trans h.goodThr) (h7.trans h.badThr) (h9.trans h.noBad) b1 b2 h13 (by
    intro e f D hw
    rcases b3 e f D hw with h | h | ⟨x, hx, ht⟩
    · exact Or.inl h
    · exact Or.inr (Or.inl h)
    · refine Or.inr (Or.inr ?_)
      rcases List.mem_cons.1 (h4.mem_iff.1 hx) with rfl | hx
      · obtain ⟨u, v, hu, hv, huv⟩ := ht.track
        obtain ⟨p', hp', a1, a2, a3⟩ := h11.half e ht.poss u v hu hv
        have hp'' := hp'
        rw [← h12, List.mem_map] at hp'
        obtain ⟨x', hx', rfl⟩ := hp'
        have hj := (h11.ok x'.pair hp'').2.1
        refine ⟨x', Or.inr hx', a1, by rw [hj]; exact ht.has, u, v, a2, a3, by rw [hj]; exact huv⟩
      · exact ⟨x, Or.inl hx, ht⟩)
  refine ⟨_, h14, k1, worst, rest.items, act, h4, k2, ?_⟩
  intro x hx
  have hm : x.pair ∈ subs := by rw [← h12]; exact List.mem_map_of_mem (k3 x hx)
  exact (h11.ok x.pair hm).2.2.2.1

theorem items_eq_nil {tree : ItemsHeap (BoundedPair d)} : tree.items = [] ↔ tree.size = 0 := by
  unfold ItemsHeap.items ItemsHeap.size
  simp

/-- What the end of the loop tells. -/
def EndOK (Q : HeapQ (HNode (BoundedPair d)) HNode.lt) (S : SatSolver) (c : FCurve d) (r : Ratio) (good bad : ℚ) : BisectEnd d → Prop
  | .empty adapter => ∃ tree, BisInv Q c r good bad tree adapter ∧ tree.items = []
  | .noModel => ∃ tree adapter, BisInv Q c r good bad tree adapter ∧ S.solve adapter.intClauses = none
  | _ => True

theorem BisInv.loop (hE : c.Estimable) (hd : d ≠ 0) (hr : r.Ok d) (S : SatSolver) (p : BisectParams) {good bad : ℚ} (fuel : ℕ) :
    ∀ (n k : ℕ) (tree : ItemsHeap (BoundedPair d)) (adapter : Sat.Adapter d), BisInv Q c r good bad tree adapter →
      ∃ res, bisectLoop (m := Option) Q (pureB r) S p fuel n k tree adapter = some res ∧ EndOK Q S c r good bad res ∧ (p.maxIter = none → res ≠ .outOfIter) := by
  induction fuel with
  | zero =>
    intro n k tree adapter h
    unfold bisectLoop
    by_cases hs : tree.size > 0
    · rw [if_pos hs]; exact ⟨_, rfl, trivial, by simp⟩
    · rw [if_neg hs]; exact ⟨_, rfl, ⟨tree, h, items_eq_nil.2 (by omega)⟩, by simp⟩
  | succ fuel ih =>
    intro n k tree adapter h
    unfold bisectLoop
    by_cases hs : tree.size > 0
    · rw [if_pos hs]
      dsimp only
      by_cases hm : p.maxIter.any (fun k => decide (((n + 1 : ℕ) : ℤ) > k)) = true
      · rw [if_pos hm]
        refine ⟨_, rfl, trivial, fun hn => ?_⟩
        rw [hn] at hm
        simp at hm
      · rw [if_neg hm]
        obtain ⟨tree', h1, h2, _⟩ := h.step hE hd hr (by rw [Ne, items_eq_nil]; omega)
        show ∃ res, Option.bind _ _ = _ ∧ _
        rw [h1, Option.bind_some]
        by_cases hk : n + 1 < k
        · rw [if_pos hk]; exact ih _ _ _ _ h2
        · rw [if_neg hk]
          by_cases hS : (S.solve (forbid tree' adapter).2.intClauses).isNone = true
          · rw [if_pos hS]
            exact ⟨_, rfl, ⟨_, _, h2, Option.isNone_iff_eq_none.1 hS⟩, by simp⟩
          · rw [if_neg hS]; exact ih _ _ _ _ h2
    · rw [if_neg hs]; exact ⟨_, rfl, ⟨tree, h, items_eq_nil.2 (by omega)⟩, by simp⟩

/-- What the result tells. -/
def ResOK (c : FCurve d) (r : Ratio) (good bad : ℚ) : BisectResult d → Prop
  | .found c' => ∃ e, Possible c e ∧ c' = { e with pnum := 0 } ∧ ∀ f D, Wit c r e f D → D ≤ good
  | .absent => ∀ e f D, Wit c r e f D → bad ≤ D
  | _ => True

theorem BisInv.absent (hE : c.Estimable) (hd : d ≠ 0) (hr : r.Ok d) (S : SatSolver) {good bad : ℚ} {tree : ItemsHeap (BoundedPair d)} {adapter : Sat.Adapter d}
    (h : BisInv Q c r good bad tree adapter) (hS : S.solve adapter.intClauses = none) : ∀ e f D, Wit c r e f D → (bad : ℝ) ≤ D := by
  intro e f D hw
  obtain ⟨T, hT⟩ := hE.ready hd
  obtain ⟨forb, b1, b2, b3⟩ := h.forb
  obtain ⟨y, hy, hv⟩ := Sat.no_model hT b1 S hS e hw.poss
  obtain ⟨x, hx, hle, rfl⟩ := b2 y hy
  have := wit_lo_le hd hr hw hx hv
  have h2 : (bad : ℝ) ≤ x.lo := by exact_mod_cast hle
  linarith

theorem BisInv.finish (hE : c.Estimable) (hd : d ≠ 0) (hr : r.Ok d) (S : SatSolver) {good bad : ℚ} {res : BisectEnd d} (h : EndOK Q S c r good bad res) :
    ∃ out, bisectFinish (m := Option) S c res = some out ∧ ResOK c r good bad out ∧ (out = .outOfIter → res = .outOfIter) ∧ (out = .outOfFuel → res = .outOfFuel) := by
  cases res with
  | noModel =>
    obtain ⟨tree, adapter, h1, h2⟩ := h
    exact ⟨.absent, rfl, h1.absent hE hd hr S h2, by simp, by simp⟩
  | outOfIter => exact ⟨.outOfIter, rfl, trivial, by simp, by simp⟩
  | outOfFuel => exact ⟨.outOfFuel, rfl, trivial, by simp, by simp⟩
  | empty adapter =>
    obtain ⟨tree, h1, h2⟩ := h
    cases hs : S.solve adapter.intClauses with
    | none => exact ⟨.absent, by unfold bisectFinish; simp only [hs]; rfl, h1.absent hE hd hr S hs, by simp, by simp⟩
    | some model =>
      obtain ⟨T, hT⟩ := hE.ready hd
      obtain ⟨forb, b1, b2, b3⟩ := h1.forb
      obtain ⟨c', k1, k2, k3⟩ := Sat.model_curve hT b1 S hs
      refine ⟨.found { c' with pnum := 0 }, ?_, ⟨c', k1, rfl, ?_⟩, by simp, by simp⟩
      · unfold bisectFinish
        simp only [hs]
        show Option.bind (Sat.getModelCurve c adapter model) _ = _
        rw [k3]
        rfl
      · intro f D hw
        rcases b3 c' f D hw with h | ⟨y, hy, hv⟩ | ⟨x, hx, _⟩
        · exact h
        · exact absurd hv (k2 y hy)
        · rw [h2] at hx; cases hx

/-- Items of all first pairs. -/
def FirstItems (c : FCurve d) (r : Ratio) (xs : List (BoundedPair d)) : Prop :=
  (∀ x ∈ xs, ItemOK c r none x ∧ x.pair.curve = c) ∧
    ∀ y : Junction d × ℕ × ℕ, c.FirstPair y → ∃ x ∈ xs, x.pair.junc = y.1 ∧ x.pair.pos1.cnums = [y.2.1] ∧ x.pair.pos2.cnums = [y.2.2]

theorem firstItems_perm {xs ys : List (BoundedPair d)} (h : FirstItems c r xs) (hp : ys.Perm xs) : FirstItems c r ys :=
  ⟨fun x hx => h.1 x (hp.mem_iff.1 hx), fun y hy => by
    obtain ⟨x, hx, h⟩ := h.2 y hy
    exact ⟨x, hp.mem_iff.2 hx, h⟩⟩

theorem createTree_first (hE : c.Estimable) (hd : d ≠ 0) (hr : r.Ok d) (g b : Option ℚ) (km : Bool) :
    ∃ xs, FirstItems c r xs ∧ createTree (m := Option) Q (pureB r) c g b km none = some ((ItemsHeap.init g b km).extend Q xs) := by
  obtain ⟨xs, h1, h2, h3⟩ := createTree_eq (Q := Q) hE hd (allB hE hd hr) g b km
  refine ⟨xs, ⟨h1, fun y hy => ?_⟩, h2⟩
  obtain ⟨x, hx, a1, a2, a3, _⟩ := h3 y hy
  exact ⟨x, hx, a1, a2, a3⟩

theorem start (hE : c.Estimable) (hd : d ≠ 0) (hr : r.Ok d) {good bad : ℚ} {adapter : Sat.Adapter d} {xs : List (BoundedPair d)}
    (hB : Sat.Built c adapter []) (hxs : FirstItems c r xs) :
    BisInv Q c r good bad (forbid ((ItemsHeap.init (some good) (some bad) false).extend Q xs) adapter).1
      (forbid ((ItemsHeap.init (some good) (some bad) false).extend Q xs) adapter).2 := by
  refine (extend_forbid hd hr (ItemsHeap.inv_init _ _ _) (by intro x hx; cases hx) rfl rfl rfl hB (by intro y hy; cases hy) (fun x hx => (hxs.1 x hx).1) ?_).1
  intro e f D hw
  obtain ⟨y, hy, hj, hyp⟩ := hE.firstCover hd hr hw.poss hw.real hw.great.1
  obtain ⟨x, hx, a1, a2, a3⟩ := hxs.2 y hy
  refine Or.inr (Or.inr ⟨x, Or.inr hx, by rw [(hxs.1 x hx).2]; exact hw.poss, by rw [a1]; exact hj, hyp x.pair a1 a2 a3⟩)

/-- The optional arguments `init_pairs_tree`, `init_sat_adapter` are absent or were made for the same curve. -/
def InitOK (Q : HeapQ (HNode (BoundedPair d)) HNode.lt) (c : FCurve d) (r : Ratio) (tree : Option (ItemsHeap (BoundedPair d))) (adapter : Option (Sat.Adapter d)) : Prop :=
  (∀ t, tree = some t → createTree (m := Option) Q (keyBounds r) c none none false none = some t) ∧ ∀ a, adapter = some a → Sat.loadCurve c = some a

theorem extend_none (xs : List (BoundedPair d)) : ((ItemsHeap.init none none false).extend Q xs).items.Perm xs ∧
    ((ItemsHeap.init none none false).extend Q xs).goodThr = none ∧ ((ItemsHeap.init none none false).extend Q xs).badThr = none ∧
    ((ItemsHeap.init none none false).extend Q xs).keepMax = false := by
  obtain ⟨g1, g2, g3, g4, act, bads, drop, g5, g6, g7, g8, g9⟩ := ItemsHeap.inv_extend (Q := Q) xs (ItemsHeap.inv_init none none false)
  have hb : bads = [] := by
    cases bads with
    | nil => rfl
    | cons x l => obtain ⟨⟨thr, h, _⟩, _⟩ := g9 x List.mem_cons_self; cases h
  have hdr : drop = [] := by
    cases drop with
    | nil => rfl
    | cons x l => obtain ⟨thr, h, _⟩ := g8 x List.mem_cons_self; cases h
  subst hb
  subst hdr
  refine ⟨?_, g2, g3, g4⟩
  have h0 : (ItemsHeap.init none none false : ItemsHeap (BoundedPair d)).items = [] := rfl
  rw [h0, List.append_nil] at g6
  simp only [List.append_nil] at g5
  exact g6.trans g5.symm

/-- The method starts its loop in a good state. -/
theorem bisectFuzzy_eq (hE : c.Estimable) (hd : d ≠ 0) (hr : r.Ok d) (S : SatSolver) (good bad : ℚ) (p : BisectParams) {tree : Option (ItemsHeap (BoundedPair d))}
    {adapter : Option (Sat.Adapter d)} (hinit : InitOK Q c r tree adapter) :
    ∃ tree' adapter', BisInv Q c r good bad tree' adapter' ∧ ∀ fuel, bisectFuzzy (m := Option) Q (pureB r) S fuel c good bad p tree adapter =
      (bisectLoop (m := Option) Q (pureB r) S p fuel 0 1 tree' adapter').bind (bisectFinish (m := Option) S c) := by
  obtain ⟨T, hT⟩ := hE.ready hd
  obtain ⟨st, hst, _⟩ := Sat.mean_load hT.allowed hT.templates
  have hB : Sat.Built c st [] := .load hst
  obtain ⟨xs, x1, x2⟩ : ∃ xs, FirstItems c r xs ∧ (match tree with
    | none => createTree (m := Option) Q (pureB r) c (some good) (some bad) false none
    | some tree => tree.copyAndCleanup Q (some good) (some bad)) = some ((ItemsHeap.init (some good) (some bad) false).extend Q xs) := by
    cases tree with
    | none => exact createTree_first hE hd hr _ _ _
    | some t =>
      obtain ⟨xs, h1, h2⟩ := createTree_first (Q := Q) hE hd hr none none false
      have h3 := hinit.1 t rfl
      rw [show createTree (m := Option) Q (keyBounds r) c none none false none = _ from h2] at h3
      obtain ⟨e1, e2, e3, e4⟩ := extend_none (Q := Q) xs
      rw [Option.some.inj h3] at e1 e2 e3 e4
      refine ⟨t.items, firstItems_perm h1 e1, ?_⟩
      show ItemsHeap.copyAndCleanup Q t _ _ = _
      unfold ItemsHeap.copyAndCleanup
      rw [if_pos ⟨e2, e3, e4⟩]
  refine ⟨_, _, start (Q := Q) (good := good) (bad := bad) hE hd hr hB x1, ?_⟩
  intro fuel
  unfold bisectFuzzy
  cases tree with
  | none =>
    show Option.bind (createTree (m := Option) Q (pureB r) c (some good) (some bad) false none) _ = _
    have x2 : createTree (m := Option) Q (pureB r) c (some good) (some bad) false none = _ := x2
    rw [x2, Option.bind_some]
    cases adapter with
    | none =>
      show Option.bind (Sat.loadCurve c) _ = _
      rw [hst]
      rfl
    | some a =>
      have := hinit.2 a rfl
      rw [hst] at this
      cases this
      rfl
  | some t =>
    show Option.bind (ItemsHeap.copyAndCleanup Q t (some good) (some bad)) _ = _
    have x2 : ItemsHeap.copyAndCleanup Q t (some good) (some bad) = _ := x2
    rw [x2, Option.bind_some]
    cases adapter with
    | none =>
      show Option.bind (Sat.loadCurve c) _ = _
      rw [hst]
      rfl
    | some a =>
      have := hinit.2 a rfl
      rw [hst] at this
      cases this
      rfl

/-- The bounds of deep pairs are close. -/
theorem close_none (hE : c.Estimable) (hd : d ≠ 0) (hr : r.Ok d) {tol : ℚ} (htol : 1 < tol) :
    ∃ K : ℕ, ∀ x, ItemOK c r none x → K ≤ x.pair.level → x.up ≤ x.lo * tol := by
  obtain ⟨K, hK⟩ := exists_level (c := c) r (hE.two_le_genus hd) htol
  refine ⟨K, fun x hx hl => ?_⟩
  obtain ⟨e, he⟩ := hx.pair.sub.estimable.exists_possible
  obtain ⟨hf, hc, _⟩ := hx.pair.sub.estimable.possible e he
  obtain ⟨f, hfr⟩ := hf.realizes_of_check hc
  obtain ⟨b, k, hb, hk, _, hbup, hblo, _⟩ := hx.pair.bounds hd hr he hfr (stash := none) trivial (by simp)
  have e := hx.bounds
  rw [show getBounds (m := Option) (pureB r) none x.pair = some b from hb] at e
  have e1 : x.lo = b.lo := by rw [Option.some.inj e]
  have e2 : x.up = b.up := by rw [Option.some.inj e]
  rw [e1, e2, hbup, hblo rfl]
  have := hK x.pair k hx.pair hk hl
  have hmin : (0 : ℚ) < k.minDt := by exact_mod_cast hk.min_pos
  have hmax : (0 : ℚ) < k.maxDt := hmin.trans (by exact_mod_cast hk.min_lt)
  unfold Ratio.val
  rw [div_mul_eq_mul_div, div_le_div_iff₀ (r.den_pos hmin) (r.den_pos hmax)]
  have hnum : 0 ≤ r.num (fun i => (k.maxDx i : ℚ)) := r.num_nonneg _
  calc r.num (fun i => (k.maxDx i : ℚ)) * r.den (k.maxDt : ℚ) ≤ r.num (fun i => (k.maxDx i : ℚ)) * (r.den (k.minDt : ℚ) * tol) := mul_le_mul_of_nonneg_left this hnum
    _ = _ := by ring

/-- Active items are not deep. -/
theorem BisInv.shallow (hE : c.Estimable) (hd : d ≠ 0) (hr : r.Ok d) {good bad : ℚ} (h0 : 0 < bad) (hlt : bad < good) :
    ∃ K : ℕ, ∀ (tree : ItemsHeap (BoundedPair d)) (adapter : Sat.Adapter d), BisInv Q c r good bad tree adapter → ∀ x ∈ tree.items, x.pair.level < K := by
  obtain ⟨K, hK⟩ := close_none hE hd hr (tol := good / bad) ((one_lt_div h0).2 hlt)
  refine ⟨K, fun tree adapter h x hx => ?_⟩
  by_contra hl
  have h1 := hK x (h.items x hx) (not_lt.1 hl)
  have h2 : good < x.up := h.inv.not_good x hx good h.goodThr
  have h3 : x.lo < bad := h.inv.not_bad x hx bad h.badThr
  have h4 : 0 < good / bad := div_pos (h0.trans hlt) h0
  have h5 : x.lo * (good / bad) < bad * (good / bad) := mul_lt_mul_of_pos_right h3 h4
  rw [mul_div_cancel₀ _ h0.ne'] at h5
  linarith

theorem BisInv.terminates (hE : c.Estimable) (hd : d ≠ 0) (hr : r.Ok d) (S : SatSolver) (p : BisectParams) {good bad : ℚ} (h0 : 0 < bad) (hlt : bad < good)
    (tree : ItemsHeap (BoundedPair d)) :
    ∀ (n k : ℕ) (adapter : Sat.Adapter d), BisInv Q c r good bad tree adapter →
      ∃ fuel0, ∀ fuel ≥ fuel0, ∀ res, bisectLoop (m := Option) Q (pureB r) S p fuel n k tree adapter = some res → res ≠ .outOfFuel ∧ (p.maxIter = none → res ≠ .outOfIter) := by
  obtain ⟨K, hK⟩ := BisInv.shallow (Q := Q) (r := r) hE hd hr h0 hlt
  have wf := Multiset.wellFounded_isDershowitzMannaLT (α := ℕ)
  generalize hM : ((tree.items : Multiset (BoundedPair d)).map fun x => K - x.pair.level) = M
  induction M using wf.induction generalizing tree with
  | h M ih =>
    intro n k adapter h
    by_cases hs : tree.size > 0
    · obtain ⟨tree', h1, h2, w, J, act, s1, s2, s3⟩ := h.step hE hd hr (by rw [Ne, items_eq_nil]; omega)
      have hlt := dm_of_perm (lvl := fun x : BoundedPair d => x.pair.level) (hK tree adapter h w (s1.mem_iff.2 List.mem_cons_self)) s3 (List.Sublist.refl J) s1 s2
      rw [hM] at hlt
      obtain ⟨fuel0, hf0⟩ := ih _ hlt (forbid tree' adapter).1 rfl (n + 1) k _ h2
      obtain ⟨fuel1, hf1⟩ := ih _ hlt (forbid tree' adapter).1 rfl (n + 1) (p.nextSat k) _ h2
      refine ⟨max fuel0 fuel1 + 1, ?_⟩
      intro fuel hfu res hres
      obtain ⟨m, rfl⟩ := Nat.exists_eq_add_of_le hfu
      have hres : bisectLoop (m := Option) Q (pureB r) S p ((max fuel0 fuel1 + m) + 1) n k tree adapter = some res := by
        rw [← hres]; congr 1; omega
      unfold bisectLoop at hres
      rw [if_pos hs] at hres
      dsimp only at hres
      by_cases hm : p.maxIter.any (fun k => decide (((n + 1 : ℕ) : ℤ) > k)) = true
      · rw [if_pos hm] at hres
        cases hres
        refine ⟨by simp, ?_⟩
        intro hn
        rw [hn] at hm
        simp at hm
      · rw [if_neg hm] at hres
        have hres : Option.bind (divideTree (m := Option) Q (pureB r) none tree) _ = _ := hres
        rw [h1, Option.bind_some] at hres
        by_cases hk : n + 1 < k
        · rw [if_pos hk] at hres
          exact hf0 _ (by omega) res hres
        · rw [if_neg hk] at hres
          by_cases hS : (S.solve (forbid tree' adapter).2.intClauses).isNone = true
          · rw [if_pos hS] at hres
            cases hres
            simp
          · rw [if_neg hS] at hres
            exact hf1 _ (by omega) res hres
    · refine ⟨0, ?_⟩
      intro fuel _ res hres
      cases fuel with
      | zero =>
        unfold bisectLoop at hres
        rw [if_neg hs] at hres
        cases hres
        simp
      | succ fuel =>
        unfold bisectLoop at hres
        rw [if_neg hs] at hres
        cases hres
        simp

end Dilation
end Peano
