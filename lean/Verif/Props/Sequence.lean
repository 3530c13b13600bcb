import Verif.Lemmas.SequenceTerm

set_option autoImplicit false

/-
Properties C50, C62: `estimate_dilation_sequence`.
-/
namespace Peano
variable {d : ℕ}
open FCurve (Possible HasExample)
namespace Dilation

theorem linv_init (curves : List (FCurve d)) (r : Ratio) (p : SeqParams) :
    LInv curves r p true (p.relTolInvMult ^ 0) (curves.zipIdx.map fun e => (⟨e.2, none, none, e.1, none⟩ : SeqItem d)) 0 p.upperBound := by
  have hidx : (curves.zipIdx.map fun e => (⟨e.2, none, none, e.1, none⟩ : SeqItem d)).map SeqItem.idx = List.range curves.length := by
    rw [List.map_map]
    exact (List.zipIdx_map_snd 0 curves).trans (List.range_eq_range' (n := curves.length)).symm
  refine ⟨?_, ?_, ?_, ⟨fun u hu => .inr hu, fun b hb => ⟨b, hb, le_rfl⟩⟩, fun _ => ⟨rfl, rfl, ?_⟩, by simp⟩
  · intro it hi
    obtain ⟨y, hy, rfl⟩ := List.mem_map.1 hi
    exact ⟨List.mem_zipIdx_iff_getElem?.1 hy, by simp, by simp, by simp⟩
  · rw [hidx]
    exact List.nodup_range
  · intro i c hc
    rw [hidx]
    exact .inl (List.mem_range.2 (List.getElem?_eq_some_iff.1 hc).1)
  · intro it hi
    obtain ⟨y, hy, rfl⟩ := List.mem_map.1 hi
    rfl

theorem tolerance_eq {k : ℤ} (htol : k ≠ 0) : tolerance k = some (1 + 1 / (k : ℚ)) := by
  unfold tolerance
  rw [if_neg htol]
  have : (k : ℚ) ≠ 0 := by exact_mod_cast htol
  congr 1
  push_cast
  field_simp

/-- C50. The method raises no exception (`rel_tol_inv = 0` and `rel_tol_inv_mult = 0` are excluded).  If it returns `lo`, `up`, `curves`, `idxs`:
* `lo` is at most the dilation of each possible curve of each fuzzy curve;
* `up` is at least the dilation of some possible curve of some fuzzy curve, or it is the given upper bound; it is at most the given upper bound;
* the tolerance is reached;
* the indices are valid and distinct, and for each index that is not listed all dilations are above `up`;
* the listed examples are possible curves of the fuzzy curves with the listed indices; without `max_iter` their dilations are at most
  `up * (1 + 1 / rel_tol_inv_mult)`;
* there are examples, and all of them are present (not None), unless the given upper bound is not positive.

If it returns None then all possible curves of all fuzzy curves have dilations above the given upper bound (in particular, without an upper
bound there are no curves). -/
theorem C50_sequence (hd : d ≠ 0) (r : Ratio) (hr : r.Ok d) (curves : List (FCurve d)) (hE : ∀ c ∈ curves, c.Estimable)
    (Q : HeapQ (HNode (BoundedPair d)) HNode.lt) (H : HeapQ (SeqItem d) SeqItem.lt) (S : SatSolver) (p : SeqParams) (htol : p.relTolInv ≠ 0)
    (hmult : p.relTolInvMult ≠ 0) (fuel : ℕ) :
    ∃ res, estimateSequence (m := Option) Q (keyBounds r) S H fuel curves p = some res ∧
      (∀ lo up cs idxs, res = .ok lo up cs idxs →
        (∀ c ∈ curves, ∀ e D, Possible c e → e.IsDilation r D → (lo : ℝ) ≤ D) ∧
        ((∃ c ∈ curves, ∃ e D, Possible c e ∧ e.IsDilation r D ∧ D ≤ up) ∨ p.upperBound = some up) ∧
        (∀ u, p.upperBound = some u → up ≤ u) ∧
        up ≤ lo * (1 + 1 / (p.relTolInv : ℚ)) ∧
        idxs.Nodup ∧ cs.length = idxs.length ∧ (∀ i ∈ idxs, i < curves.length) ∧
        (∀ (i : ℕ) (c : FCurve d), curves[i]? = some c → i ∉ idxs → ∀ e D, Possible c e → e.IsDilation r D → (up : ℝ) < D) ∧
        (∀ (k i : ℕ) (e : FCurve d), idxs[k]? = some i → cs[k]? = some (some e) → ∃ c, curves[i]? = some c ∧ HasExample c e ∧
          (p.bisect.maxIter = none → 1 ≤ p.relTolInvMult → ∀ D, e.IsDilation r D → D ≤ up * (1 + 1 / (p.relTolInvMult : ℝ)))) ∧
        ((∀ u, p.upperBound = some u → 0 < u) → cs ≠ [] ∧ none ∉ cs)) ∧
      (res = .absent → ∀ c ∈ curves, ∃ u, p.upperBound = some u ∧ ∀ e D, Possible c e → e.IsDilation r D → (u : ℝ) < D) := by
  have hinit := linv_init curves r p
  have ht := tolerance_eq htol
  obtain ⟨res, h1, h2, h3⟩ := seqLoop_ok (Q := Q) (S := S) (H := H) hd hr hE hmult (1 + 1 / (p.relTolInv : ℚ)) fuel fuel true 0 _ _ _ hinit (by simp)
  refine ⟨res, ?_, ?_, h3⟩
  · unfold estimateSequence
    show Option.bind (tolerance p.relTolInv) _ = _
    rw [ht, Option.bind_some]
    rw [pow_zero] at h1
    exact h1
  · intro lo up cs idxs hres
    obtain ⟨⟨first, k, active, inv, rfl, rfl, hk⟩, htol'⟩ := h2 lo up cs idxs hres
    refine ⟨?_, ?_, ?_, htol', inv.nodup, by simp, ?_, ?_, ?_, ?_⟩
    · intro c hc e D he hD
      cases hf : first with
      | true =>
        rw [(inv.start hf).1, Rat.cast_zero]
        exact (dilation_pos (hE c hc) hd hr he hD).le
      | false =>
        obtain ⟨u, hu, g1, it, hit, hlo⟩ := inv.later hf
        cases hu
        obtain ⟨i, hi⟩ := List.getElem?_of_mem hc
        rcases inv.cover i c hi with h | ⟨u, hu, h⟩
        · obtain ⟨it', hi', rfl⟩ := List.mem_map.1 h
          obtain ⟨gd, gl⟩ := g1 it' hi'
          obtain ⟨l, v, e1, _⟩ := gd.bnd
          have e2 := gd.item.get
          rw [hi] at e2
          cases e2
          rw [e1] at gl
          exact le_trans (by exact_mod_cast gl) (gd.item.loOk l e1 e D he hD)
        · cases hu
          obtain ⟨l, v, e1, _, e3, _⟩ := (g1 it hit).1.bnd
          rw [hlo] at e1
          cases e1
          exact le_trans (by exact_mod_cast e3) (h e D he hD).le
    · rcases inv.cuOk.1 up rfl with h | h
      · exact .inl h
      · exact .inr h
    · intro u hu
      obtain ⟨v, hv, hle⟩ := inv.cuOk.2 u hu
      cases hv
      exact hle
    · intro i hi
      obtain ⟨it, hit, rfl⟩ := List.mem_map.1 hi
      exact (List.getElem?_eq_some_iff.1 (inv.todo it hit).get).1
    · intro i c hc hi
      rcases inv.cover i c hc with h | ⟨u, hu, h⟩
      · exact absurd h hi
      · cases hu
        exact h
    · intro j i e hi he
      rw [List.getElem?_map] at hi he
      obtain ⟨it, hit, rfl⟩ := Option.map_eq_some_iff.1 hi
      rw [hit, Option.map_some] at he
      have he : it.example_ = some e := Option.some.inj he
      have hmem := List.mem_of_getElem? hit
      cases hf : first with
      | true =>
        have := (inv.start hf).2.2 it hmem
        rw [this] at he
        cases he
      | false =>
        obtain ⟨u, hu, g1, _⟩ := inv.later hf
        cases hu
        obtain ⟨gd, _⟩ := g1 it hmem
        obtain ⟨l, v, e1, e2, e3, e4, e5⟩ := gd.bnd
        obtain ⟨a1, a2⟩ := gd.item.upOk v e2
        obtain ⟨b1, b2⟩ := a2 e he
        refine ⟨it.curve, gd.item.get, b1, ?_⟩
        intro hm h1 D hD
        have hv := b2 D hD
        have h5 := e5 hm
        have hM : (1 : ℚ) ≤ (p.relTolInvMult : ℚ) := by exact_mod_cast h1
        have hpow : (p.relTolInvMult : ℚ) ≤ ((p.relTolInvMult ^ k : ℤ) : ℚ) := by
          rw [Int.cast_pow]
          exact le_self_pow₀ hM (hk hf)
        have hinv : 1 / ((p.relTolInvMult ^ k : ℤ) : ℚ) ≤ 1 / (p.relTolInvMult : ℚ) := one_div_le_one_div_of_le (by linarith) hpow
        have hpos : 0 ≤ 1 / ((p.relTolInvMult ^ k : ℤ) : ℚ) := by
          apply one_div_nonneg.2
          linarith
        have hD0 : 0 < D := by
          have hcE := hE it.curve (List.mem_of_getElem? gd.item.get)
          have hE' : ({ e with kind := .curve, pnum := it.curve.pnum } : FCurve d).IsDilation r D := (isDilation_with e .curve it.curve.pnum D).2 hD
          exact dilation_pos hcE hd hr b1 hE'
        have hv0 : 0 < v := by
          have : (0 : ℝ) < v := hD0.trans_le hv
          exact_mod_cast this
        have hup : 0 < up := by
          by_contra hneg
          have : l * (1 + 1 / ((p.relTolInvMult ^ k : ℤ) : ℚ)) ≤ 0 :=
            mul_nonpos_of_nonpos_of_nonneg (e3.trans (not_lt.1 hneg)) (by linarith)
          linarith
        have : v ≤ up * (1 + 1 / (p.relTolInvMult : ℚ)) := by
          calc v ≤ l * (1 + 1 / ((p.relTolInvMult ^ k : ℤ) : ℚ)) := h5
            _ ≤ up * (1 + 1 / ((p.relTolInvMult ^ k : ℤ) : ℚ)) := mul_le_mul_of_nonneg_right e3 (by linarith)
            _ ≤ up * (1 + 1 / (p.relTolInvMult : ℚ)) := mul_le_mul_of_nonneg_left (by linarith) hup.le
        refine hv.trans ?_
        have h6 : ((v : ℚ) : ℝ) ≤ ((up * (1 + 1 / (p.relTolInvMult : ℚ)) : ℚ) : ℝ) := by exact_mod_cast this
        push_cast at h6
        exact h6
    · intro hpos
      cases hf : first with
      | true =>
        obtain ⟨h0, hu, _⟩ := inv.start hf
        have := hpos up hu.symm
        rw [h0, zero_mul] at htol'
        exact absurd htol' (not_le.2 this)
      | false =>
        obtain ⟨u, hu, g1, it0, hit0, _⟩ := inv.later hf
        refine ⟨?_, ?_⟩
        · intro hnil
          rw [List.map_eq_nil_iff] at hnil
          rw [hnil] at hit0
          cases hit0
        · intro hnone
          obtain ⟨it, hit, hx⟩ := List.mem_map.1 hnone
          obtain ⟨gd, _⟩ := g1 it hit
          obtain ⟨l, v, e1, e2, _⟩ := gd.bnd
          have := (gd.item.upOk v e2).1
          rw [hx] at this
          cases this

/-- C62. Without `max_iter`, with a positive `rel_tol_inv` and `rel_tol_inv_mult ≥ 2` the method returns after finitely many epochs, each of
finitely many steps. -/
theorem C62_terminates (hd : d ≠ 0) (r : Ratio) (hr : r.Ok d) (curves : List (FCurve d)) (hE : ∀ c ∈ curves, c.Estimable)
    (Q : HeapQ (HNode (BoundedPair d)) HNode.lt) (H : HeapQ (SeqItem d) SeqItem.lt) (S : SatSolver) (p : SeqParams) (htol : 0 < p.relTolInv)
    (hmult : 2 ≤ p.relTolInvMult) (hmax : p.bisect.maxIter = none) :
    ∃ fuel0, ∀ fuel, fuel0 ≤ fuel → ∃ res, estimateSequence (m := Option) Q (keyBounds r) S H fuel curves p = some res ∧ res ≠ .outOfFuel := by
  have hK : ∀ k : ℕ, p.relTolInv.toNat ≤ k → p.relTolInv ≤ p.relTolInvMult ^ k := by
    intro k hk
    have h1 : (k : ℤ) < 2 ^ k := by exact_mod_cast Nat.lt_two_pow_self
    have h2 : (2 : ℤ) ^ k ≤ p.relTolInvMult ^ k := pow_le_pow_left₀ (by norm_num) hmult k
    omega
  obtain ⟨f0, hf0⟩ := seqLoop_terminates (Q := Q) (S := S) (H := H) hd hr hE (by omega) hmax htol hK (p.relTolInv.toNat + 1) true 0 _ _ _ (linv_init curves r p)
    (by simp) (by simp)
  refine ⟨max f0 (p.relTolInv.toNat + 1), fun fuel hle => ?_⟩
  obtain ⟨res, h1, h2⟩ := hf0 fuel (by omega) fuel (by omega)
  refine ⟨res, ?_, h2⟩
  unfold estimateSequence
  show Option.bind (tolerance p.relTolInv) _ = _
  rw [tolerance_eq htol.ne', Option.bind_some]
  rw [pow_zero] at h1
  exact h1

/-- The item with its priority. -/
def SeqItem.node (x : SeqItem d) : HNode (SeqItem d) := ⟨- x.lo.getD 0, x.idx, x⟩

theorem SeqItem.node_lt (a b : SeqItem d) : HNode.lt a.node b.node = SeqItem.lt a b := by
  unfold HNode.lt SeqItem.lt SeqItem.node
  simp only [neg_lt_neg_iff, neg_inj]

/-- Sorted lists satisfy the contract of `heapq` for the items of the sequence. -/
def sortedSeqHeap (d : ℕ) : HeapQ (SeqItem d) SeqItem.lt where
  Valid := List.Pairwise fun a b => SeqItem.lt b a = false
  push h x := (sortedInsert x.node (h.map SeqItem.node)).map HNode.item
  pop h := h.head?.map fun x => (x, h.tail)
  valid_nil := List.Pairwise.nil
  valid_push h x hv := by
    have h1 : (h.map SeqItem.node).Pairwise fun a b => HNode.lt b a = false := List.pairwise_map.2 (hv.imp fun {a b} hab => by rw [SeqItem.node_lt]; exact hab)
    have h2 := sortedInsert_sorted x.node _ h1
    have h3 : ∀ y ∈ sortedInsert x.node (h.map SeqItem.node), y = y.item.node := by
      intro y hy
      rcases List.mem_cons.1 ((sortedInsert_perm _ _).mem_iff.1 hy) with rfl | hy
      · rfl
      · obtain ⟨z, _, rfl⟩ := List.mem_map.1 hy
        rfl
    refine List.pairwise_map.2 (h2.imp_of_mem fun {a b} ha hb hab => ?_)
    rw [h3 a ha, h3 b hb, SeqItem.node_lt] at hab
    exact hab
  push_perm h x _ := by
    have := (sortedInsert_perm x.node (h.map SeqItem.node)).map HNode.item
    rw [List.map_cons, List.map_map] at this
    simpa [Function.comp_def, SeqItem.node] using this
  first_le _ _ h := (List.pairwise_cons.1 h).1
  pop_nil := rfl
  pop_cons x h hv := ⟨h, rfl, List.Perm.refl _, (List.pairwise_cons.1 hv).2⟩

/-- C50, C62 on a sequence of the Hilbert curve and its forgotten copy, without an upper bound: the run ends with a curve. -/
example : ∃ c', Zoo.hilbert.forget none false = some c' ∧ ∃ fuel lo up cs idxs,
    estimateSequence (m := Option) (sortedHeapQ _) (keyBounds Ratio.l2) Sat.choiceSolver (sortedSeqHeap 2) fuel [Zoo.hilbert, c'] ⟨1000, 4, none, ⟨none, fun n => n + 1⟩⟩ =
      some (.ok lo up cs idxs) ∧ up ≤ lo * (1001 / 1000) ∧ cs ≠ [] ∧ none ∉ cs := by
  obtain ⟨h, hk, h0, hc, hfill⟩ := hilbert_hyps
  obtain ⟨c', e1, e2, _⟩ := FCurve.C56_forget Zoo.hilbert none false (by decide +kernel) h h0 (by simp) (by simp [FCurve.InGroup])
  have hE := FCurve.C44_forgotten_curves Zoo.hilbert c' h h0 hc hfill none false (by simp) e1
  have hEs : ∀ c ∈ [Zoo.hilbert, c'], c.Estimable := by
    intro c hc
    rcases List.mem_cons.1 hc with rfl | hc
    · exact hilbert_estimable
    · rw [List.mem_singleton.1 hc]
      exact hE
  refine ⟨c', e1, ?_⟩
  obtain ⟨f0, hf0⟩ := C62_terminates (by decide) Ratio.l2 (by decide) [Zoo.hilbert, c'] hEs (sortedHeapQ _) (sortedSeqHeap 2) Sat.choiceSolver
    ⟨1000, 4, none, ⟨none, fun n => n + 1⟩⟩ (by decide) (by decide) rfl
  obtain ⟨res, g1, g2⟩ := hf0 f0 le_rfl
  obtain ⟨res', k1, k2, k3⟩ := C50_sequence (by decide) Ratio.l2 (by decide) [Zoo.hilbert, c'] hEs (sortedHeapQ _) (sortedSeqHeap 2) Sat.choiceSolver
    ⟨1000, 4, none, ⟨none, fun n => n + 1⟩⟩ (by decide) (by decide) f0
  rw [g1] at k1
  cases k1
  cases res with
  | outOfFuel => exact absurd rfl g2
  | absent =>
    obtain ⟨u, hu, _⟩ := k3 rfl c' (by simp)
    cases hu
  | ok lo up cs idxs =>
    obtain ⟨q1, q2, q0, q3, q4, q5, q6, q7, q8, q9⟩ := k2 lo up cs idxs rfl
    refine ⟨f0, lo, up, cs, idxs, g1, ?_, q9 (by simp)⟩
    norm_num at q3 ⊢
    exact q3

end Dilation
end Peano
