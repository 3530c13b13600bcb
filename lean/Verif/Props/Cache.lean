import Verif.Lemmas.CacheSim
import Verif.Props.Regular

set_option autoImplicit false

/-
Property C54: the memoization of the bounds of pairs has no effect on the results.
-/
namespace Peano
variable {d : ℕ}
namespace Dilation

/-- Contents of the cache of an estimator after any calls of the memoized method (successful or not, made by any completed or interrupted
estimates of any curves, with any arguments). -/
inductive Used (r : Ratio) (maxsize : ℕ) : Cache d → Prop
  | new : Used r maxsize []
  | call {cache : Cache d} (k : Key d) : Used r maxsize cache → Used r maxsize ((cachedBounds r maxsize k).run.run cache).2

theorem Used.ok {r : Ratio} {maxsize : ℕ} {cache : Cache d} (h : Used r maxsize cache) : Memo.OkPartial (keyBounds r) cache := by
  induction h with
  | new => exact fun _ h => absurd h List.not_mem_nil
  | call k _ ih => exact (Memo.callPartial_spec ih k).2

theorem sim_cachedBounds (r : Ratio) (maxsize : ℕ) (k : Key d) : Sim (Used r maxsize) (cachedBounds r maxsize k) (keyBounds r k) :=
  fun _ h => ⟨(Memo.callPartial_spec h.ok k).1, h.call k⟩

variable (r : Ratio) (maxsize : ℕ) (cache : Cache d) (h : Used r maxsize cache)
include h

/-- C54. Whatever the estimator was used for before, and whatever the size of the cache is, `estimate_dilation_regular` returns (or raises)
the same as without the cache. -/
theorem C54_regular (Q : HeapQ (HNode (BoundedPair d)) HNode.lt) (fuel : ℕ) (c : FCurve d) (p : RegularParams) :
    ((estimateRegular Q (cachedBounds r maxsize) fuel c p).run.run cache).1 = estimateRegular (m := Option) Q (keyBounds r) fuel c p ∧
      Used r maxsize ((estimateRegular Q (cachedBounds r maxsize) fuel c p).run.run cache).2 :=
  sim_estimateRegular (sim_cachedBounds r maxsize) fuel c p cache h

/-- C54 for `bisect_dilation_fuzzy`. -/
theorem C54_bisect (Q : HeapQ (HNode (BoundedPair d)) HNode.lt) (S : SatSolver) (fuel : ℕ) (c : FCurve d) (good bad : ℚ) (p : BisectParams)
    (tree : Option (ItemsHeap (BoundedPair d))) (adapter : Option (Sat.Adapter d)) :
    ((bisectFuzzy Q (cachedBounds r maxsize) S fuel c good bad p tree adapter).run.run cache).1 = bisectFuzzy (m := Option) Q (keyBounds r) S fuel c good bad p tree adapter ∧
      Used r maxsize ((bisectFuzzy Q (cachedBounds r maxsize) S fuel c good bad p tree adapter).run.run cache).2 :=
  sim_bisectFuzzy (sim_cachedBounds r maxsize) fuel c good bad p tree adapter cache h

/-- C54 for `estimate_dilation_fuzzy`. -/
theorem C54_fuzzy (Q : HeapQ (HNode (BoundedPair d)) HNode.lt) (S : SatSolver) (fuel : ℕ) (c : FCurve d) (p : FuzzyParams d) :
    ((estimateFuzzy Q (cachedBounds r maxsize) S fuel c p).run.run cache).1 = estimateFuzzy (m := Option) Q (keyBounds r) S fuel c p ∧
      Used r maxsize ((estimateFuzzy Q (cachedBounds r maxsize) S fuel c p).run.run cache).2 :=
  sim_estimateFuzzy (sim_cachedBounds r maxsize) fuel c p cache h

/-- C54 for `estimate_dilation_sequence`. -/
theorem C54_sequence (Q : HeapQ (HNode (BoundedPair d)) HNode.lt) (S : SatSolver) (H : HeapQ (SeqItem d) SeqItem.lt) (fuel : ℕ) (curves : List (FCurve d)) (p : SeqParams) :
    ((estimateSequence Q (cachedBounds r maxsize) S H fuel curves p).run.run cache).1 = estimateSequence (m := Option) Q (keyBounds r) S H fuel curves p ∧
      Used r maxsize ((estimateSequence Q (cachedBounds r maxsize) S H fuel curves p).run.run cache).2 :=
  sim_estimateSequence (sim_cachedBounds r maxsize) fuel curves p cache h

/-- C54. The cache never holds more than `cache_max_size` entries, and their keys are distinct. -/
theorem C54_size : cache.length ≤ maxsize ∧ (cache.map Prod.fst).Nodup := by
  induction h with
  | new => exact ⟨Nat.zero_le _, List.nodup_nil⟩
  | call k h0 ih =>
    rename_i cache
    obtain ⟨ih1, ih2⟩ := ih
    show (Memo.callPartial (keyBounds r) maxsize cache k).2.length ≤ maxsize ∧ ((Memo.callPartial (keyBounds r) maxsize cache k).2.map Prod.fst).Nodup
    unfold Memo.callPartial
    cases hl : cache.lookup k with
    | some v =>
      have hmem := Memo.lookup_mem hl
      constructor
      · have : (cache.filter fun e => e.1 ≠ k).length < cache.length := by
          apply List.length_filter_lt_length_iff_exists.2
          exact ⟨_, hmem, by simp⟩
        simp only [List.length_cons]
        omega
      · rw [List.map_cons, List.nodup_cons]
        refine ⟨?_, ih2.sublist (List.Sublist.map _ List.filter_sublist)⟩
        intro hk
        obtain ⟨e, he, hek⟩ := List.mem_map.1 hk
        have := (List.mem_filter.1 he).2
        simp [hek] at this
    | none =>
      dsimp only
      cases hf : keyBounds r k with
      | none => exact ⟨ih1, ih2⟩
      | some v =>
        refine ⟨by simp, ?_⟩
        refine List.Nodup.sublist (List.Sublist.map _ (List.take_sublist _ _)) ?_
        rw [List.map_cons, List.nodup_cons]
        refine ⟨?_, ih2⟩
        intro hk
        obtain ⟨e, he, hek⟩ := List.mem_map.1 hk
        have := List.lookup_eq_none_iff.1 hl e he
        simp only [bne_iff_ne, ne_eq, beq_eq_false_iff_ne] at this
        exact this hek.symm

omit h in
/-- A used cache that is full: the bounds of two pairs of fractions of the Hilbert curve were computed, the first one was evicted. -/
example : ∃ k1 k2 : Key 2, ∃ v, keyBounds Ratio.l2 k1 ≠ none ∧ k1 ≠ k2 ∧ Used Ratio.l2 1 [(k2, v)] := by
  let j : Junction 2 := (Zoo.hilbert.genAutoJunctions).head (by decide +kernel)
  let pos : ℕ → Cube 2 → PiecePos 2 := fun i x => ⟨2, [i], [x]⟩
  let k1 : Key 2 := ⟨j, pos 0 ![0, 0], pos 2 ![1, 1], [], []⟩
  let k2 : Key 2 := ⟨j, pos 0 ![0, 0], pos 3 ![1, 0], [], []⟩
  have h1 : (keyBounds Ratio.l2 k1).isSome = true := by decide +kernel
  have h2 : (keyBounds Ratio.l2 k2).isSome = true := by decide +kernel
  have h3 : k1 ≠ k2 := by decide +kernel
  obtain ⟨v1, e1⟩ := Option.isSome_iff_exists.1 h1
  obtain ⟨v2, e2⟩ := Option.isSome_iff_exists.1 h2
  refine ⟨k1, k2, v2, by rw [e1]; simp, h3, ?_⟩
  have hu := (Used.new.call (r := Ratio.l2) (maxsize := 1) k1).call k2
  have f1 : ((cachedBounds Ratio.l2 1 k1).run.run ([] : Cache 2)).2 = [(k1, v1)] := by
    show (Memo.callPartial (keyBounds Ratio.l2) 1 [] k1).2 = _
    unfold Memo.callPartial
    rw [List.lookup_nil]
    dsimp only
    rw [e1]
    rfl
  have f2 : ((cachedBounds Ratio.l2 1 k2).run.run ([(k1, v1)] : Cache 2)).2 = [(k2, v2)] := by
    show (Memo.callPartial (keyBounds Ratio.l2) 1 [(k1, v1)] k2).2 = _
    unfold Memo.callPartial
    rw [List.lookup_cons, beq_false_of_ne h3.symm, List.lookup_nil]
    dsimp only
    rw [e2]
    rfl
  rw [f1, f2] at hu
  exact hu

end Dilation
end Peano
