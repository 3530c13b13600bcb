import Verif.Lemmas.GatesCheck
import Verif.Lemmas.ListM

set_option autoImplicit false

/-! The candidates of `_gen_all_gates`. -/
namespace Peano
namespace GatesGen
variable {d : ℕ} {g : GatesGen d}

/-- The cube is in the grid. -/
def InRange (g : GatesGen d) (c : Cube d) : Prop := ∀ j, 0 ≤ c j ∧ c j < (g.div : ℤ)

/-- The cube touches the boundary of the big cube. -/
def AtBoundary (g : GatesGen d) (c : Cube d) : Prop := ∃ j, c j = 0 ∨ c j = (g.div : ℤ) - 1

theorem InRange.map {c : Cube d} (h : g.InRange c) (b : BaseMap d) : g.InRange (b.applyCube g.div c) := BaseMap.applyCube_mem b h

theorem mem_facetCubes {c : Cube d} : c ∈ g.facetCubes ↔ g.InRange c ∧ g.AtBoundary c := by
  unfold facetCubes
  rw [List.mem_filter, List.mem_map, decide_eq_true_iff]
  refine and_congr_left fun _ => ?_
  constructor
  · rintro ⟨l, hl, rfl⟩ j
    obtain ⟨h1, h2⟩ := Itertools.mem_productRepeat.1 hl
    have : l.getD j 0 ∈ l := by
      rw [List.getD_eq_getElem _ _ (by rw [h1]; exact j.2)]
      exact List.getElem_mem _
    obtain ⟨i, hi, he⟩ := List.mem_map.1 (h2 _ this)
    beta_reduce
    rw [← he]
    have := List.mem_range.1 hi
    omega
  · intro h
    refine ⟨List.ofFn c, ?_, ?_⟩
    · rw [Itertools.mem_productRepeat]
      refine ⟨by simp, ?_⟩
      intro a ha
      obtain ⟨j, rfl⟩ := List.mem_ofFn.1 ha
      refine List.mem_map.2 ⟨(c j).toNat, List.mem_range.2 ?_, ?_⟩
      · have := h j; omega
      · have := h j; simp; omega
    · funext j
      simp [List.getD_eq_getElem?_getD]

theorem pair_sublist {α : Type} {a b : α} {l : List α} (hab : a ≠ b) (ha : a ∈ l) (hb : b ∈ l) : [a, b].Sublist l ∨ [b, a].Sublist l := by
  induction l with
  | nil => simp at ha
  | cons x l ih =>
    rcases List.mem_cons.1 ha with rfl | ha'
    · rcases List.mem_cons.1 hb with rfl | hb'
      · exact absurd rfl hab
      · exact Or.inl (List.Sublist.cons_cons _ (List.singleton_sublist.2 hb'))
    · rcases List.mem_cons.1 hb with rfl | hb'
      · exact Or.inr (List.Sublist.cons_cons _ (List.singleton_sublist.2 ha'))
      · rcases ih ha' hb' with h | h
        · exact Or.inl (h.cons _)
        · exact Or.inr (h.cons _)

theorem mem_facetPairs {a b : Cube d} : (a, b) ∈ g.facetPairs ↔ [a, b].Sublist g.facetCubes := by
  unfold facetPairs
  rw [List.mem_filterMap]
  constructor
  · rintro ⟨l, hl, he⟩
    obtain ⟨h1, h2⟩ := Itertools.mem_combinations.1 hl
    match l, h2 with
    | [x, y], _ =>
      simp at he
      obtain ⟨rfl, rfl⟩ := he
      exact h1
  · intro h
    exact ⟨[a, b], Itertools.mem_combinations.2 ⟨h, rfl⟩, rfl⟩

/-- `pair'` is the image of the pair of first and last cube under a base map. -/
def PairImage (g : GatesGen d) (pair pair' : Cube d × Cube d) : Prop :=
  ∃ b : BaseMap d, pair'.1 = b.applyCube g.div (if b.timeRev then pair.2 else pair.1) ∧ pair'.2 = b.applyCube g.div (if b.timeRev then pair.1 else pair.2)

theorem pairImage_swap {a b : Cube d} {q : Cube d × Cube d} (h : g.PairImage (a, b) q) : g.PairImage (b, a) q := by
  obtain ⟨m, h1, h2⟩ := h
  refine ⟨m.invert, ?_, ?_⟩
  · rw [h1, BaseMap.applyCube_invert]
    cases hm : m.timeRev <;> simp [hm]
  · rw [h2, BaseMap.applyCube_invert]
    cases hm : m.timeRev <;> simp [hm]

theorem pyMin3_mem {α : Type} (lt : α → α → Bool) (a b c : α) : ∃ m, pyMin lt [a, b, c] = some m ∧ (m = a ∨ m = b ∨ m = c) := by
  unfold pyMin
  refine ⟨_, rfl, ?_⟩
  simp only [List.foldl_cons, List.foldl_nil]
  by_cases h1 : lt b a = true <;> by_cases h2 : lt c (if lt b a then b else a) = true <;> simp [h1] at h2 ⊢ <;> simp [h2]

theorem stdPair_image (pair : Cube d × Cube d) : g.PairImage pair (g.stdPair pair) := by
  unfold stdPair
  have key : ∀ (l : List (BaseMap d)) (q : Cube d × Cube d), (∀ b ∈ l, b.timeRev = false) → g.PairImage pair q →
      g.PairImage pair (l.foldl (fun minPair bm =>
        (pyMin pairLt [minPair, (bm.applyCube g.div pair.1, bm.applyCube g.div pair.2), (bm.applyCube g.div pair.2, bm.applyCube g.div pair.1)]).getD minPair) q) := by
    intro l
    induction l with
    | nil => exact fun q _ h => h
    | cons b l ih =>
      intro q hl hq
      rw [List.foldl_cons]
      apply ih _ fun b hb => hl b (List.mem_cons_of_mem _ hb)
      have hb := hl b (by simp)
      obtain ⟨m, h1, h2⟩ := pyMin3_mem pairLt q (b.applyCube g.div pair.1, b.applyCube g.div pair.2) (b.applyCube g.div pair.2, b.applyCube g.div pair.1)
      rw [h1, Option.getD_some]
      rcases h2 with rfl | rfl | rfl
      · exact hq
      · exact ⟨b, by simp [hb], by simp [hb]⟩
      · exact ⟨b.invert, by simp [hb], by simp [hb]⟩
  apply key
  · intro b hb
    exact BaseMap.mem_genBaseMaps.1 hb false rfl
  · exact ⟨1, by simp, by simp⟩

theorem mem_stdPairs {q : Cube d × Cube d} : q ∈ g.stdPairs ↔ ∃ p ∈ g.facetPairs, g.stdPair p = q := by
  unfold stdPairs
  rw [List.mem_insertionSort, List.mem_dedup, List.mem_map]

theorem stdPairs_range {q : Cube d × Cube d} (h : q ∈ g.stdPairs) : g.InRange q.1 ∧ g.InRange q.2 := by
  obtain ⟨⟨a, b⟩, hp, rfl⟩ := mem_stdPairs.1 h
  have hs := mem_facetPairs.1 hp
  have ha := (mem_facetCubes.1 (hs.subset (by simp : a ∈ [a, b]))).1
  have hb := (mem_facetCubes.1 (hs.subset (by simp : b ∈ [a, b]))).1
  obtain ⟨m, h1, h2⟩ := stdPair_image (g := g) (a, b)
  rw [h1, h2]
  constructor
  · apply InRange.map
    split
    · exact hb
    · exact ha
  · apply InRange.map
    split
    · exact ha
    · exact hb

theorem exists_stdPair {a b : Cube d} (hab : a ≠ b) (ha : a ∈ g.facetCubes) (hb : b ∈ g.facetCubes) : ∃ q ∈ g.stdPairs, g.PairImage (a, b) q := by
  rcases pair_sublist hab ha hb with h | h
  · exact ⟨g.stdPair (a, b), mem_stdPairs.2 ⟨_, mem_facetPairs.2 h, rfl⟩, stdPair_image _⟩
  · exact ⟨g.stdPair (b, a), mem_stdPairs.2 ⟨_, mem_facetPairs.2 h, rfl⟩, pairImage_swap (stdPair_image _)⟩

/-! ### Candidates -/

/-- First or last cube of the pair. -/
def pairEnd (p : Cube d × Cube d) (last : Bool) : Cube d := if last then p.2 else p.1

/-- The prototype of a pair. -/
def protoOf (g : GatesGen d) (p : Cube d × Cube d) : Proto d := ((List.replicate (g.div ^ d) none).set 0 (some p.1)).set (g.div ^ d - 1) (some p.2)

theorem pairProto_eq (hn : 2 ≤ g.div ^ d) (p : Cube d × Cube d) : g.pairProto p = some (g.protoOf p) := by
  unfold pairProto
  have : (List.replicate (g.div ^ d) (none : Option (Cube d))).isEmpty = false := by
    rw [List.isEmpty_eq_false_iff]
    intro h
    have := congrArg List.length h
    rw [List.length_replicate, List.length_nil] at this
    omega
  simp only [this]
  simp [protoOf, endPos]

theorem protoOf_length (p : Cube d × Cube d) : (g.protoOf p).length = g.div ^ d := by simp [protoOf]

theorem protoOf_end (hn : 2 ≤ g.div ^ d) (p : Cube d × Cube d) (last : Bool) : endCube (g.protoOf p) last = some (pairEnd p last) := by
  unfold endCube Proto.cube? endPos
  rw [protoOf_length]
  unfold protoOf pairEnd
  cases last
  · simp only [Bool.false_eq_true, if_false]
    rw [List.getElem?_set_ne (by omega), List.getElem?_set_self (by simp; omega)]
    rfl
  · simp only [if_true]
    rw [List.getElem?_set_self (by simp; omega)]
    rfl

theorem endCube_act {p : Proto d} (hp : p ≠ []) (b : BaseMap d) (last : Bool) :
    endCube (p.act g.div b) last = (endCube p (xor last b.timeRev)).map (b.applyCube g.div) := by
  have hl : 0 < p.length := List.length_pos_iff.2 hp
  unfold endCube endPos
  rw [Proto.length_act, Proto.cube?_act _ _ _ _ (by split <;> omega)]
  congr 2
  unfold BaseMap.applyCnum
  cases last <;> cases b.timeRev <;> simp

theorem protoOf_mem {p : Cube d × Cube d} {c : Cube d} (h : some c ∈ g.protoOf p) : c = p.1 ∨ c = p.2 := by
  unfold protoOf at h
  rcases List.mem_or_eq_of_mem_set h with h | h
  · rcases List.mem_or_eq_of_mem_set h with h | h
    · have := List.eq_of_mem_replicate h
      simp at this
    · exact Or.inl (Option.some.inj h)
  · exact Or.inr (Option.some.inj h)

theorem filterOpt_eq {α : Type} {f : α → Option Bool} {b : α → Bool} {l : List α} (h : ∀ a ∈ l, f a = some (b a)) : filterOpt f l = some (l.filter b) := by
  induction l with
  | nil => rfl
  | cons a l ih =>
    unfold filterOpt
    rw [h a (by simp), ih fun x hx => h x (List.mem_cons_of_mem _ hx)]
    by_cases hb : b a = true <;> simp [hb]

/-- The spec may stand in the given end position. -/
def MayTouch (g : GatesGen d) (pairs : List (Cube d × Cube d)) (p : ℕ) (last : Bool) (s : Spec d) : Prop :=
  ∃ q r, pairs[p]? = some q ∧ pairs[s.pnum]? = some r ∧
    g.touchSameFacet (pairEnd q last) (s.baseMap.applyCube g.div (pairEnd r (xor last s.baseMap.timeRev))) = true

theorem touchSpecs_spec (hn : 2 ≤ g.div ^ d) {pairs : List (Cube d × Cube d)} (hlen : pairs.length = g.mult) {p : ℕ} (hp : p < g.mult) (last : Bool) :
    ∃ l, g.touchSpecs (pairs.map g.protoOf) p last = some l ∧ ∀ s, s ∈ l ↔ s.pnum < g.mult ∧ g.MayTouch pairs p last s := by
  have hne : ∀ r, g.protoOf r ≠ [] := by
    intro r h
    have := protoOf_length (g := g) r
    rw [h] at this
    simp at this
    omega
  have hq := List.getElem?_eq_getElem (show p < pairs.length by omega)
  have key : ∀ pn ∈ List.range g.mult, (do
      let bms ← filterOpt (fun bm => do
        let p ← (pairs.map g.protoOf)[p]?
        let cube1 ← endCube p last
        let q ← (pairs.map g.protoOf)[pn]?
        let cube2 ← endCube (q.act g.div bm) last
        return g.touchSameFacet cube1 cube2) (BaseMap.genBaseMaps d none)
      return bms.map fun bm => (⟨bm, pn⟩ : Spec d)) =
      some (((BaseMap.genBaseMaps d none).filter fun bm => g.touchSameFacet (pairEnd pairs[p] last)
        (bm.applyCube g.div (pairEnd (pairs[pn]?.getD default) (xor last bm.timeRev)))).map fun bm => (⟨bm, pn⟩ : Spec d)) := by
    intro pn hpn
    have hpn := List.mem_range.1 hpn
    have hr := List.getElem?_eq_getElem (show pn < pairs.length by omega)
    rw [filterOpt_eq (b := fun bm => g.touchSameFacet (pairEnd pairs[p] last)
        (bm.applyCube g.div (pairEnd (pairs[pn]?.getD default) (xor last bm.timeRev))))]
    · rfl
    · intro bm _
      simp only [List.getElem?_map, hq, hr, Option.map_some, Option.bind_eq_bind, Option.bind_some, protoOf_end hn, endCube_act (hne _), Option.getD_some, Option.pure_def]
  refine ⟨((List.range g.mult).map fun pn => ((BaseMap.genBaseMaps d none).filter fun bm => g.touchSameFacet (pairEnd pairs[p] last)
        (bm.applyCube g.div (pairEnd (pairs[pn]?.getD default) (xor last bm.timeRev)))).map fun bm => (⟨bm, pn⟩ : Spec d)).flatten, ?_, ?_⟩
  · unfold touchSpecs
    rw [mapM_eq_some_map key]
    rfl
  · intro s
    simp only [List.mem_flatten, List.mem_map, List.mem_range, exists_exists_and_eq_and, List.mem_filter]
    constructor
    · rintro ⟨pn, hpn, bm, ⟨_, h⟩, rfl⟩
      have hr := List.getElem?_eq_getElem (show pn < pairs.length by omega)
      refine ⟨hpn, pairs[p], pairs[pn], hq, hr, ?_⟩
      rw [hr] at h
      exact h
    · rintro ⟨hs, q, r, h1, h2, h3⟩
      refine ⟨s.pnum, hs, s.baseMap, ⟨BaseMap.mem_genBaseMaps.2 (by simp), ?_⟩, rfl⟩
      rw [h2]
      rw [hq] at h1
      cases h1
      exact h3

theorem pairsCandidate_spec (hn : 2 ≤ g.div ^ d) {pairs : List (Cube d × Cube d)} (hlen : pairs.length = g.mult)
    (hr : ∀ q ∈ pairs, g.InRange q.1 ∧ g.InRange q.2) :
    ∃ dict, g.pairsCandidate pairs = some (pairs.map g.protoOf, dict) ∧ g.ArgsOK (pairs.map g.protoOf, dict) ∧
      ∀ S : ℕ → Bool → Spec d, (∀ p < g.mult, ∀ last, (S p last).pnum < g.mult ∧ g.MayTouch pairs p last (S p last)) →
        List.Forall₂ (· ∈ ·) ((boundary g.mult).map fun x => S x.1 x.2) dict := by
  have hex : ∀ e : ℕ × Bool, ∃ l, e ∈ boundary g.mult → g.touchSpecs (pairs.map g.protoOf) e.1 e.2 = some l ∧
      ∀ s, s ∈ l ↔ s.pnum < g.mult ∧ g.MayTouch pairs e.1 e.2 s := by
    intro e
    by_cases he : e ∈ boundary g.mult
    · obtain ⟨l, hl⟩ := touchSpecs_spec hn hlen (mem_boundary.1 he) e.2
      exact ⟨l, fun _ => hl⟩
    · exact ⟨[], fun h => absurd h he⟩
  choose T hT using hex
  refine ⟨(boundary g.mult).map T, ?_, ⟨by simp [length_boundary], ?_⟩, ?_⟩
  · unfold pairsCandidate
    rw [mapM_eq_some_map (g := g.protoOf) (fun q _ => pairProto_eq hn q)]
    simp only [Option.bind_eq_bind, Option.bind_some]
    rw [mapM_eq_some_map (g := T) (fun e he => (hT e he).1)]
    rfl
  · intro S hS
    simp only at hS ⊢
    rw [List.forall₂_map_left_iff, List.forall₂_map_right_iff, List.forall₂_same] at hS
    exact {
      length := by simp [hlen]
      proto_length := by
        intro p hp
        obtain ⟨q, _, rfl⟩ := List.mem_map.1 hp
        exact protoOf_length q
      cube_range := by
        intro p hp c hc
        obtain ⟨q, hq, rfl⟩ := List.mem_map.1 hp
        rcases protoOf_mem hc with rfl | rfl
        · exact (hr q hq).1
        · exact (hr q hq).2
      ends := by
        intro p hp last
        obtain ⟨q, _, rfl⟩ := List.mem_map.1 hp
        rw [protoOf_end hn]; rfl
      spec_range := by
        intro p hp last
        have he : (p, last) ∈ boundary g.mult := mem_boundary.2 hp
        exact ((hT _ he).2 _).1 (hS _ he) |>.1 }
  · intro S hS
    rw [List.forall₂_map_left_iff, List.forall₂_map_right_iff, List.forall₂_same]
    intro e he
    exact ((hT e he).2 _).2 (hS e.1 (mem_boundary.1 he) e.2)

theorem inv_init : g.Inv ⟨[], []⟩ [] := ⟨by simp, by simp, by simp, by simp, by simp⟩

/-- Summary: the generator does not raise; what it yields; which candidates are processed. -/
theorem genAllGates_spec (hdiv : 2 ≤ g.div) (hd : 1 ≤ d) (hash : Hash d) : ∃ out seen, g.genAllGates hash = some out ∧ g.Inv seen out ∧
    ∀ pairs : List (Cube d × Cube d), pairs ∈ Itertools.combinationsWithReplacement g.stdPairs g.mult → ∀ S : ℕ → Bool → Spec d,
      (∀ p < g.mult, ∀ last, (S p last).pnum < g.mult ∧ g.MayTouch pairs p last (S p last)) → g.Processed seen (pairs.map g.protoOf) S := by
  have hn : 2 ≤ g.div ^ d := le_trans hdiv (Nat.le_self_pow (by omega) _)
  have hcw : ∀ pairs ∈ Itertools.combinationsWithReplacement g.stdPairs g.mult, ∃ dict, g.pairsCandidate pairs = some (pairs.map g.protoOf, dict) ∧
      g.ArgsOK (pairs.map g.protoOf, dict) ∧
      ∀ S : ℕ → Bool → Spec d, (∀ p < g.mult, ∀ last, (S p last).pnum < g.mult ∧ g.MayTouch pairs p last (S p last)) →
        List.Forall₂ (· ∈ ·) ((boundary g.mult).map fun x => S x.1 x.2) dict := by
    intro pairs hpairs
    obtain ⟨h1, h2⟩ := Itertools.cwr_mem hpairs
    exact pairsCandidate_spec hn h1 fun q hq => stdPairs_range (h2 q hq)
  obtain ⟨cands, hc⟩ := mapM_some_of g.pairsCandidate _ fun pairs hpairs => by
    obtain ⟨dict, h, _⟩ := hcw pairs hpairs
    exact ⟨_, h⟩
  obtain ⟨hc, hf2⟩ := hc
  have hok : ∀ e ∈ cands, g.ArgsOK e := by
    intro e he
    obtain ⟨i, hi⟩ := List.mem_iff_getElem?.1 he
    obtain ⟨pairs, hp, hrel⟩ := forall₂_getElem? hf2 i e hi
    obtain ⟨dict, h1, h2, _⟩ := hcw pairs (List.mem_of_getElem? hp)
    rw [h1] at hrel
    cases hrel
    exact h2
  obtain ⟨seen, r, h1, h2, _, h4⟩ := candidatesLoop_spec hdiv hd hash cands inv_init hok
  refine ⟨r, seen, ?_, by simpa using h2, ?_⟩
  · unfold genAllGates
    simp only [hc, Option.bind_eq_bind, Option.bind_some, h1, Option.pure_def]
  · intro pairs hpairs S hS
    obtain ⟨dict, k1, _, k3⟩ := hcw pairs hpairs
    obtain ⟨i, hi⟩ := List.mem_iff_getElem?.1 hpairs
    obtain ⟨e, he, hrel⟩ := forall₂_getElem?' hf2 i pairs hi
    replace he := List.mem_of_getElem? he
    rw [k1] at hrel
    cases hrel
    exact h4 _ he S (k3 S hS)

end GatesGen
end Peano
