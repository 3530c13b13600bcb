import Verif.Model.Dilation
import Verif.Lemmas.Memo

set_option autoImplicit false

/-
Lemmas for C54: computations with the cache give the same results as computations without it.
-/
namespace Peano.Memo
variable {κ ν : Type} [DecidableEq κ]

/-- Every entry is right. -/
def OkPartial (f : κ → Option ν) (st : State κ ν) : Prop := ∀ e ∈ st, f e.1 = some e.2

theorem callPartial_spec {f : κ → Option ν} {m : Nat} {st : State κ ν} (h : OkPartial f st) (k : κ) :
    (callPartial f m st k).1 = f k ∧ OkPartial f (callPartial f m st k).2 := by
  unfold callPartial
  cases hl : st.lookup k with
  | none =>
    dsimp only
    cases hf : f k with
    | none => exact ⟨rfl, h⟩
    | some v =>
      refine ⟨rfl, ?_⟩
      intro e he
      have he := List.mem_of_mem_take he
      rcases List.mem_cons.1 he with rfl | he
      · exact hf
      · exact h e he
  | some v =>
    have hv : f k = some v := h _ (lookup_mem hl)
    refine ⟨hv.symm, ?_⟩
    intro e he
    rcases List.mem_cons.1 he with rfl | he
    · exact hv
    · exact h e (List.mem_filter.1 he).1

end Peano.Memo

namespace Peano
variable {d : ℕ}
namespace Dilation

/-- From each state with the invariant, the computation with state gives the value (or exception) `y` and a state with the invariant. -/
def Sim {α : Type} (P : Cache d → Prop) (x : CacheM d α) (y : Option α) : Prop := ∀ s, P s → (x.run.run s).1 = y ∧ P (x.run.run s).2

variable {α β : Type} {P : Cache d → Prop}

theorem Sim.pure (a : α) : Sim P (Pure.pure a : CacheM d α) (Pure.pure a) := fun _ h => ⟨rfl, h⟩

theorem Sim.lift (o : Option α) : Sim P (liftM o : CacheM d α) (liftM o : Option α) := fun _ h => ⟨rfl, h⟩

theorem Sim.bind {x : CacheM d α} {y : Option α} {f : α → CacheM d β} {g : α → Option β} (hx : Sim P x y) (hf : ∀ a, Sim P (f a) (g a)) :
    Sim P (x >>= f) (y >>= g) := by
  intro s hs
  obtain ⟨h1, h2⟩ := hx s hs
  have e : (x >>= f).run.run s = match x.run.run s with
    | (some a, s') => (f a).run.run s'
    | (none, s') => (none, s') := by
    rw [OptionT.run_bind, Option.elimM, StateT.run_bind]
    rcases h : x.run.run s with ⟨_ | a, s'⟩ <;> rfl
  rw [e]
  rcases h : x.run.run s with ⟨_ | a, s'⟩
  · rw [h] at h1 h2
    rw [← h1]
    exact ⟨rfl, h2⟩
  · rw [h] at h1 h2
    rw [← h1]
    exact hf a s' h2

theorem Sim.ite {c : Prop} [Decidable c] {x x' : CacheM d α} {y y' : Option α} (h1 : Sim P x y) (h2 : Sim P x' y') : Sim P (if c then x else x') (if c then y else y') := by
  by_cases h : c
  · rw [if_pos h, if_pos h]; exact h1
  · rw [if_neg h, if_neg h]; exact h2

theorem Sim.foldlM {f : β → α → CacheM d β} {g : β → α → Option β} (h : ∀ b a, Sim P (f b a) (g b a)) (l : List α) : ∀ b, Sim P (l.foldlM f b) (l.foldlM g b) := by
  induction l with
  | nil => intro b; exact Sim.pure b
  | cons a l ih =>
    intro b
    rw [List.foldlM_cons, List.foldlM_cons]
    exact (h b a).bind ih

section estimator
variable {Q : HeapQ (HNode (BoundedPair d)) HNode.lt} {B : Key d → CacheM d (PairBounds d)} {B' : Key d → Option (PairBounds d)}
variable (hB : ∀ k, Sim P (B k) (B' k))
include hB

theorem sim_getBounds (stash : Stash d) (pair : PiecePair d) : Sim P (getBounds B stash pair) (getBounds B' stash pair) :=
  (Sim.lift _).bind fun _ => hB _

theorem sim_pushTree (stash : Stash d) (tree : ItemsHeap (BoundedPair d)) (pair : PiecePair d) : Sim P (pushTree Q B stash tree pair) (pushTree Q B' stash tree pair) :=
  (sim_getBounds hB stash pair).bind fun _ => Sim.pure _

theorem sim_createTree (curve : FCurve d) (good bad : Option ℚ) (keepMax : Bool) (stash : Stash d) :
    Sim P (createTree Q B curve good bad keepMax stash) (createTree Q B' curve good bad keepMax stash) :=
  (Sim.lift _).bind fun _ => Sim.foldlM (fun _ _ => (Sim.lift _).bind fun _ => sim_pushTree hB _ _ _) _ _

theorem sim_divideTree (stash : Stash d) (tree : ItemsHeap (BoundedPair d)) : Sim P (divideTree Q B stash tree) (divideTree Q B' stash tree) :=
  (Sim.lift _).bind fun _ => (Sim.lift _).bind fun _ => Sim.foldlM (fun _ _ => sim_pushTree hB _ _ _) _ _

theorem sim_regularInit (curve : FCurve d) (stash : Stash d) : Sim P (regularInit Q B curve stash) (regularInit Q B' curve stash) :=
  (sim_createTree hB _ _ _ _ _).bind fun _ => (Sim.lift _).bind fun _ => (Sim.lift _).bind fun _ => (Sim.lift _).bind fun _ => Sim.pure _

theorem sim_regularStep (stash : Stash d) (st : RegularState d) : Sim P (regularStep Q B stash st) (regularStep Q B' stash st) := by
  refine (sim_divideTree hB _ _).bind fun tree => (Sim.lift _).bind fun item => ?_
  exact Sim.ite ((Sim.lift _).bind fun _ => (Sim.pure _).bind fun _ => (Sim.lift _).bind fun _ => Sim.pure _)
    ((Sim.pure _).bind fun _ => (Sim.lift _).bind fun _ => Sim.pure _)

theorem sim_regularLoop (p : RegularParams) (tol : Option ℚ) (stash : Stash d) (fuel : ℕ) : ∀ n st,
    Sim P (regularLoop Q B p tol stash fuel n st) (regularLoop Q B' p tol stash fuel n st) := by
  induction fuel with
  | zero => intro n st; exact Sim.pure _
  | succ fuel ih =>
    intro n st
    exact Sim.ite (Sim.pure _) ((sim_regularStep hB _ _).bind fun _ => ih _ _)

theorem sim_estimateRegular (fuel : ℕ) (curve : FCurve d) (p : RegularParams) : Sim P (estimateRegular Q B fuel curve p) (estimateRegular Q B' fuel curve p) := by
  obtain ⟨tol, mi, fd, md⟩ := p
  have h : ∀ stash tolv, Sim P (regularInit Q B curve stash >>= fun st => regularLoop Q B ⟨tol, mi, fd, md⟩ tolv stash fuel 0 st)
      (regularInit Q B' curve stash >>= fun st => regularLoop Q B' ⟨tol, mi, fd, md⟩ tolv stash fuel 0 st) := fun stash tolv =>
    (sim_regularInit hB _ _).bind fun _ => sim_regularLoop hB _ _ _ _ _ _
  cases fd <;> cases tol
  · exact (Sim.pure _).bind fun _ => (Sim.pure _).bind fun _ => h _ _
  · exact (Sim.pure _).bind fun _ => (Sim.lift _).bind fun _ => (Sim.pure _).bind fun _ => h _ _
  · exact (Sim.lift _).bind fun _ => (Sim.pure _).bind fun _ => (Sim.pure _).bind fun _ => h _ _
  · exact (Sim.lift _).bind fun _ => (Sim.pure _).bind fun _ => (Sim.lift _).bind fun _ => (Sim.pure _).bind fun _ => h _ _

variable {S : SatSolver}

theorem sim_bisectLoop (p : BisectParams) (fuel : ℕ) : ∀ n sat tree adapter,
    Sim P (bisectLoop Q B S p fuel n sat tree adapter) (bisectLoop Q B' S p fuel n sat tree adapter) := by
  induction fuel with
  | zero => intro n sat tree adapter; exact Sim.ite (Sim.pure _) (Sim.pure _)
  | succ fuel ih =>
    intro n sat tree adapter
    exact Sim.ite (Sim.ite (Sim.pure _) ((sim_divideTree hB _ _).bind fun _ => Sim.ite (ih _ _ _ _) (Sim.ite (Sim.pure _) (ih _ _ _ _)))) (Sim.pure _)

omit hB in
theorem sim_bisectFinish (curve : FCurve d) (e : BisectEnd d) : Sim P (bisectFinish (m := CacheM d) S curve e) (bisectFinish (m := Option) S curve e) := by
  cases e with
  | empty adapter =>
    unfold bisectFinish
    dsimp only
    cases S.solve adapter.intClauses with
    | none => exact Sim.pure _
    | some model => exact (Sim.lift _).bind fun _ => Sim.pure _
  | _ => exact Sim.pure _

theorem sim_bisectFuzzy (fuel : ℕ) (curve : FCurve d) (good bad : ℚ) (p : BisectParams) (tree : Option (ItemsHeap (BoundedPair d))) (adapter : Option (Sat.Adapter d)) :
    Sim P (bisectFuzzy Q B S fuel curve good bad p tree adapter) (bisectFuzzy Q B' S fuel curve good bad p tree adapter) := by
  have h : ∀ t a, Sim P (bisectLoop Q B S p fuel 0 1 (forbid t a).1 (forbid t a).2 >>= fun e => bisectFinish S curve e)
      (bisectLoop Q B' S p fuel 0 1 (forbid t a).1 (forbid t a).2 >>= fun e => bisectFinish S curve e) := fun t a =>
    (sim_bisectLoop hB _ _ _ _ _ _).bind fun _ => sim_bisectFinish _ _
  cases tree <;> cases adapter
  · exact (sim_createTree hB _ _ _ _ _).bind fun _ => (Sim.lift _).bind fun _ => h _ _
  · exact (sim_createTree hB _ _ _ _ _).bind fun _ => h _ _
  · exact (Sim.lift _).bind fun _ => (Sim.lift _).bind fun _ => h _ _
  · exact (Sim.lift _).bind fun _ => h _ _

theorem sim_fuzzyLoop (fuel : ℕ) (curve : FCurve d) (p : FuzzyParams d) (tol : ℚ) (tree : ItemsHeap (BoundedPair d)) (adapter : Sat.Adapter d) (n : ℕ) :
    ∀ curr lo up, Sim P (fuzzyLoop Q B S fuel curve p tol tree adapter n curr lo up) (fuzzyLoop Q B' S fuel curve p tol tree adapter n curr lo up) := by
  induction n with
  | zero => intro curr lo up; exact Sim.ite (Sim.pure _) (Sim.pure _)
  | succ n ih =>
    intro curr lo up
    refine Sim.ite ?_ (Sim.pure _)
    refine (sim_bisectFuzzy hB _ _ _ _ _ _ _).bind fun out => ?_
    cases out with
    | found c => exact Sim.ite (Sim.pure _) (ih _ _ _)
    | absent => exact Sim.ite (Sim.pure _) (ih _ _ _)
    | _ => exact Sim.pure _

theorem sim_fuzzyStart (fuel : ℕ) (curve : FCurve d) (p : FuzzyParams d) : Sim P (fuzzyStart Q B fuel curve p) (fuzzyStart Q B' fuel curve p) := by
  obtain ⟨a, b, c, u, e, f⟩ := p
  cases u with
  | some u => exact Sim.pure _
  | none =>
    refine (Sim.lift _).bind fun _ => (sim_estimateRegular hB _ _ _).bind fun out => ?_
    cases out <;> exact Sim.pure _

theorem sim_estimateFuzzy (fuel : ℕ) (curve : FCurve d) (p : FuzzyParams d) : Sim P (estimateFuzzy Q B S fuel curve p) (estimateFuzzy Q B' S fuel curve p) := by
  refine (sim_fuzzyStart hB _ _ _).bind fun out => ?_
  cases out with
  | none => exact Sim.pure _
  | some y => exact (sim_createTree hB _ _ _ _ _).bind fun _ => (Sim.lift _).bind fun _ => (Sim.lift _).bind fun _ => sim_fuzzyLoop hB _ _ _ _ _ _ _ _ _ _

variable {H : HeapQ (SeqItem d) SeqItem.lt}

theorem sim_seqEpoch (fuel : ℕ) (p : SeqParams) (rel : ℤ) (first : Bool) (rest : List (SeqItem d)) : ∀ cu act,
    Sim P (seqEpoch Q B S H fuel p rel first rest cu act) (seqEpoch Q B' S H fuel p rel first rest cu act) := by
  induction rest with
  | nil => intro cu act; exact Sim.pure _
  | cons item rest ih =>
    intro cu act
    refine (Sim.lift _).bind fun _ => (sim_estimateFuzzy hB _ _ _).bind fun out => ?_
    cases out with
    | outOfFuel => exact Sim.pure _
    | ok curve lo up => exact (Sim.lift _).bind fun _ => ih _ _

theorem sim_seqLoop (fuel : ℕ) (p : SeqParams) (tol : ℚ) (n : ℕ) : ∀ first rel active lo cu,
    Sim P (seqLoop Q B S H fuel p tol n first rel active lo cu) (seqLoop Q B' S H fuel p tol n first rel active lo cu) := by
  induction n with
  | zero => intro first rel active lo cu; exact Sim.ite (Sim.pure _) ((Sim.lift _).bind fun _ => Sim.pure _)
  | succ n ih =>
    intro first rel active lo cu
    refine Sim.ite ?_ ((Sim.lift _).bind fun _ => Sim.pure _)
    refine (sim_seqEpoch hB _ _ _ _ _ _ _).bind fun out => ?_
    cases out with
    | none => exact Sim.pure _
    | some y => exact Sim.ite (Sim.pure _) ((Sim.lift _).bind fun _ => ih _ _ _ _ _)

theorem sim_estimateSequence (fuel : ℕ) (curves : List (FCurve d)) (p : SeqParams) :
    Sim P (estimateSequence Q B S H fuel curves p) (estimateSequence Q B' S H fuel curves p) :=
  (Sim.lift _).bind fun _ => sim_seqLoop hB _ _ _ _ _ _ _ _ _

end estimator
end Dilation
end Peano
