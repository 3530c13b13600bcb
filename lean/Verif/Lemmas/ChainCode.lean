import Verif.Model.ChainCode
import Verif.Lemmas.Order
import Verif.Lemmas.RawBaseMap
import Mathlib.Order.Lex
import Mathlib.Data.List.Lex
import Mathlib.Data.List.Chain
import Mathlib.Data.List.Dedup
import Mathlib.Tactic.Linarith

/-! Lemmas for the chain code round-trip (C36). -/
namespace Peano
namespace RawProto

/-- letters of a shift -/
def deltaLetters (δ : List ℤ) : List Char :=
  (δ.zip basisLetters).filterMap fun e => if e.1 = 1 then some e.2 else if e.1 = -1 then some (pyUpper e.2) else none

theorem stepLetters_eq (a b : List ℤ) : stepLetters a b = deltaLetters (List.zipWith (fun n c => n - c) b a) := rfl

/-- all shifts with coordinates -1, 0, 1 -/
def deltas : ℕ → List (List ℤ)
  | 0 => [[]]
  | n + 1 => (deltas n).flatMap fun l => [(-1) :: l, 0 :: l, 1 :: l]

theorem mem_deltas (δ : List ℤ) (h : ∀ x ∈ δ, x = -1 ∨ x = 0 ∨ x = 1) : δ ∈ deltas δ.length := by
  induction δ with
  | nil => simp [deltas]
  | cons a l ih =>
    simp only [List.length_cons, deltas, List.mem_flatMap]
    refine ⟨l, ih fun x hx => h x (List.mem_cons_of_mem _ hx), ?_⟩
    rcases h a (by simp) with h | h | h <;> simp [h]

theorem deltas_table : ∀ n : Fin 7, ∀ δ ∈ deltas n, groupDelta n (deltaLetters δ) = some δ ∧ (deltaLetters δ).all isWord ∧
    (δ.any (· ≠ 0) → deltaLetters δ ≠ []) ∧
    (∀ j : Fin 6, basisLetters.getD j 'i' ∈ (deltaLetters δ).map pyLower ↔ δ.getD j 0 ≠ 0) ∧
    ∀ l ∈ (deltaLetters δ).map pyLower, l ∈ basisLetters.take n := by decide +kernel

theorem chainGroups_str (gs : List (List Char)) (h : ∀ g ∈ gs, g ≠ [] ∧ g.all isWord) (n : ℕ) (hn : ((gs.map groupStr).flatten).length ≤ n) :
    chainGroups n (gs.map groupStr).flatten = gs := by
  induction gs generalizing n with
  | nil => cases n <;> simp [chainGroups]
  | cons g gs ih =>
    obtain ⟨hg, hgs⟩ := List.forall_mem_cons.1 h
    obtain ⟨hne, hw⟩ := hg
    have step : ∀ m c rest, isWord c = true → chainGroups (m + 1) (c :: rest) = [c] :: chainGroups m rest := by
      intro m c rest hc
      simp [chainGroups, hc]
    rcases g with _ | ⟨a, _ | ⟨b, t⟩⟩
    · exact absurd rfl hne
    · have ha : isWord a = true := by simpa using hw
      simp only [List.map_cons, List.flatten_cons, groupStr, List.singleton_append, List.length_cons] at hn ⊢
      obtain ⟨m, rfl⟩ : ∃ m, n = m + 1 := ⟨n - 1, by omega⟩
      rw [step _ _ _ ha, ih hgs m (by omega)]
    · simp only [List.map_cons, List.flatten_cons, groupStr] at hn ⊢
      obtain ⟨m, rfl⟩ : ∃ m, n = m + 1 := ⟨n - 1, by simp at hn; omega⟩
      set rest := (gs.map groupStr).flatten with hrest
      have e : ['('] ++ a :: b :: t ++ [')'] ++ rest = '(' :: ((a :: b :: t) ++ ')' :: rest) := by simp
      have hw' : ∀ x ∈ a :: b :: t, isWord x = true := by simpa [List.all_eq_true] using hw
      have e1 : ((a :: b :: t) ++ ')' :: rest).takeWhile isWord = a :: b :: t := by
        rw [List.takeWhile_append_of_pos hw']
        have : isWord ')' = false := by decide
        simp [this]
      have e2 : ((a :: b :: t) ++ ')' :: rest).dropWhile isWord = ')' :: rest := by
        rw [List.dropWhile_append_of_pos hw']
        have : isWord ')' = false := by decide
        simp [this]
      have h0 : isWord '(' = false := by decide
      rw [e]
      simp only [chainGroups, h0, Bool.false_eq_true, if_false, if_true, e1, e2]
      rw [ih hgs m (by simp at hn ⊢; omega)]

/-- shift of a cube -/
def sub (v a : List ℤ) : List ℤ := List.zipWith (· - ·) a v

theorem sub_length {v a : List ℤ} {n : ℕ} (hv : v.length = n) (ha : a.length = n) : (sub v a).length = n := by
  simp [sub, hv, ha]

theorem add_sub {n : ℕ} {v a b : List ℤ} (hv : v.length = n) (ha : a.length = n) (hb : b.length = n) :
    List.zipWith (· + ·) (sub v a) (List.zipWith (fun n c => n - c) b a) = sub v b := by
  refine List.ext_getElem (by simp [sub, hv, ha, hb]) fun i h1 h2 => ?_
  simp [sub]

theorem sub_sub_zero {n : ℕ} {v a : List ℤ} (hv : v.length = n) (ha : a.length = n) :
    sub (sub v (List.replicate n 0)) (sub v a) = a := by
  refine List.ext_getElem (by simp [sub, hv, ha]) fun i h1 h2 => ?_
  simp [sub]

theorem sub_self_eq {n : ℕ} {v : List ℤ} (hv : v.length = n) : sub v v = List.replicate n 0 := by
  refine List.ext_getElem (by simp [sub, hv]) fun i h1 h2 => ?_
  simp [sub]

theorem cubesLoop_eq {n : ℕ} (v : List ℤ) (hv : v.length = n) (a : List ℤ) (l : List (List ℤ)) (hl : ∀ c ∈ a :: l, c.length = n)
    (hg : ∀ e ∈ (a :: l).zip l, groupDelta n (stepLetters e.1 e.2) = some (List.zipWith (fun n c => n - c) e.2 e.1)) :
    cubesLoop n (sub v a) (((a :: l).zip l).map fun e => stepLetters e.1 e.2) = some (l.map (sub v)) := by
  induction l generalizing a with
  | nil => simp [cubesLoop]
  | cons b l ih =>
    simp only [List.zip_cons_cons, List.map_cons, cubesLoop]
    rw [hg (a, b) (by simp)]
    simp only [Option.bind_eq_bind, Option.bind_some, Option.pure_def]
    rw [add_sub hv (hl a (by simp)) (hl b (by simp)), ih b (fun c hc => hl c (List.mem_cons_of_mem _ hc))]
    · simp
    · intro e he
      exact hg e (by simp only [List.zip_cons_cons, List.mem_cons]; exact Or.inr he)

theorem tupleLt_keyOrder : KeyOrder tupleLt (fun a : List ℤ => a) where
  lt_iff := by intro a b; simp [tupleLt]
  inj := fun _ _ h => h

/-- a coordinate constant along the steps is constant -/
theorem const_coord (j : ℕ) (a : List ℤ) (l : List (List ℤ)) (h : ∀ e ∈ (a :: l).zip l, e.1.getD j 0 = e.2.getD j 0) :
    ∀ c ∈ a :: l, c.getD j 0 = a.getD j 0 := by
  induction l generalizing a with
  | nil => simp
  | cons b l ih =>
    intro c hc
    have hab : a.getD j 0 = b.getD j 0 := h (a, b) (by simp)
    rcases List.mem_cons.1 hc with rfl | hc
    · rfl
    · rw [hab]
      exact ih b (fun e he => h e (by simp only [List.zip_cons_cons, List.mem_cons]; exact Or.inr he)) c hc

end RawProto
end Peano
