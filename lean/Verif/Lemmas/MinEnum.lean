import Verif.Lemmas.MinCert

set_option autoImplicit false

/-
Enumeration of the paths of curves with given gates: prototypes with gates of all fractions.
-/
namespace Peano
namespace MinCert

/-! ### the search, for numbers of cubes and gates -/

/-- The cells with a neighbour in the set; neighbours differ by one of `offs`. -/
def nb1 (X : ℕ) : List ℕ → ℕ
  | [] => 0
  | o :: l => Nat.lor (Nat.lor (Nat.shiftLeft X o) (Nat.shiftRight X o)) (nb1 X l)

/-- The cells with two neighbours in the set. -/
def nb2 (X : ℕ) : List ℕ → ℕ
  | [] => 0
  | o :: l => Nat.lor (Nat.lor (Nat.land (Nat.shiftLeft X o) (Nat.shiftRight X o))
      (Nat.land (Nat.lor (Nat.shiftLeft X o) (Nat.shiftRight X o)) (nb1 X l))) (nb2 X l)

/-- The data of the search: `trans` are the steps after each gate, `F` the set of the possible last cells, `fin` the last cells with gates. -/
structure Enum where
  L : ℕ
  B : ℕ
  ones : ℕ
  offs : List ℕ
  trans : List (List (ℕ × ℕ))
  U : ℕ
  F : ℕ
  starts : List (ℕ × ℕ)
  finals : List (ℕ × ℕ)
deriving Inhabited

/-- No path can go on: `U` are the cells left. -/
def Enum.dead (E : Enum) (U cur : ℕ) : Bool :=
  bif Nat.beq (Nat.land U E.F) 0 then true else
  bif Nat.beq (Nat.land U (nb1 (Nat.lor U (Nat.shiftLeft 1 cur)) E.offs)) U then
    (bif Nat.beq (Nat.land U (Nat.lor (nb2 (Nat.lor U (Nat.shiftLeft 1 cur)) E.offs) E.F)) U then false else true)
  else true

def memP (a b : ℕ) : List (ℕ × ℕ) → Bool
  | [] => false
  | x :: l => bif Nat.beq x.1 a && Nat.beq x.2 b then true else memP a b l

/-- Paths with `n` more cells. -/
def Enum.dfs (E : Enum) : ℕ → ℕ → ℕ → ℕ → ℕ → List ℕ → List ℕ
  | 0, _, cur, l, path, acc => bif memP cur l E.finals then path :: acc else acc
  | n + 1, U, cur, l, path, acc =>
    bif E.dead U cur then acc else
      (E.trans.getD l []).foldr (fun e acc =>
        (fun a =>
        bif Nat.beq (Nat.land 1 (Nat.shiftRight U a)) 1 then
          E.dfs n (Nat.xor U (Nat.shiftLeft 1 a)) a e.2 (Nat.add (Nat.mul path E.B) (Nat.add (Nat.mul a E.L) e.2)) acc
        else acc) (Nat.sub (Nat.add cur e.1) E.ones)) acc

def Enum.all (E : Enum) (G : ℕ) : List ℕ :=
  E.starts.foldr (fun e acc => E.dfs (G - 1) (Nat.xor E.U (Nat.shiftLeft 1 e.1)) e.1 e.2 (Nat.add (Nat.mul e.1 E.L) e.2) acc) []

theorem test_eq (U a : ℕ) : Nat.beq (Nat.land 1 (Nat.shiftRight U a)) 1 = U.testBit a := by
  have h : Nat.land 1 (Nat.shiftRight U a) = 1 &&& (U >>> a) := rfl
  rw [h, Nat.testBit, Nat.one_and_eq_mod_two]
  rcases Nat.mod_two_eq_zero_or_one (U >>> a) with e | e <;> rw [e] <;> rfl

/-- `a` and `b` are neighbours. -/
def Adj (offs : List ℕ) (a b : ℕ) : Prop := ∃ o ∈ offs, b = a + o ∨ a = b + o

theorem nb1_testBit {X n a : ℕ} (ha : X.testBit a = true) : ∀ {l : List ℕ}, Adj l n a → (nb1 X l).testBit n = true
  | [], h => by obtain ⟨o, h, _⟩ := h; simp at h
  | o :: l, ⟨o', h, h'⟩ => by
    have e : nb1 X (o :: l) = (X <<< o ||| X >>> o) ||| nb1 X l := rfl
    rw [e, Nat.testBit_or, Nat.testBit_or, Nat.testBit_shiftLeft, Nat.testBit_shiftRight]
    rw [List.mem_cons] at h
    rcases h with rfl | h
    · rcases h' with rfl | rfl
      · rw [Nat.add_comm] at ha; simp [ha]
      · simp [ha]
    · rw [nb1_testBit ha ⟨o', h, h'⟩]; simp

theorem nb2_testBit {X n a b : ℕ} (ha : X.testBit a = true) (hb : X.testBit b = true) (hab : a ≠ b) :
    ∀ {l : List ℕ}, Adj l n a → Adj l n b → (nb2 X l).testBit n = true
  | [], h, _ => by obtain ⟨o, h, _⟩ := h; simp at h
  | o :: l, ⟨o1, h1, h1'⟩, ⟨o2, h2, h2'⟩ => by
    have e : nb2 X (o :: l) = ((X <<< o &&& X >>> o) ||| ((X <<< o ||| X >>> o) &&& nb1 X l)) ||| nb2 X l := rfl
    rw [e, Nat.testBit_or, Nat.testBit_or, Nat.testBit_and, Nat.testBit_and, Nat.testBit_or, Nat.testBit_shiftLeft, Nat.testBit_shiftRight]
    have key : ∀ a, X.testBit a = true → (a = n + o ∨ n = a + o) → (decide (n ≥ o) && X.testBit (n - o) || X.testBit (o + n)) = true := by
      intro a ha h
      rcases h with rfl | rfl
      · rw [Nat.add_comm] at ha; simp [ha]
      · simp [ha]
    rw [List.mem_cons] at h1 h2
    rcases h1 with rfl | h1
    · rcases h2 with rfl | h2
      · have : (decide (n ≥ o2) && X.testBit (n - o2) && X.testBit (o2 + n)) = true := by
          rcases h1' with rfl | rfl <;> rcases h2' with h | h
          · exact absurd h.symm hab
          · subst h; rw [Nat.add_comm] at ha; simp [ha, hb]
          · subst h; rw [Nat.add_comm (a + o2)] at hb; simp [ha, hb]
          · exact absurd (by omega) hab
        rw [this]; simp
      · rw [key a ha h1', nb1_testBit hb ⟨o2, h2, h2'⟩]; simp
    · rcases h2 with rfl | h2
      · rw [key b hb h2', nb1_testBit ha ⟨o1, h1, h1'⟩]; simp
      · rw [nb2_testBit ha hb hab ⟨o1, h1, h1'⟩ ⟨o2, h2, h2'⟩]; simp

theorem memP_of_mem {a b : ℕ} : ∀ {l : List (ℕ × ℕ)}, (a, b) ∈ l → memP a b l = true
  | [], h => by simp at h
  | x :: l, h => by
    rw [memP]
    rw [List.mem_cons] at h
    rcases h with rfl | h
    · rw [show Nat.beq a a = true from Nat.beq_refl a, show Nat.beq b b = true from Nat.beq_refl b]; rfl
    · rw [memP_of_mem h]; cases Nat.beq x.1 a && Nat.beq x.2 b <;> rfl

/-- A path: the numbers of cells and of gates. -/
structure Enum.IsPath (E : Enum) (G : ℕ) (cell lk : ℕ → ℕ) : Prop where
  pos : 0 < G
  inj : ∀ i < G, ∀ j < G, cell i = cell j → i = j
  cells : ∀ b, E.U.testBit b = true ↔ ∃ i < G, cell i = b
  step : ∀ i, i + 1 < G → ∃ o, (o, lk (i + 1)) ∈ E.trans.getD (lk i) [] ∧ cell (i + 1) = cell i + o - E.ones
  adj : ∀ i, i + 1 < G → Adj E.offs (cell i) (cell (i + 1))
  start : (cell 0, lk 0) ∈ E.starts
  final : (cell (G - 1), lk (G - 1)) ∈ E.finals
  F : E.F.testBit (cell (G - 1)) = true

/-- The number of the path. -/
def pack (B L : ℕ) (cell lk : ℕ → ℕ) : ℕ → ℕ
  | 0 => 0
  | n + 1 => pack B L cell lk n * B + (cell n * L + lk n)

theorem Enum.dfs_acc (E : Enum) {x : ℕ} : ∀ (n U cur l path : ℕ) {acc : List ℕ}, x ∈ acc → x ∈ E.dfs n U cur l path acc
  | 0, U, cur, l, path, acc, h => by
    rw [Enum.dfs]
    cases memP cur l E.finals
    · exact h
    · exact List.mem_cons_of_mem _ h
  | n + 1, U, cur, l, path, acc, h => by
    rw [Enum.dfs]
    cases E.dead U cur
    swap
    · exact h
    rw [cond_false]
    induction E.trans.getD l [] with
    | nil => exact h
    | cons e t ih =>
      rw [List.foldr_cons]
      dsimp only
      cases Nat.beq (Nat.land 1 (Nat.shiftRight U (Nat.sub (Nat.add cur e.1) E.ones))) 1
      · exact ih
      · exact Enum.dfs_acc E n _ _ _ _ ih

theorem Adj.symm {offs : List ℕ} {a b : ℕ} (h : Adj offs a b) : Adj offs b a := by
  obtain ⟨o, h1, h2⟩ := h
  exact ⟨o, h1, h2.symm⟩

theorem land_eq_self {U V : ℕ} (h : ∀ b, U.testBit b = true → V.testBit b = true) : Nat.beq (Nat.land U V) U = true := by
  rw [Nat.beq_eq]
  change U &&& V = U
  apply Nat.eq_of_testBit_eq
  intro b
  rw [Nat.testBit_and]
  cases hb : U.testBit b
  · rfl
  · rw [h b hb]; rfl

theorem Enum.IsPath.not_dead {E : Enum} {G : ℕ} {cell lk : ℕ → ℕ} (h : E.IsPath G cell lk) {n k U : ℕ} (hk : k + 1 + (n + 1) = G)
    (hU : ∀ b, U.testBit b = true ↔ ∃ i, k < i ∧ i < G ∧ cell i = b) : E.dead U (cell k) = false := by
  have hX : ∀ i, k ≤ i → i < G → (U ||| 1 <<< cell k).testBit (cell i) = true := by
    intro i h1 h2
    rw [Nat.testBit_or]
    rcases Nat.eq_or_lt_of_le h1 with rfl | h1
    · rw [Nat.testBit_shiftLeft]; simp
    · rw [(hU _).2 ⟨i, h1, h2, rfl⟩]; simp
  have hlast : U.testBit (cell (G - 1)) = true := (hU _).2 ⟨G - 1, by omega, by omega, rfl⟩
  have h0 : Nat.beq (Nat.land U E.F) 0 = false := by
    rw [← Bool.not_eq_true, Nat.beq_eq]
    intro e
    have e' : U &&& E.F = 0 := e
    have := Nat.testBit_and U E.F (cell (G - 1))
    rw [e', hlast, h.F] at this
    simp at this
  have h1 : Nat.beq (Nat.land U (nb1 (Nat.lor U (Nat.shiftLeft 1 (cell k))) E.offs)) U = true := by
    apply land_eq_self
    intro b hb
    obtain ⟨i, i1, i2, rfl⟩ := (hU b).1 hb
    obtain ⟨j, rfl⟩ : ∃ j, i = j + 1 := ⟨i - 1, by omega⟩
    exact nb1_testBit (hX j (by omega) (by omega)) (h.adj j i2).symm
  have h2 : Nat.beq (Nat.land U (Nat.lor (nb2 (Nat.lor U (Nat.shiftLeft 1 (cell k))) E.offs) E.F)) U = true := by
    apply land_eq_self
    intro b hb
    obtain ⟨i, i1, i2, rfl⟩ := (hU b).1 hb
    change (_ ||| _ : ℕ).testBit _ = true
    rw [Nat.testBit_or]
    by_cases hi : i = G - 1
    · rw [hi, h.F]; simp
    · obtain ⟨j, rfl⟩ : ∃ j, i = j + 1 := ⟨i - 1, by omega⟩
      have := nb2_testBit (n := cell (j + 1)) (hX j (by omega) (by omega)) (hX (j + 1 + 1) (by omega) (by omega))
        (fun e => by have := h.inj j (by omega) (j + 1 + 1) (by omega) e; omega) (h.adj j i2).symm (h.adj (j + 1) (by omega))
      rw [show nb2 (Nat.lor U (Nat.shiftLeft 1 (cell k))) E.offs = nb2 (U ||| 1 <<< cell k) E.offs from rfl, this]
      rfl
  rw [Enum.dead, h0, h1, h2]
  rfl

theorem Enum.IsPath.dfs_mem {E : Enum} {G : ℕ} {cell lk : ℕ → ℕ} (h : E.IsPath G cell lk) : ∀ {n k U : ℕ}, k + 1 + n = G →
    (∀ b, U.testBit b = true ↔ ∃ i, k < i ∧ i < G ∧ cell i = b) → ∀ (acc : List ℕ),
      pack E.B E.L cell lk G ∈ E.dfs n U (cell k) (lk k) (pack E.B E.L cell lk (k + 1)) acc
  | 0, k, U, hk, _, acc => by
    obtain rfl : G = k + 1 := by omega
    rw [Enum.dfs, memP_of_mem (by simpa using h.final)]
    exact List.mem_cons_self
  | n + 1, k, U, hk, hU, acc => by
    rw [Enum.dfs, h.not_dead hk hU, cond_false]
    obtain ⟨o, ho1, ho2⟩ := h.step k (by omega)
    have hbit : U.testBit (cell (k + 1)) = true := (hU _).2 ⟨k + 1, by omega, by omega, rfl⟩
    have key : ∀ acc, pack E.B E.L cell lk G ∈ E.dfs n (Nat.xor U (Nat.shiftLeft 1 (cell (k + 1)))) (cell (k + 1)) (lk (k + 1))
        (Nat.add (Nat.mul (pack E.B E.L cell lk (k + 1)) E.B) (Nat.add (Nat.mul (cell (k + 1)) E.L) (lk (k + 1)))) acc := by
      intro acc
      refine h.dfs_mem (k := k + 1) (by omega) ?_ acc
      intro b
      have e : Nat.xor U (Nat.shiftLeft 1 (cell (k + 1))) = U ^^^ (1 <<< cell (k + 1)) := rfl
      rw [e, Nat.testBit_xor, Nat.one_shiftLeft, Nat.testBit_two_pow]
      constructor
      · intro hb
        by_cases hcb : cell (k + 1) = b
        · subst hcb
          rw [hbit] at hb
          simp at hb
        · simp only [hcb, decide_false, Bool.xor_false] at hb
          obtain ⟨i, i1, i2, i3⟩ := (hU b).1 hb
          refine ⟨i, ?_, i2, i3⟩
          rcases Nat.eq_or_lt_of_le (show k + 1 ≤ i from i1) with rfl | h'
          · exact absurd i3 hcb
          · exact h'
      · rintro ⟨i, i1, i2, rfl⟩
        have hne : cell (k + 1) ≠ cell i := fun e => by have := h.inj _ (by omega) _ i2 e; omega
        simp only [hne, decide_false, Bool.xor_false]
        exact (hU _).2 ⟨i, by omega, i2, rfl⟩
    generalize E.trans.getD (lk k) [] = t at ho1
    induction t with
    | nil => simp at ho1
    | cons e t ih =>
      rw [List.foldr_cons]
      rw [List.mem_cons] at ho1
      rcases ho1 with rfl | ho1
      · have ea : Nat.sub (Nat.add (cell k) o) E.ones = cell (k + 1) := ho2.symm
        dsimp only
        rw [ea, test_eq, hbit, cond_true]
        exact key _
      · have := ih ho1
        dsimp only
        cases Nat.beq (Nat.land 1 (Nat.shiftRight U (Nat.sub (Nat.add (cell k) e.1) E.ones))) 1
        · exact this
        · exact Enum.dfs_acc E n _ _ _ _ this

theorem Enum.IsPath.mem_all {E : Enum} {G : ℕ} {cell lk : ℕ → ℕ} (h : E.IsPath G cell lk) : pack E.B E.L cell lk G ∈ E.all G := by
  unfold Enum.all
  have hs := h.start
  have hG := h.pos
  have key : ∀ acc, pack E.B E.L cell lk G ∈ E.dfs (G - 1) (Nat.xor E.U (Nat.shiftLeft 1 (cell 0))) (cell 0) (lk 0)
      (Nat.add (Nat.mul (cell 0) E.L) (lk 0)) acc := by
    intro acc
    have := h.dfs_mem (n := G - 1) (k := 0) (U := Nat.xor E.U (Nat.shiftLeft 1 (cell 0))) (by omega) ?_ acc
    · simpa [pack] using this
    intro b
    have e : Nat.xor E.U (Nat.shiftLeft 1 (cell 0)) = E.U ^^^ (1 <<< cell 0) := rfl
    rw [e, Nat.testBit_xor, Nat.one_shiftLeft, Nat.testBit_two_pow]
    constructor
    · intro hb
      by_cases hcb : cell 0 = b
      · subst hcb
        rw [(h.cells _).2 ⟨0, hG, rfl⟩] at hb
        simp at hb
      · simp only [hcb, decide_false, Bool.xor_false] at hb
        obtain ⟨i, i2, i3⟩ := (h.cells b).1 hb
        refine ⟨i, ?_, i2, i3⟩
        rcases Nat.eq_zero_or_pos i with rfl | h'
        · exact absurd i3 hcb
        · exact h'
    · rintro ⟨i, i1, i2, rfl⟩
      have hne : cell 0 ≠ cell i := fun e => by have := h.inj _ hG _ i2 e; omega
      simp only [hne, decide_false, Bool.xor_false]
      exact (h.cells _).2 ⟨i, i2, rfl⟩
  generalize E.starts = t at hs
  induction t with
  | nil => simp at hs
  | cons e t ih =>
    rw [List.foldr_cons]
    rw [List.mem_cons] at hs
    rcases hs with rfl | hs
    · exact key _
    · exact Enum.dfs_acc E _ _ _ _ _ (ih hs)

/-- The fractions of a path by its number. -/
theorem pack_div {B L : ℕ} {cell lk : ℕ → ℕ} (hB : 0 < B) : ∀ {n i : ℕ}, (∀ i < n, cell i * L + lk i < B) → i < n →
    pack B L cell lk n / B ^ (n - 1 - i) % B = cell i * L + lk i
  | 0, i, _, h => absurd h (Nat.not_lt_zero _)
  | n + 1, i, hlt, h => by
    rcases Nat.eq_or_lt_of_le (Nat.lt_succ_iff.1 h) with rfl | h'
    · rw [pack, show i + 1 - 1 - i = 0 by omega, pow_zero, Nat.div_one, Nat.mul_add_mod', Nat.mod_eq_of_lt (hlt i (by omega))]
    · have e : n + 1 - 1 - i = (n - 1 - i) + 1 := by omega
      rw [e, pow_succ', ← Nat.div_div_eq_div_mul, pack, Nat.mul_comm (pack B L cell lk n) B, Nat.mul_add_div hB, Nat.div_eq_of_lt (hlt n (by omega)), Nat.add_zero]
      exact pack_div hB (fun i hi => hlt i (by omega)) h'

/-! ### the same search in a form which the kernel computes faster -/

/-- `Enum.dead` with the neighbours collected in `n1` and `n2`. -/
def deadF (F U Y : ℕ) (offs : List ℕ) : ℕ → ℕ → Bool :=
  List.rec (fun n1 n2 => Bool.rec true (Bool.rec true false (Nat.beq (Nat.land U (Nat.lor n2 F)) U)) (Nat.beq (Nat.land U n1) U))
    (fun o _ ih n1 n2 => (fun a b => (fun c => ih (Nat.lor c n1) (Nat.lor (Nat.lor (Nat.land a b) (Nat.land c n1)) n2)) (Nat.lor a b))
      (Nat.shiftLeft Y o) (Nat.shiftRight Y o)) offs

theorem bool_rec_eq {α : Type} (a b : α) (c : Bool) : (Bool.rec a b c : α) = bif c then b else a := by cases c <;> rfl

theorem deadF_eq (F U Y : ℕ) : ∀ (offs : List ℕ) (n1 n2 : ℕ), deadF F U Y offs n1 n2 =
    (bif Nat.beq (Nat.land U (nb1 Y offs ||| n1)) U then
      (bif Nat.beq (Nat.land U (Nat.lor (nb2 Y offs ||| (nb1 Y offs &&& n1) ||| n2) F)) U then false else true) else true)
  | [], n1, n2 => by
    have : deadF F U Y [] n1 n2 =
      Bool.rec true (Bool.rec true false (Nat.beq (Nat.land U (Nat.lor n2 F)) U)) (Nat.beq (Nat.land U n1) U) := rfl
    rw [this, bool_rec_eq, bool_rec_eq]
    simp [nb1, nb2]
  | o :: l, n1, n2 => by
    have : deadF F U Y (o :: l) n1 n2 = deadF F U Y l ((Y <<< o ||| Y >>> o) ||| n1)
      (((Y <<< o &&& Y >>> o) ||| ((Y <<< o ||| Y >>> o) &&& n1)) ||| n2) := rfl
    rw [this, deadF_eq F U Y l]
    have e1 : nb1 Y (o :: l) = (Y <<< o ||| Y >>> o) ||| nb1 Y l := rfl
    have e2 : nb2 Y (o :: l) = ((Y <<< o &&& Y >>> o) ||| ((Y <<< o ||| Y >>> o) &&& nb1 Y l)) ||| nb2 Y l := rfl
    have h1 : nb1 Y l ||| (Y <<< o ||| Y >>> o ||| n1) = nb1 Y (o :: l) ||| n1 := by
      rw [e1]
      apply Nat.eq_of_testBit_eq
      intro i
      simp only [Nat.testBit_or]
      cases (Y <<< o).testBit i <;> cases (Y >>> o).testBit i <;> cases (nb1 Y l).testBit i <;> cases n1.testBit i <;> rfl
    have h2 : nb2 Y l ||| nb1 Y l &&& (Y <<< o ||| Y >>> o ||| n1) ||| (Y <<< o &&& Y >>> o ||| (Y <<< o ||| Y >>> o) &&& n1 ||| n2) =
        nb2 Y (o :: l) ||| nb1 Y (o :: l) &&& n1 ||| n2 := by
      rw [e1, e2]
      apply Nat.eq_of_testBit_eq
      intro i
      simp only [Nat.testBit_or, Nat.testBit_and]
      cases (Y <<< o).testBit i <;> cases (Y >>> o).testBit i <;> cases (nb1 Y l).testBit i <;> cases (nb2 Y l).testBit i <;>
        cases n1.testBit i <;> cases n2.testBit i <;> rfl
    rw [h1, h2]

/-- All paths with `n` more cells meet the test `p`. -/
def dfsF (p : ℕ → Bool) (F B L ones : ℕ) (offs : List ℕ) (trans : List (List (ℕ × ℕ))) (finals : List (ℕ × ℕ)) (n : ℕ) : ℕ → ℕ → ℕ → ℕ → Bool :=
  Nat.rec (fun _ cur l path => Bool.rec true (p path) (memP cur l finals))
    (fun _ ih U cur l path =>
      Bool.rec (Bool.rec (List.rec true (fun e _ rest => Prod.rec (fun e1 e2 =>
        (fun a => Bool.rec rest (Bool.rec false rest (ih (Nat.xor U (Nat.shiftLeft 1 a)) a e2 (Nat.add (Nat.mul path B) (Nat.add (Nat.mul a L) e2))))
          (Nat.beq (Nat.land 1 (Nat.shiftRight U a)) 1)) (Nat.sub (Nat.add cur e1) ones)) e) (trans.getD l []))
       true (deadF F U (Nat.lor U (Nat.shiftLeft 1 cur)) offs 0 0)) true (Nat.beq (Nat.land U F) 0)) n

theorem dfsF_sound (E : Enum) (p : ℕ → Bool) : ∀ (n U cur l path : ℕ) (acc : List ℕ), (∀ x ∈ acc, p x = true) →
    dfsF p E.F E.B E.L E.ones E.offs E.trans E.finals n U cur l path = true → ∀ x ∈ E.dfs n U cur l path acc, p x = true
  | 0, U, cur, l, path, acc, hacc, h => by
    have h0 : dfsF p E.F E.B E.L E.ones E.offs E.trans E.finals 0 U cur l path = Bool.rec true (p path) (memP cur l E.finals) := rfl
    rw [h0, bool_rec_eq] at h
    rw [Enum.dfs]
    cases hm : memP cur l E.finals
    · simpa using hacc
    · rw [hm, cond_true] at h
      rw [cond_true]
      intro x hx
      rcases List.mem_cons.1 hx with rfl | hx
      · exact h
      · exact hacc x hx
  | n + 1, U, cur, l, path, acc, hacc, h => by
    have h0 : dfsF p E.F E.B E.L E.ones E.offs E.trans E.finals (n + 1) U cur l path =
      Bool.rec (Bool.rec (List.rec true (fun e _ rest =>
        Bool.rec rest (Bool.rec false rest (dfsF p E.F E.B E.L E.ones E.offs E.trans E.finals n
          (Nat.xor U (Nat.shiftLeft 1 (Nat.sub (Nat.add cur e.1) E.ones))) (Nat.sub (Nat.add cur e.1) E.ones) e.2
          (Nat.add (Nat.mul path E.B) (Nat.add (Nat.mul (Nat.sub (Nat.add cur e.1) E.ones) E.L) e.2))))
          (Nat.beq (Nat.land 1 (Nat.shiftRight U (Nat.sub (Nat.add cur e.1) E.ones))) 1)) (E.trans.getD l []))
        true (deadF E.F U (Nat.lor U (Nat.shiftLeft 1 cur)) E.offs 0 0)) true (Nat.beq (Nat.land U E.F) 0) := rfl
    have h1 : ∀ ts : List (ℕ × ℕ), (List.rec true (fun e _ rest =>
        Bool.rec rest (Bool.rec false rest (dfsF p E.F E.B E.L E.ones E.offs E.trans E.finals n
          (Nat.xor U (Nat.shiftLeft 1 (Nat.sub (Nat.add cur e.1) E.ones))) (Nat.sub (Nat.add cur e.1) E.ones) e.2
          (Nat.add (Nat.mul path E.B) (Nat.add (Nat.mul (Nat.sub (Nat.add cur e.1) E.ones) E.L) e.2))))
          (Nat.beq (Nat.land 1 (Nat.shiftRight U (Nat.sub (Nat.add cur e.1) E.ones))) 1)) ts : Bool) = true →
        ∀ x ∈ ts.foldr (fun e acc => (fun a =>
        bif Nat.beq (Nat.land 1 (Nat.shiftRight U a)) 1 then
          E.dfs n (Nat.xor U (Nat.shiftLeft 1 a)) a e.2 (Nat.add (Nat.mul path E.B) (Nat.add (Nat.mul a E.L) e.2)) acc
        else acc) (Nat.sub (Nat.add cur e.1) E.ones)) acc, p x = true := by
      intro ts
      induction ts with
      | nil => exact fun _ => hacc
      | cons e ts ih =>
        rw [List.foldr_cons]
        dsimp only at ih ⊢
        intro ht
        rw [bool_rec_eq] at ht
        generalize Nat.beq (Nat.land 1 (Nat.shiftRight U (Nat.sub (Nat.add cur e.1) E.ones))) 1 = b at ht ⊢
        cases b
        · exact ih ht
        · rw [cond_true, bool_rec_eq] at ht
          rw [cond_true]
          cases hd : dfsF p E.F E.B E.L E.ones E.offs E.trans E.finals n
            (Nat.xor U (Nat.shiftLeft 1 (Nat.sub (Nat.add cur e.1) E.ones))) (Nat.sub (Nat.add cur e.1) E.ones) e.2
            (Nat.add (Nat.mul path E.B) (Nat.add (Nat.mul (Nat.sub (Nat.add cur e.1) E.ones) E.L) e.2))
          · rw [hd] at ht
            cases ht
          · rw [hd, cond_true] at ht
            exact dfsF_sound E p n _ _ _ _ _ (ih ht) hd
    rw [h0, bool_rec_eq, bool_rec_eq, deadF_eq] at h
    rw [Enum.dfs, Enum.dead]
    simp only [Nat.or_zero, Nat.and_zero] at h
    cases hb : Nat.beq (Nat.land U E.F) 0
    · rw [hb, cond_false] at h
      rw [cond_false]
      cases hb' : (bif Nat.beq (Nat.land U (nb1 (Nat.lor U (Nat.shiftLeft 1 cur)) E.offs)) U then
        (bif Nat.beq (Nat.land U (Nat.lor (nb2 (Nat.lor U (Nat.shiftLeft 1 cur)) E.offs) E.F)) U then false else true) else true)
      · rw [hb', cond_false] at h
        exact h1 _ h
      · exact hacc
    · exact hacc

/-- Search trees of numbers. -/
inductive CT
  | nil
  | node (l : CT) (k : ℕ) (r : CT)

noncomputable def CT.mem (x : ℕ) (t : CT) : Bool :=
  CT.rec false (fun _ k _ hl hr => Bool.rec (Bool.rec hr hl (Nat.blt x k)) true (Nat.beq x k)) t

def CT.toList : CT → List ℕ
  | .nil => []
  | .node l k r => l.toList ++ k :: r.toList

theorem CT.mem_sound {x : ℕ} : ∀ {t : CT}, t.mem x = true → x ∈ t.toList
  | .nil, h => by cases h
  | .node l k r, h => by
    have h0 : CT.mem x (.node l k r) = Bool.rec (Bool.rec (r.mem x) (l.mem x) (Nat.blt x k)) true (Nat.beq x k) := rfl
    rw [h0, bool_rec_eq, bool_rec_eq] at h
    rw [CT.toList, List.mem_append, List.mem_cons]
    cases hk : Nat.beq x k
    · rw [hk, cond_false] at h
      cases hb : Nat.blt x k
      · rw [hb, cond_false] at h
        exact Or.inr (Or.inr (CT.mem_sound h))
      · rw [hb, cond_true] at h
        exact Or.inl (CT.mem_sound h)
    · exact Or.inr (Or.inl (Nat.eq_of_beq_eq_true hk))

/-- All paths with these first cells are in the tree. -/
noncomputable def Enum.allF (E : Enum) (G : ℕ) (t : CT) (starts : List (ℕ × ℕ)) : Bool :=
  List.rec true (fun e _ rest => Bool.rec false rest (dfsF (fun x => t.mem x) E.F E.B E.L E.ones E.offs E.trans E.finals (G - 1)
    (Nat.xor E.U (Nat.shiftLeft 1 e.1)) e.1 e.2 (Nat.add (Nat.mul e.1 E.L) e.2))) starts

theorem Enum.allF_sound (E : Enum) (G : ℕ) (t : CT) (h : E.allF G t E.starts = true) : ∀ x ∈ E.all G, x ∈ t.toList := by
  have key : ∀ l : List (ℕ × ℕ), E.allF G t l = true → ∀ x ∈ l.foldr (fun e acc => E.dfs (G - 1) (Nat.xor E.U (Nat.shiftLeft 1 e.1)) e.1 e.2
      (Nat.add (Nat.mul e.1 E.L) e.2) acc) [], t.mem x = true := by
    intro l
    induction l with
    | nil => simp
    | cons e l ih =>
      intro h
      have h0 : E.allF G t (e :: l) = Bool.rec false (E.allF G t l) (dfsF (fun x => t.mem x) E.F E.B E.L E.ones E.offs E.trans E.finals (G - 1)
        (Nat.xor E.U (Nat.shiftLeft 1 e.1)) e.1 e.2 (Nat.add (Nat.mul e.1 E.L) e.2)) := rfl
      rw [h0, bool_rec_eq] at h
      cases hd : dfsF (fun x => t.mem x) E.F E.B E.L E.ones E.offs E.trans E.finals (G - 1) (Nat.xor E.U (Nat.shiftLeft 1 e.1)) e.1 e.2
        (Nat.add (Nat.mul e.1 E.L) e.2)
      · rw [hd] at h
        cases h
      · rw [hd, cond_true] at h
        exact dfsF_sound E _ _ _ _ _ _ _ (ih h) hd
  exact fun x hx => CT.mem_sound (key _ h x hx)

/-! ### the search in parts -/

theorem dfsF_intro (E : Enum) (p : ℕ → Bool) (n U cur l path : ℕ)
    (h : E.dead U cur = false → ∀ e ∈ E.trans.getD l [], U.testBit (cur + e.1 - E.ones) = true →
      dfsF p E.F E.B E.L E.ones E.offs E.trans E.finals n (Nat.xor U (Nat.shiftLeft 1 (cur + e.1 - E.ones))) (cur + e.1 - E.ones) e.2
        (path * E.B + ((cur + e.1 - E.ones) * E.L + e.2)) = true) :
    dfsF p E.F E.B E.L E.ones E.offs E.trans E.finals (n + 1) U cur l path = true := by
  have h0 : dfsF p E.F E.B E.L E.ones E.offs E.trans E.finals (n + 1) U cur l path =
    Bool.rec (Bool.rec (List.rec true (fun e _ rest =>
      Bool.rec rest (Bool.rec false rest (dfsF p E.F E.B E.L E.ones E.offs E.trans E.finals n
        (Nat.xor U (Nat.shiftLeft 1 (cur + e.1 - E.ones))) (cur + e.1 - E.ones) e.2
        (path * E.B + ((cur + e.1 - E.ones) * E.L + e.2))))
        (Nat.beq (Nat.land 1 (Nat.shiftRight U (cur + e.1 - E.ones))) 1)) (E.trans.getD l []))
      true (deadF E.F U (Nat.lor U (Nat.shiftLeft 1 cur)) E.offs 0 0)) true (Nat.beq (Nat.land U E.F) 0) := rfl
  rw [h0, bool_rec_eq, bool_rec_eq, deadF_eq]
  rw [Enum.dead] at h
  simp only [Nat.or_zero, Nat.and_zero]
  cases hb : Nat.beq (Nat.land U E.F) 0
  · rw [hb, cond_false] at h
    rw [cond_false]
    cases hb' : (bif Nat.beq (Nat.land U (nb1 (Nat.lor U (Nat.shiftLeft 1 cur)) E.offs)) U then
      (bif Nat.beq (Nat.land U (Nat.lor (nb2 (Nat.lor U (Nat.shiftLeft 1 cur)) E.offs) E.F)) U then false else true) else true)
    · rw [hb'] at h
      rw [cond_false]
      have h := h rfl
      generalize E.trans.getD l [] = ts at h ⊢
      induction ts with
      | nil => rfl
      | cons e ts ih =>
        dsimp only
        rw [bool_rec_eq, test_eq]
        have ih := ih fun e' he' => h e' (List.mem_cons_of_mem _ he')
        have he := h e List.mem_cons_self
        cases ht : U.testBit (cur + e.1 - E.ones)
        · exact ih
        · rw [cond_true, he ht]
          exact ih
    · rfl
  · rfl

/-- The beginnings of the paths: `k` more cells.  The cells left, the last cell with gates, the number of the path. -/
def Enum.front (E : Enum) : ℕ → ℕ × ℕ × ℕ × ℕ → List (ℕ × ℕ × ℕ × ℕ)
  | 0, x => [x]
  | k + 1, x => bif E.dead x.1 x.2.1 then [] else
    (E.trans.getD x.2.2.1 []).flatMap fun e =>
      bif x.1.testBit (x.2.1 + e.1 - E.ones) then E.front k (Nat.xor x.1 (Nat.shiftLeft 1 (x.2.1 + e.1 - E.ones)), x.2.1 + e.1 - E.ones, e.2,
        x.2.2.2 * E.B + ((x.2.1 + e.1 - E.ones) * E.L + e.2)) else []

def Enum.fronts (E : Enum) (k : ℕ) : List (ℕ × ℕ × ℕ × ℕ) :=
  E.starts.flatMap fun e => E.front k (Nat.xor E.U (Nat.shiftLeft 1 e.1), e.1, e.2, e.1 * E.L + e.2)

/-- All paths with these beginnings are in the tree. -/
noncomputable def Enum.partF (E : Enum) (n : ℕ) (t : CT) (L : List (ℕ × ℕ × ℕ × ℕ)) : Bool :=
  List.rec true (fun x _ rest => Bool.rec false rest (dfsF (fun x => t.mem x) E.F E.B E.L E.ones E.offs E.trans E.finals n x.1 x.2.1 x.2.2.1 x.2.2.2)) L

theorem Enum.partF_mem {E : Enum} {n : ℕ} {t : CT} : ∀ {L : List (ℕ × ℕ × ℕ × ℕ)}, E.partF n t L = true → ∀ x ∈ L,
    dfsF (fun x => t.mem x) E.F E.B E.L E.ones E.offs E.trans E.finals n x.1 x.2.1 x.2.2.1 x.2.2.2 = true
  | [], _, x, hx => by simp at hx
  | y :: L, h, x, hx => by
    have h0 : E.partF n t (y :: L) = Bool.rec false (E.partF n t L)
      (dfsF (fun x => t.mem x) E.F E.B E.L E.ones E.offs E.trans E.finals n y.1 y.2.1 y.2.2.1 y.2.2.2) := rfl
    rw [h0, bool_rec_eq] at h
    cases hd : dfsF (fun x => t.mem x) E.F E.B E.L E.ones E.offs E.trans E.finals n y.1 y.2.1 y.2.2.1 y.2.2.2
    · rw [hd] at h; cases h
    · rw [hd, cond_true] at h
      rcases List.mem_cons.1 hx with rfl | hx
      · exact hd
      · exact Enum.partF_mem h x hx

theorem Enum.front_sound (E : Enum) (p : ℕ → Bool) (n : ℕ) : ∀ (k : ℕ) (x : ℕ × ℕ × ℕ × ℕ),
    (∀ y ∈ E.front k x, dfsF p E.F E.B E.L E.ones E.offs E.trans E.finals n y.1 y.2.1 y.2.2.1 y.2.2.2 = true) →
    dfsF p E.F E.B E.L E.ones E.offs E.trans E.finals (n + k) x.1 x.2.1 x.2.2.1 x.2.2.2 = true
  | 0, x, h => h x (by simp [Enum.front])
  | k + 1, x, h => by
    apply dfsF_intro
    intro hd e he ht
    have := Enum.front_sound E p n k (Nat.xor x.1 (Nat.shiftLeft 1 (x.2.1 + e.1 - E.ones)), x.2.1 + e.1 - E.ones, e.2,
        x.2.2.2 * E.B + ((x.2.1 + e.1 - E.ones) * E.L + e.2))
    refine this fun y hy => h y ?_
    rw [Enum.front, hd, cond_false, List.mem_flatMap]
    exact ⟨e, he, by rw [ht, cond_true]; exact hy⟩

theorem Enum.fronts_sound (E : Enum) (n k G : ℕ) (t : CT) (hG : G - 1 = n + k)
    (h : ∀ x ∈ E.fronts k, dfsF (fun x => t.mem x) E.F E.B E.L E.ones E.offs E.trans E.finals n x.1 x.2.1 x.2.2.1 x.2.2.2 = true) :
    ∀ x ∈ E.all G, x ∈ t.toList := by
  apply Enum.allF_sound
  have key : ∀ l : List (ℕ × ℕ), (∀ e ∈ l, e ∈ E.starts) → E.allF G t l = true := by
    intro l
    induction l with
    | nil => exact fun _ => rfl
    | cons e l ih =>
      intro hl
      have h0 : E.allF G t (e :: l) = Bool.rec false (E.allF G t l) (dfsF (fun x => t.mem x) E.F E.B E.L E.ones E.offs E.trans E.finals (G - 1)
        (Nat.xor E.U (Nat.shiftLeft 1 e.1)) e.1 e.2 (e.1 * E.L + e.2)) := rfl
      rw [h0, hG]
      have := E.front_sound (fun x => t.mem x) n k (Nat.xor E.U (Nat.shiftLeft 1 e.1), e.1, e.2, e.1 * E.L + e.2)
        (fun y hy => h y (List.mem_flatMap.2 ⟨e, hl e List.mem_cons_self, hy⟩))
      dsimp only at this
      rw [this]
      exact ih fun e he => hl e (List.mem_cons_of_mem _ he)
  exact key _ fun _ => id

theorem partsP {α : Type} {p : α → Prop} {L M : List α} (h1 : ∀ x ∈ L, p x) (h2 : ∀ x ∈ M, p x) : ∀ x ∈ L ++ M, p x := by
  intro x hx
  rcases List.mem_append.1 hx with h | h
  · exact h1 x h
  · exact h2 x h

end MinCert
end Peano
