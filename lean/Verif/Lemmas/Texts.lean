import Verif.Model.Texts
import Verif.Lemmas.ListM
import Mathlib.Algebra.Field.Rat
import Mathlib.Data.Rat.Lemmas
import Mathlib.Tactic.FieldSimp
import Mathlib.Tactic.Linarith
import Mathlib.Tactic.Ring

set_option autoImplicit false

/-
Lemmas about texts.
-/
namespace Peano
variable {d : ℕ}

/-! ### Strings -/

theorem pySplitOn_ne_nil (c : Char) (s : List Char) : pySplitOn c s ≠ [] := by
  cases s with
  | nil => simp [pySplitOn]
  | cons a s =>
    unfold pySplitOn
    split
    · simp
    · split <;> simp

theorem pySplitOn_none {c : Char} {s : List Char} (h : c ∉ s) : pySplitOn c s = [s] := by
  induction s with
  | nil => rfl
  | cons a s ih =>
    rw [List.mem_cons, not_or] at h
    unfold pySplitOn
    rw [if_neg (fun e => h.1 e.symm), ih h.2]

theorem pySplitOn_append {c : Char} {s t : List Char} (h : c ∉ s) : pySplitOn c (s ++ c :: t) = s :: pySplitOn c t := by
  induction s with
  | nil => simp [pySplitOn]
  | cons a s ih =>
    rw [List.mem_cons, not_or] at h
    rw [List.cons_append, pySplitOn, if_neg (fun e => h.1 e.symm), ih h.2]

theorem pySplitArrow_none {s : List Char} (h : '>' ∉ s) : pySplitArrow s = [s] := by
  induction s with
  | nil => rfl
  | cons a s ih =>
    rw [List.mem_cons, not_or] at h
    have hs := ih h.2
    cases s with
    | nil => simp [pySplitArrow]
    | cons b s =>
      have hb : b ≠ '>' := fun e => h.2 (by simp [e])
      rw [pySplitArrow]
      · rw [hs]
      · intro rest _ h2
        exact hb (List.cons.inj h2).1

theorem pySplitArrow_append {s t : List Char} (h : '>' ∉ s) : pySplitArrow (s ++ '-' :: '>' :: t) = s :: pySplitArrow t := by
  induction s with
  | nil => simp [pySplitArrow]
  | cons a s ih =>
    rw [List.mem_cons, not_or] at h
    have hs := ih h.2
    rw [List.cons_append]
    rw [pySplitArrow]
    · rw [hs]
    · intro rest _ h2
      cases s with
      | nil => simp at h2
      | cons b s => exact h.2 (by rw [List.cons_append] at h2; simp [(List.cons.inj h2).1])

theorem dropWhile_append_of {α : Type} {f : α → Bool} {w s : List α} (h : ∀ c ∈ w, f c = true) : (w ++ s).dropWhile f = s.dropWhile f := by
  induction w with
  | nil => rfl
  | cons a w ih =>
    rw [List.cons_append, List.dropWhile_cons, if_pos (h a (by simp))]
    exact ih fun c hc => h c (by simp [hc])

/-- Both ends of a text are stripped. -/
theorem strip_both {f : Char → Bool} {w1 s w2 : List Char} (h1 : ∀ c ∈ w1, f c = true) (h2 : ∀ c ∈ w2, f c = true)
    (ha : ∀ c, s.head? = some c → f c = false) (hb : ∀ c, s.getLast? = some c → f c = false) :
    (((w1 ++ s ++ w2).dropWhile f).reverse.dropWhile f).reverse = s := by
  have hdrop : ∀ l : List Char, (∀ c, l.head? = some c → f c = false) → l.dropWhile f = l := by
    intro l hl
    cases l with
    | nil => rfl
    | cons a l => rw [List.dropWhile_cons, hl a rfl]; simp
  have hw2 : ∀ c ∈ w2.reverse, f c = true := fun c hc => h2 c (by simpa using hc)
  rw [List.append_assoc, dropWhile_append_of h1]
  cases s with
  | nil =>
    have : w2.dropWhile f = [] := by
      have := dropWhile_append_of (s := []) h2
      simpa using this
    simp [this]
  | cons a s =>
    rw [hdrop ((a :: s) ++ w2) (fun c hc => ha c (by simpa using hc)), List.reverse_append, dropWhile_append_of hw2, hdrop, List.reverse_reverse]
    intro c hc
    exact hb c (by rw [List.head?_reverse] at hc; exact hc)

theorem pyStrip_both {w1 s w2 : List Char} (h1 : ∀ c ∈ w1, isPySpace c = true) (h2 : ∀ c ∈ w2, isPySpace c = true)
    (ha : ∀ c, s.head? = some c → isPySpace c = false) (hb : ∀ c, s.getLast? = some c → isPySpace c = false) :
    pyStrip (w1 ++ s ++ w2) = s := strip_both h1 h2 ha hb

/-! ### Numbers -/

theorem digit_of {k : ℕ} (h : k < 10) : isDigit (Char.ofNat (48 + k)) = true ∧ (Char.ofNat (48 + k)).toNat - 48 = k := by
  have : ∀ k : Fin 10, isDigit (Char.ofNat (48 + k)) = true ∧ (Char.ofNat (48 + k)).toNat - 48 = k.val := by decide
  exact this ⟨k, h⟩

theorem decimal_facts (n : ℕ) : decimal n ≠ [] ∧ (∀ c ∈ decimal n, isDigit c = true) ∧ digitsValue (decimal n) = n := by
  induction n using Nat.strong_induction_on with
  | _ n ih =>
    rw [decimal]
    by_cases h : n < 10
    · rw [dif_pos h]
      refine ⟨by simp, ?_, ?_⟩
      · intro c hc
        rw [List.mem_singleton.1 hc]
        exact (digit_of h).1
      · simp only [digitsValue, List.foldl_cons, List.foldl_nil, Nat.mul_zero, Nat.zero_add]
        exact (digit_of h).2
    · rw [dif_neg h]
      obtain ⟨i1, i2, i3⟩ := ih (n / 10) (by omega)
      have hm : n % 10 < 10 := Nat.mod_lt _ (by omega)
      refine ⟨by simp, ?_, ?_⟩
      · intro c hc
        rcases List.mem_append.1 hc with hc | hc
        · exact i2 c hc
        · rw [List.mem_singleton.1 hc]
          exact (digit_of hm).1
      · unfold digitsValue at i3 ⊢
        rw [List.foldl_append, i3]
        simp only [List.foldl_cons, List.foldl_nil]
        rw [(digit_of hm).2]
        omega

/-- What a digit is not. -/
theorem isDigit_range {c : Char} (h : isDigit c = true) : 48 ≤ c.toNat ∧ c.toNat ≤ 57 := by
  unfold isDigit at h
  rw [Bool.and_eq_true, decide_eq_true_eq, decide_eq_true_eq, Char.le_def, Char.le_def] at h
  exact ⟨h.1, h.2⟩

theorem not_digit {c : Char} (h : c.toNat < 48 ∨ 57 < c.toNat) : isDigit c = false := by
  by_contra hc
  have := isDigit_range (by simpa using hc)
  omega

/-- Characters of the text of a fraction. -/
def fracChar (c : Char) : Bool := isDigit c || c == '-' || c == '/'

theorem intText_chars (z : ℤ) : ∀ c ∈ intText z, fracChar c = true := by
  intro c hc
  unfold intText at hc
  have hd := (decimal_facts z.natAbs).2.1
  split at hc
  · rcases List.mem_cons.1 hc with rfl | hc
    · decide
    · simp [fracChar, hd c hc]
  · simp [fracChar, hd c hc]

theorem fractionText_chars (q : ℚ) : ∀ c ∈ fractionText q, fracChar c = true := by
  intro c hc
  unfold fractionText at hc
  split at hc
  · exact intText_chars _ c hc
  · rcases List.mem_append.1 hc with hc | hc
    · rcases List.mem_append.1 hc with hc | hc
      · exact intText_chars _ c hc
      · rw [List.mem_singleton.1 hc]; decide
    · simp [fracChar, (decimal_facts q.den).2.1 c hc]

theorem fracChar_cases {c : Char} (h : fracChar c = true) : (48 ≤ c.toNat ∧ c.toNat ≤ 57) ∨ c = '-' ∨ c = '/' := by
  unfold fracChar at h
  simp only [Bool.or_eq_true, beq_iff_eq] at h
  rcases h with (h | h) | h
  · exact .inl (isDigit_range h)
  · exact .inr (.inl h)
  · exact .inr (.inr h)

theorem fracChar_not {c : Char} (h : fracChar c = true) : isPySpace c = false ∧ c ≠ ',' ∧ c ≠ '(' ∧ c ≠ ')' ∧ c ≠ '>' ∧ c ≠ '|' ∧ c ≠ '\n' := by
  rcases fracChar_cases h with h | rfl | rfl
  · refine ⟨?_, ?_, ?_, ?_, ?_, ?_, ?_⟩
    · unfold isPySpace
      simp only [Bool.or_eq_false_iff, Bool.and_eq_false_iff, decide_eq_false_iff_not, beq_eq_false_iff_ne]
      omega
    all_goals
      rintro rfl
      revert h
      decide
  · decide
  · decide

theorem fractionText_ne_nil (q : ℚ) : fractionText q ≠ [] := by
  have : ∀ z, intText z ≠ [] := by
    intro z
    unfold intText
    split
    · simp
    · exact (decimal_facts _).1
  unfold fractionText
  split
  · exact this _
  · simp

theorem takeWhile_digits {s t : List Char} (hs : ∀ c ∈ s, isDigit c = true) (ht : ∀ c, t.head? = some c → isDigit c = false) :
    (s ++ t).takeWhile isDigit = s ∧ (s ++ t).dropWhile isDigit = t := by
  induction s with
  | nil =>
    cases t with
    | nil => simp
    | cons a t => simp [ht a rfl]
  | cons a s ih =>
    obtain ⟨i1, i2⟩ := ih fun c hc => hs c (by simp [hc])
    have ha := hs a (by simp)
    rw [List.cons_append, List.takeWhile_cons, List.dropWhile_cons, ha]
    simp [i1, i2]

/-- The text of a fraction is read back, with spaces around. -/
theorem fractionParse_text (q : ℚ) {w1 w2 : List Char} (h1 : ∀ c ∈ w1, isPySpace c = true) (h2 : ∀ c ∈ w2, isPySpace c = true) :
    fractionParse (w1 ++ fractionText q ++ w2) = some q := by
  have hchars := fractionText_chars q
  have hstrip : pyStrip (w1 ++ fractionText q ++ w2) = fractionText q := by
    refine pyStrip_both h1 h2 ?_ ?_
    · exact fun c hc => (fracChar_not (hchars c (List.mem_of_mem_head? hc))).1
    · exact fun c hc => (fracChar_not (hchars c (List.mem_of_mem_getLast? hc))).1
  -- the text without the sign
  have hbody : ∃ body, fractionText q = (if q.num < 0 then '-' :: body else body) ∧ (∀ c, body.head? = some c → isDigit c = true) ∧ body ≠ [] ∧
      body.takeWhile isDigit = decimal q.num.natAbs ∧ body.dropWhile isDigit = (if q.den = 1 then [] else '/' :: decimal q.den) := by
    obtain ⟨n1, n2, n3⟩ := decimal_facts q.num.natAbs
    refine ⟨decimal q.num.natAbs ++ (if q.den = 1 then [] else '/' :: decimal q.den), ?_, ?_, ?_, ?_⟩
    · unfold fractionText intText
      by_cases hd : q.den = 1 <;> by_cases hn : q.num < 0 <;> simp [hd, hn]
    · intro c hc
      cases hd : decimal q.num.natAbs with
      | nil => exact absurd hd n1
      | cons a l =>
        rw [hd] at hc
        simp only [List.cons_append, List.head?_cons, Option.some.injEq] at hc
        exact hc ▸ n2 a (by rw [hd]; simp)
    · simp [n1]
    · apply takeWhile_digits n2
      intro c hc
      split at hc
      · cases hc
      · simp only [List.head?_cons, Option.some.injEq] at hc
        rw [← hc]
        decide
  obtain ⟨body, b1, b2, b3, b4, b5⟩ := hbody
  have hval : ∀ sign : ℚ, sign * (q.num.natAbs : ℚ) = q.num → sign * ((q.num.natAbs : ℕ) : ℚ) / (q.den : ℚ) = q := by
    intro sign h
    rw [h]
    exact Rat.num_div_den q
  have hsign : ((if q.num < 0 then (-1 : ℚ) else 1)) * (q.num.natAbs : ℚ) = q.num := by
    by_cases hn : q.num < 0
    · rw [if_pos hn]
      have : ((q.num.natAbs : ℤ) : ℚ) = ((-q.num : ℤ) : ℚ) := by rw [Int.ofNat_natAbs_of_nonpos hn.le]
      rw [Int.cast_natCast] at this
      rw [this]; push_cast; ring
    · rw [if_neg hn]
      have : ((q.num.natAbs : ℤ) : ℚ) = (q.num : ℚ) := by rw [Int.natAbs_of_nonneg (not_lt.1 hn)]
      rw [Int.cast_natCast] at this
      rw [this]; ring
  have hhead : ∀ c, body.head? = some c → c ≠ '-' ∧ c ≠ '+' := by
    intro c hc
    have := isDigit_range (b2 c hc)
    constructor <;> rintro rfl <;> revert this <;> decide
  have e1 : ((fractionText q).head? = some '-') ↔ q.num < 0 := by
    rw [b1]
    by_cases hn : q.num < 0
    · simp [hn]
    · simp only [hn, if_false, iff_false]
      exact fun h => (hhead _ h).1 rfl
  have e2 : (if (fractionText q).head? = some '-' ∨ (fractionText q).head? = some '+' then (fractionText q).tail else fractionText q) = body := by
    by_cases hn : q.num < 0
    · rw [if_pos (.inl (e1.2 hn)), b1, if_pos hn]
      rfl
    · rw [if_neg, b1, if_neg hn]
      rw [b1, if_neg hn]
      rintro (h | h)
      · exact (hhead _ h).1 rfl
      · exact (hhead _ h).2 rfl
  unfold fractionParse
  simp only [hstrip]
  simp only [e2, b4, b5]
  simp only [e1]
  obtain ⟨n1, n2, n3⟩ := decimal_facts q.num.natAbs
  obtain ⟨m1, m2, m3⟩ := decimal_facts q.den
  rw [if_neg (by simpa using n1), n3]
  by_cases hd : q.den = 1
  · simp only [hd, if_true]
    rw [hsign]
    have := hval _ hsign
    rw [hsign, hd] at this
    simpa using this
  · simp only [hd, if_false]
    rw [if_neg, m3, hval _ hsign]
    have hpos := q.den_pos
    simp only [Bool.or_eq_true, Bool.not_eq_true', beq_iff_eq, m3, not_or]
    refine ⟨⟨by simpa using m1, ?_⟩, by omega⟩
    rw [Bool.not_eq_false]
    exact List.all_eq_true.2 m2

/-! ### Points -/

theorem pyJoin_chars {P : Char → Prop} {sep : List Char} {ts : List (List Char)} (hsep : ∀ c ∈ sep, P c) (h : ∀ t ∈ ts, ∀ c ∈ t, P c) :
    ∀ c ∈ pyJoin sep ts, P c := by
  induction ts with
  | nil => simp [pyJoin]
  | cons t ts ih =>
    cases ts with
    | nil => simpa [pyJoin] using h
    | cons u ts =>
      intro c hc
      rw [pyJoin] at hc
      · rcases List.mem_append.1 hc with hc | hc
        · rcases List.mem_append.1 hc with hc | hc
          · exact h t (by simp) c hc
          · exact hsep c hc
        · exact ih (fun t ht => h t (by simp [ht])) c hc
      · simp

theorem pySplitOn_join {c : Char} {ts : List (List Char)} (hne : ts ≠ []) (h : ∀ t ∈ ts, c ∉ t) : pySplitOn c (pyJoin [c] ts) = ts := by
  induction ts with
  | nil => exact absurd rfl hne
  | cons t ts ih =>
    cases ts with
    | nil => exact pySplitOn_none (h t (by simp))
    | cons u ts =>
      rw [pyJoin]
      · rw [List.append_assoc, List.singleton_append, pySplitOn_append (h t (by simp)), ih (by simp) fun t ht => h t (by simp [ht])]
      · simp

theorem pyJoin_head {sep : List Char} {ts : List (List Char)} (h : ∀ t ∈ ts, t ≠ []) (c : Char) (hc : (pyJoin sep ts).head? = some c) :
    ∃ t ∈ ts, t.head? = some c := by
  cases ts with
  | nil => simp [pyJoin] at hc
  | cons t ts =>
    refine ⟨t, by simp, ?_⟩
    cases ts with
    | nil => exact hc
    | cons u ts =>
      rw [pyJoin] at hc
      · cases t with
        | nil => exact absurd rfl (h [] (by simp))
        | cons a t => simpa using hc
      · simp

theorem pyJoin_last {sep : List Char} {ts : List (List Char)} (h : ∀ t ∈ ts, t ≠ []) (c : Char) (hc : (pyJoin sep ts).getLast? = some c) :
    ∃ t ∈ ts, t.getLast? = some c := by
  induction ts with
  | nil => simp [pyJoin] at hc
  | cons t ts ih =>
    cases ts with
    | nil => exact ⟨t, by simp, hc⟩
    | cons u ts =>
      rw [pyJoin] at hc
      · have hne : pyJoin sep (u :: ts) ≠ [] := by
          cases ts with
          | nil => simpa [pyJoin] using h u (by simp)
          | cons v ts =>
            rw [pyJoin]
            · simp [h u (by simp)]
            · simp
        rw [List.getLast?_append_of_ne_nil _ hne] at hc
        obtain ⟨t', ht', e⟩ := ih (fun t ht => h t (by simp [ht])) hc
        exact ⟨t', by simp [ht'], e⟩
      · simp

/-- Coordinates between the parentheses. -/
theorem coords_chars (p : Point d) : ∀ c ∈ pyJoin [','] ((List.ofFn p).map fractionText), fracChar c = true ∨ c = ',' := by
  apply pyJoin_chars
  · intro c hc
    exact .inr (by simpa using hc)
  · intro t ht c hc
    obtain ⟨q, _, rfl⟩ := List.mem_map.1 ht
    exact .inl (fractionText_chars q c hc)

theorem Point.text_chars (p : Point d) : ∀ c ∈ p.text, fracChar c = true ∨ c = ',' ∨ c = '(' ∨ c = ')' := by
  intro c hc
  unfold Point.text at hc
  rcases List.mem_append.1 hc with hc | hc
  · rcases List.mem_append.1 hc with hc | hc
    · exact .inr (.inr (.inl (by simpa using hc)))
    · exact (coords_chars p c hc).imp_right .inl
  · exact .inr (.inr (.inr (by simpa using hc)))

theorem Point.text_not (p : Point d) : '>' ∉ p.text ∧ '|' ∉ p.text ∧ '\n' ∉ p.text := by
  refine ⟨?_, ?_, ?_⟩ <;>
  · intro h
    rcases p.text_chars _ h with h | h | h | h <;> revert h <;> decide

theorem Point.parse_text (hd : 1 ≤ d) (p : Point d) {w1 w2 : List Char} (h1 : ∀ c ∈ w1, isPySpace c = true) (h2 : ∀ c ∈ w2, isPySpace c = true) :
    Point.parse d (w1 ++ p.text ++ w2) = some p := by
  have hne : ((List.ofFn p).map fractionText) ≠ [] := by
    intro h
    have := congrArg List.length h
    simp at this
    omega
  have hstrip : pyStrip (w1 ++ p.text ++ w2) = p.text := by
    refine pyStrip_both h1 h2 ?_ ?_
    · intro c hc
      have : c = '(' := by
        unfold Point.text at hc
        simpa using hc.symm
      subst this; decide
    · intro c hc
      have : c = ')' := by
        unfold Point.text at hc
        rw [List.getLast?_append_of_ne_nil _ (by simp)] at hc
        simpa using hc.symm
      subst this; decide
  have hf : ∀ t ∈ (List.ofFn p).map fractionText, t ≠ [] ∧ ∀ c ∈ t, fracChar c = true := by
    intro t ht
    obtain ⟨q, _, rfl⟩ := List.mem_map.1 ht
    exact ⟨fractionText_ne_nil q, fractionText_chars q⟩
  have hparens : stripParens p.text = pyJoin [','] ((List.ofFn p).map fractionText) := by
    unfold stripParens Point.text
    refine strip_both (by decide) (by decide) ?_ ?_
    · intro c hc
      obtain ⟨t, ht, e⟩ := pyJoin_head (fun t ht => (hf t ht).1) c hc
      have := fracChar_not ((hf t ht).2 c (List.mem_of_mem_head? e))
      simp [this]
    · intro c hc
      obtain ⟨t, ht, e⟩ := pyJoin_last (fun t ht => (hf t ht).1) c hc
      have := fracChar_not ((hf t ht).2 c (List.mem_of_mem_getLast? e))
      simp [this]
  unfold Point.parse
  rw [hstrip, hparens, pySplitOn_join hne]
  · rw [List.mapM_map]
    have : (List.ofFn p).mapM (fractionParse ∘ fractionText) = some (List.ofFn p) := by
      have h := mapM_eq_some_map (f := fractionParse ∘ fractionText) (g := id) (l := List.ofFn p) (by
        intro q _
        have := fractionParse_text q (w1 := []) (w2 := []) (by simp) (by simp)
        simpa using this)
      simpa using h
    rw [this]
    simp only [Option.bind_eq_bind, Option.bind_some, List.length_ofFn, if_true]
    congr 1
    funext j
    simp
  · intro t ht hc
    exact (fracChar_not ((hf t ht).2 _ hc)).2.1 rfl

theorem Link.text_not (l : Link (Point d)) : '|' ∉ l.text ∧ '\n' ∉ l.text := by
  constructor <;>
  · intro h
    unfold Link.text at h
    rcases List.mem_append.1 h with h | h
    · rcases List.mem_append.1 h with h | h
      · first | exact l.entrance.text_not.2.1 h | exact l.entrance.text_not.2.2 h
      · revert h; decide
    · first | exact l.exit.text_not.2.1 h | exact l.exit.text_not.2.2 h

theorem Link.text_head (l : Link (Point d)) (c : Char) (hc : l.text.head? = some c) : isPySpace c = false := by
  have : c = '(' := by
    unfold Link.text Point.text at hc
    simpa using hc.symm
  subst this; decide

theorem Link.text_last (l : Link (Point d)) (c : Char) (hc : l.text.getLast? = some c) : isPySpace c = false := by
  have : c = ')' := by
    unfold Link.text Point.text at hc
    rw [List.getLast?_append_of_ne_nil _ (by simp), List.getLast?_append_of_ne_nil _ (by simp)] at hc
    simpa using hc.symm
  subst this; decide

theorem Link.text_ne_nil (l : Link (Point d)) : l.text ≠ [] := by unfold Link.text Point.text; simp

theorem Link.parseGates_text (hd : 1 ≤ d) (l : Link (Point d)) {w1 w2 : List Char} (h1 : ∀ c ∈ w1, isPySpace c = true) (h2 : ∀ c ∈ w2, isPySpace c = true) :
    Link.parseGates d (w1 ++ l.text ++ w2) = some l := by
  have hsp : ∀ w : List Char, (∀ c ∈ w, isPySpace c = true) → '>' ∉ w := by
    intro w hw h
    have := hw _ h
    revert this
    decide
  have e : w1 ++ l.text ++ w2 = (w1 ++ l.entrance.text ++ [' ']) ++ '-' :: '>' :: ([' '] ++ l.exit.text ++ w2) := by
    unfold Link.text
    have : " -> ".toList = [' ', '-', '>', ' '] := by decide
    rw [this]
    simp
  unfold Link.parseGates
  rw [e, pySplitArrow_append, pySplitArrow_none]
  · simp only [List.mapM_cons, List.mapM_nil]
    rw [Point.parse_text hd l.entrance h1 (by decide), Point.parse_text hd l.exit (by decide) h2]
    rfl
  · simp only [List.mem_append, not_or]
    exact ⟨⟨by decide, l.exit.text_not.1⟩, hsp _ h2⟩
  · simp only [List.mem_append, not_or]
    exact ⟨⟨hsp _ h1, l.entrance.text_not.1⟩, by decide⟩

/-! ### Lines -/
namespace Search

/-- Tokens of a line of gates after the split. -/
theorem split_line (ts : List (List Char)) (hne : ts ≠ []) (h : ∀ t ∈ ts, '|' ∉ t) :
    ∃ toks, pySplitOn '|' (pyJoin " | ".toList ts) = toks ∧
      List.Forall₂ (fun t tok => ∃ w1 w2, (∀ c ∈ w1, isPySpace c = true) ∧ (∀ c ∈ w2, isPySpace c = true) ∧ tok = w1 ++ t ++ w2) ts toks := by
  -- the first token may be preceded by a space
  have main : ∀ w : List Char, (∀ c ∈ w, isPySpace c = true) → '|' ∉ w → ∃ toks, pySplitOn '|' (w ++ pyJoin " | ".toList ts) = toks ∧
      List.Forall₂ (fun t tok => ∃ w1 w2, (∀ c ∈ w1, isPySpace c = true) ∧ (∀ c ∈ w2, isPySpace c = true) ∧ tok = w1 ++ t ++ w2) ts toks := by
    induction ts with
    | nil => exact absurd rfl hne
    | cons t ts ih =>
      intro w hw hw'
      cases ts with
      | nil =>
        refine ⟨[w ++ t], ?_, .cons ⟨w, [], hw, by simp, by simp⟩ .nil⟩
        apply pySplitOn_none
        simp only [pyJoin, List.mem_append, not_or]
        exact ⟨hw', h t (by simp)⟩
      | cons u ts =>
        obtain ⟨toks, e1, e2⟩ := ih (by simp) (fun t ht => h t (by simp [ht])) [' '] (by decide) (by decide)
        refine ⟨(w ++ t ++ [' ']) :: toks, ?_, .cons ⟨w, [' '], hw, by decide, rfl⟩ e2⟩
        rw [← e1, pyJoin]
        · have : " | ".toList = [' ', '|', ' '] := by decide
          rw [this]
          have e : w ++ (t ++ [' ', '|', ' '] ++ pyJoin [' ', '|', ' '] (u :: ts)) = (w ++ t ++ [' ']) ++ '|' :: ([' '] ++ pyJoin [' ', '|', ' '] (u :: ts)) := by simp
          rw [e, pySplitOn_append]
          simp only [List.mem_append, not_or]
          exact ⟨⟨hw', h t (by simp)⟩, by decide⟩
        · simp
  simpa using main [] (by simp) (by simp)

theorem parseGatesLine_line (hd : 1 ≤ d) (gates : GateTuple d) (hne : gates ≠ []) {w1 w2 : List Char} (h1 : ∀ c ∈ w1, isPySpace c = true)
    (h2 : ∀ c ∈ w2, isPySpace c = true) : parseGatesLine d (w1 ++ pyJoin " | ".toList (gates.map Link.text) ++ w2) = some gates := by
  have hne' : gates.map Link.text ≠ [] := by simpa using hne
  have ht : ∀ t ∈ gates.map Link.text, t ≠ [] := by
    intro t ht
    obtain ⟨l, _, rfl⟩ := List.mem_map.1 ht
    exact l.text_ne_nil
  unfold parseGatesLine
  rw [pyStrip_both h1 h2]
  · obtain ⟨toks, e1, e2⟩ := split_line (gates.map Link.text) hne' (by
      intro t ht
      obtain ⟨l, _, rfl⟩ := List.mem_map.1 ht
      exact l.text_not.1)
    rw [e1]
    rw [List.forall₂_map_left_iff] at e2
    clear e1 hne hne' ht
    induction e2 with
    | nil => rfl
    | cons hx _ ih =>
      obtain ⟨v1, v2, k1, k2, rfl⟩ := hx
      rw [List.mapM_cons, ih, Link.parseGates_text hd _ k1 k2]
      rfl
  · intro c hc
    obtain ⟨t, htm, e⟩ := pyJoin_head ht c hc
    obtain ⟨l, _, rfl⟩ := List.mem_map.1 htm
    exact l.text_head c e
  · intro c hc
    obtain ⟨t, htm, e⟩ := pyJoin_last ht c hc
    obtain ⟨l, _, rfl⟩ := List.mem_map.1 htm
    exact l.text_last c e

theorem fileLines_append {s t : List Char} (h : '\n' ∉ s) : fileLines (s ++ '\n' :: t) = (s ++ ['\n']) :: fileLines t := by
  induction s with
  | nil => simp [fileLines]
  | cons a s ih =>
    rw [List.mem_cons, not_or] at h
    rw [List.cons_append, fileLines, if_neg (fun e => h.1 e.symm), ih h.2]
    rfl

theorem fileLines_output (l : List (GateTuple d)) : fileLines (gatesOutput l) = l.map gatesLine := by
  induction l with
  | nil => rfl
  | cons g l ih =>
    have hn : '\n' ∉ pyJoin " | ".toList (g.map Link.text) := by
      intro h
      refine pyJoin_chars (P := fun c => c ≠ '\n') (by decide) ?_ _ h rfl
      intro t ht c hc
      obtain ⟨m, _, rfl⟩ := List.mem_map.1 ht
      rintro rfl
      exact m.text_not.2 hc
    unfold gatesOutput at ih ⊢
    rw [List.map_cons, List.flatten_cons, gatesLine, List.append_assoc, List.singleton_append, fileLines_append hn, ih]

theorem parse_output (hd : 1 ≤ d) (l : List (GateTuple d)) (hne : ∀ g ∈ l, g ≠ []) : (fileLines (gatesOutput l)).mapM (parseGatesLine d) = some l := by
  rw [fileLines_output, List.mapM_map]
  have h := mapM_eq_some_map (f := parseGatesLine d ∘ gatesLine) (g := id) (l := l) (by
    intro g hg
    have := parseGatesLine_line hd g (hne g hg) (w1 := []) (w2 := ['\n']) (by simp) (by decide)
    simpa [gatesLine] using this)
  simpa using h

end Search
end Peano
