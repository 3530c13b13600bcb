import Verif.Lemmas.RawBaseMap
import Verif.Lemmas.Caches
import Verif.Props.BaseMaps

set_option autoImplicit false

/- Properties C04, C07 and the text part of C09; refinement of the list-level operations by the typed ones. -/
namespace Peano.BaseMap
variable {d : ℕ}

/-- The `k`-th unit vector. -/
def unit (k : Fin d) : Fin d → ℚ := fun i => if i = k then 1 else 0

/-- C04. `parse(str(B)) == B` in dimensions 1..6, also with surrounding white space. -/
theorem C04_parse_str (a : BaseMap d) (hd0 : 1 ≤ d) (hd : d ≤ 6) (w1 w2 : List Char)
    (h1 : ∀ c ∈ w1, isPySpace c = true) (h2 : ∀ c ∈ w2, isPySpace c = true) :
    ∃ s, a.toRaw.str = some s ∧ RawBaseMap.parse (w1 ++ s ++ w2) = some a.toRaw :=
  ⟨a.text, str_toRaw a hd, parse_text a hd0 hd w1 w2 h1 h2⟩

/-- C04. The text consists of one letter per basis vector, then `~` for time reversal; the `k`-th letter is the lower case letter of
the basis vector `e_i` if `e_k` is sent to `e_i`, the upper case one if it is sent to `-e_i`. -/
theorem C04_letters (a : BaseMap d) (hd : d ≤ 6) : ∃ letters : Fin d → Char,
    a.toRaw.str = some (List.ofFn letters ++ (if a.timeRev then ['~'] else [])) ∧
    ∀ k : Fin d, ∃ i : Fin d,
      (a.applyVec (unit k) = unit i ∧ letters k = "ijklmn".toList.getD i.val ' ') ∨
      (a.applyVec (unit k) = -unit i ∧ letters k = "IJKLMN".toList.getD i.val ' ') := by
  refine ⟨fun k => RawBaseMap.letter (a⁻¹.coords k).1.val (a⁻¹.coords k).2, str_toRaw a hd, ?_⟩
  intro k
  refine ⟨(a⁻¹.coords k).1, ?_⟩
  have hk : a.coords (a⁻¹.coords k).1 = (k, (a⁻¹.coords k).2) := by
    have := inv_coords a⁻¹ k
    rwa [inv_inv] at this
  have hother : ∀ j, j ≠ (a⁻¹.coords k).1 → (a.coords j).1 ≠ k := by
    intro j hj h
    apply hj
    apply a.inj
    simp only [hk, h]
  have hlow : ∀ i : Fin 6, RawBaseMap.letter i false = "ijklmn".toList.getD i.val ' ' ∧
      RawBaseMap.letter i true = "IJKLMN".toList.getD i.val ' ' := by decide
  have hi : (a⁻¹.coords k).1.val < 6 := by have := (a⁻¹.coords k).1.isLt; omega
  cases hb : (a⁻¹.coords k).2 with
  | false =>
    left
    refine ⟨?_, by simp only [hb]; exact (hlow ⟨_, hi⟩).1⟩
    funext j
    simp only [applyVec, unit]
    by_cases hj : j = (a⁻¹.coords k).1
    · subst hj; rw [hk, hb]; simp
    · rw [if_neg hj, if_neg (hother j hj)]; simp
  | true =>
    right
    refine ⟨?_, by simp only [hb]; exact (hlow ⟨_, hi⟩).2⟩
    funext j
    simp only [applyVec, unit, Pi.neg_apply]
    by_cases hj : j = (a⁻¹.coords k).1
    · subst hj; rw [hk, hb]; simp
    · rw [if_neg hj, if_neg (hother j hj)]; simp

example : exJi.toRaw.str = some "Ji~".toList ∧ RawBaseMap.parse "  Ji~\n".toList = some exJi.toRaw := by decide

/-- The parser accepts texts with a repeated letter and then returns an object that is not an isometry. -/
example : RawBaseMap.parse "ii".toList = some ⟨[(1, false)], false⟩ ∧ ¬ ∃ a : BaseMap 1, a.toRaw = ⟨[(1, false)], false⟩ := by
  refine ⟨by decide, ?_⟩
  rintro ⟨a, ha⟩
  have := a.toRaw_bound (1, false) (by rw [ha]; simp)
  simp at this

/-- Refinement: the loops of the code on coordinate lists compute the typed operations (used by C01, C02). -/
theorem C01_raw_refinement (a b : BaseMap d) :
    a.toRaw.mul b.toRaw = some (a.mul b).toRaw ∧ a.toRaw.inverse = some a.inverse.toRaw ∧
    RawBaseMap.idMap d = (idMap d).toRaw ∧ a.toRaw.invert = a.invert.toRaw ∧ Function.Injective (toRaw (d := d)) :=
  ⟨toRaw_mul a b, toRaw_inverse a, toRaw_idMap, rfl, toRaw_injective⟩

end Peano.BaseMap

namespace Peano.Spec
variable {d : ℕ}

theorem decimal_lt {n : ℕ} (h : n < 10) : decimal n = [Char.ofNat (48 + n)] := by rw [decimal]; simp [h]

theorem digit_facts {n : ℕ} (h : n < 10) : ('0' ≤ Char.ofNat (48 + n) ∧ Char.ofNat (48 + n) ≤ '9') ∧ (Char.ofNat (48 + n)).toNat - 48 = n ∧
    basisLetters.idxOf? (pyLower (Char.ofNat (48 + n))) = none ∧ isPySpace (Char.ofNat (48 + n)) = false ∧ Char.ofNat (48 + n) ≠ '~' := by
  have : ∀ n : Fin 10, ('0' ≤ Char.ofNat (48 + n) ∧ Char.ofNat (48 + n) ≤ '9') ∧ (Char.ofNat (48 + n)).toNat - 48 = n.val ∧
    basisLetters.idxOf? (pyLower (Char.ofNat (48 + n))) = none ∧ isPySpace (Char.ofNat (48 + n)) = false ∧ Char.ofNat (48 + n) ≠ '~' := by decide
  exact this ⟨n, h⟩

/-- C09 (partial: pattern numbers up to 9). `Spec.parse(str(S)) == S` for specs of dimension 1..6. -/
theorem C09_parse_str_partial (s : Spec d) (hd0 : 1 ≤ d) (hd : d ≤ 6) (hp : s.pnum ≤ 9) :
    ∃ t, s.toRaw.str = some t ∧ RawSpec.parse t = some s.toRaw := by
  refine ⟨decimal s.pnum ++ s.baseMap.text, ?_, ?_⟩
  · simp only [RawSpec.str, toRaw, BaseMap.str_toRaw _ hd]; rfl
  · have hf := digit_facts (n := s.pnum) (by omega)
    rw [decimal_lt (by omega)]
    have hparse := BaseMap.parse_text s.baseMap hd0 hd [] [] (by simp) (by simp)
    simp only [List.nil_append, List.append_nil] at hparse
    simp only [RawSpec.parse, List.cons_append, List.nil_append, List.head?_cons, Option.bind_eq_bind, Option.bind_some, List.tail_cons, hf.1,
      hparse, hf.2.1]
    rfl

theorem decimal_two {n : ℕ} (h : 10 ≤ n) : ∃ a b rest, a < 10 ∧ b < 10 ∧ decimal n = Char.ofNat (48 + a) :: Char.ofNat (48 + b) :: rest := by
  induction n using Nat.strong_induction_on with
  | _ n ih =>
    rw [decimal, dif_neg (by omega)]
    by_cases h10 : n / 10 < 10
    · rw [decimal_lt h10]
      exact ⟨n / 10, n % 10, [], h10, by omega, rfl⟩
    · obtain ⟨a, b, rest, ha, hb, he⟩ := ih (n / 10) (by omega) (by omega)
      rw [he]
      exact ⟨a, b, _, ha, hb, rfl⟩

theorem parse_digit_head {c : Char} {t : List Char} (h1 : basisLetters.idxOf? (pyLower c) = none) (h2 : isPySpace c = false) (h3 : c ≠ '~') :
    RawBaseMap.parse (c :: t) = none := by
  unfold RawBaseMap.parse
  have hstrip : ∃ t', pyStrip (c :: t) = c :: t' := by
    unfold pyStrip
    rw [List.dropWhile_cons, h2]
    simp only [Bool.false_eq_true, if_false, List.reverse_cons]
    have : ∀ l : List Char, ∃ l', (l ++ [c]).dropWhile isPySpace = l' ++ [c] := by
      intro l
      induction l with
      | nil => exact ⟨[], by simp [h2]⟩
      | cons a l ih =>
        by_cases ha : isPySpace a = true
        · simpa [List.dropWhile_cons, ha] using ih
        · exact ⟨a :: l, by simp [ha]⟩
    obtain ⟨l', hl'⟩ := this t.reverse
    exact ⟨l'.reverse, by rw [hl']; simp⟩
  obtain ⟨t', ht'⟩ := hstrip
  simp only [ht']
  have hbasis : ∀ x : Char, ∃ t'', (if decide (x = '~') = true then (c :: t').dropLast else c :: t') = c :: t'' ∨ (c :: t').getLast? ≠ some x := by
    intro x
    by_cases hx : x = '~'
    · cases t' with
      | nil =>
        refine ⟨[], Or.inr ?_⟩
        simp only [List.getLast?_singleton, ne_eq, Option.some.injEq]
        rintro rfl; exact h3 hx
      | cons a t'' => exact ⟨_, Or.inl (by simp [hx]; rfl)⟩
    · exact ⟨t', Or.inl (by simp [hx])⟩
  cases hl : (c :: t').getLast? with
  | none => rfl
  | some x =>
    obtain ⟨t'', h | h⟩ := hbasis x
    · simp only [Option.bind_eq_bind, Option.bind_some, h]
      split
      · simp [RawBaseMap.parseLoop, h1]
      · rfl
    · exact absurd hl h

/-- C09, violated part: the text of a spec with pattern number 10 or more is not parsed back; `Spec.parse` raises. -/
theorem C09_parse_str_fails (s : Spec d) (hd : d ≤ 6) (hp : 10 ≤ s.pnum) :
    ∃ t, s.toRaw.str = some t ∧ RawSpec.parse t = none := by
  refine ⟨decimal s.pnum ++ s.baseMap.text, ?_, ?_⟩
  · simp only [RawSpec.str, toRaw, BaseMap.str_toRaw _ hd]; rfl
  · obtain ⟨a, b, rest, ha, hb, he⟩ := decimal_two hp
    have hfa := digit_facts ha
    have hfb := digit_facts hb
    rw [he]
    simp only [RawSpec.parse, List.cons_append, List.head?_cons, Option.bind_eq_bind, Option.bind_some, List.tail_cons]
    rw [if_pos hfa.1, parse_digit_head hfb.2.2.1 hfb.2.2.2.1 hfb.2.2.2.2]
    rfl

example : RawSpec.parse "3Ji~".toList = some (Spec.toRaw ⟨BaseMap.exJi, 3⟩) := by decide
example : (Spec.toRaw ⟨BaseMap.exJi, 12⟩).str = some "12Ji~".toList ∧ RawSpec.parse "12Ji~".toList = none := by decide +kernel

end Peano.Spec

namespace Peano.Caches

/-- C07. After any history of operations, an operation returns the value of the uncached formula applied to the values of its operands
(and raises exactly when that is undefined); references obtained earlier keep their values. -/
theorem C07_caches_transparent (history : List Op) (op : Op) :
    let st := run history init
    match step st op with
    | some (r, st') => (resultVal st' r op).isSome ∧ resultVal st' r op = uncached (bmVal st) (specVal st) op ∧
        (∀ i v, bmVal st i = some v → bmVal st' i = some v) ∧ (∀ s v, specVal st s = some v → specVal st' s = some v)
    | none => uncached (bmVal st) (specVal st) op = none := by
  have h := step_spec (inv_run history inv_init) op
  simp only
  cases hs : step (run history init) op with
  | none => rw [hs] at h; exact h
  | some p =>
    rw [hs] at h
    obtain ⟨_, h2, v, h3, h4⟩ := h
    refine ⟨by rw [h3]; rfl, by rw [h3, h4], h2.bm, h2.spec⟩

/-- C07. Total object caching: equal values are the same object (so comparing keys or identities is the same). -/
theorem C07_hash_consing (history : List Op) (i j : ℕ) (v : RawBaseMap)
    (hi : bmVal (run history init) i = some v) (hj : bmVal (run history init) j = some v) : i = j := by
  have h := inv_run history inv_init
  have h1 := h.cons i v hi
  rw [h.cons j v hj] at h1
  simpa using h1.symm

/-- A history that uses every cache twice. -/
example : let st := run [.newBM ⟨[(1, false), (0, true)], true⟩, .mul 0 0, .mul 0 0, .inverse 0, .inverse 0, .idMap 2, .idMap 2,
      .newSpec 0 3, .specMul 0 0, .specMul 0 0] init
    st.objs.length = 4 ∧ st.specs.length = 2 ∧ bmVal st 1 = some ⟨[(0, true), (1, true)], false⟩ := by decide

end Peano.Caches
