import Mathlib.Data.List.Basic
import Mathlib.Data.List.Nodup
import Mathlib.Tactic.IntervalCases
import Verif.Model.RawBaseMap
import Verif.Lemmas.BaseMap

/- The raw (list level) operations refine to the typed ones; text forms. -/
namespace Peano

theorem mapM_id_map_some {α : Type*} (l : List α) : (l.map some).mapM id = some l := by
  induction l with
  | nil => rfl
  | cons a l ih => rw [List.map_cons, List.mapM_cons, ih]; rfl

theorem mapM_eq_some_of_forall {α β : Type*} {f : α → Option β} {g : α → β} {l : List α} (h : ∀ a ∈ l, f a = some (g a)) :
    l.mapM f = some (l.map g) := by
  induction l with
  | nil => rfl
  | cons a l ih =>
    rw [List.mapM_cons, h a List.mem_cons_self, ih fun b hb => h b (List.mem_cons_of_mem _ hb)]
    rfl

theorem mapM_eq_some_iff {α β : Type*} {f : α → Option β} {l : List α} {l' : List β} :
    l.mapM f = some l' ↔ List.Forall₂ (fun a b => f a = some b) l l' := by
  induction l generalizing l' with
  | nil => simp [eq_comm]
  | cons a l ih =>
    rw [List.mapM_cons]
    cases hfa : f a with
    | none => simp [List.forall₂_cons_left_iff, hfa]
    | some b =>
      cases hl : l.mapM f with
      | none =>
        simp only [Option.bind_eq_bind, Option.bind_some, Option.bind_none, reduceCtorEq, false_iff, List.forall₂_cons_left_iff,
          not_exists, not_and]
        intro c l'' _ h
        rw [ih.2 h] at hl; simp at hl
      | some l'' =>
        simp only [Option.bind_eq_bind, Option.bind_some, Option.pure_def, Option.some.injEq]
        have := ih.1 hl
        constructor
        · rintro rfl; exact List.Forall₂.cons hfa this
        · intro h
          cases h with
          | cons h1 h2 =>
            rw [hfa] at h1
            have h3 := ih.2 h2
            rw [hl] at h3
            simp at h1 h3
            rw [h1, h3]

theorem mapM_ofFn_eq {α β : Type*} {n : ℕ} {f : Fin n → α} {g : α → Option β} {h : Fin n → β} (H : ∀ i, g (f i) = some (h i)) :
    (List.ofFn f).mapM g = some (List.ofFn h) := by
  rw [mapM_eq_some_iff, List.forall₂_iff_get]
  exact ⟨by simp, fun i h1 h2 => by simpa using H _⟩

namespace RawBaseMap

/-- the letter of the signed basis vector `±e_i` -/
def letter (i : ℕ) (b : Bool) : Char := if b then pyUpper (basisLetters.getD i 'i') else basisLetters.getD i 'i'

theorem letter_facts {i : ℕ} (hi : i < 6) (b : Bool) : basisLetters.idxOf? (pyLower (letter i b)) = some i ∧
    decide (letter i b ≠ pyLower (letter i b)) = b ∧ isPySpace (letter i b) = false ∧ letter i b ≠ '~' := by
  have : ∀ i : Fin 6, ∀ b : Bool, basisLetters.idxOf? (pyLower (letter i b)) = some i.val ∧
    decide (letter i b ≠ pyLower (letter i b)) = b ∧ isPySpace (letter i b) = false ∧ letter i b ≠ '~' := by decide
  exact this ⟨i, hi⟩ b

theorem strLoop_spec (rest : List (ℕ × Bool)) (i : ℕ) (basis : List (Option Char)) (h1 : ∀ p ∈ rest, p.1 < basis.length)
    (h2 : i + rest.length ≤ 6) (h3 : (rest.map Prod.fst).Nodup) :
    ∃ out, strLoop i rest basis = some out ∧ out.length = basis.length ∧
      (∀ j (hj : j < rest.length), out[rest[j].1]? = some (some (letter (i + j) rest[j].2))) ∧
      ∀ k, k ∉ rest.map Prod.fst → out[k]? = basis[k]? := by
  induction rest generalizing i basis with
  | nil => exact ⟨basis, rfl, rfl, by simp, by simp⟩
  | cons p rest ih =>
    obtain ⟨k, b⟩ := p
    simp only [List.map_cons, List.nodup_cons, List.length_cons] at h2 h3
    have hk : k < basis.length := h1 (k, b) List.mem_cons_self
    obtain ⟨out, e1, e2, e3, e4⟩ := ih (i + 1) (basis.set k (some (letter i b)))
      (fun p hp => by simpa using h1 p (List.mem_cons_of_mem _ hp)) (by omega) h3.2
    have hb : basisLetters[i]? = some (basisLetters.getD i 'i') := by
      have : i < basisLetters.length := by simp [basisLetters]; omega
      simp [List.getD, this]
    refine ⟨out, ?_, by simpa using e2, ?_, ?_⟩
    · simp only [strLoop, hb, Option.bind_eq_bind, Option.bind_some, hk, if_true]
      exact e1
    · intro j hj
      cases j with
      | zero =>
        simp only [List.getElem_cons_zero, add_zero]
        rw [e4 k h3.1]
        simp [hk]
      | succ j =>
        simp only [List.length_cons] at hj
        have := e3 j (by omega)
        simp only [List.getElem_cons_succ]
        rw [this]; congr 3; omega
    · intro k' hk'
      simp only [List.map_cons, List.mem_cons, not_or] at hk'
      rw [e4 k' hk'.2, List.getElem?_set_ne (Ne.symm hk'.1)]

theorem invLoop_spec (rest : List (ℕ × Bool)) (i : ℕ) (basis : List (Option (ℕ × Bool))) (h1 : ∀ p ∈ rest, p.1 < basis.length)
    (h3 : (rest.map Prod.fst).Nodup) :
    ∃ out, invLoop i rest basis = some out ∧ out.length = basis.length ∧
      (∀ j (hj : j < rest.length), out[rest[j].1]? = some (some (i + j, rest[j].2))) ∧
      ∀ k, k ∉ rest.map Prod.fst → out[k]? = basis[k]? := by
  induction rest generalizing i basis with
  | nil => exact ⟨basis, rfl, rfl, by simp, by simp⟩
  | cons p rest ih =>
    obtain ⟨k, b⟩ := p
    simp only [List.map_cons, List.nodup_cons] at h3
    have hk : k < basis.length := h1 (k, b) List.mem_cons_self
    obtain ⟨out, e1, e2, e3, e4⟩ := ih (i + 1) (basis.set k (some (i, b)))
      (fun p hp => by simpa using h1 p (List.mem_cons_of_mem _ hp)) h3.2
    refine ⟨out, ?_, by simpa using e2, ?_, ?_⟩
    · simp only [invLoop, hk, if_true]
      exact e1
    · intro j hj
      cases j with
      | zero =>
        simp only [List.getElem_cons_zero, add_zero]
        rw [e4 k h3.1]
        simp [hk]
      | succ j =>
        simp only [List.length_cons] at hj
        have := e3 j (by omega)
        simp only [List.getElem_cons_succ]
        rw [this]; congr 3; omega
    · intro k' hk'
      simp only [List.map_cons, List.mem_cons, not_or] at hk'
      rw [e4 k' hk'.2, List.getElem?_set_ne (Ne.symm hk'.1)]

end RawBaseMap

namespace BaseMap
variable {d : ℕ}

theorem toRaw_injective : Function.Injective (toRaw (d := d)) := by
  intro a b h
  simp only [toRaw, RawBaseMap.mk.injEq] at h
  have h1 := List.ofFn_injective h.1
  apply BaseMap.ext _ h.2
  intro i
  have := congrFun h1 i
  simp only [Prod.mk.injEq] at this
  exact Prod.ext (Fin.ext this.1) this.2

@[simp] theorem toRaw_length (a : BaseMap d) : a.toRaw.coords.length = d := by simp [toRaw]

theorem toRaw_nodup (a : BaseMap d) : (a.toRaw.coords.map Prod.fst).Nodup := by
  simp only [toRaw, List.map_ofFn]
  exact List.nodup_ofFn.2 fun i j h => a.inj (Fin.ext h)

theorem toRaw_bound (a : BaseMap d) : ∀ p ∈ a.toRaw.coords, p.1 < d := by
  intro p hp
  simp only [toRaw] at hp
  obtain ⟨i, rfl⟩ := List.mem_ofFn.1 hp
  exact (a.coords i).1.isLt

theorem toRaw_idMap : RawBaseMap.idMap d = (idMap d).toRaw := by
  simp only [RawBaseMap.idMap, toRaw, idMap, RawBaseMap.mk.injEq, and_true]
  apply List.ext_getElem <;> simp

theorem toRaw_invert (a : BaseMap d) : a.toRaw.invert = a.invert.toRaw := rfl

theorem toRaw_mul (a b : BaseMap d) : a.toRaw.mul b.toRaw = some (a * b).toRaw := by
  unfold RawBaseMap.mul
  rw [if_pos (by simp)]
  have : a.toRaw.coords.mapM (fun (p, b1) => (b.toRaw.coords[p]?).map fun (k, b2) => (k, xor b1 b2)) = some (a * b).toRaw.coords := by
    refine mapM_ofFn_eq fun i => ?_
    simp [toRaw, mul_coords]
  rw [this]; rfl

theorem toRaw_inverse (a : BaseMap d) : a.toRaw.inverse = some (a⁻¹).toRaw := by
  obtain ⟨out, e1, e2, e3, -⟩ := RawBaseMap.invLoop_spec a.toRaw.coords 0 (List.replicate d none)
    (fun p hp => by simpa using a.toRaw_bound p hp) a.toRaw_nodup
  have hout : out = (a⁻¹).toRaw.coords.map some := by
    simp only [List.length_replicate] at e2
    apply List.ext_getElem?
    intro k
    by_cases hk : k < d
    · obtain ⟨i, hi⟩ := a.coords_surj ⟨k, hk⟩
      have := e3 i.val (by simp)
      have hi' : (a.coords i).1.val = k := by simpa using congrArg Fin.val hi
      have e : a.toRaw.coords[i.val]'(by simp) = (k, (a.coords i).2) := by simp [toRaw, hi']
      simp only [e] at this
      rw [this]
      have hic := inv_coords a i
      rw [show (a.coords i).1 = ⟨k, hk⟩ from hi] at hic
      simp [toRaw, hk, hic]
    · rw [List.getElem?_eq_none (by omega), List.getElem?_eq_none (by simp; omega)]
  unfold RawBaseMap.inverse
  rw [toRaw_length, e1, hout]
  simp only [Option.bind_eq_bind, Option.bind_some, mapM_id_map_some]
  rfl

/-- The text of a typed base map of dimension at most 6. -/
def text (a : BaseMap d) : List Char :=
  (List.ofFn fun k => RawBaseMap.letter (a⁻¹.coords k).1.val (a⁻¹.coords k).2) ++ (if a.timeRev then ['~'] else [])

theorem str_toRaw (a : BaseMap d) (hd : d ≤ 6) : a.toRaw.str = some a.text := by
  obtain ⟨out, e1, e2, e3, -⟩ := RawBaseMap.strLoop_spec a.toRaw.coords 0 (List.replicate d none)
    (fun p hp => by simpa using a.toRaw_bound p hp) (by simpa using hd) a.toRaw_nodup
  have hout : out = (List.ofFn fun k => RawBaseMap.letter (a⁻¹.coords k).1.val (a⁻¹.coords k).2).map some := by
    simp only [List.length_replicate] at e2
    apply List.ext_getElem?
    intro k
    by_cases hk : k < d
    · obtain ⟨i, hi⟩ := a.coords_surj ⟨k, hk⟩
      have := e3 i.val (by simp)
      have hi' : (a.coords i).1.val = k := by simpa using congrArg Fin.val hi
      have e : a.toRaw.coords[i.val]'(by simp) = (k, (a.coords i).2) := by simp [toRaw, hi']
      simp only [e] at this
      rw [this]
      have hic := inv_coords a i
      rw [show (a.coords i).1 = ⟨k, hk⟩ from hi] at hic
      simp [hk, hic]
    · rw [List.getElem?_eq_none (by omega), List.getElem?_eq_none (by simp; omega)]
  unfold RawBaseMap.str
  rw [toRaw_length, e1, hout]
  simp only [Option.bind_eq_bind, Option.bind_some, mapM_id_map_some]
  rfl

end BaseMap

namespace RawBaseMap

theorem parseLoop_spec (l : List (ℕ × Bool)) (k : ℕ) (cmap : List (ℕ × (ℕ × Bool))) (h1 : ∀ p ∈ l, p.1 < 6)
    (h2 : (l.map Prod.fst).Nodup) (h3 : ∀ e ∈ cmap, e.1 ∉ l.map Prod.fst) :
    parseLoop k (l.map fun p => letter p.1 p.2) cmap = some (cmap ++ (l.zipIdx k).map fun q => (q.1.1, (q.2, q.1.2))) := by
  induction l generalizing k cmap with
  | nil => simp [parseLoop]
  | cons p l ih =>
    obtain ⟨i, b⟩ := p
    simp only [List.map_cons, List.nodup_cons] at h2 h3
    have hf := letter_facts (h1 (i, b) List.mem_cons_self) b
    simp only [List.map_cons, parseLoop, hf.1, hf.2.1, Option.bind_eq_bind, Option.bind_some]
    have hfilter : cmap.filter (fun e => e.1 ≠ i) = cmap := by
      rw [List.filter_eq_self]
      intro e he
      have := h3 e he
      simp only [List.mem_cons, not_or] at this
      simpa using this.1
    rw [hfilter, ih _ _ (fun p hp => h1 p (List.mem_cons_of_mem _ hp)) h2.2]
    · simp
    · intro e he
      rcases List.mem_append.1 he with he | he
      · have := h3 e he
        simp only [List.mem_cons, not_or] at this
        exact this.2
      · simp only [List.mem_singleton] at he
        subst he
        exact h2.1

theorem dropWhile_append_of_all {α : Type*} {p : α → Bool} {l l' : List α} (h : ∀ a ∈ l, p a = true) :
    (l ++ l').dropWhile p = l'.dropWhile p := by
  induction l with
  | nil => rfl
  | cons a l ih =>
    simp only [List.cons_append, List.dropWhile_cons, h a List.mem_cons_self, if_true]
    exact ih fun b hb => h b (List.mem_cons_of_mem _ hb)

theorem pyStrip_pad {w1 s w2 : List Char} (h1 : ∀ c ∈ w1, isPySpace c = true) (h2 : ∀ c ∈ w2, isPySpace c = true)
    (hs : s ≠ []) (hs' : ∀ c ∈ s, isPySpace c = false) : pyStrip (w1 ++ s ++ w2) = s := by
  unfold pyStrip
  rw [List.append_assoc, dropWhile_append_of_all h1]
  have e : ∀ (s t : List Char), s ≠ [] → (∀ c ∈ s, isPySpace c = false) → (s ++ t).dropWhile isPySpace = s ++ t := by
    intro s t hs hs'
    cases s with
    | nil => exact absurd rfl hs
    | cons a s => simp [hs' a List.mem_cons_self]
  rw [e s w2 hs hs', List.reverse_append, dropWhile_append_of_all (by simpa using h2)]
  have := e s.reverse [] (by simpa using hs) (by simpa using hs')
  simp only [List.append_nil] at this
  rw [this, List.reverse_reverse]

theorem lookup_eq_of_mem {α : Type*} {l : List (ℕ × α)} (hn : (l.map Prod.fst).Nodup) {i : ℕ} {v : α} (h : (i, v) ∈ l) :
    l.lookup i = some v := by
  induction l with
  | nil => simp at h
  | cons p l ih =>
    obtain ⟨j, w⟩ := p
    simp only [List.map_cons, List.nodup_cons] at hn
    rcases List.mem_cons.1 h with h' | h'
    · simp only [Prod.mk.injEq] at h'
      simp [h'.1, h'.2]
    · have : i ≠ j := by rintro rfl; exact hn.1 (List.mem_map.2 ⟨(i, v), h', rfl⟩)
      rw [List.lookup_cons]
      have : (i == j) = false := by simpa using this
      rw [this]; exact ih hn.2 h'

end RawBaseMap

namespace BaseMap
variable {d : ℕ}

theorem text_ne_nil (a : BaseMap d) (hd : 0 < d) : a.text ≠ [] := by
  intro h
  have := congrArg List.length h
  simp [text] at this
  omega

theorem text_not_space (a : BaseMap d) (hd : d ≤ 6) : ∀ c ∈ a.text, isPySpace c = false := by
  intro c hc
  rcases List.mem_append.1 hc with hc | hc
  · obtain ⟨k, rfl⟩ := List.mem_ofFn.1 hc
    exact (RawBaseMap.letter_facts (by have := (a⁻¹.coords k).1.isLt; omega) _).2.2.1
  · split at hc
    · simp only [List.mem_singleton] at hc; subst hc; decide
    · simp at hc

theorem parse_text (a : BaseMap d) (hd0 : 0 < d) (hd : d ≤ 6) (w1 w2 : List Char) (h1 : ∀ c ∈ w1, isPySpace c = true)
    (h2 : ∀ c ∈ w2, isPySpace c = true) : RawBaseMap.parse (w1 ++ a.text ++ w2) = some a.toRaw := by
  unfold RawBaseMap.parse
  simp only
  rw [RawBaseMap.pyStrip_pad h1 h2 (a.text_ne_nil hd0) (a.text_not_space hd)]
  set body := List.ofFn fun k => RawBaseMap.letter (a⁻¹.coords k).1.val (a⁻¹.coords k).2 with hbody
  have hbl : body.length = d := by simp [hbody]
  have hbne : body ≠ [] := by intro h; rw [h] at hbl; simp at hbl; omega
  have hlast : a.text.getLast? = some (a.text.getLast (a.text_ne_nil hd0)) := List.getLast?_eq_some_getLast _
  have htr : decide (a.text.getLast (a.text_ne_nil hd0) = '~') = a.timeRev := by
    have htext : a.text = body ++ (if a.timeRev then ['~'] else []) := rfl
    by_cases h : a.timeRev = true
    · simp [htext, h]
    · have e : a.text.getLast (a.text_ne_nil hd0) ∈ body := by
        have hb : a.text = body := by rw [htext]; simp [h]
        exact (congrArg (fun l => a.text.getLast (a.text_ne_nil hd0) ∈ l) hb).mp (List.getLast_mem (a.text_ne_nil hd0))
      obtain ⟨k, hk⟩ := List.mem_ofFn.1 e
      have := (RawBaseMap.letter_facts (i := (a⁻¹.coords k).1.val) (by have := (a⁻¹.coords k).1.isLt; omega) (a⁻¹.coords k).2).2.2.2
      rw [hk] at this
      simp [this, h]
  have hbasis : (if a.timeRev = true then a.text.dropLast else a.text) = body := by
    have htext : a.text = body ++ (if a.timeRev then ['~'] else []) := rfl
    rw [htext]
    by_cases h : a.timeRev = true <;> simp [h]
  simp only [hlast, Option.bind_eq_bind, Option.bind_some, htr, hbasis]
  rw [if_pos (by rw [hbl]; simpa [basisLetters] using hd)]
  have hbody' : body = a⁻¹.toRaw.coords.map fun p => RawBaseMap.letter p.1 p.2 := by
    simp [hbody, toRaw, List.map_ofFn, Function.comp_def]
  rw [hbody', RawBaseMap.parseLoop_spec _ _ _ (fun p hp => by have := a⁻¹.toRaw_bound p hp; omega) a⁻¹.toRaw_nodup (by simp)]
  simp only [List.nil_append, Option.bind_some]
  set cm := (a⁻¹.toRaw.coords.zipIdx 0).map fun q => (q.1.1, (q.2, q.1.2)) with hcm
  have hcml : cm.length = d := by simp [hcm]
  have hcmn : (cm.map Prod.fst).Nodup := by
    have : cm.map Prod.fst = a⁻¹.toRaw.coords.map Prod.fst := by
      rw [hcm, List.map_map]
      apply List.ext_getElem <;> simp
    rw [this]; exact a⁻¹.toRaw_nodup
  have hlook : ∀ i : Fin d, cm.lookup i.val = some ((a.coords i).1.val, (a.coords i).2) := by
    intro i
    apply RawBaseMap.lookup_eq_of_mem hcmn
    rw [hcm, List.mem_map]
    refine ⟨((i.val, (a.coords i).2), (a.coords i).1.val), ?_, rfl⟩
    rw [List.mem_zipIdx_iff_getElem?]
    have := inv_coords a i
    simp [toRaw, this]
  have : (List.range cm.length).mapM (fun i => cm.lookup i) = some a.toRaw.coords := by
    rw [hcml, show List.range d = List.ofFn (fun i : Fin d => i.val) by
      apply List.ext_getElem <;> simp]
    exact mapM_ofFn_eq hlook
  rw [this]
  rfl

end BaseMap
end Peano
