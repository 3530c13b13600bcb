import Verif.Model.PathsGen
import Verif.Lemmas.Order
import Verif.Lemmas.ListM
import Verif.Lemmas.UtilsB

set_option autoImplicit false

/-! The filter of equivalent paths, for any kind of subsets. -/
namespace Peano
variable {d : ℕ} {S : Type} [SubsetOps S d]

section order
variable [DecidableEq S] {κ : Type} [LinearOrder κ] {k : S → κ} (hk : KeyOrder (SubsetOps.lt (S := S) (d := d)) k)

/-- key of a link -/
def Link.keyOf (k : S → κ) (l : Link S) : κ ×ₗ κ := toLex (k l.entrance, k l.exit)

include hk in
theorem Link.keyOrderOf : KeyOrder (Link.lt (S := S) (d := d)) (Link.keyOf k) where
  lt_iff a b := by
    unfold Link.lt Link.keyOf
    rw [Prod.Lex.toLex_lt_toLex]
    by_cases h : a.entrance = b.entrance
    · rw [if_pos h, h, hk.lt_iff]; simp
    · rw [if_neg h, hk.lt_iff]
      constructor
      · exact Or.inl
      · rintro (h' | ⟨h', _⟩)
        · exact h'
        · exact absurd (hk.inj h') h
  inj := by
    intro a b h
    have h := toLex.injective h
    rw [Prod.mk.injEq] at h
    cases a; cases b
    rw [Link.mk.injEq]
    exact ⟨hk.inj h.1, hk.inj h.2⟩

/-- key of a path -/
def Path.keyOf (k : S → κ) (p : Path S d) : (κ ×ₗ κ) ×ₗ (List (List ℤ) ×ₗ List (κ ×ₗ κ)) :=
  toLex (p.link.keyOf k, toLex (p.proto.map (fun c => (c.map List.ofFn).getD []), p.links.map (Link.keyOf k)))

include hk in
theorem Path.listLt_iff_of (l m : List (Link S)) : Path.lt.listLt (d := d) l m = true ↔ l.map (Link.keyOf k) < m.map (Link.keyOf k) := by
  induction l generalizing m with
  | nil => cases m <;> simp [Path.lt.listLt]
  | cons a l ih =>
    cases m with
    | nil => simp [Path.lt.listLt]
    | cons b m =>
      simp only [Path.lt.listLt, List.map_cons, List.cons_lt_cons_iff]
      by_cases h : a = b
      · subst h
        rw [if_pos rfl, ih]
        simp
      · rw [if_neg h, (Link.keyOrderOf hk).lt_iff]
        constructor
        · exact Or.inl
        · rintro (h' | ⟨h', _⟩)
          · exact h'
          · exact absurd ((Link.keyOrderOf hk).inj h') h

include hk in
theorem Path.lt_iff_keyOf (p q : Path S d) : Path.lt p q = true ↔ p.keyOf k < q.keyOf k := by
  unfold Path.lt keyOf
  rw [Prod.Lex.toLex_lt_toLex, Prod.Lex.toLex_lt_toLex]
  by_cases h1 : p.link = q.link
  · rw [if_pos h1, h1]
    simp only [lt_self_iff_false, true_and, false_or]
    split
    · rename_i h2
      rw [h2, Path.listLt_iff_of hk]
      simp
    · rename_i h2
      simp [h2]
  · rw [if_neg h1, (Link.keyOrderOf hk).lt_iff]
    constructor
    · exact Or.inl
    · rintro (h | ⟨h, _⟩)
      · exact h
      · exact absurd ((Link.keyOrderOf hk).inj h) h1

include hk in
theorem Path.keyOf_inj {p q : Path S d} (hp : ∀ c ∈ p.proto, c ≠ none) (hq : ∀ c ∈ q.proto, c ≠ none) (hdiv : p.div = q.div)
    (h : p.keyOf k = q.keyOf k) : p = q := by
  unfold keyOf at h
  have h := toLex.injective h
  rw [Prod.mk.injEq] at h
  have h1 := (Link.keyOrderOf hk).inj h.1
  have h2 := toLex.injective h.2
  rw [Prod.mk.injEq] at h2
  have h3 := (List.map_injective_iff.2 (Link.keyOrderOf hk).inj) h2.2
  have h4 : p.proto = q.proto := by
    have := h2.1
    generalize p.proto = l at this hp
    generalize q.proto = m at this hq
    clear h h1 h2 h3
    induction l generalizing m with
    | nil => cases m with
      | nil => rfl
      | cons b m => simp at this
    | cons a l ih =>
      cases m with
      | nil => simp at this
      | cons b m =>
        simp only [List.map_cons, List.cons.injEq] at this
        obtain ⟨a', rfl⟩ := Option.ne_none_iff_exists'.1 (hp a (by simp))
        obtain ⟨b', rfl⟩ := Option.ne_none_iff_exists'.1 (hq b (by simp))
        have h1 := this.1
        simp only [Option.map_some, Option.getD_some] at h1
        rw [List.ofFn_injective h1, ih (fun c hc => hp c (List.mem_cons_of_mem _ hc)) m this.2 (fun c hc => hq c (List.mem_cons_of_mem _ hc))]
  cases p; cases q
  simp only at *
  subst hdiv h1 h3 h4
  rfl

end order

namespace PathsGen
variable [DecidableEq S] {κ : Type} [LinearOrder κ]

/-- What is needed of the action of base maps on paths. -/
structure ActionOn (W : Path S d → Prop) (key : Path S d → κ) (B : List (BaseMap d)) (img : BaseMap d → Path S d → Path S d) : Prop where
  act : ∀ p, W p → ∀ b ∈ B, Path.act b p = some (img b p)
  wf : ∀ p, W p → ∀ b ∈ B, W (img b p)
  mul : ∀ a ∈ B, ∀ b ∈ B, ∀ p, img (a * b) p = img a (img b p)
  one : ∀ p, img 1 p = p
  lt_iff : ∀ p q : Path S d, Path.lt p q = true ↔ key p < key q
  inj : ∀ p q, W p → W q → p.div = q.div → key p = key q → p = q
  div : ∀ b p, (img b p).div = p.div
  one_mem : (1 : BaseMap d) ∈ B
  mul_mem : ∀ a ∈ B, ∀ b ∈ B, a * b ∈ B
  inv_mem : ∀ a ∈ B, a⁻¹ ∈ B

section
variable {W : Path S d → Prop} {key : Path S d → κ} {B : List (BaseMap d)} {img : BaseMap d → Path S d → Path S d} (hA : ActionOn W key B img)
include hA

theorem ActionOn.min_spec {p : Path S d} (hp : W p) : ∃ m, pyMin Path.lt (B.map fun b => img b p) = some m ∧ (∃ b ∈ B, img b p = m) ∧
    ∀ b ∈ B, key m ≤ key (img b p) := by
  obtain ⟨m, hm⟩ := pyMin_isSome (lt := Path.lt (S := S) (d := d)) (l := B.map fun b => img b p) (by
    intro h
    rw [List.map_eq_nil_iff] at h
    have := hA.one_mem
    rw [h] at this
    simp at this)
  obtain ⟨h1, h2⟩ := pyMin_le hA.lt_iff hm
  rw [List.mem_map] at h1
  exact ⟨m, hm, h1, fun b hb => h2 _ (List.mem_map_of_mem hb)⟩

/-- Equivalent paths have the same standard form. -/
theorem ActionOn.min_eq_iff {p q m m' : Path S d} (hp : W p) (hq : W q) (h : pyMin Path.lt (B.map fun b => img b p) = some m)
    (h' : pyMin Path.lt (B.map fun b => img b q) = some m') : m = m' ↔ ∃ b ∈ B, img b p = q := by
  obtain ⟨m1, h1, ⟨b1, hb1, e1⟩, k1⟩ := hA.min_spec hp
  obtain ⟨m2, h2, ⟨b2, hb2, e2⟩, k2⟩ := hA.min_spec hq
  rw [h, Option.some.injEq] at h1
  rw [h', Option.some.injEq] at h2
  subst h1 h2
  constructor
  · rintro rfl
    refine ⟨b2⁻¹ * b1, hA.mul_mem _ (hA.inv_mem _ hb2) _ hb1, ?_⟩
    rw [hA.mul _ (hA.inv_mem _ hb2) _ hb1, e1, ← e2, ← hA.mul _ (hA.inv_mem _ hb2) _ hb2, inv_mul_cancel, hA.one]
  · rintro ⟨b, hb, rfl⟩
    have hbi := hA.inv_mem _ hb
    apply hA.inj
    · rw [← e1]; exact hA.wf p hp b1 hb1
    · rw [← e2]; exact hA.wf _ hq b2 hb2
    · rw [← e1, ← e2, hA.div, hA.div, hA.div]
    · refine le_antisymm ?_ ?_
      · rw [← e2, ← hA.mul _ hb2 _ hb]
        exact k1 _ (hA.mul_mem _ hb2 _ hb)
      · have := k2 _ (hA.mul_mem _ hb1 _ hbi)
        rw [hA.mul _ hb1 _ hbi, ← hA.mul _ hbi _ hb, inv_mul_cancel, hA.one, e1] at this
        exact this

theorem ActionOn.loop (paths : List (Path S d)) (hW : ∀ p ∈ paths, W p) (seen : List (Path S d)) :
    ∃ out, stdLoop B seen paths = some out ∧ (∀ p ∈ out, p ∈ paths) ∧
      (∀ p ∈ out, ∀ m, pyMin Path.lt (B.map fun b => img b p) = some m → m ∉ seen) ∧
      out.Pairwise (fun p q => ¬ ∃ b ∈ B, img b p = q) ∧
      ∀ p ∈ paths, (∃ m ∈ seen, pyMin Path.lt (B.map fun b => img b p) = some m) ∨ ∃ q ∈ out, ∃ b ∈ B, img b p = q := by
  induction paths generalizing seen with
  | nil => exact ⟨[], rfl, by simp, by simp, by simp, by simp⟩
  | cons p rest ih =>
    have hp := hW p (by simp)
    have himg : B.mapM (fun bm => Path.act bm p) = some (B.map fun b => img b p) := mapM_eq_some_map fun b hb => hA.act p hp b hb
    obtain ⟨m, hm, _⟩ := hA.min_spec hp
    have hrest : ∀ q ∈ rest, W q := fun q hq => hW q (List.mem_cons_of_mem _ hq)
    by_cases hs : m ∈ seen
    · obtain ⟨out, h1, h2, h3, h4, h5⟩ := ih hrest seen
      refine ⟨out, ?_, fun q hq => List.mem_cons_of_mem _ (h2 q hq), h3, h4, ?_⟩
      · unfold stdLoop
        simp only [himg, Option.bind_eq_bind, Option.bind_some, hm, hs, if_true]
        exact h1
      · intro q hq
        rcases List.mem_cons.1 hq with rfl | hq
        · exact Or.inl ⟨m, hs, hm⟩
        · exact h5 q hq
    · obtain ⟨out, h1, h2, h3, h4, h5⟩ := ih hrest (m :: seen)
      refine ⟨p :: out, ?_, ?_, ?_, ?_, ?_⟩
      · unfold stdLoop
        simp only [himg, Option.bind_eq_bind, Option.bind_some, hm, hs, if_false, h1, Option.pure_def]
      · intro q hq
        rcases List.mem_cons.1 hq with rfl | hq
        · simp
        · exact List.mem_cons_of_mem _ (h2 q hq)
      · intro q hq m' hm'
        rcases List.mem_cons.1 hq with rfl | hq
        · rw [hm, Option.some.injEq] at hm'
          rw [← hm']; exact hs
        · intro h
          exact h3 q hq m' hm' (List.mem_cons_of_mem _ h)
      · rw [List.pairwise_cons]
        refine ⟨?_, h4⟩
        intro q hq h
        obtain ⟨m', hm', _⟩ := hA.min_spec (hrest q (h2 q hq))
        have e := (hA.min_eq_iff hp (hrest q (h2 q hq)) hm hm').2 h
        exact h3 q hq m' hm' (by rw [← e]; simp)
      · intro q hq
        rcases List.mem_cons.1 hq with rfl | hq
        · exact Or.inr ⟨q, by simp, 1, hA.one_mem, hA.one q⟩
        · rcases h5 q hq with ⟨m', hm', e'⟩ | ⟨r, hr, h⟩
          · rcases List.mem_cons.1 hm' with h | h
            · rw [h] at e'
              exact Or.inr ⟨p, by simp, (hA.min_eq_iff (hrest q hq) hp e' hm).1 rfl⟩
            · exact Or.inl ⟨m', h, e'⟩
          · exact Or.inr ⟨r, List.mem_cons_of_mem _ hr, h⟩

/-- The filter leaves one path of each class. -/
theorem ActionOn.stdLoop_spec {paths : List (Path S d)} (hW : ∀ p ∈ paths, W p) :
    ∃ out, stdLoop B [] paths = some out ∧ out.Nodup ∧ (∀ p ∈ out, p ∈ paths) ∧
      (out.Pairwise fun p q => ¬ ∃ b ∈ B, Path.act b p = some q) ∧
      ∀ p ∈ paths, ∃! q, q ∈ out ∧ ∃ b ∈ B, Path.act b p = some q := by
  obtain ⟨out, h1, h2, _, h4, h5⟩ := hA.loop paths hW []
  have hact : ∀ {p q : Path S d}, W p → ((∃ b ∈ B, Path.act b p = some q) ↔ ∃ b ∈ B, img b p = q) := by
    intro p q hp
    refine exists_congr fun b => and_congr_right fun hb => ?_
    rw [hA.act p hp b hb, Option.some.injEq]
  refine ⟨out, h1, ?_, h2, ?_, ?_⟩
  · refine h4.imp ?_
    rintro p q h rfl
    exact h ⟨1, hA.one_mem, hA.one p⟩
  · refine h4.imp_of_mem ?_
    intro p q hp _ h
    rw [hact (hW p (h2 p hp))]
    exact h
  · intro p hp
    rcases h5 p hp with ⟨m, hm, _⟩ | ⟨q, hq, b, hb, e⟩
    · simp at hm
    · refine ⟨q, ⟨hq, (hact (hW p hp)).2 ⟨b, hb, e⟩⟩, ?_⟩
      rintro r ⟨hr, hre⟩
      rw [hact (hW p hp)] at hre
      obtain ⟨c, hc, f⟩ := hre
      by_contra hne
      have key : ∀ {x y : Path S d} {a a' : BaseMap d}, a ∈ B → a' ∈ B → img a p = x → img a' p = y → ∃ b ∈ B, img b x = y := by
        intro x y a a' ha ha' e e'
        refine ⟨a' * a⁻¹, hA.mul_mem _ ha' _ (hA.inv_mem _ ha), ?_⟩
        rw [hA.mul _ ha' _ (hA.inv_mem _ ha), ← e, ← hA.mul _ (hA.inv_mem _ ha) _ ha, inv_mul_cancel, hA.one, e']
      have hs : ∀ {x y : Path S d}, x ∈ out → y ∈ out → x ≠ y → (∃ a ∈ B, img a p = x) → (∃ a ∈ B, img a p = y) → False := by
        intro x y hx hy hxy ⟨a, ha, e⟩ ⟨a', ha', e'⟩
        obtain ⟨i, hi, rfl⟩ := List.getElem_of_mem hx
        obtain ⟨j, hj, rfl⟩ := List.getElem_of_mem hy
        rw [List.pairwise_iff_getElem] at h4
        rcases lt_trichotomy i j with h | h | h
        · exact h4 i j hi hj h (key ha ha' e e')
        · subst h; exact hxy rfl
        · exact h4 j i hj hi h (key ha' ha e' e)
      exact hs hr hq hne ⟨c, hc, f⟩ ⟨b, hb, e⟩

end

end PathsGen
end Peano
