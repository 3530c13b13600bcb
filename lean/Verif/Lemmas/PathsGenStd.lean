import Verif.Lemmas.PathsGen

set_option autoImplicit false

/-! Lemmas about standardized generation of pointed paths (C40). -/
namespace Peano
variable {d : ℕ}

namespace Path

/-- key of a path in comparisons -/
def key (p : Path (Point d) d) : (List ℚ ×ₗ List ℚ) ×ₗ (List (List ℤ) ×ₗ List (List ℚ ×ₗ List ℚ)) :=
  toLex (p.link.key, toLex (p.proto.map (fun c => (c.map List.ofFn).getD []), p.links.map Link.key))

theorem listLt_iff (l m : List (Link (Point d))) : Path.lt.listLt (d := d) l m = true ↔ l.map Link.key < m.map Link.key := by
  induction l generalizing m with
  | nil => cases m <;> simp [Path.lt.listLt]
  | cons a l ih =>
    cases m with
    | nil => simp [Path.lt.listLt]
    | cons b m =>
      simp only [Path.lt.listLt, List.map_cons, List.cons_lt_cons_iff]
      by_cases h : a = b
      · subst h
        rw [if_pos rfl, ih]
        simp
      · rw [if_neg h, Link.keyOrder.lt_iff]
        constructor
        · exact Or.inl
        · rintro (h' | ⟨h', _⟩)
          · exact h'
          · exact absurd (Link.keyOrder.inj h') h

theorem lt_iff_key (p q : Path (Point d) d) : Path.lt p q = true ↔ p.key < q.key := by
  unfold Path.lt key
  rw [Prod.Lex.toLex_lt_toLex, Prod.Lex.toLex_lt_toLex]
  by_cases h1 : p.link = q.link
  · rw [if_pos h1, h1]
    simp only [lt_self_iff_false, true_and, false_or]
    split
    · rename_i h2
      rw [h2, listLt_iff]
      simp
    · rename_i h2
      simp [h2]
  · rw [if_neg h1, Link.keyOrder.lt_iff]
    constructor
    · exact Or.inl
    · rintro (h | ⟨h, _⟩)
      · exact h
      · exact absurd (Link.keyOrder.inj h) h1

theorem key_inj {p q : Path (Point d) d} (hp : ∀ c ∈ p.proto, c ≠ none) (hq : ∀ c ∈ q.proto, c ≠ none) (hdiv : p.div = q.div)
    (h : p.key = q.key) : p = q := by
  unfold key at h
  have h := toLex.injective h
  rw [Prod.mk.injEq] at h
  have h1 := Link.keyOrder.inj h.1
  have h2 := toLex.injective h.2
  rw [Prod.mk.injEq] at h2
  have h3 := (List.map_injective_iff.2 Link.keyOrder.inj) h2.2
  have h4 : p.proto = q.proto := by
    have := h2.1
    generalize p.proto = l at this hp
    generalize q.proto = m at this hq
    clear h h1 h2 h3
    induction l generalizing m with
    | nil => cases m with
      | nil => rfl
      | cons b m => simp at this
    | cons a l ih =>
      cases m with
      | nil => simp at this
      | cons b m =>
        simp only [List.map_cons, List.cons.injEq] at this
        obtain ⟨a', rfl⟩ := Option.ne_none_iff_exists'.1 (hp a (by simp))
        obtain ⟨b', rfl⟩ := Option.ne_none_iff_exists'.1 (hq b (by simp))
        have h1 := this.1
        simp only [Option.map_some, Option.getD_some] at h1
        rw [List.ofFn_injective h1, ih (fun c hc => hp c (List.mem_cons_of_mem _ hc)) m this.2 (fun c hc => hq c (List.mem_cons_of_mem _ hc))]
  cases p; cases q
  simp only at *
  subst hdiv h1 h3 h4
  rfl

end Path

namespace PathsGen

/-- base maps fixing the link -/
def stab (link : Link (Point d)) : List (BaseMap d) := (BaseMap.genBaseMaps d none).filter fun bm => decide (Link.act bm link = link)

theorem mem_stab {link : Link (Point d)} {b : BaseMap d} : b ∈ stab link ↔ Link.act b link = link := by
  unfold stab
  rw [List.mem_filter, BaseMap.mem_genBaseMaps]
  simp

theorem stab_mul {link : Link (Point d)} {a b : BaseMap d} (ha : a ∈ stab link) (hb : b ∈ stab link) : a * b ∈ stab link := by
  rw [mem_stab] at *
  rw [Link.act_mul, hb, ha]

theorem stab_inv {link : Link (Point d)} {a : BaseMap d} (ha : a ∈ stab link) : a⁻¹ ∈ stab link := by
  rw [mem_stab] at *
  exact (Link.act_inv_eq.1 ha).symm

theorem stab_one (link : Link (Point d)) : (1 : BaseMap d) ∈ stab link := by
  rw [mem_stab, Link.act_one]

/-- equivalence of paths under the base maps fixing the link -/
def Equi (link : Link (Point d)) (p q : Path (Point d) d) : Prop := ∃ b ∈ stab link, Path.img b p = q

theorem Equi.symm {link : Link (Point d)} {p q : Path (Point d) d} (h : Equi link p q) : Equi link q p := by
  obtain ⟨b, hb, rfl⟩ := h
  exact ⟨b⁻¹, stab_inv hb, by rw [← Path.img_mul, inv_mul_cancel, Path.img_one]⟩

theorem Equi.trans {link : Link (Point d)} {p q r : Path (Point d) d} (h : Equi link p q) (h' : Equi link q r) : Equi link p r := by
  obtain ⟨b, hb, rfl⟩ := h
  obtain ⟨c, hc, rfl⟩ := h'
  exact ⟨c * b, stab_mul hc hb, by rw [Path.img_mul]⟩

theorem equi_refl (link : Link (Point d)) (p : Path (Point d) d) : Equi link p p := ⟨1, stab_one _, Path.img_one _⟩

/-- the standard form -/
theorem std_exists (link : Link (Point d)) (p : Path (Point d) d) : ∃ m, pyMin Path.lt ((stab link).map fun b => Path.img b p) = some m :=
  pyMin_isSome (by
    intro h
    rw [List.map_eq_nil_iff] at h
    have := stab_one link
    rw [h] at this
    simp at this)

/-- standard form of a path -/
noncomputable def stdForm (link : Link (Point d)) (p : Path (Point d) d) : Path (Point d) d := (std_exists link p).choose

theorem stdForm_spec (link : Link (Point d)) (p : Path (Point d) d) :
    pyMin Path.lt ((stab link).map fun b => Path.img b p) = some (stdForm link p) := (std_exists link p).choose_spec

theorem equi_stdForm (link : Link (Point d)) (p : Path (Point d) d) : Equi link p (stdForm link p) := by
  have := (pyMin_le Path.lt_iff_key (stdForm_spec link p)).1
  rw [List.mem_map] at this
  exact this

theorem stdForm_eq_iff {link : Link (Point d)} {p q : Path (Point d) d} (hp : p.WF) (hq : q.WF) :
    stdForm link p = stdForm link q ↔ Equi link p q := by
  constructor
  · intro h
    have h1 := equi_stdForm link p
    rw [h] at h1
    exact h1.trans (equi_stdForm link q).symm
  · intro h
    have aux : ∀ {p q : Path (Point d) d}, Equi link p q → (stdForm link p).key ≤ (stdForm link q).key := by
      intro p q h
      refine (pyMin_le Path.lt_iff_key (stdForm_spec link p)).2 _ ?_
      rw [List.mem_map]
      exact h.trans (equi_stdForm link q)
    have hwf : ∀ {p : Path (Point d) d}, p.WF → (stdForm link p).WF ∧ (stdForm link p).div = p.div := by
      intro p hp
      obtain ⟨b, _, hb⟩ := equi_stdForm link p
      rw [← hb]
      exact ⟨Path.img_wf hp b, rfl⟩
    refine Path.key_inj (hwf hp).1.cubes (hwf hq).1.cubes ?_ (le_antisymm (aux h) (aux h.symm))
    rw [(hwf hp).2, (hwf hq).2]
    obtain ⟨b, _, rfl⟩ := h
    rfl

theorem stdLoop_spec (link : Link (Point d)) (paths seen : List (Path (Point d) d)) (hwf : ∀ p ∈ paths, p.WF) :
    ∃ out, stdLoop (stab link) seen paths = some out ∧ (∀ p ∈ out, p ∈ paths) ∧ (∀ p ∈ out, stdForm link p ∉ seen) ∧
      out.Pairwise (fun p q => stdForm link p ≠ stdForm link q) ∧
      ∀ p ∈ paths, stdForm link p ∈ seen ∨ ∃ q ∈ out, stdForm link q = stdForm link p := by
  induction paths generalizing seen with
  | nil => exact ⟨[], rfl, by simp, by simp, by simp, by simp⟩
  | cons p rest ih =>
    have himg : (stab link).mapM (fun bm => Path.act bm p) = some ((stab link).map fun b => Path.img b p) :=
      mapM_eq_some_map fun b _ => Path.act_eq (hwf p (by simp)) b
    have hrest : ∀ q ∈ rest, q.WF := fun q hq => hwf q (List.mem_cons_of_mem _ hq)
    by_cases hs : stdForm link p ∈ seen
    · obtain ⟨out, h1, h2, h3, h4, h5⟩ := ih seen hrest
      refine ⟨out, ?_, fun q hq => List.mem_cons_of_mem _ (h2 q hq), h3, h4, ?_⟩
      · unfold stdLoop
        simp only [himg, Option.bind_eq_bind, Option.bind_some, stdForm_spec, hs, if_true]
        exact h1
      · intro q hq
        rcases List.mem_cons.1 hq with rfl | hq
        · exact Or.inl hs
        · exact h5 q hq
    · obtain ⟨out, h1, h2, h3, h4, h5⟩ := ih (stdForm link p :: seen) hrest
      refine ⟨p :: out, ?_, ?_, ?_, ?_, ?_⟩
      · unfold stdLoop
        simp only [himg, Option.bind_eq_bind, Option.bind_some, stdForm_spec, hs, if_false, h1, Option.pure_def]
      · intro q hq
        rcases List.mem_cons.1 hq with rfl | hq
        · simp
        · exact List.mem_cons_of_mem _ (h2 q hq)
      · intro q hq
        rcases List.mem_cons.1 hq with rfl | hq
        · exact hs
        · intro h
          exact h3 q hq (List.mem_cons_of_mem _ h)
      · rw [List.pairwise_cons]
        refine ⟨?_, h4⟩
        intro q hq h
        exact h3 q hq (by rw [← h]; simp)
      · intro q hq
        rcases List.mem_cons.1 hq with rfl | hq
        · exact Or.inr ⟨q, by simp, rfl⟩
        · rcases h5 q hq with h | ⟨r, hr, h⟩
          · rcases List.mem_cons.1 h with h | h
            · exact Or.inr ⟨p, by simp, h.symm⟩
            · exact Or.inl h
          · exact Or.inr ⟨r, List.mem_cons_of_mem _ hr, h⟩

end PathsGen
end Peano
