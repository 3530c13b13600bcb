import Verif.Lemmas.Order
import Verif.Lemmas.Itertools
import Verif.Lemmas.ConstraintFast
import Mathlib.Data.Rat.Floor
import Mathlib.Data.List.GetD
import Mathlib.Data.Fin.Tuple.Sort
import Mathlib.Data.Fintype.Perm
import Mathlib.Tactic.FieldSimp
import Mathlib.Tactic.Linarith

/- Points: cubes that contain a point, standard forms of points and links. -/
namespace Peano
variable {d : ℕ}

/-! ### functions from products -/

theorem forall₂_finRange {α : Type*} {f : Fin d → List α} {x : List α} (dflt : α) :
    List.Forall₂ (· ∈ ·) x ((List.finRange d).map f) ↔ x.length = d ∧ ∀ j : Fin d, x.getD j dflt ∈ f j := by
  rw [List.forall₂_iff_get]
  simp only [List.length_map, List.length_finRange, List.get_eq_getElem, List.getElem_map, List.getElem_finRange]
  constructor
  · rintro ⟨h1, h2⟩
    refine ⟨h1, fun j => ?_⟩
    have hj : j.val < x.length := by rw [h1]; exact j.2
    rw [List.getD_eq_getElem _ _ hj]
    exact h2 j.val hj (by simp [j.2])
  · rintro ⟨h1, h2⟩
    refine ⟨h1, fun i hi hi' => ?_⟩
    have := h2 ⟨i, by omega⟩
    rwa [List.getD_eq_getElem _ _ hi] at this

theorem mem_productFn {α : Type*} {f : Fin d → List α} (dflt : α) {x : Fin d → α} :
    x ∈ (Itertools.product ((List.finRange d).map f)).map (fun l (j : Fin d) => l.getD j dflt) ↔ ∀ j, x j ∈ f j := by
  simp only [List.mem_map, Itertools.mem_product, forall₂_finRange dflt]
  constructor
  · rintro ⟨l, ⟨_, h⟩, rfl⟩
    exact h
  · intro h
    have : (fun j : Fin d => (List.ofFn x).getD j dflt) = x := by
      funext j
      rw [List.getD_eq_getElem _ _ (by simp)]
      simp
    exact ⟨List.ofFn x, ⟨by simp, fun j => by rw [congrFun this j]; exact h j⟩, this⟩

theorem nodup_productFn {α : Type*} {f : Fin d → List α} (dflt : α) (h : ∀ j, (f j).Nodup) :
    ((Itertools.product ((List.finRange d).map f)).map (fun l (j : Fin d) => l.getD j dflt)).Nodup := by
  apply List.Nodup.map_on
  · intro a ha b hb hab
    rw [Itertools.mem_product, forall₂_finRange dflt] at ha hb
    apply List.ext_getElem (by rw [ha.1, hb.1])
    intro i h1 h2
    have := congrFun hab ⟨i, by omega⟩
    rwa [List.getD_eq_getElem _ _ h1, List.getD_eq_getElem _ _ h2] at this
  · apply Itertools.nodup_product
    intro l hl
    obtain ⟨j, _, rfl⟩ := List.mem_map.1 hl
    exact h j

/-! ### cubes containing a point -/

theorem mem_coordRange (q : ℚ) (z : ℤ) :
    z ∈ (if q.num % (q.den : ℤ) = 0 then [q.num / (q.den : ℤ) - 1, q.num / (q.den : ℤ)] else [q.num / (q.den : ℤ)]) ↔ (z : ℚ) ≤ q ∧ q ≤ (z : ℚ) + 1 := by
  have hfl : q.num / (q.den : ℤ) = ⌊q⌋ := (Rat.floor_def q).symm
  rw [hfl]
  have hden : (0 : ℚ) < (q.den : ℚ) := by exact_mod_cast q.den_pos
  have hz : q.num % (q.den : ℤ) = 0 ↔ q = (⌊q⌋ : ℚ) := by
    constructor
    · intro h
      have h1 := Int.emod_add_mul_ediv q.num (q.den : ℤ)
      rw [h, hfl] at h1
      have h2 : (q.num : ℚ) = (q.den : ℚ) * (⌊q⌋ : ℚ) := by exact_mod_cast (by omega : q.num = (q.den : ℤ) * ⌊q⌋)
      conv_lhs => rw [← Rat.num_div_den q]
      rw [h2]; field_simp
    · intro h
      rw [h]; simp
  have h1 := Int.floor_le q
  have h2 := Int.lt_floor_add_one q
  constructor
  · intro h
    split at h
    · rename_i h0
      have h0 := hz.1 h0
      rcases List.mem_cons.1 h with rfl | h
      · push_cast
        constructor <;> linarith
      · rw [List.mem_singleton] at h
        subst h
        constructor <;> linarith
    · rw [List.mem_singleton] at h
      subst h
      constructor <;> linarith
  · rintro ⟨h3, h4⟩
    have h5 : z ≤ ⌊q⌋ := Int.le_floor.2 h3
    have h6 : ⌊q⌋ ≤ z + 1 := by
      have : (⌊q⌋ : ℚ) ≤ ((z + 1 : ℤ) : ℚ) := by push_cast; linarith
      exact_mod_cast this
    split
    · simp only [List.mem_cons, List.not_mem_nil, or_false]; omega
    · rename_i h0
      rw [List.mem_singleton]
      by_contra hne
      have h7 : ⌊q⌋ = z + 1 := by omega
      apply h0
      rw [hz]
      apply le_antisymm _ h1
      rw [h7]; push_cast; exact h4

theorem mem_genIntegerCubes (p : Point d) (c : Cube d) : c ∈ p.genIntegerCubes ↔ ∀ j, (c j : ℚ) ≤ p j ∧ p j ≤ (c j : ℚ) + 1 := by
  unfold Point.genIntegerCubes
  rw [mem_productFn]
  exact forall_congr' fun j => mem_coordRange (p j) (c j)

theorem nodup_genIntegerCubes (p : Point d) : p.genIntegerCubes.Nodup := by
  unfold Point.genIntegerCubes
  apply nodup_productFn
  intro j
  beta_reduce
  split
  · simp
  · simp

/-! ### lexicographic minimum -/

theorem forall₂_le_lex {α : Type*} [LinearOrder α] {l m : List α} (h : List.Forall₂ (· ≤ ·) l m) : l ≤ m := by
  induction h with
  | nil => exact le_refl _
  | @cons a b l m hab _ ih =>
    rcases hab.lt_or_eq with hab | rfl
    · exact le_of_lt (List.Lex.rel hab)
    · rcases lt_or_eq_of_le ih with ih | rfl
      · exact le_of_lt (List.Lex.cons ih)
      · exact le_refl _

theorem sorted_le_perm {α : Type*} [LinearOrder α] {l m : List α} (hl : l.Pairwise (· ≤ ·)) (h : l.Perm m) : l ≤ m := by
  induction l generalizing m with
  | nil => rw [List.nil_perm.1 h]
  | cons a l ih =>
    cases m with
    | nil => exact absurd h.length_eq (by simp)
    | cons b m =>
      rw [List.pairwise_cons] at hl
      have hb : b ∈ a :: l := h.mem_iff.2 List.mem_cons_self
      rcases List.mem_cons.1 hb with rfl | hb
      · rcases lt_or_eq_of_le (ih hl.2 (List.Perm.cons_inv h)) with h' | h'
        · exact le_of_lt (List.Lex.cons h')
        · rw [h']
      · rcases (hl.1 b hb).lt_or_eq with hab | rfl
        · exact le_of_lt (List.Lex.rel hab)
        · rcases lt_or_eq_of_le (ih hl.2 (List.Perm.cons_inv h)) with h' | h'
          · exact le_of_lt (List.Lex.cons h')
          · rw [h']

/-- The base map with the given permutation and flips. -/
def BaseMap.ofPerm (σ : Equiv.Perm (Fin d)) (flip : Fin d → Bool) : BaseMap d where
  coords := fun i => (σ i, flip i)
  timeRev := false
  inj := σ.injective

theorem ofFn_comp_perm {α : Type*} (x : Fin d → α) (σ : Equiv.Perm (Fin d)) : (List.ofFn fun i => x (σ i)).Perm (List.ofFn x) := by
  have h1 : (List.ofFn fun i => x (σ i)) = ((List.finRange d).map σ).map x := by rw [List.map_map, List.ofFn_eq_map]; rfl
  have h2 : List.ofFn x = (List.finRange d).map x := List.ofFn_eq_map
  rw [h1, h2]
  apply List.Perm.map
  rw [List.perm_ext_iff_of_nodup ((List.nodup_finRange d).map σ.injective) (List.nodup_finRange d)]
  intro a
  simp only [List.mem_map, List.mem_finRange, true_and, iff_true]
  exact σ.surjective a

/-- `min (x, 1 - x)` in each coordinate. -/
def Point.halves (p : Point d) : Point d := fun j => if p j ≤ 1 / 2 then p j else 1 - p j

theorem Point.halves_le (p : Point d) (a : BaseMap d) (i : Fin d) : p.halves (a.coords i).1 ≤ Point.act a p i := by
  unfold Point.halves Point.act BaseMap.applyX
  split <;> split <;> linarith

theorem Point.std_eq (p : Point d) : p.std = fun i => p.halves (Tuple.sort p.halves i) := by
  have hs : ((List.finRange d).map p.halves).insertionSort (· ≤ ·) = List.ofFn fun i => p.halves (Tuple.sort p.halves i) := by
    apply List.Perm.eq_of_pairwise (le := (· ≤ ·))
    · intro a b _ _ h1 h2
      exact le_antisymm h1 h2
    · exact List.pairwise_insertionSort _ _
    · rw [List.pairwise_ofFn]
      intro i j hij
      exact Tuple.monotone_sort p.halves hij.le
    · refine (List.perm_insertionSort _ _).trans ?_
      rw [← List.ofFn_eq_map]
      exact (ofFn_comp_perm p.halves (Tuple.sort p.halves)).symm
  funext i
  unfold Point.std
  show (((List.finRange d).map p.halves).insertionSort (· ≤ ·)).getD i 0 = _
  rw [hs, List.getD_eq_getElem _ _ (by simp)]
  simp

theorem Point.exists_act_std (p : Point d) : ∃ a : BaseMap d, a.timeRev = false ∧ Point.act a p = p.std := by
  refine ⟨BaseMap.ofPerm (Tuple.sort p.halves) (fun i => decide (¬ p (Tuple.sort p.halves i) ≤ 1 / 2)), rfl, ?_⟩
  rw [Point.std_eq]
  generalize Tuple.sort p.halves = σ
  funext i
  unfold Point.act BaseMap.applyX BaseMap.ofPerm Point.halves
  by_cases h : p (σ i) ≤ 1 / 2
  · simp only [h, not_true, decide_false, if_true]; rfl
  · simp only [h, not_false_iff, decide_true, if_true]; rfl

theorem BaseMap.exists_perm (a : BaseMap d) : ∃ σ : Equiv.Perm (Fin d), ∀ i, σ i = (a.coords i).1 :=
  ⟨Equiv.ofBijective _ ⟨a.inj, a.coords_surj⟩, fun _ => rfl⟩

theorem Point.std_le_act (p : Point d) (a : BaseMap d) : List.ofFn p.std ≤ List.ofFn (Point.act a p) := by
  obtain ⟨σ, hσ⟩ := a.exists_perm
  have h1 : List.ofFn p.std ≤ List.ofFn fun i => p.halves (σ i) := by
    rw [Point.std_eq]
    apply sorted_le_perm
    · rw [List.pairwise_ofFn]
      intro i j hij
      exact Tuple.monotone_sort p.halves hij.le
    · exact (ofFn_comp_perm p.halves _).trans (ofFn_comp_perm p.halves σ).symm
  refine h1.trans (forall₂_le_lex ?_)
  rw [List.forall₂_iff_get]
  refine ⟨by simp, ?_⟩
  intro i h h'
  simp only [List.get_eq_getElem, List.getElem_ofFn]
  rw [hσ]
  exact Point.halves_le p a _

theorem Point.std_act (p : Point d) (a : BaseMap d) : (Point.act a p).std = p.std := by
  obtain ⟨b, _, hb⟩ := Point.exists_act_std p
  obtain ⟨b', _, hb'⟩ := Point.exists_act_std (Point.act a p)
  apply List.ofFn_injective
  apply le_antisymm
  · have := Point.std_le_act (Point.act a p) (b * a⁻¹)
    rw [← Point.act_mul, inv_mul_cancel_right, hb] at this
    exact this
  · have := Point.std_le_act p (b' * a)
    rw [Point.act_mul, hb'] at this
    exact this

theorem Point.act_invert (a : BaseMap d) (p : Point d) : Point.act a.invert p = Point.act a p := rfl
theorem Point.act_cubeMap (a : BaseMap d) (p : Point d) : Point.act a.cubeMap p = Point.act a p := rfl

/-! ### `argstd` and the standard form of links -/

theorem Point.argstd_eq (p : Point d) : ∃ L : List (BaseMap d), p.argstd = L.map some ∧ L.Nodup ∧
    ∀ a, a ∈ L ↔ a.timeRev = false ∧ Point.act a p = p.std := BaseMap.genConstraintFast_exact p p.std

theorem mapM_id_map_some_pts {α : Type} (L : List α) : (L.map some).mapM id = some L := by
  induction L with
  | nil => rfl
  | cons a L ih => simp [List.mapM_cons, ih]

/-- The minimum of images over the maps that standardize `p`. -/
theorem minImage_spec (p q : Point d) : ∃ m, Link.minImage Point.lt (fun bm => Point.act bm q) p.argstd = some m ∧
    (∃ a : BaseMap d, Point.act a p = p.std ∧ Point.act a q = m) ∧
    ∀ a : BaseMap d, Point.act a p = p.std → List.ofFn m ≤ List.ofFn (Point.act a q) := by
  obtain ⟨L, h1, _, h2⟩ := p.argstd_eq
  obtain ⟨b, hb1, hb2⟩ := Point.exists_act_std p
  have hne : L.map (fun bm => Point.act bm q) ≠ [] := by
    have : b ∈ L := (h2 b).2 ⟨hb1, hb2⟩
    intro h0
    rw [List.map_eq_nil_iff] at h0
    rw [h0] at this
    simp at this
  obtain ⟨m, hm⟩ := pyMin_isSome (lt := Point.lt) hne
  refine ⟨m, ?_, ?_, ?_⟩
  · unfold Link.minImage
    rw [h1, mapM_id_map_some_pts]
    exact hm
  · obtain ⟨h3, _⟩ := (pyMin_spec Point.keyOrder).1 hm
    obtain ⟨a, ha, rfl⟩ := List.mem_map.1 h3
    exact ⟨a, ((h2 a).1 ha).2, rfl⟩
  · intro a ha
    obtain ⟨_, h4⟩ := (pyMin_spec Point.keyOrder).1 hm
    exact h4 (Point.act a.cubeMap q) (List.mem_map.2 ⟨a.cubeMap, (h2 _).2 ⟨rfl, ha⟩, rfl⟩)

theorem key_le {a b : Link (Point d)} : a.key ≤ b.key ↔
    List.ofFn a.entrance < List.ofFn b.entrance ∨ (a.entrance = b.entrance ∧ List.ofFn a.exit ≤ List.ofFn b.exit) := by
  unfold Link.key
  rw [Prod.Lex.toLex_le_toLex]
  simp only [List.ofFn_inj]

/-- The optimized standard form is the minimum over the orbit. -/
theorem Link.stdPoint_spec (l : Link (Point d)) : ∃ m, l.stdPoint = some m ∧ (∃ a : BaseMap d, Link.act a l = m) ∧
    ∀ a : BaseMap d, m.key ≤ (Link.act a l).key := by
  obtain ⟨m1, e1, ⟨a1, f1, g1⟩, h1⟩ := minImage_spec l.entrance l.exit
  obtain ⟨m2, e2, ⟨a2, f2, g2⟩, h2⟩ := minImage_spec l.exit l.entrance
  -- attained candidates
  have c1 : ∃ a : BaseMap d, Link.act a l = ⟨l.entrance.std, m1⟩ := by
    refine ⟨a1.cubeMap, ?_⟩
    rw [Link.act_def]
    simp only [Point.act_cubeMap, f1, g1]
    rfl
  have c2 : ∃ a : BaseMap d, Link.act a l = ⟨l.exit.std, m2⟩ := by
    refine ⟨a2.cubeMap.invert, ?_⟩
    rw [Link.act_def]
    simp only [Point.act_cubeMap, Point.act_invert, f2, g2]
    rfl
  -- lower bounds
  have b1 : ∀ a : BaseMap d, a.timeRev = false → (⟨l.entrance.std, m1⟩ : Link (Point d)).key ≤ (Link.act a l).key := by
    intro a ha
    rw [key_le, Link.act_def, ha]
    rcases lt_or_eq_of_le (Point.std_le_act l.entrance a) with h | h
    · exact Or.inl h
    · have := List.ofFn_injective h
      exact Or.inr ⟨this, h1 a this.symm⟩
  have b2 : ∀ a : BaseMap d, a.timeRev = true → (⟨l.exit.std, m2⟩ : Link (Point d)).key ≤ (Link.act a l).key := by
    intro a ha
    rw [key_le, Link.act_def, ha]
    rcases lt_or_eq_of_le (Point.std_le_act l.exit a) with h | h
    · exact Or.inl h
    · have := List.ofFn_injective h
      exact Or.inr ⟨this, h2 a this.symm⟩
  unfold Link.stdPoint
  by_cases hlt : Point.lt l.entrance.std l.exit.std = true
  · refine ⟨_, by simp only [hlt, if_true, e1, Option.bind_eq_bind, Option.bind_some, Option.pure_def], c1, ?_⟩
    intro a
    by_cases ha : a.timeRev = true
    · refine le_trans ?_ (b2 a ha)
      rw [key_le]
      exact Or.inl ((Point.keyOrder.lt_iff _ _).1 hlt)
    · exact b1 a (by simpa using ha)
  by_cases hgt : Point.lt l.exit.std l.entrance.std = true
  · refine ⟨_, by simp only [hlt, hgt, if_true, e2, Option.bind_eq_bind, Option.bind_some, Option.pure_def]; rfl, c2, ?_⟩
    intro a
    by_cases ha : a.timeRev = true
    · exact b2 a ha
    · refine le_trans ?_ (b1 a (by simpa using ha))
      rw [key_le]
      exact Or.inl ((Point.keyOrder.lt_iff _ _).1 hgt)
  · have heq : l.entrance.std = l.exit.std := by
      apply List.ofFn_injective
      rw [Point.keyOrder.lt_iff] at hlt hgt
      exact le_antisymm (not_lt.1 hgt) (not_lt.1 hlt)
    obtain ⟨m, hm⟩ := pyMin_isSome (lt := Point.lt) (l := [m1, m2]) (by simp)
    obtain ⟨hm1, hm2⟩ := (pyMin_spec Point.keyOrder).1 hm
    refine ⟨⟨l.entrance.std, m⟩, ?_, ?_, ?_⟩
    · simp only [hlt, hgt, e1, e2, hm, Option.bind_eq_bind, Option.bind_some, Option.pure_def]; rfl
    · rcases List.mem_cons.1 hm1 with rfl | hm1
      · exact c1
      · rw [List.mem_singleton] at hm1
        subst hm1
        rw [heq]; exact c2
    · intro a
      by_cases ha : a.timeRev = true
      · refine le_trans ?_ (b2 a ha)
        rw [key_le]
        exact Or.inr ⟨heq, hm2 m2 (by simp)⟩
      · refine le_trans ?_ (b1 a (by simpa using ha))
        rw [key_le]
        exact Or.inr ⟨rfl, hm2 m1 (by simp)⟩

end Peano
