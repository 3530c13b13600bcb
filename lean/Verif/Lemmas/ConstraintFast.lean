import Mathlib.Data.List.Basic
import Mathlib.Data.List.Nodup
import Mathlib.Data.List.FinRange
import Mathlib.Data.List.Infix
import Verif.Model.ConstraintFast
import Verif.Lemmas.BaseMap

/- Exactness of `gen_constraint_fast`. -/
namespace Peano.BaseMap
variable {d : ℕ}

/-! ### groups -/

structure GroupsInv (dst : Fin d → ℚ) (l : List (Fin d)) (gs : List (ℚ × List (Fin d))) : Prop where
  nodup : (gs.map Prod.fst).Nodup
  coords : ∀ p ∈ gs, p.2 = l.filter fun k => dst k = p.1
  cover : ∀ v, (∃ p ∈ gs, p.1 = v) ↔ ∃ k ∈ l, dst k = v

theorem mem_addToGroup_fst {gs : List (ℚ × List (Fin d))} {x v : ℚ} {k : Fin d} :
    (∃ p ∈ addToGroup gs x k, p.1 = v) ↔ (∃ p ∈ gs, p.1 = v) ∨ v = x := by
  induction gs with
  | nil => simp [addToGroup, eq_comm]
  | cons p gs ih =>
    obtain ⟨y, ks⟩ := p
    simp only [addToGroup]
    split
    · rename_i h; subst h
      simp only [List.mem_cons, exists_eq_or_imp]
      constructor
      · rintro (h | h) <;> simp_all
      · rintro ((h | h) | h) <;> simp_all
    · simp only [List.mem_cons, exists_eq_or_imp, ih, or_assoc]

theorem addToGroup_nodup {gs : List (ℚ × List (Fin d))} {x : ℚ} {k : Fin d} (h : (gs.map Prod.fst).Nodup) :
    ((addToGroup gs x k).map Prod.fst).Nodup := by
  induction gs with
  | nil => simp [addToGroup]
  | cons p gs ih =>
    obtain ⟨y, ks⟩ := p
    simp only [List.map_cons, List.nodup_cons] at h
    simp only [addToGroup]
    split
    · simpa using h
    · rename_i hxy
      simp only [List.map_cons, List.nodup_cons]
      refine ⟨?_, ih h.2⟩
      intro hm
      obtain ⟨p, hp, hpy⟩ := List.mem_map.1 hm
      rcases (mem_addToGroup_fst.1 ⟨p, hp, hpy⟩) with ⟨q, hq, hqy⟩ | h'
      · exact h.1 (List.mem_map.2 ⟨q, hq, hqy⟩)
      · exact hxy h'

theorem addToGroup_coords {dst : Fin d → ℚ} {l : List (Fin d)} {gs : List (ℚ × List (Fin d))} {k : Fin d}
    (hn : (gs.map Prod.fst).Nodup) (hc : ∀ p ∈ gs, p.2 = l.filter fun k => dst k = p.1)
    (hx : (∀ p ∈ gs, p.1 ≠ dst k) → l.filter (fun j => dst j = dst k) = []) :
    ∀ p ∈ addToGroup gs (dst k) k, p.2 = (l ++ [k]).filter fun k => dst k = p.1 := by
  induction gs with
  | nil =>
    intro p hp
    simp only [addToGroup, List.mem_singleton] at hp
    subst hp
    simp only [List.filter_append, hx (by simp)]; simp
  | cons q gs ih =>
    obtain ⟨y, ks⟩ := q
    simp only [List.map_cons, List.nodup_cons] at hn
    have hks := hc (y, ks) List.mem_cons_self
    intro p hp
    simp only [addToGroup] at hp
    split at hp
    · rename_i hy
      rcases List.mem_cons.1 hp with rfl | hp
      · simp only at hks ⊢
        rw [hks, List.filter_append]; simp [hy]
      · rw [hc p (List.mem_cons_of_mem _ hp), List.filter_append]
        have : p.1 ≠ dst k := by
          rintro h; apply hn.1; rw [hy, ← h]; exact List.mem_map_of_mem hp
        simp [this.symm]
    · rename_i hy
      rcases List.mem_cons.1 hp with rfl | hp
      · simp only at hks ⊢
        rw [hks, List.filter_append]
        have : dst k ≠ y := fun h => hy h.symm
        simp [this]
      · refine ih hn.2 (fun p hp => hc p (List.mem_cons_of_mem _ hp)) ?_ p hp
        intro h
        apply hx
        intro p hp
        rcases List.mem_cons.1 hp with rfl | hp
        · exact hy
        · exact h p hp

theorem groupsInv_foldl (dst : Fin d → ℚ) (l l0 : List (Fin d)) (gs : List (ℚ × List (Fin d))) (h : GroupsInv dst l0 gs) :
    GroupsInv dst (l0 ++ l) (l.foldl (fun gs k => addToGroup gs (dst k) k) gs) := by
  induction l generalizing l0 gs with
  | nil => simpa using h
  | cons k l ih =>
    rw [List.foldl_cons, show l0 ++ k :: l = (l0 ++ [k]) ++ l by simp]
    apply ih
    refine ⟨addToGroup_nodup h.nodup, addToGroup_coords h.nodup h.coords ?_, ?_⟩
    · intro hne
      rw [List.filter_eq_nil_iff]
      intro j hj hjk
      obtain ⟨p, hp, hpv⟩ := (h.cover (dst k)).2 ⟨j, hj, by simpa using hjk⟩
      exact hne p hp hpv
    · intro v
      rw [mem_addToGroup_fst, h.cover]
      simp only [List.mem_append, List.mem_singleton]
      constructor
      · rintro (⟨j, hj, rfl⟩ | rfl)
        · exact ⟨j, Or.inl hj, rfl⟩
        · exact ⟨k, Or.inr rfl, rfl⟩
      · rintro ⟨j, hj | rfl, rfl⟩
        · exact Or.inl ⟨j, hj, rfl⟩
        · exact Or.inr rfl

theorem groupsInv (dst : Fin d → ℚ) : GroupsInv dst (List.finRange d) (groups dst) := by
  have := groupsInv_foldl dst (List.finRange d) [] [] ⟨by simp, by simp, by simp⟩
  rw [List.nil_append] at this
  exact this

theorem groupId_eq_some {gs : List (ℚ × List (Fin d))} (hn : (gs.map Prod.fst).Nodup) {x : ℚ} {g : ℕ} :
    groupId gs x = some g ↔ ∃ p, gs[g]? = some p ∧ p.1 = x := by
  unfold groupId
  rw [List.findIdx?_eq_some_iff_getElem]
  constructor
  · rintro ⟨h, h1, _⟩
    exact ⟨gs[g], by simp, by simpa using h1⟩
  · rintro ⟨p, hp, hpx⟩
    obtain ⟨h, rfl⟩ := List.getElem?_eq_some_iff.1 hp
    refine ⟨h, by simpa using hpx, ?_⟩
    intro j hj
    have hj' : j < gs.length := by omega
    simp only [decide_eq_true_eq]
    intro hjx
    have : (gs.map Prod.fst)[j]'(by simpa using hj') = (gs.map Prod.fst)[g]'(by simpa using h) := by
      simp [hjx, hpx]
    have := (hn.getElem_inj_iff).1 this
    omega

/-! ### counting and popping -/

/-- the `new_k` that landed in group `g` -/
def sel (g : ℕ) (fl : List (Bool × ℕ)) (nk : List (Fin d)) : List (Fin d) :=
  (fl.zip nk).filterMap fun p => if p.1.2 = g then some p.2 else none

theorem sel_cons (g : ℕ) (b : Bool) (g0 : ℕ) (fl : List (Bool × ℕ)) (x : Fin d) (nk : List (Fin d)) :
    sel g ((b, g0) :: fl) (x :: nk) = if g0 = g then x :: sel g fl nk else sel g fl nk := by
  simp only [sel, List.zip_cons_cons, List.filterMap_cons]
  split <;> simp_all

theorem popLoop_iff {fl : List (Bool × ℕ)} {perms : List (List (Fin d))} {nk : List (Fin d)} :
    popLoop fl perms = some nk ↔ nk.length = fl.length ∧ (∀ p ∈ fl, p.2 < perms.length) ∧
      ∀ g (h : g < perms.length), sel g fl nk <+: perms[g] := by
  induction fl generalizing perms nk with
  | nil =>
    simp only [popLoop, Option.some.injEq, List.length_nil, List.length_eq_zero_iff]
    constructor
    · rintro rfl; simp [sel]
    · rintro ⟨rfl, _⟩; rfl
  | cons p fl ih =>
    obtain ⟨b, g0⟩ := p
    simp only [popLoop]
    constructor
    · intro h
      split at h
      · rename_i x xs hx
        obtain ⟨hg0, hx⟩ := List.getElem?_eq_some_iff.1 hx
        simp only [Option.map_eq_some_iff] at h
        obtain ⟨nk', h, rfl⟩ := h
        obtain ⟨h1, h2, h3⟩ := ih.1 h
        refine ⟨by simp [h1], ?_, ?_⟩
        · intro p hp
          rcases List.mem_cons.1 hp with rfl | hp
          · exact hg0
          · simpa using h2 p hp
        · intro g hg
          have := h3 g (by simpa using hg)
          rw [sel_cons]
          rw [List.getElem_set] at this
          split
          · rename_i h; subst h
            simp only [if_true] at this
            rw [hx]
            exact (List.prefix_cons_inj x).2 this
          · rename_i h
            rw [if_neg h] at this
            exact this
      · simp at h
    · rintro ⟨h1, h2, h3⟩
      cases nk with
      | nil => simp at h1
      | cons x nk =>
        have hg0 := h2 (b, g0) List.mem_cons_self
        simp only at hg0
        have h4 := h3 g0 hg0
        rw [sel_cons, if_pos rfl] at h4
        have h40 := h4
        obtain ⟨t, ht⟩ := h4
        have : perms[g0]? = some (x :: (sel g0 fl nk ++ t)) := by
          rw [List.getElem?_eq_getElem hg0, ← ht]; rfl
        rw [this]
        simp only [Option.map_eq_some_iff]
        refine ⟨nk, ih.2 ⟨by simpa using h1, ?_, ?_⟩, rfl⟩
        · intro p hp
          simpa using h2 p (List.mem_cons_of_mem _ hp)
        · intro g hg
          rw [List.getElem_set]
          split
          · rename_i h; subst h
            exact List.prefix_append _ _
          · rename_i h
            have := h3 g (by simpa using hg)
            rwa [sel_cons, if_neg h] at this

theorem popLoop_exists {fl : List (Bool × ℕ)} {perms : List (List (Fin d))} (h1 : ∀ p ∈ fl, p.2 < perms.length)
    (h2 : ∀ g (h : g < perms.length), (fl.map Prod.snd).count g ≤ perms[g].length) : ∃ nk, popLoop fl perms = some nk := by
  induction fl generalizing perms with
  | nil => exact ⟨[], rfl⟩
  | cons p fl ih =>
    obtain ⟨b, g0⟩ := p
    have hg0 := h1 (b, g0) List.mem_cons_self
    simp only at hg0
    have hc := h2 g0 hg0
    simp only [List.map_cons, List.count_cons_self] at hc
    cases hp : perms[g0] with
    | nil => rw [hp] at hc; simp at hc
    | cons x xs =>
      have hget : perms[g0]? = some (x :: xs) := by rw [List.getElem?_eq_getElem hg0, hp]
      obtain ⟨nk, hnk⟩ := ih (perms := perms.set g0 xs) (fun p hp => by simpa using h1 p (List.mem_cons_of_mem _ hp)) (by
        intro g hg
        rw [List.getElem_set]
        split
        · rename_i h; subst h
          rw [hp] at hc; simp at hc; exact hc
        · rename_i h
          have := h2 g (by simpa using hg)
          simp only [List.map_cons] at this
          rwa [List.count_cons_of_ne h] at this)
      exact ⟨x :: nk, by simp [popLoop, hget, hnk]⟩

/-- size of group `g` -/
def gsize (gs : List (ℚ × List (Fin d))) (g : ℕ) : ℕ := ((gs[g]?).map fun p => p.2.length).getD 0

theorem checkCounts_iff {gs : List (ℚ × List (Fin d))} {seen : List ℕ} {fl : List (Bool × ℕ)} :
    checkCounts gs seen fl = true ↔ ∀ p ∈ fl, seen.count p.2 + (fl.map Prod.snd).count p.2 ≤ gsize gs p.2 := by
  induction fl generalizing seen with
  | nil => simp [checkCounts]
  | cons p fl ih =>
    obtain ⟨b, g⟩ := p
    simp only [checkCounts]
    have hcount : ∀ g', (g :: seen).count g' + (fl.map Prod.snd).count g' = seen.count g' + ((g :: fl.map Prod.snd)).count g' := by
      intro g'; simp only [List.count_cons]; split <;> omega
    split
    · rename_i h
      simp only [Bool.false_eq_true, false_iff, not_forall]
      refine ⟨(b, g), List.mem_cons_self, ?_⟩
      simp only [List.map_cons, List.count_cons_self] at h ⊢
      unfold gsize; omega
    · rename_i h
      rw [ih]
      constructor
      · intro h1 p hp
        rw [List.map_cons, ← hcount]
        by_cases hpf : ∃ q ∈ fl, q.2 = p.2
        · obtain ⟨q, hq, hqp⟩ := hpf
          rw [← hqp]; exact h1 q hq
        · have : (fl.map Prod.snd).count p.2 = 0 := by
            rw [List.count_eq_zero]; intro hm
            obtain ⟨q, hq, hqp⟩ := List.mem_map.1 hm
            exact hpf ⟨q, hq, hqp⟩
          rw [this]
          rcases List.mem_cons.1 hp with rfl | hp
          · simpa [gsize] using h
          · exact absurd ⟨p, hp, rfl⟩ hpf
      · intro h1 p hp
        have := h1 p (List.mem_cons_of_mem _ hp)
        rwa [List.map_cons, ← hcount] at this

/-! ### filling -/

theorem fillCoords_spec {fl : List (Bool × ℕ)} {nk : List (Fin d)} (hf : fl.length = d) (hnk : nk.length = d) (hnd : nk.Nodup)
    (k : Fin d) : fillCoords fl nk (nk[k.val]'(by omega)) = some (k, (fl[k.val]'(by omega)).1) := by
  unfold fillCoords
  have key : ∀ (l : List (Fin d × (Bool × ℕ) × Fin d)) (acc : Fin d → Option (Fin d × Bool)) (q : Fin d × (Bool × ℕ) × Fin d),
      (l.map fun p => p.2.2).Nodup → q ∈ l →
      (l.foldl (fun (acc : Fin d → Option (Fin d × Bool)) p => Function.update acc p.2.2 (some (p.1, p.2.1.1))) acc) q.2.2 = some (q.1, q.2.1.1) := by
    have key0 : ∀ (l : List (Fin d × (Bool × ℕ) × Fin d)) (acc : Fin d → Option (Fin d × Bool)) (x : Fin d),
        x ∉ (l.map fun p => p.2.2) → (l.foldl (fun (acc : Fin d → Option (Fin d × Bool)) p => Function.update acc p.2.2 (some (p.1, p.2.1.1))) acc) x = acc x := by
      intro l
      induction l with
      | nil => intros; rfl
      | cons p l ih =>
        intro acc x hx
        simp only [List.map_cons, List.mem_cons, not_or] at hx
        rw [List.foldl_cons, ih _ _ hx.2, Function.update_of_ne hx.1]
    intro l
    induction l with
    | nil => intro _ _ _ h; simp at h
    | cons p l ih =>
      intro acc q hn hq
      simp only [List.map_cons, List.nodup_cons] at hn
      rw [List.foldl_cons]
      rcases List.mem_cons.1 hq with rfl | hq
      · rw [key0 _ _ _ hn.1, Function.update_self]
      · exact ih _ _ hn.2 hq
  have hlen : ((List.finRange d).zip (fl.zip nk)).length = d := by simp [hf, hnk]
  have hmap : (((List.finRange d).zip (fl.zip nk)).map fun p => p.2.2) = nk := by
    apply List.ext_getElem
    · simp [hf, hnk]
    · intro i h1 h2; simp
  have hq : ((List.finRange d).zip (fl.zip nk))[k.val]'(by omega) ∈ (List.finRange d).zip (fl.zip nk) := List.getElem_mem _
  have := key _ (fun _ => none) _ (by rw [hmap]; exact hnd) hq
  simpa using this

theorem mem_ofFilled {c : Fin d → Option (Fin d × Bool)} {a : BaseMap d} :
    ofFilled c = some a ↔ (∀ i, c i = some (a.coords i)) ∧ a.timeRev = false := by
  unfold ofFilled
  constructor
  · intro h
    split at h
    · rename_i hs
      rw [← Option.mem_def, mem_ofList] at h
      refine ⟨?_, h.2⟩
      have hs' : ∀ i, (c i).isSome := by
        intro i
        rw [List.all_eq_true] at hs
        exact hs (c i) (List.mem_ofFn.2 ⟨i, rfl⟩)
      have hc : c = fun i => some ((c i).get (hs' i)) := by funext i; simp
      have : (List.ofFn c).filterMap id = List.ofFn fun i => (c i).get (hs' i) := by
        conv_lhs => rw [hc]
        rw [show (List.ofFn fun i => some ((c i).get (hs' i))) = (List.ofFn fun i => (c i).get (hs' i)).map some by
          rw [List.map_ofFn]; rfl]
        simp
      rw [this] at h
      have h2 := List.ofFn_injective h.1
      intro i
      rw [← h2]; simp
    · simp at h
  · rintro ⟨h1, h2⟩
    have hs : (List.ofFn c).all Option.isSome = true := by
      rw [List.all_eq_true]; intro x hx
      obtain ⟨i, rfl⟩ := List.mem_ofFn.1 hx
      simp [h1]
    rw [if_pos hs, ← Option.mem_def, mem_ofList]
    refine ⟨?_, h2⟩
    have hc : c = fun i => some (a.coords i) := funext h1
    rw [hc, show (List.ofFn fun i => some (a.coords i)) = (List.ofFn a.coords).map some by rw [List.map_ofFn]; rfl]
    simp

/-! ### main statement -/

/-- what an admissible pair `(flip_list, perms)` looks like -/
structure Good (src dst : Fin d → ℚ) (fl : List (Bool × ℕ)) (perms : List (List (Fin d))) : Prop where
  len : fl.length = d
  flip : ∀ k : Fin d, ∃ p, (groups dst)[(fl[k.val]'(by omega)).2]? = some p ∧
    p.1 = if (fl[k.val]'(by omega)).1 then 1 - src k else src k
  count : ∀ p ∈ fl, (fl.map Prod.snd).count p.2 ≤ gsize (groups dst) p.2
  plen : perms.length = (groups dst).length
  perm : ∀ g (h : g < perms.length), perms[g].Perm ((groups dst)[g]'(by omega)).2

theorem mem_flipVariants {dst : Fin d → ℚ} {x : ℚ} {p : Bool × ℕ} :
    p ∈ flipVariants (groups dst) x ↔ ∃ q, (groups dst)[p.2]? = some q ∧ q.1 = if p.1 then 1 - x else x := by
  unfold flipVariants
  obtain ⟨b, g⟩ := p
  simp only [List.mem_append]
  have e1 : (b, g) ∈ ((groupId (groups dst) x).map fun g => (false, g)).toList ↔
      b = false ∧ groupId (groups dst) x = some g := by
    cases groupId (groups dst) x <;> simp [eq_comm]
  have e2 : (b, g) ∈ ((groupId (groups dst) (1 - x)).map fun g => (true, g)).toList ↔
      b = true ∧ groupId (groups dst) (1 - x) = some g := by
    cases groupId (groups dst) (1 - x) <;> simp [eq_comm]
  rw [e1, e2, groupId_eq_some (groupsInv dst).nodup, groupId_eq_some (groupsInv dst).nodup]
  cases b <;> simp

theorem good_iff {src dst : Fin d → ℚ} {fl : List (Bool × ℕ)} {perms : List (List (Fin d))} :
    (fl ∈ (Itertools.product ((List.finRange d).map fun k => flipVariants (groups dst) (src k))).filter
        (fun fl => checkCounts (groups dst) [] fl) ∧
      perms ∈ Itertools.product ((groups dst).map fun g => Itertools.permutations g.2)) ↔ Good src dst fl perms := by
  simp only [List.mem_filter, Itertools.mem_product, checkCounts_iff, List.count_nil, zero_add, List.forall₂_iff_get,
    List.length_map, List.length_finRange, List.get_eq_getElem, List.getElem_map, List.getElem_finRange, mem_flipVariants,
    Itertools.mem_permutations]
  constructor
  · rintro ⟨⟨⟨h1, h2⟩, h3⟩, h4, h5⟩
    exact ⟨h1, fun k => by simpa using h2 k.val (by omega) k.isLt, h3, h4, fun g h => h5 g h (by omega)⟩
  · rintro ⟨h1, h2, h3, h4, h5⟩
    exact ⟨⟨⟨h1, fun i hi hi' => by simpa using h2 ⟨i, hi'⟩⟩, h3⟩, h4, fun g h _ => h5 g h⟩

theorem mem_sel {g : ℕ} {fl : List (Bool × ℕ)} {nk : List (Fin d)} (hl : nk.length = fl.length) {x : Fin d} :
    x ∈ sel g fl nk ↔ ∃ k, ∃ h : k < fl.length, fl[k].2 = g ∧ nk[k] = x := by
  simp only [sel, List.mem_filterMap]
  constructor
  · rintro ⟨p, hp, h⟩
    obtain ⟨k, hk, rfl⟩ := List.mem_iff_getElem.1 hp
    simp only [List.length_zip] at hk
    refine ⟨k, by omega, ?_⟩
    simpa using h
  · rintro ⟨k, hk, h1, h2⟩
    refine ⟨_, List.getElem_mem (n := k) (by simp [hl, hk]), by simp [h1, h2]⟩

/-- a good pair pops successfully, filling a permutation of the coordinates -/
theorem Good.pop {src dst : Fin d → ℚ} {fl : List (Bool × ℕ)} {perms : List (List (Fin d))} (hg : Good src dst fl perms) :
    ∃ nk, popLoop fl perms = some nk ∧ nk.length = d ∧ nk.Nodup ∧
      (∀ (k : Fin d) (h : k.val < nk.length), dst (nk[k.val]) = if (fl[k.val]'(by rw [hg.len]; exact k.isLt)).1 then 1 - src k else src k) ∧
      (∀ g (h : g < perms.length), perms[g] = sel g fl nk) := by
  have hidx : ∀ p ∈ fl, p.2 < perms.length := by
    intro p hp
    obtain ⟨k, hk, rfl⟩ := List.mem_iff_getElem.1 hp
    obtain ⟨q, hq, _⟩ := hg.flip ⟨k, by have := hg.len; omega⟩
    have := (List.getElem?_eq_some_iff.1 hq).1
    rw [hg.plen]; exact this
  obtain ⟨nk, hnk⟩ := popLoop_exists hidx (by
    intro g h
    by_cases hgm : g ∈ fl.map Prod.snd
    · obtain ⟨p, hp, rfl⟩ := List.mem_map.1 hgm
      have := hg.count p hp
      rw [(hg.perm _ h).length_eq]
      have h' : p.2 < (groups dst).length := by rw [← hg.plen]; exact h
      simpa [gsize, h'] using this
    · rw [List.count_eq_zero.2 hgm]; omega)
  obtain ⟨hl, -, hpre⟩ := popLoop_iff.1 hnk
  have hlen : nk.length = d := by rw [hl, hg.len]
  have hinv := groupsInv dst
  -- each popped coordinate is in its group
  have hmem : ∀ k (h : k < fl.length), ∃ hh : (fl[k]).2 < perms.length, nk[k] ∈ perms[fl[k].2] := by
    intro k h
    have hh := hidx _ (List.getElem_mem h)
    exact ⟨hh, (hpre _ hh).subset ((mem_sel hl).2 ⟨k, h, rfl, rfl⟩)⟩
  have hgmem : ∀ g (h : g < perms.length) x, x ∈ perms[g] ↔ dst x = ((groups dst)[g]'(by rw [← hg.plen]; exact h)).1 := by
    intro g h x
    rw [(hg.perm g h).mem_iff, hinv.coords _ (List.getElem_mem _)]
    simp
  have hdst : ∀ k (h : k < fl.length), dst nk[k] = if fl[k].1 then 1 - src ⟨k, by have := hg.len; omega⟩ else src ⟨k, by have := hg.len; omega⟩ := by
    intro k h
    obtain ⟨hh, hm⟩ := hmem k h
    obtain ⟨p, hp, hpv⟩ := hg.flip ⟨k, by have := hg.len; omega⟩
    obtain ⟨h1, h2⟩ := List.getElem?_eq_some_iff.1 hp
    rw [(hgmem _ hh _).1 hm]
    simp only at h2 hpv
    rw [← hpv, ← h2]
  have hgeq : ∀ i j (hi : i < fl.length) (hj : j < fl.length), nk[i] = nk[j] → fl[i].2 = fl[j].2 := by
    intro i j hi hj hij
    obtain ⟨hh1, hm1⟩ := hmem i hi
    obtain ⟨hh2, hm2⟩ := hmem j hj
    have e1 := (hgmem _ hh1 _).1 hm1
    have e2 := (hgmem _ hh2 _).1 hm2
    rw [hij, e2] at e1
    have : ((groups dst).map Prod.fst)[fl[j].2]'(by simp [← hg.plen, hh2]) = ((groups dst).map Prod.fst)[fl[i].2]'(by simp [← hg.plen, hh1]) := by
      simpa using e1
    exact ((hinv.nodup.getElem_inj_iff).1 this).symm
  have hpnd : ∀ g (h : g < perms.length), perms[g].Nodup := by
    intro g h
    rw [(hg.perm g h).nodup_iff, hinv.coords _ (List.getElem_mem _)]
    exact (List.nodup_finRange d).filter _
  have hnd : nk.Nodup := by
    have key : ∀ (fl : List (Bool × ℕ)) (nk : List (Fin d)) (hl : nk.length = fl.length), (∀ g, (sel g fl nk).Nodup) →
        (∀ i j (hi : i < fl.length) (hj : j < fl.length), nk[i] = nk[j] → fl[i].2 = fl[j].2) → nk.Nodup := by
      intro fl
      induction fl with
      | nil => intro nk hl _ _; have : nk = [] := by simpa using hl
               simp [this]
      | cons p fl ih =>
        obtain ⟨b, g0⟩ := p
        intro nk hl hs hgr
        cases nk with
        | nil => simp
        | cons x nk =>
          have hl' : nk.length = fl.length := by simpa using hl
          refine List.nodup_cons.2 ⟨?_, ih nk hl' ?_ ?_⟩
          · intro hx
            obtain ⟨k, hk, hkx⟩ := List.mem_iff_getElem.1 hx
            have h1 := hs g0
            rw [sel_cons, if_pos rfl, List.nodup_cons] at h1
            apply h1.1
            refine (mem_sel hl').2 ⟨k, by omega, ?_, hkx⟩
            have := hgr 0 (k+1) (by simp) (by simp; omega) (by simp [hkx])
            simpa using this.symm
          · intro g
            have := hs g
            rw [sel_cons] at this
            split at this
            · exact this.of_cons
            · exact this
          · intro i j hi hj hij
            have := hgr (i+1) (j+1) (by simp; omega) (by simp; omega) (by simpa using hij)
            simpa using this
    refine key fl nk hl ?_ hgeq
    intro g
    by_cases h : g < perms.length
    · exact (hpnd g h).sublist (hpre g h).sublist
    · have : sel g fl nk = [] := by
        rw [List.eq_nil_iff_forall_not_mem]
        intro x hx
        obtain ⟨k, hk, h1, h2⟩ := (mem_sel hl).1 hx
        exact h (h1 ▸ hidx _ (List.getElem_mem hk))
      rw [this]; exact List.nodup_nil
  refine ⟨nk, hnk, hlen, hnd, fun k h => hdst k.val (by rw [hg.len]; exact k.isLt), ?_⟩
  intro g h
  refine ((hpre g h).eq_of_length_le ?_).symm
  -- all elements of perms[g] occur
  have hsub : perms[g] ⊆ sel g fl nk := by
    intro x hx
    have hall : ∀ x : Fin d, x ∈ nk := by
      intro x
      have : nk.Perm (List.finRange d) := by
        refine (List.subperm_of_subset hnd (fun y _ => List.mem_finRange y)).perm_of_length_le (by simp [hlen])
      exact this.mem_iff.2 (List.mem_finRange x)
    obtain ⟨k, hk, rfl⟩ := List.mem_iff_getElem.1 (hall x)
    refine (mem_sel hl).2 ⟨k, by omega, ?_, rfl⟩
    obtain ⟨hh, hm⟩ := hmem k (by omega)
    have e1 := (hgmem _ hh _).1 hm
    have e2 := (hgmem _ h _).1 hx
    rw [e1] at e2
    have : ((groups dst).map Prod.fst)[fl[k].2]'(by simp [← hg.plen, hh]) = ((groups dst).map Prod.fst)[g]'(by simp [← hg.plen, h]) := by
      simpa using e2
    exact (hinv.nodup.getElem_inj_iff).1 this
  exact (List.subperm_of_subset (hpnd g h) hsub).length_le

/-- result of the assembly for a good pair -/
theorem Good.assemble {src dst : Fin d → ℚ} {fl : List (Bool × ℕ)} {perms : List (List (Fin d))} (hg : Good src dst fl perms) :
    ∃ nk a, popLoop fl perms = some nk ∧ ofFilled (fillCoords fl nk) = some a ∧ nk.length = d ∧ a.timeRev = false ∧
      (∀ (k : Fin d) (h : k.val < nk.length), a.coords nk[k.val] = (k, (fl[k.val]'(by rw [hg.len]; exact k.isLt)).1)) ∧
      a.applyX 1 src = dst ∧ (∀ g (h : g < perms.length), perms[g] = sel g fl nk) := by
  obtain ⟨nk, h1, hlen, hnd, hdst, hsel⟩ := hg.pop
  have hfill := fun k => fillCoords_spec hg.len hlen hnd k
  have hall : ∀ x : Fin d, ∃ k : Fin d, nk[k.val]'(by omega) = x := by
    intro x
    have : nk.Perm (List.finRange d) := by
      refine (List.subperm_of_subset hnd (fun y _ => List.mem_finRange y)).perm_of_length_le (by simp [hlen])
    obtain ⟨k, hk, rfl⟩ := List.mem_iff_getElem.1 (this.mem_iff.2 (List.mem_finRange x))
    exact ⟨⟨k, by omega⟩, rfl⟩
  choose inv hinv using hall
  have hinv' : ∀ k : Fin d, inv (nk[k.val]'(by omega)) = k := by
    intro k
    have := hinv (nk[k.val]'(by omega))
    exact Fin.ext ((hnd.getElem_inj_iff).1 this)
  have hinj : Function.Injective inv := fun x y h => by
    rw [← hinv x, ← hinv y]; simp only [h]
  let a : BaseMap d :=
    { coords := fun x => (inv x, (fl[(inv x).val]'(by rw [hg.len]; exact (inv x).isLt)).1)
      timeRev := false
      inj := fun x y h => hinj h }
  have ha : ∀ k : Fin d, a.coords (nk[k.val]'(by omega)) = (k, (fl[k.val]'(by rw [hg.len]; exact k.isLt)).1) := by
    intro k
    simp only [a, hinv']
  refine ⟨nk, a, h1, mem_ofFilled.2 ⟨?_, rfl⟩, hlen, rfl, fun k _ => ha k, ?_, hsel⟩
  · intro x
    rw [← hinv x, hfill, ha]
  · funext x
    rw [← hinv x]
    simp only [applyX, ha]
    rw [hdst (inv x) (by rw [hlen]; exact (inv x).isLt)]

/-- The list of base maps produced, as a list of values: nothing is `none`, the members are exactly the maps sending `src` to
`dst` without time reversal, and there are no repetitions. -/
theorem genConstraintFast_exact (src dst : Fin d → ℚ) : ∃ L : List (BaseMap d), genConstraintFast src dst = L.map some ∧ L.Nodup ∧
    ∀ a, a ∈ L ↔ a.timeRev = false ∧ a.applyX 1 src = dst := by
  classical
  set FL := (Itertools.product ((List.finRange d).map fun k => flipVariants (groups dst) (src k))).filter
        (fun fl => checkCounts (groups dst) [] fl) with hFL
  set PL := Itertools.product ((groups dst).map fun g => Itertools.permutations g.2) with hPL
  have hFLn : FL.Nodup := by
    refine List.Nodup.filter _ (Itertools.nodup_product ?_)
    intro l hl
    obtain ⟨k, _, rfl⟩ := List.mem_map.1 hl
    unfold flipVariants
    cases groupId (groups dst) (src k) <;> cases groupId (groups dst) (1 - src k) <;> simp
  have hPLn : PL.Nodup := by
    refine Itertools.nodup_product ?_
    intro l hl
    obtain ⟨g, hgm, rfl⟩ := List.mem_map.1 hl
    apply Itertools.nodup_permutations
    rw [(groupsInv dst).coords g hgm]
    exact (List.nodup_finRange d).filter _
  let f : List (Bool × ℕ) → List (List (Fin d)) → Option (BaseMap d) :=
    fun fl perms => (popLoop fl perms).bind fun nk => ofFilled (fillCoords fl nk)
  let F : List (Bool × ℕ) → List (List (Fin d)) → BaseMap d := fun fl perms => (f fl perms).getD 1
  have hgood : ∀ fl ∈ FL, ∀ perms ∈ PL, Good src dst fl perms := fun fl h1 perms h2 => good_iff.1 ⟨h1, h2⟩
  have hfF : ∀ fl ∈ FL, ∀ perms ∈ PL, f fl perms = some (F fl perms) := by
    intro fl h1 perms h2
    obtain ⟨nk, a, e1, e2, _⟩ := (hgood fl h1 perms h2).assemble
    simp [F, f, e1, e2]
  refine ⟨FL.flatMap fun fl => PL.map fun perms => F fl perms, ?_, ?_, ?_⟩
  · unfold genConstraintFast
    simp only [List.map_flatMap]
    rw [← hFL, ← hPL]
    refine List.flatMap_congr ?_
    intro fl h1
    rw [List.map_map]
    refine List.map_congr_left ?_
    intro perms h2
    exact hfF fl h1 perms h2
  · -- injectivity
    have hinj : ∀ fl ∈ FL, ∀ perms ∈ PL, ∀ fl' ∈ FL, ∀ perms' ∈ PL, F fl perms = F fl' perms' → fl = fl' ∧ perms = perms' := by
      intro fl h1 perms h2 fl' h1' perms' h2' hF
      have g1 := hgood fl h1 perms h2
      have g2 := hgood fl' h1' perms' h2'
      obtain ⟨nk, a, e1, e2, e3, e4, e5, e6, e7⟩ := g1.assemble
      obtain ⟨nk', a', e1', e2', e3', e4', e5', e6', e7'⟩ := g2.assemble
      have ea : F fl perms = a := by simp [F, f, e1, e2]
      have ea' : F fl' perms' = a' := by simp [F, f, e1', e2']
      have haa : a = a' := by rw [← ea, ← ea', hF]
      subst haa
      have hnk : ∀ k (hk : k < d), nk[k]'(by omega) = nk'[k]'(by omega) := by
        intro k hk
        have q1 := e5 ⟨k, hk⟩ (by simp [e3, hk])
        have q2 := e5' ⟨k, hk⟩ (by simp [e3', hk])
        apply a.inj
        simp only [q1, q2]
      have hnk' : nk = nk' := List.ext_getElem (by rw [e3, e3']) fun i h _ => hnk i (by omega)
      subst hnk'
      have hfl : fl = fl' := by
        refine List.ext_getElem (by rw [g1.len, g2.len]) fun i h h' => ?_
        have hi : i < d := by rw [← g1.len]; exact h
        have q1 := e5 ⟨i, hi⟩ (by simp [e3, hi])
        have q2 := e5' ⟨i, hi⟩ (by simp [e3, hi])
        rw [q1] at q2
        have hb : fl[i].1 = fl'[i].1 := by simpa using q2
        obtain ⟨p, hp, hpv⟩ := g1.flip ⟨i, hi⟩
        obtain ⟨p', hp', hpv'⟩ := g2.flip ⟨i, hi⟩
        simp only at hp hpv hp' hpv'
        have e := (groupId_eq_some (groupsInv dst).nodup (x := p.1)).2 ⟨p, hp, rfl⟩
        have e' := (groupId_eq_some (groupsInv dst).nodup (x := p'.1)).2 ⟨p', hp', rfl⟩
        have hpp : p.1 = p'.1 := by rw [hpv, hpv', hb]
        rw [hpp, e'] at e
        exact Prod.ext hb (by simpa using e.symm)
      subst hfl
      refine ⟨rfl, List.ext_getElem (by rw [g1.plen, g2.plen]) fun i h h' => ?_⟩
      rw [e7 i h, e7' i h']
    rw [List.nodup_flatMap]
    constructor
    · intro fl h1
      exact (List.nodup_map_iff_inj_on hPLn).2 fun p hp q hq h => (hinj fl h1 p hp fl h1 q hq h).2
    · refine List.Pairwise.imp_of_mem ?_ hFLn
      intro fl fl' h1 h1' hne
      simp only [Function.onFun, List.disjoint_left, List.mem_map, not_exists, not_and]
      rintro a ⟨p, hp, rfl⟩ q hq h
      exact hne (hinj fl' h1' q hq fl h1 p hp h).1.symm
  · intro a
    simp only [List.mem_flatMap, List.mem_map]
    constructor
    · rintro ⟨fl, h1, perms, h2, rfl⟩
      obtain ⟨nk, a, e1, e2, e3, e4, e5, e6, e7⟩ := (hgood fl h1 perms h2).assemble
      have ea : F fl perms = a := by simp [F, f, e1, e2]
      rw [ea]; exact ⟨e4, e6⟩
    · rintro ⟨htr, hx⟩
      -- reconstruct flip list and perms
      have hinv := groupsInv dst
      have hgid : ∀ v : Fin d, ∃ (g : ℕ) (p : ℚ × List (Fin d)), (groups dst)[g]? = some p ∧ p.1 = dst v := by
        intro v
        obtain ⟨p, hp, hpv⟩ := (hinv.cover (dst v)).2 ⟨v, List.mem_finRange v, rfl⟩
        obtain ⟨g, hg, rfl⟩ := List.mem_iff_getElem.1 hp
        exact ⟨g, _, by simp, hpv⟩
      choose gid pg hgid hpg using hgid
      let π : Fin d → Fin d := fun k => (a⁻¹.coords k).1
      have hπ : ∀ k, a.coords (π k) = (k, (a⁻¹.coords k).2) := by
        intro k
        have := inv_coords a⁻¹ k
        rwa [inv_inv] at this
      have hπinj : Function.Injective π := a⁻¹.inj
      let fl : List (Bool × ℕ) := List.ofFn fun k => ((a⁻¹.coords k).2, gid (π k))
      let nk : List (Fin d) := List.ofFn π
      let perms : List (List (Fin d)) := (List.range (groups dst).length).map fun g => sel g fl nk
      have hlfn : nk.length = fl.length := by simp [nk, fl]
      have hdπ : ∀ k, dst (π k) = if (a⁻¹.coords k).2 then 1 - src k else src k := by
        intro k
        rw [← hx]; simp only [applyX, hπ]
      have hnkn : nk.Nodup := List.nodup_ofFn.2 hπinj
      have hseln : ∀ g, (sel g fl nk).Nodup := by
        intro g
        have : (sel g fl nk).Sublist nk := by
          have : sel g fl nk = ((fl.zip nk).filter fun (p : (Bool × ℕ) × Fin d) => p.1.2 = g).map Prod.snd := by
            unfold sel
            rw [← List.filterMap_eq_filter, List.map_filterMap]
            apply List.filterMap_congr
            intro p _
            by_cases h : p.1.2 = g <;> simp [h, Option.guard]
          rw [this]
          refine (List.Sublist.map Prod.snd List.filter_sublist).trans ?_
          rw [List.map_snd_zip (by omega)]
        exact hnkn.sublist this
      have hselm : ∀ g (h : g < (groups dst).length) x, x ∈ sel g fl nk ↔ dst x = (groups dst)[g].1 := by
        intro g h x
        rw [mem_sel hlfn]
        constructor
        · rintro ⟨k, hk, h1, h2⟩
          simp only [fl, List.getElem_ofFn] at h1
          simp only [nk, List.getElem_ofFn] at h2
          rw [← h2, ← hpg]
          have := hgid (π ⟨k, by simpa [fl] using hk⟩)
          rw [h1] at this
          rw [List.getElem?_eq_getElem h] at this
          simp at this; rw [this]
        · intro hx'
          obtain ⟨k, rfl⟩ := a⁻¹.coords_surj x
          refine ⟨k.val, by simp [fl], ?_, by simp [nk, π]⟩
          simp only [fl, List.getElem_ofFn]
          have e1 := (groupId_eq_some hinv.nodup (x := dst (π k))).2 ⟨_, hgid (π k), hpg _⟩
          have e2 := (groupId_eq_some hinv.nodup (x := dst (π k))).2 ⟨_, List.getElem?_eq_getElem h, hx'.symm⟩
          rw [e1] at e2
          simpa using e2
      have hperm : ∀ g (h : g < (groups dst).length), (sel g fl nk).Perm ((groups dst)[g]).2 := by
        intro g h
        refine (List.perm_ext_iff_of_nodup (hseln g) ?_).2 ?_
        · rw [hinv.coords _ (List.getElem_mem _)]; exact (List.nodup_finRange d).filter _
        · intro x; rw [hselm g h, hinv.coords _ (List.getElem_mem _)]; simp
      have hcnt : ∀ g, (fl.map Prod.snd).count g = (sel g fl nk).length := by
        intro g
        have : ∀ (fl : List (Bool × ℕ)) (nk : List (Fin d)), nk.length = fl.length →
            (fl.map Prod.snd).count g = (sel g fl nk).length := by
          intro fl
          induction fl with
          | nil => intro nk _; simp [sel]
          | cons p fl ih =>
            obtain ⟨b, g0⟩ := p
            intro nk hl
            cases nk with
            | nil => simp at hl
            | cons x nk =>
              rw [sel_cons, List.map_cons, List.count_cons, ih nk (by simpa using hl)]
              by_cases h : g0 = g <;> simp [h]
        exact this fl nk hlfn
      have hgood' : Good src dst fl perms := by
        refine ⟨by simp [fl], ?_, ?_, by simp [perms], ?_⟩
        · intro k
          refine ⟨pg (π k), ?_, ?_⟩
          · simpa [fl] using hgid (π k)
          · rw [hpg, hdπ]; simp [fl]
        · intro p hp
          rw [hcnt]
          obtain ⟨k, rfl⟩ := List.mem_ofFn.1 hp
          have hlt : gid (π k) < (groups dst).length := (List.getElem?_eq_some_iff.1 (hgid (π k))).1
          rw [(hperm _ hlt).length_eq]
          simp [gsize, hlt]
        · intro g h
          have h' : g < (groups dst).length := by simpa [perms] using h
          simpa [perms] using hperm g h'
      have hmem := good_iff.2 hgood'
      refine ⟨fl, hmem.1, perms, hmem.2, ?_⟩
      have hpop : popLoop fl perms = some nk := by
        rw [popLoop_iff]
        refine ⟨hlfn, ?_, ?_⟩
        · intro p hp
          obtain ⟨k, rfl⟩ := List.mem_ofFn.1 hp
          have hlt : gid (π k) < (groups dst).length := (List.getElem?_eq_some_iff.1 (hgid (π k))).1
          simpa [perms] using hlt
        · intro g h; simp [perms]
      have hfill : ofFilled (fillCoords fl nk) = some a := by
        rw [mem_ofFilled]
        refine ⟨?_, htr⟩
        intro x
        obtain ⟨k, rfl⟩ := a⁻¹.coords_surj x
        have := fillCoords_spec (fl := fl) (nk := nk) (by simp [fl]) (by simp [nk]) hnkn k
        simp only [nk, fl, List.getElem_ofFn] at this
        show fillCoords fl nk (π k) = some (a.coords (π k))
        rw [hπ]
        exact this
      simp [F, f, hpop, hfill]

end Peano.BaseMap
