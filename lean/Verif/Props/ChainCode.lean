import Verif.Lemmas.ChainCode
import Verif.Lemmas.Points

set_option autoImplicit false

/-!
C36: the chain code of prototypes.
-/
namespace Peano
namespace RawProto

/-- Specification: the prototype visits every cube of the grid `{0, …, div-1}^dim` exactly once. -/
def Full (p : RawProto) : Prop :=
  p.cubes.Nodup ∧ ∀ c : List ℤ, c ∈ p.cubes ↔ c.length = p.dim ∧ ∀ x ∈ c, 0 ≤ x ∧ x < p.div

/-- Specification: consecutive cubes are neighbours (differ by at most 1 in each coordinate). -/
def Adjacent (p : RawProto) : Prop :=
  ∀ (i : ℕ) (a b : List ℤ), p.cubes[i]? = some a → p.cubes[i + 1]? = some b → ∀ j : ℕ, |b.getD j 0 - a.getD j 0| ≤ 1

/-- C36. A full prototype in dimension 1..6 with at least two cubes per side whose consecutive cubes are neighbours is recovered from
its chain code, together with its dimension and `div`. -/
theorem C36_roundtrip (p : RawProto) (hd1 : 1 ≤ p.dim) (hd6 : p.dim ≤ 6) (hdiv : 2 ≤ p.div) (hfull : p.Full) (hadj : p.Adjacent) :
    parse (str p.cubes) = some p := by
  obtain ⟨hnd, hmem⟩ := hfull
  obtain ⟨n, div, cubes⟩ := p
  simp only at *
  have h0 : List.replicate n (0 : ℤ) ∈ cubes := by
    rw [hmem]
    refine ⟨by simp, fun x hx => ?_⟩
    rw [(List.mem_replicate.1 hx).2]
    omega
  obtain ⟨a, l, rfl⟩ : ∃ a l, cubes = a :: l := by
    cases cubes with
    | nil => simp at h0
    | cons a l => exact ⟨a, l, rfl⟩
  have hlen : ∀ c ∈ a :: l, c.length = n := fun c hc => ((hmem c).1 hc).1
  have ha : a.length = n := hlen a (by simp)
  -- facts about the steps
  have hstep : ∀ e ∈ (a :: l).zip l, let δ := List.zipWith (fun n c => n - c) e.2 e.1
      δ ∈ deltas n ∧ δ.any (· ≠ 0) ∧ e.1.length = n ∧ e.2.length = n := by
    intro e he
    obtain ⟨i, hi, rfl⟩ := List.mem_iff_getElem.1 he
    simp only [List.length_zip, List.length_cons] at hi
    have hi1 : i < (a :: l).length := by simp; omega
    have hi2 : i + 1 < (a :: l).length := by simp; omega
    have hil : i < l.length := by omega
    have e1 : ((a :: l).zip l)[i] = ((a :: l)[i], l[i]) := by simp
    have hl1 : (a :: l)[i].length = n := hlen _ (List.getElem_mem _)
    have hl2 : (l[i]).length = n := hlen _ (List.mem_cons_of_mem _ (List.getElem_mem _))
    rw [e1]
    refine ⟨?_, ?_, hl1, hl2⟩
    · have := mem_deltas (List.zipWith (fun n c => n - c) l[i] (a :: l)[i]) ?_
      · simpa [hl1, hl2] using this
      · intro x hx
        obtain ⟨j, hj, rfl⟩ := List.mem_iff_getElem.1 hx
        simp only [List.length_zipWith] at hj
        have := hadj i (a :: l)[i] l[i] (by simp) (by simp [hil]) j
        rw [List.getD_eq_getElem _ _ (by omega), List.getD_eq_getElem _ _ (by omega), abs_le] at this
        rw [List.getElem_zipWith]
        omega
    · rw [List.any_eq_true]
      by_contra hcon
      push Not at hcon
      have : (a :: l)[i] = (a :: l)[i + 1] := by
        refine List.ext_getElem (by rw [hl1]; exact hl2.symm) fun j h1 h2 => ?_
        have := hcon ((l[i])[j]'(by omega) - ((a :: l)[i])[j]) (by
          rw [List.mem_iff_getElem]
          exact ⟨j, by simp only [List.length_zipWith]; omega, by rw [List.getElem_zipWith]⟩)
        simp only [decide_eq_true_eq, ne_eq, not_not] at this
        simp only [List.getElem_cons_succ]
        omega
      exact absurd ((hnd.getElem_inj_iff).1 this) (by omega)
  have hn7 : n < 7 := by omega
  have htab := fun e he => deltas_table ⟨n, hn7⟩ _ (hstep e he).1
  -- the groups
  set groups := ((a :: l).zip l).map fun e => stepLetters e.1 e.2 with hgroups
  have hstr : str (a :: l) = (groups.map groupStr).flatten := by
    simp [str, hgroups, List.map_map, Function.comp_def]
  have hgr : chainGroups (str (a :: l)).length (str (a :: l)) = groups := by
    rw [hstr]
    refine chainGroups_str groups ?_ _ le_rfl
    intro g hg
    obtain ⟨e, he, rfl⟩ := List.mem_map.1 hg
    rw [stepLetters_eq]
    exact ⟨(htab e he).2.2.1 (hstep e he).2.1, (htab e he).2.1⟩
  -- the dimension
  have hdim : ((groups.flatten.map pyLower).dedup).length = n := by
    have hset : ∀ c : Char, c ∈ (groups.flatten.map pyLower).dedup ↔ c ∈ basisLetters.take n := by
      intro c
      rw [List.mem_dedup]
      constructor
      · intro hc
        obtain ⟨c', hc', rfl⟩ := List.mem_map.1 hc
        obtain ⟨g, hg, hcg⟩ := List.mem_flatten.1 hc'
        obtain ⟨e, he, rfl⟩ := List.mem_map.1 hg
        rw [stepLetters_eq] at hcg
        exact (htab e he).2.2.2.2 _ (List.mem_map_of_mem hcg)
      · intro hc
        obtain ⟨j, hj, rfl⟩ := List.mem_iff_getElem.1 hc
        have hj' : j < n ∧ j < 6 := by
          simp only [List.length_take] at hj
          simp [basisLetters] at hj
          omega
        rw [List.getElem_take]
        -- some step changes coordinate j
        have : ∃ e ∈ (a :: l).zip l, e.1.getD j 0 ≠ e.2.getD j 0 := by
          by_contra hcon
          push Not at hcon
          have hc := const_coord j a l hcon
          have h1 : (List.replicate n (0 : ℤ)).set j 1 ∈ a :: l := by
            rw [hmem]
            refine ⟨by simp, fun x hx => ?_⟩
            rcases List.mem_or_eq_of_mem_set hx with hx | rfl
            · rw [(List.mem_replicate.1 hx).2]
              omega
            · omega
          have e0 := hc _ h0
          have e1 := hc _ h1
          rw [← e0] at e1
          rw [List.getD_eq_getElem _ _ (by simp; omega), List.getD_eq_getElem _ _ (by simp; omega)] at e1
          simp at e1
        obtain ⟨e, he, hne⟩ := this
        have h4 := ((htab e he).2.2.2.1 ⟨j, hj'.2⟩).2 (by
          obtain ⟨_, _, hl1, hl2⟩ := hstep e he
          rw [List.getD_eq_getElem _ _ (by simp [hl1, hl2]; omega), List.getElem_zipWith]
          rw [List.getD_eq_getElem _ _ (by omega), List.getD_eq_getElem _ _ (by omega)] at hne
          simp only [ne_eq]
          intro h
          exact hne (by omega))
        rw [← stepLetters_eq] at h4
        have e6 : basisLetters.getD j 'i' = basisLetters[j]'(by simp [basisLetters]; omega) :=
          List.getD_eq_getElem _ _ _
        rw [e6] at h4
        obtain ⟨c', hc', hcc⟩ := List.mem_map.1 h4
        rw [List.mem_map]
        exact ⟨c', List.mem_flatten.2 ⟨_, List.mem_map.2 ⟨e, he, rfl⟩, hc'⟩, hcc⟩
    have hp := (List.perm_ext_iff_of_nodup (List.nodup_dedup _) (List.Nodup.sublist (List.take_sublist n _) (by decide : basisLetters.Nodup))).2 hset
    rw [hp.length_eq, List.length_take]
    simp [basisLetters]
    omega
  -- the loop
  have hloop : cubesLoop n (List.replicate n 0) groups = some (l.map (sub a)) := by
    rw [← sub_self_eq ha]
    exact cubesLoop_eq a ha a l hlen fun e he => by rw [stepLetters_eq]; exact (htab e he).1
  have hcons : List.replicate n 0 :: l.map (sub a) = (a :: l).map (sub a) := by rw [List.map_cons, sub_self_eq ha]
  have hmin : pyMin tupleLt ((a :: l).map (sub a)) = some (sub a (List.replicate n 0)) := by
    rw [pyMin_spec tupleLt_keyOrder]
    refine ⟨List.mem_map_of_mem h0, ?_⟩
    intro x hx
    obtain ⟨c, hc, rfl⟩ := List.mem_map.1 hx
    refine forall₂_le_lex ?_
    rw [List.forall₂_iff_get]
    have hcl := hlen c hc
    refine ⟨by simp [sub, ha, hcl], fun i h1 h2 => ?_⟩
    simp only [List.get_eq_getElem, sub, List.getElem_zipWith, List.getElem_replicate]
    simp only [sub, List.length_zipWith] at h2
    have := ((hmem c).1 hc).2 (c[i]'(by omega)) (List.getElem_mem _)
    omega
  have hback : ((a :: l).map (sub a)).map (fun cube => List.zipWith (· - ·) cube (sub a (List.replicate n 0))) = a :: l := by
    rw [List.map_map]
    conv_rhs => rw [← List.map_id (a :: l)]
    refine List.map_congr_left fun c hc => ?_
    exact sub_sub_zero ha (hlen c hc)
  have hmax : (a :: l).flatten.max? = some (div - 1) := by
    rw [List.max?_eq_some_iff]
    constructor
    · rw [List.mem_flatten]
      refine ⟨List.replicate n (div - 1), ?_, by simp; omega⟩
      rw [hmem]
      refine ⟨by simp, fun x hx => ?_⟩
      rw [(List.mem_replicate.1 hx).2]
      omega
    · intro x hx
      obtain ⟨c, hc, hxc⟩ := List.mem_flatten.1 hx
      have := ((hmem c).1 hc).2 x hxc
      omega
  unfold parse
  simp only [hgr, hdim]
  rw [if_pos (by simp [basisLetters]; omega), hloop]
  simp only [Option.bind_eq_bind, Option.bind_some, Option.pure_def]
  rw [hcons, hmin]
  simp only [Option.bind_some]
  rw [hback, hmax]
  simp

/-- The hypotheses of C36 are met by the two-dimensional Hilbert prototype. -/
example : (⟨2, 2, [[0, 0], [0, 1], [1, 1], [1, 0]]⟩ : RawProto).Full ∧ (⟨2, 2, [[0, 0], [0, 1], [1, 1], [1, 0]]⟩ : RawProto).Adjacent := by
  constructor
  · refine ⟨by decide, fun c => ?_⟩
    constructor
    · intro h
      simp only [List.mem_cons, List.not_mem_nil, or_false] at h
      rcases h with rfl | rfl | rfl | rfl <;> simp
    · rintro ⟨h1, h2⟩
      match c, h1 with
      | [x, y], _ =>
        simp only [List.mem_cons, List.not_mem_nil, or_false, forall_eq_or_imp, forall_eq] at h2 ⊢
        have : x = 0 ∨ x = 1 := by omega
        have : y = 0 ∨ y = 1 := by omega
        rcases ‹x = 0 ∨ x = 1› with rfl | rfl <;> rcases ‹y = 0 ∨ y = 1› with rfl | rfl <;> simp
  · intro i a b ha hb j
    rcases i with _ | _ | _ | _ | i <;> simp at ha hb
    all_goals
      subst ha hb
      rcases j with _ | _ | j <;> simp

example : parse "(ij)I(iJ)".toList = some ⟨2, 2, [[0, 0], [1, 1], [0, 1], [1, 0]]⟩ := by decide +kernel

end RawProto
end Peano
