import Verif.Lemmas.CurvesAct
import Verif.Lemmas.UtilsB
import Verif.Lemmas.ListM

/- The loops "walk down until a spec repeats" and the limit points they compute. -/
namespace Peano
variable {d : ℕ}

/-! ### a generic walk -/

/-- The common form of the loops in `_get_cube_limit` and `get_face_moment`. -/
def walkLoop {σ α : Type} [DecidableEq σ] (step : σ → Option (α × σ)) : ℕ → List σ → List α → σ → Option (List α × List α)
  | 0, _, _, _ => none
  | fuel + 1, seen, acc, cur =>
    if cur ∈ seen then some (acc.take (seen.idxOf cur), acc.drop (seen.idxOf cur))
    else (step cur).bind fun r => walkLoop step fuel (seen ++ [cur]) (acc ++ [r.1]) r.2

section walk
variable {σ α β : Type} [DecidableEq σ] {step : σ → Option (α × σ)}

theorem walkLoop_spec {E : σ → β} {F : α → β → β} (hE : ∀ s a s', step s = some (a, s') → E s = F a (E s')) :
    ∀ (fuel : ℕ) (seen : List σ) (acc : List α) (cur s0 : σ) (r : List α × List α), walkLoop step fuel seen acc cur = some r →
      (seen ++ [cur]).head? = some s0 → seen.length = acc.length → (∀ k (hk : k < seen.length), E seen[k] = (acc.drop k).foldr F (E cur)) →
      ∃ y, E s0 = r.1.foldr F y ∧ y = r.2.foldr F y ∧ r.2 ≠ [] := by
  intro fuel
  induction fuel with
  | zero => intro _ _ _ _ _ h; simp [walkLoop] at h
  | succ fuel ih =>
    intro seen acc cur s0 r h hs0 hl hE2
    unfold walkLoop at h
    by_cases hc : cur ∈ seen
    · simp only [hc, if_true, Option.some.injEq] at h
      subst h
      have hidx : seen.idxOf cur < seen.length := List.idxOf_lt_length_iff.2 hc
      refine ⟨E cur, ?_, ?_, ?_⟩
      · have h0 := hE2 0 (by omega)
        have hm := hE2 (seen.idxOf cur) hidx
        rw [List.getElem_idxOf hidx] at hm
        have hs0' : seen[0] = s0 := by
          rw [List.head?_eq_getElem?, List.getElem?_append_left (by omega), List.getElem?_eq_getElem (by omega)] at hs0
          simpa using hs0
        rw [← hs0', h0, List.drop_zero]
        conv_lhs => rw [← List.take_append_drop (seen.idxOf cur) acc, List.foldr_append, ← hm]
      · have hm := hE2 (seen.idxOf cur) hidx
        rwa [List.getElem_idxOf hidx] at hm
      · intro h0
        simp only [List.drop_eq_nil_iff] at h0
        omega
    · simp only [hc, if_false] at h
      cases hst : step cur with
      | none => simp [hst] at h
      | some q =>
        obtain ⟨a, s'⟩ := q
        rw [hst] at h
        simp only [Option.bind_some] at h
        refine ih (seen ++ [cur]) (acc ++ [a]) s' s0 r h ?_ (by simp [hl]) ?_
        · rw [List.head?_append, hs0]; rfl
        · intro k hk
          simp only [List.length_append, List.length_singleton] at hk
          rw [List.drop_append_of_le_length (by omega), List.foldr_append]
          simp only [List.foldr_cons, List.foldr_nil]
          rw [← hE _ _ _ hst]
          by_cases hk' : k < seen.length
          · rw [List.getElem_append_left hk']; exact hE2 k hk'
          · have : k = seen.length := by omega
            subst this
            simp [hl]

/-- The walk ends when its states stay in a finite set on which the step is defined. -/
theorem walkLoop_isSome {U : List σ} (hU : ∀ s ∈ U, ∃ a s', step s = some (a, s') ∧ s' ∈ U) :
    ∀ (fuel : ℕ) (seen : List σ) (acc : List α) (cur : σ), cur ∈ U → seen.Nodup → (∀ s ∈ seen, s ∈ U) → U.length < fuel + seen.length →
      ∃ r, walkLoop step fuel seen acc cur = some r := by
  intro fuel
  induction fuel with
  | zero =>
    intro seen acc cur _ hn hs hf
    exfalso
    have := (hn.subperm hs).length_le
    omega
  | succ fuel ih =>
    intro seen acc cur hcur hn hs hf
    unfold walkLoop
    by_cases hc : cur ∈ seen
    · simp [hc]
    · simp only [hc, if_false]
      obtain ⟨a, s', h1, h2⟩ := hU cur hcur
      rw [h1]
      refine ih _ _ _ h2 ?_ ?_ ?_
      · rw [List.nodup_append]
        refine ⟨hn, by simp, ?_⟩
        intro x hx y hy
        simp only [List.mem_singleton] at hy
        subst hy
        rintro rfl
        exact hc hx
      · intro s hs2
        rcases List.mem_append.1 hs2 with h | h
        · exact hs s h
        · simp only [List.mem_singleton] at h; subst h; exact hcur
      · simp; omega

/-- The walk visits only states of a closed set. -/
theorem walkLoop_mem {P : σ → Prop} {Q : α → Prop} (hP : ∀ s a s', P s → step s = some (a, s') → Q a ∧ P s') :
    ∀ (fuel : ℕ) (seen : List σ) (acc : List α) (cur : σ) (r : List α × List α), walkLoop step fuel seen acc cur = some r → P cur →
      (∀ a ∈ acc, Q a) → (∀ a ∈ r.1, Q a) ∧ ∀ a ∈ r.2, Q a := by
  intro fuel
  induction fuel with
  | zero => intro _ _ _ _ h; simp [walkLoop] at h
  | succ fuel ih =>
    intro seen acc cur r h hcur hacc
    unfold walkLoop at h
    by_cases hc : cur ∈ seen
    · simp only [hc, if_true, Option.some.injEq] at h
      subst h
      exact ⟨fun a ha => hacc a (List.mem_of_mem_take ha), fun a ha => hacc a (List.mem_of_mem_drop ha)⟩
    · simp only [hc, if_false] at h
      cases hst : step cur with
      | none => simp [hst] at h
      | some q =>
        obtain ⟨a, s'⟩ := q
        rw [hst] at h
        obtain ⟨h1, h2⟩ := hP _ _ _ hcur hst
        refine ih _ _ _ _ h h2 ?_
        intro b hb
        rcases List.mem_append.1 hb with hb | hb
        · exact hacc b hb
        · simp only [List.mem_singleton] at hb; subst hb; exact h1

end walk

/-! ### all specs -/

/-- All specs with pattern number below `mult`. -/
def allSpecs (d mult : ℕ) : List (Spec d) := (List.range mult).flatMap fun p => (BaseMap.genBaseMaps d none).map fun b => ⟨b, p⟩

theorem mem_allSpecs {mult : ℕ} {s : Spec d} : s ∈ allSpecs d mult ↔ s.pnum < mult := by
  simp only [allSpecs, List.mem_flatMap, List.mem_range, List.mem_map, BaseMap.mem_genBaseMaps]
  constructor
  · rintro ⟨p, hp, b, _, rfl⟩; exact hp
  · intro h; exact ⟨s.pnum, h, s.baseMap, by simp, rfl⟩

theorem length_allSpecs (mult : ℕ) : (allSpecs d mult).length = mult * (2 * (d.factorial * 2 ^ d)) := by
  simp only [allSpecs, List.length_flatMap, List.length_map, BaseMap.length_genBaseMaps, List.map_const', List.sum_replicate,
    List.length_range, smul_eq_mul, if_true]
  ring

/-! ### periodic sums as fixed points -/

theorem foldr_digits {N : ℕ} (hN : 2 ≤ N) (l : List ℤ) (y : ℝ) :
    l.foldr (fun (c : ℤ) (y : ℝ) => ((c : ℝ) + y) / N) y = ((digitsLoop N l).1 : ℝ) / (N : ℝ) ^ l.length + y / (N : ℝ) ^ l.length := by
  have h0 : (N : ℝ) ≠ 0 := by positivity
  induction l with
  | nil => simp [digitsLoop]
  | cons c l ih =>
    rw [List.foldr_cons, ih, List.length_cons, digitsLoop_fst_div N hN]
    field_simp
    ring

theorem periodic_unique {N : ℕ} (hN : 2 ≤ N) {start period : List ℤ} (hp : period ≠ []) {x y : ℝ}
    (hx : x = start.foldr (fun (c : ℤ) (y : ℝ) => ((c : ℝ) + y) / N) y) (hy : y = period.foldr (fun (c : ℤ) (y : ℝ) => ((c : ℝ) + y) / N) y) :
    ∃ q : ℚ, getPeriodicSum start period N = some q ∧ (q : ℝ) = x := by
  refine ⟨_, getPeriodicSum_eq hN hp, ?_⟩
  rw [foldr_digits hN] at hx hy
  have hd1 : (1 : ℝ) < N := by exact_mod_cast hN
  have h1 : 1 < (N : ℝ) ^ period.length := one_lt_pow₀ hd1 (by simpa using hp)
  have hne : (N : ℝ) ^ period.length - 1 ≠ 0 := by linarith
  have h0 : (N : ℝ) ^ period.length ≠ 0 := by positivity
  have h00 : (N : ℝ) ^ start.length ≠ 0 := by positivity
  have hy2 : y = ((digitsLoop N period).1 : ℝ) / ((N : ℝ) ^ period.length - 1) := by
    rw [eq_div_iff hne]
    field_simp at hy
    linarith
  rw [hx, hy2]
  push_cast
  rw [div_div, mul_comm ((N : ℝ) ^ start.length)]

theorem foldr_coord {N : ℕ} (l : List (Cube d)) (y : Fin d → ℝ) (j : Fin d) :
    l.foldr (fun (c : Cube d) (y : Fin d → ℝ) j => ((c j : ℝ) + y j) / N) y j = (l.map fun c => c j).foldr (fun (c : ℤ) (y : ℝ) => ((c : ℝ) + y) / N) (y j) := by
  induction l with
  | nil => rfl
  | cons c l ih => simp [ih]

namespace FCurve
variable {c : FCurve d}

theorem getLimitPoint_spec (hN : 2 ≤ c.div) {start period : List (Cube d)} (hp : period ≠ []) {x y : Fin d → ℝ}
    (hx : x = start.foldr (fun (c' : Cube d) (y : Fin d → ℝ) j => ((c' j : ℝ) + y j) / c.div) y)
    (hy : y = period.foldr (fun (c' : Cube d) (y : Fin d → ℝ) j => ((c' j : ℝ) + y j) / c.div) y) :
    ∃ q : Point d, c.getLimitPoint start period = some q ∧ ∀ j, (q j : ℝ) = x j := by
  have key : ∀ j : Fin d, ∃ q : ℚ, getPeriodicSum (start.map fun cube => cube j) (period.map fun cube => cube j) c.div = some q
      ∧ (q : ℝ) = x j := by
    intro j
    refine periodic_unique hN (by simpa using hp) (y := y j) ?_ ?_
    · rw [← foldr_coord, ← hx]
    · rw [← foldr_coord, ← hy]
  choose q hq1 hq2 using key
  refine ⟨q, ?_, hq2⟩
  unfold getLimitPoint
  have hm : (List.finRange d).mapM (fun j => getPeriodicSum (start.map fun cube => cube j) (period.map fun cube => cube j) c.div)
      = some ((List.finRange d).map q) := by
    exact mapM_eq_some_map fun j _ => hq1 j
  rw [hm]
  simp only [Option.bind_eq_bind, Option.bind_some, Option.pure_def, Option.some.injEq]
  funext j
  simp [List.getD_eq_getElem]

end FCurve
end Peano
