import Verif.Lemmas.SATB
import Verif.Props.Templates

set_option autoImplicit false

/-!
Properties C42 and C43: the CNF of `CurveSATAdapter` describes exactly the possible curves without forbidden configurations; the curve
made from a model of the solver is one of them.
-/
namespace Peano
variable {d : ℕ}
namespace Sat
open FCurve

theorem ready_of_pathFuzzy (paths : List (Path (Point d) d)) (group : Option (List (BaseMap d))) (t : Bool) (N : ℕ) (c : FCurve d)
    (hd : d ≠ 0) (hN : 2 ≤ N) (hgrp : ∀ g, group = some g → IsSubgroupList g) (hv : ∀ path ∈ paths, path.Valid N)
    (hcont : ∀ path ∈ paths, path.isContinuous = some true) (hc : PathFuzzy paths group t c) : ∃ T, Ready c T := by
  obtain ⟨T, h1, h2, h3, h4⟩ := C24_templates paths group t N c hd hN hgrp hv hcont hc
  exact ⟨T, ((pathFuzzy_inv hgrp hv hc).allowedDefined hgrp hv).1, h1, h2, h3, h4, fun c' hp =>
    ⟨(C19_gates paths group t N hN c c' hgrp hv hc hp).1, C19_checked paths group t N hN c c' hgrp hv hcont hc hp⟩⟩

/-- C42. `CurveSATAdapter(curve)` is made without exceptions for every path-fuzzy curve. -/
theorem C42_load (paths : List (Path (Point d) d)) (group : Option (List (BaseMap d))) (t : Bool) (N : ℕ) (c : FCurve d)
    (hd : d ≠ 0) (hN : 2 ≤ N) (hgrp : ∀ g, group = some g → IsSubgroupList g) (hv : ∀ path ∈ paths, path.Valid N)
    (hcont : ∀ path ∈ paths, path.isContinuous = some true) (hc : PathFuzzy paths group t c) : ∃ st, loadCurve c = some st := by
  obtain ⟨T, hR⟩ := ready_of_pathFuzzy paths group t N c hd hN hgrp hv hcont hc
  obtain ⟨st, h, _⟩ := mean_load hR.allowed hR.templates
  exact ⟨st, h⟩

/-- C42, soundness. After any sequence of calls of `add_forbid_clause`, every assignment that satisfies the integer clauses describes a
possible curve that has no forbidden configuration; this curve is unique. -/
theorem C42_sound (paths : List (Path (Point d) d)) (group : Option (List (BaseMap d))) (t : Bool) (N : ℕ) (c : FCurve d)
    (hd : d ≠ 0) (hN : 2 ≤ N) (hgrp : ∀ g, group = some g → IsSubgroupList g) (hv : ∀ path ∈ paths, path.Valid N)
    (hcont : ∀ path ∈ paths, path.isContinuous = some true) (hc : PathFuzzy paths group t c)
    (st : Adapter d) (forb : List (Junction d × FCurve d)) (hb : Built c st forb) (a : ℕ → Bool) (ha : Satisfies a st.intClauses) :
    (∃ c', Possible c c' ∧ (∀ e ∈ forb, ¬ c'.Violates e) ∧ Describes c st a c') ∧
      ∀ c1 c2, Possible c c1 → Possible c c2 → Describes c st a c1 → Describes c st a c2 → c1 = c2 := by
  obtain ⟨T, hR⟩ := ready_of_pathFuzzy paths group t N c hd hN hgrp hv hcont hc
  refine ⟨sat_sound hR hb ha, ?_⟩
  intro c1 c2 h1 h2 d1 d2
  refine h1.ext h2 ?_
  intro p hp i hi
  obtain ⟨l, s, hl, hs, he⟩ := h1.allowed p hp i hi
  obtain ⟨n, hn, e1⟩ := d1.1 p hp i hi l hl s hs
  obtain ⟨n', hn', e2⟩ := d2.1 p hp i hi l hl s hs
  rw [hn] at hn'
  cases hn'
  rw [he, e2.1 (e1.2 he)]

/-- C42, completeness. Every possible curve without forbidden configurations is described by an assignment that satisfies the clauses. -/
theorem C42_complete (paths : List (Path (Point d) d)) (group : Option (List (BaseMap d))) (t : Bool) (N : ℕ) (c c' : FCurve d)
    (hd : d ≠ 0) (hN : 2 ≤ N) (hgrp : ∀ g, group = some g → IsSubgroupList g) (hv : ∀ path ∈ paths, path.Valid N)
    (hcont : ∀ path ∈ paths, path.isContinuous = some true) (hc : PathFuzzy paths group t c)
    (st : Adapter d) (forb : List (Junction d × FCurve d)) (hb : Built c st forb) (hp : Possible c c') (hf : ∀ e ∈ forb, ¬ c'.Violates e) :
    ∃ a, Satisfies a st.intClauses ∧ Describes c st a c' := by
  obtain ⟨T, hR⟩ := ready_of_pathFuzzy paths group t N c hd hN hgrp hv hcont hc
  exact sat_complete hR hb hp hf

/-- C43. For every correct solver: if it finds a model, `get_model_curve` succeeds and gives a possible curve without forbidden
configurations. -/
theorem C43_model (paths : List (Path (Point d) d)) (group : Option (List (BaseMap d))) (t : Bool) (N : ℕ) (c : FCurve d)
    (hd : d ≠ 0) (hN : 2 ≤ N) (hgrp : ∀ g, group = some g → IsSubgroupList g) (hv : ∀ path ∈ paths, path.Valid N)
    (hcont : ∀ path ∈ paths, path.isContinuous = some true) (hc : PathFuzzy paths group t c)
    (st : Adapter d) (forb : List (Junction d × FCurve d)) (hb : Built c st forb) (S : SatSolver) (m : List ℤ) (hm : S.solve st.intClauses = some m) :
    ∃ c', getModelCurve c st m = some c' ∧ Possible c c' ∧ ∀ e ∈ forb, ¬ c'.Violates e := by
  obtain ⟨T, hR⟩ := ready_of_pathFuzzy paths group t N c hd hN hgrp hv hcont hc
  obtain ⟨c', h1, h2, h3⟩ := model_curve hR hb S hm
  have h0 : c.pnum = 0 := by
    obtain ⟨c0, hc0, hsd⟩ := (pathFuzzy_inv hgrp hv hc).data
    rw [hsd.pnum]
    obtain ⟨_, _, _, _, _, _, rfl⟩ := initFromPaths_spec (effectiveGroup_isSubgroup hgrp t) hc0
    rfl
  have : ({ c' with pnum := 0 } : FCurve d) = c' := by
    have := h1.pnum
    rw [h0] at this
    obtain ⟨a, b, e, f⟩ := c'
    simp only at this
    subst this
    rfl
  rw [this] at h3
  exact ⟨c', h3, h1, h2⟩

/-- C43. For every correct solver: if it finds no model, every possible curve has a forbidden configuration. -/
theorem C43_no_model (paths : List (Path (Point d) d)) (group : Option (List (BaseMap d))) (t : Bool) (N : ℕ) (c : FCurve d)
    (hd : d ≠ 0) (hN : 2 ≤ N) (hgrp : ∀ g, group = some g → IsSubgroupList g) (hv : ∀ path ∈ paths, path.Valid N)
    (hcont : ∀ path ∈ paths, path.isContinuous = some true) (hc : PathFuzzy paths group t c)
    (st : Adapter d) (forb : List (Junction d × FCurve d)) (hb : Built c st forb) (S : SatSolver) (hm : S.solve st.intClauses = none) :
    ∀ c', Possible c c' → ∃ e ∈ forb, c'.Violates e := by
  obtain ⟨T, hR⟩ := ready_of_pathFuzzy paths group t N c hd hN hgrp hv hcont hc
  exact no_model hR hb S hm

/-- The hypotheses are met by the forgotten Hilbert curve: its adapter exists, and a configuration can be forbidden. -/
example : ∃ paths c st, (∀ path ∈ paths, path.Valid 2) ∧ (∀ path ∈ paths, path.isContinuous = some true) ∧
    PathFuzzy (d := 2) paths none false c ∧ Possible c Zoo.hilbert ∧ Built c st [(Junction.auto 2 0, c)] := by
  have hf : Zoo.hilbert.Full := full_of_fullB (by decide +kernel)
  obtain ⟨paths, h1, h2, h3, h4, h5⟩ := hf.getPaths_facts
  obtain ⟨f, e1, e2, _⟩ := C56_forget Zoo.hilbert none false (by decide +kernel) hf (by decide +kernel) (by simp) (by simp [InGroup])
  have hinit : initFromPaths paths none false = some f := by
    unfold forget at e1
    rw [h1] at e1
    exact e1
  have e3 : ({ Zoo.hilbert with pnum := 0 } : FCurve 2) = Zoo.hilbert := by decide +kernel
  rw [e3] at e2
  have hcont := paths_continuous h1 (by decide +kernel)
  obtain ⟨st, hst⟩ := C42_load paths none false 2 f (by decide) (by decide) (by simp) h3 hcont (.init hinit)
  exact ⟨paths, f, _, h3, hcont, .init hinit, e2, .forbid _ _ (.load hst)⟩

/-- The contract of the solver can be met: a solver by exhaustive choice. -/
noncomputable def choiceSolver : SatSolver := by
  classical
  let top : List (List ℤ) → ℕ := fun cls => (cls.flatten.map Int.natAbs).foldr max 0
  have htop : ∀ cls, ∀ cl ∈ cls, ∀ l ∈ cl, l.natAbs ≤ top cls := by
    intro cls cl hcl l hl
    have : ∀ (xs : List ℕ), ∀ x ∈ xs, x ≤ xs.foldr max 0 := by
      intro xs
      induction xs with
      | nil => simp
      | cons a xs ih =>
        intro x hx
        rw [List.foldr_cons]
        rcases List.mem_cons.1 hx with rfl | hx
        · exact le_max_left _ _
        · exact (ih x hx).trans (le_max_right _ _)
    exact this _ _ (List.mem_map.2 ⟨l, List.mem_flatten.2 ⟨cl, hcl, hl⟩, rfl⟩)
  have htop' : ∀ cls, top cls ≠ 0 → ∃ cl ∈ cls, ∃ l ∈ cl, top cls = l.natAbs := by
    intro cls h
    have : ∀ (xs : List ℕ), xs.foldr max 0 ≠ 0 → xs.foldr max 0 ∈ xs := by
      intro xs
      induction xs with
      | nil => simp
      | cons a xs ih =>
        intro h
        rw [List.foldr_cons] at h ⊢
        rcases max_choice a (xs.foldr max 0) with e | e
        · rw [e]; simp
        · rw [e] at h ⊢
          exact List.mem_cons_of_mem _ (ih h)
    obtain ⟨l, hl, e⟩ := List.mem_map.1 (this _ h)
    obtain ⟨cl, hcl, hl⟩ := List.mem_flatten.1 hl
    exact ⟨cl, hcl, l, hl, e.symm⟩
  let lits : (ℕ → Bool) → ℕ → List ℤ := fun a n => (List.range' 1 n).map fun i => if a i then (i : ℤ) else -(i : ℤ)
  have hlits : ∀ a n l, l ∈ lits a n ↔ l ≠ 0 ∧ l.natAbs ≤ n ∧ a l.natAbs = decide (0 < l) := by
    intro a n l
    simp only [lits, List.mem_map, List.mem_range'_1]
    constructor
    · rintro ⟨i, hi, rfl⟩
      cases hai : a i
      · have : ¬ (0 < -(i : ℤ)) := by omega
        simp only [Bool.false_eq_true, if_false, Int.natAbs_neg, Int.natAbs_natCast, hai, this, decide_false]
        exact ⟨by omega, by omega, trivial⟩
      · have : 0 < (i : ℤ) := by omega
        simp only [if_true, Int.natAbs_natCast, hai, this, decide_true]
        exact ⟨by omega, by omega, trivial⟩
    · rintro ⟨h1, h2, h3⟩
      refine ⟨l.natAbs, by omega, ?_⟩
      rw [h3]
      by_cases h : 0 < l
      · simp only [h, decide_true, if_true]; omega
      · simp only [h, decide_false, Bool.false_eq_true, if_false]; omega
  let good : List (List ℤ) → (ℕ → Bool) → Prop := fun cls a => (∀ cl ∈ cls, ∀ l ∈ cl, l ≠ 0) ∧ Satisfies a cls
  have hsome : ∀ cls m, (if h : ∃ a, good cls a then some (lits h.choose (top cls)) else none) = some m →
      ∃ a, good cls a ∧ m = lits a (top cls) := by
    intro cls m h
    split at h
    · rename_i hh
      exact ⟨_, hh.choose_spec, (Option.some.inj h).symm⟩
    · cases h
  exact {
    solve := fun cls => if h : ∃ a, good cls a then some (lits h.choose (top cls)) else none
    model_sat := by
      intro cls m hm cl hcl
      obtain ⟨a, ⟨h0, ha⟩, rfl⟩ := hsome cls m hm
      obtain ⟨l, hl, hal⟩ := ha cl hcl
      exact ⟨l, hl, (hlits _ _ _).2 ⟨h0 cl hcl l hl, htop cls cl hcl l hl, hal⟩⟩
    model_consistent := by
      intro cls m hm l hl hl'
      obtain ⟨a, _, rfl⟩ := hsome cls m hm
      obtain ⟨h1, _, h2⟩ := (hlits _ _ _).1 hl
      obtain ⟨_, _, h3⟩ := (hlits _ _ _).1 hl'
      rw [Int.natAbs_neg, h2] at h3
      by_cases h : 0 < l
      · have : ¬ 0 < -l := by omega
        simp [h, this] at h3
        omega
      · have : 0 < -l := by omega
        simp [h] at h3
        omega
    model_vars := by
      intro cls m hm l hl
      obtain ⟨a, _, rfl⟩ := hsome cls m hm
      obtain ⟨h1, h2, _⟩ := (hlits _ _ _).1 hl
      have : top cls ≠ 0 := by omega
      obtain ⟨cl, hcl, k, hk, e⟩ := htop' cls this
      exact ⟨h1, cl, hcl, k, hk, by omega⟩
    no_model := by
      intro cls h0 hm hex
      obtain ⟨a, ha⟩ := hex
      have : ∃ a, good cls a := ⟨a, h0, ha⟩
      rw [dif_pos this] at hm
      cases hm }

end Sat
end Peano
