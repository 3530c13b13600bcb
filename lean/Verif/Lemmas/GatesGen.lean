import Verif.Model.Gates
import Verif.Lemmas.JunctionsB
import Verif.Lemmas.Points
import Verif.Lemmas.UtilsB

set_option autoImplicit false

/-! The curve with boundary entries made by `_check_and_std` and its gates. -/
namespace Peano
variable {d : ℕ}

/-! ### End points of a curve with only boundary entries -/

namespace FCurve
variable {c : FCurve d}

/-- Undefined entries replaced by arbitrary ones. -/
def fill (c : FCurve d) : FCurve d :=
  { c with patterns := c.patterns.map fun pat =>
      ⟨pat.proto.map fun x => some (x.getD fun _ => 0), pat.specs.map fun x => some (x.getD ⟨BaseMap.idMap d, 0⟩)⟩ }

theorem fill_cube? (p i : ℕ) : c.fill.cube? p i = (c.patterns[p]?).bind fun pat => (pat.proto[i]?).map fun x => x.getD fun _ => 0 := by
  unfold fill cube? Proto.cube?
  simp only [List.getElem?_map]
  cases c.patterns[p]? with
  | none => rfl
  | some pat =>
    simp only [Option.map_some, Option.bind_some, List.getElem?_map]
    cases pat.proto[i]? <;> rfl

theorem fill_spec? (p i : ℕ) : c.fill.spec? p i = (c.patterns[p]?).bind fun pat => (pat.specs[i]?).map fun x => x.getD ⟨BaseMap.idMap d, 0⟩ := by
  unfold fill spec?
  simp only [List.getElem?_map]
  cases c.patterns[p]? with
  | none => rfl
  | some pat =>
    simp only [Option.map_some, Option.bind_some, List.getElem?_map]
    cases pat.specs[i]? <;> rfl

theorem fill_mult : c.fill.mult = c.mult := by unfold fill mult; simp

theorem fill_cube?_of {p i : ℕ} {x : Cube d} (h : c.cube? p i = some x) : c.fill.cube? p i = some x := by
  rw [fill_cube?]
  unfold cube? Proto.cube? at h
  cases hp : c.patterns[p]? with
  | none => rw [hp] at h; simp at h
  | some pat =>
    rw [hp] at h
    simp only [Option.bind_some] at h ⊢
    cases hi : pat.proto[i]? with
    | none => rw [hi] at h; simp at h
    | some y => rw [hi] at h; simp at h; subst h; rfl

theorem fill_spec?_of {p i : ℕ} {x : Spec d} (h : c.spec? p i = some x) : c.fill.spec? p i = some x := by
  rw [fill_spec?]
  unfold spec? at h
  cases hp : c.patterns[p]? with
  | none => rw [hp] at h; simp at h
  | some pat =>
    rw [hp] at h
    simp only [Option.bind_some] at h ⊢
    cases hi : pat.specs[i]? with
    | none => rw [hi] at h; simp at h
    | some y => rw [hi] at h; simp at h; subst h; rfl

theorem Shape.fill_full (h : c.Shape) : c.fill.Full where
  two_le_div := h.two_le_div
  proto_length := by
    intro p hp
    simp only [fill, List.mem_map] at hp
    obtain ⟨q, hq, rfl⟩ := hp
    simp only [List.length_map]
    exact h.proto_length q hq
  specs_length := by
    intro p hp
    simp only [fill, List.mem_map] at hp
    obtain ⟨q, hq, rfl⟩ := hp
    simp only [List.length_map]
    exact h.specs_length q hq
  cube_range := by
    intro p i cube hc j
    have hdiv : (2 : ℤ) ≤ c.div := by exact_mod_cast h.two_le_div
    show 0 ≤ cube j ∧ cube j < (c.div : ℤ)
    rw [fill_cube?] at hc
    cases hp : c.patterns[p]? with
    | none => rw [hp] at hc; simp at hc
    | some pat =>
      rw [hp] at hc
      simp only [Option.bind_some] at hc
      cases hi : pat.proto[i]? with
      | none => rw [hi] at hc; simp at hc
      | some y =>
        rw [hi] at hc
        cases y with
        | none => simp at hc; subst hc; constructor <;> (simp only; omega)
        | some y =>
          simp at hc
          subst hc
          exact h.cube_range p i y (by unfold cube? Proto.cube?; rw [hp]; simp [hi]) j
  spec_range := by
    intro p i s hs
    rw [fill_mult]
    have hp' : p < c.mult := by rw [← fill_mult]; exact spec?_lt hs
    rw [fill_spec?] at hs
    cases hp : c.patterns[p]? with
    | none => rw [hp] at hs; simp at hs
    | some pat =>
      rw [hp] at hs
      simp only [Option.bind_some] at hs
      cases hi : pat.specs[i]? with
      | none => rw [hi] at hs; simp at hs
      | some y =>
        rw [hi] at hs
        cases y with
        | none => simp at hs; subst hs; exact Nat.zero_lt_of_lt hp'
        | some y =>
          simp at hs
          subst hs
          exact h.spec_range p i y (by unfold spec?; rw [hp]; simp [hi])
  cube_def := by
    intro p hp i hi
    rw [fill_mult] at hp
    obtain ⟨pat, hpat⟩ := getElem?_of_lt hp
    have hl := h.proto_length pat (List.mem_of_getElem? hpat)
    have hi : i < c.genus := hi
    rw [fill_cube?, hpat]
    simp only [Option.bind_some, Option.isSome_map]
    rw [List.getElem?_eq_getElem (by omega)]
    rfl
  spec_def := by
    intro p hp i hi
    rw [fill_mult] at hp
    obtain ⟨pat, hpat⟩ := getElem?_of_lt hp
    have hl := h.specs_length pat (List.mem_of_getElem? hpat)
    have hi : i < c.genus := hi
    rw [fill_spec?, hpat]
    simp only [Option.bind_some, Option.isSome_map]
    rw [List.getElem?_eq_getElem (by omega)]
    rfl

theorem Shape.exists_endEqs_mem (h : c.Shape) : ∃ g : Bool → ℕ → Fin d → ℝ, c.EndEqs g ∧
    ∀ last, ∀ p < c.mult, ∀ j, 0 ≤ g last p j ∧ g last p j ≤ 1 := by
  obtain ⟨g, h1, h2⟩ := h.fill_full.exists_endEqs_mem
  rw [fill_mult] at h2
  exact ⟨g, fun last p cube s hc hs => h1 last p cube s (fill_cube?_of hc) (fill_spec?_of hs), h2⟩

/-- The rational end points found by the code. -/
theorem GatesDefined.exists_gates (h : c.GatesDefined) {g : Bool → ℕ → Fin d → ℝ} (hg : c.EndEqs g) :
    ∃ Q : Bool → ℕ → Point d, (∀ p < c.mult, c.getEntrance p = some (Q false p) ∧ c.getExit p = some (Q true p)) ∧
      ∀ last, ∀ p < c.mult, ∀ j, (Q last p j : ℝ) = g last p j := by
  have key : ∀ last p, ∃ q : Point d, p < c.mult → c.getCubeLimit p (endIdx c.genus last) = some q ∧ ∀ j, (q j : ℝ) = g last p j := by
    intro last p
    by_cases hp : p < c.mult
    · obtain ⟨q, hq⟩ := getCubeLimit_spec h hg hp last
      exact ⟨q, fun _ => hq⟩
    · exact ⟨fun _ => 0, fun h => absurd h hp⟩
  choose Q hQ using key
  exact ⟨Q, fun p hp => ⟨(hQ false p hp).1, (hQ true p hp).1⟩, fun last p hp => (hQ last p hp).2⟩

end FCurve

/-! ### The boundary curve -/

namespace GatesGen
variable {g : GatesGen d}

/-- Row of specs with given first and last ones. -/
def specRow (n : ℕ) (S : Bool → Spec d) : List (Option (Spec d)) := ((List.replicate n none).set 0 (some (S false))).set (n - 1) (some (S true))

theorem boundary_succ (k : ℕ) : boundary (k + 1) = boundary k ++ [(k, false), (k, true)] := by
  unfold boundary
  rw [List.range_succ, List.flatMap_append]
  rfl

theorem length_boundary (k : ℕ) : (boundary k).length = 2 * k := by
  induction k with
  | zero => rfl
  | succ k ih => rw [boundary_succ, List.length_append, ih]; simp; omega

theorem mem_boundary {k : ℕ} {e : ℕ × Bool} : e ∈ boundary k ↔ e.1 < k := by
  unfold boundary
  rw [List.mem_flatMap]
  constructor
  · rintro ⟨p, hp, h⟩
    rw [List.mem_range] at hp
    simp only [List.mem_cons, List.not_mem_nil, or_false] at h
    rcases h with rfl | rfl <;> exact hp
  · intro h
    refine ⟨e.1, List.mem_range.2 h, ?_⟩
    obtain ⟨p, b⟩ := e
    cases b <;> simp

theorem setEnd_of {n p : ℕ} (hn : 0 < n) {ps : List (List (Option (Spec d)))} {row : List (Option (Spec d))} (h : ps[p]? = some row)
    (hl : row.length = n) (last : Bool) (s : Spec d) : setEnd ps p last s = some (ps.set p (row.set (endPos n last) (some s))) := by
  unfold setEnd
  simp only [h, Option.bind_eq_bind, Option.bind_some]
  have : row.isEmpty = false := by
    cases row with
    | nil => simp at hl; omega
    | cons a l => rfl
  simp [this, hl]

theorem patternSpecs_aux {n m : ℕ} (hn : 0 < n) (S : ℕ → Bool → Spec d) (k : ℕ) (hk : k ≤ m) :
    ((boundary k).map fun e => (e, S e.1 e.2)).foldlM (fun specs (e : (ℕ × Bool) × Spec d) => setEnd specs e.1.1 e.1.2 e.2)
      (List.replicate m (List.replicate n none)) =
      some ((List.range m).map fun p => if p < k then specRow n (S p) else List.replicate n none) := by
  induction k with
  | zero =>
    simp only [boundary, List.range_zero, List.flatMap_nil, List.map_nil, List.foldlM_nil, Nat.not_lt_zero, if_false, Option.pure_def]
    congr 1
    apply List.ext_getElem?
    intro i
    by_cases hi : i < m <;> simp [hi]
  | succ k ih =>
    rw [boundary_succ, List.map_append, List.foldlM_append, ih (by omega)]
    simp only [Option.bind_eq_bind, Option.bind_some, List.map_cons, List.map_nil, List.foldlM_cons, List.foldlM_nil]
    rw [setEnd_of hn (row := List.replicate n none) (by simp [show k < m by omega]) (by simp)]
    simp only [Option.bind_some]
    rw [setEnd_of hn (row := (List.replicate n none).set (endPos n false) (some (S k false))) (by
      rw [List.getElem?_set_self (by simp; omega)]) (by simp)]
    simp only [Option.bind_some, Option.pure_def]
    congr 1
    apply List.ext_getElem?
    intro i
    by_cases hi : i < m
    · by_cases hik : i = k
      · subst hik
        rw [List.getElem?_set_self (by simp; omega)]
        simp [hi, specRow, endPos]
      · rw [List.getElem?_set_ne (by omega), List.getElem?_set_ne (by omega)]
        simp only [List.getElem?_map, List.getElem?_range hi, Option.map_some]
        have : i < k ↔ i < k + 1 := by omega
        simp [this]
    · rw [List.getElem?_eq_none (by simp; omega), List.getElem?_eq_none (by simp; omega)]

theorem zip_map_self {α β : Type} (l : List α) (f : α → β) : l.zip (l.map f) = l.map fun e => (e, f e) := by
  induction l with
  | nil => rfl
  | cons a l ih => simp [ih]

theorem patternSpecs_eq (hn : 0 < g.div ^ d) (S : ℕ → Bool → Spec d) :
    g.patternSpecs ((boundary g.mult).map fun e => S e.1 e.2) = some ((List.range g.mult).map fun p => specRow (g.div ^ d) (S p)) := by
  unfold patternSpecs
  rw [zip_map_self, patternSpecs_aux hn S g.mult le_rfl]
  congr 1
  apply List.map_congr_left
  intro p hp
  rw [if_pos (List.mem_range.1 hp)]

/-- Arguments of `_check_and_std` that make sense. -/
structure CandOK (g : GatesGen d) (protos : List (Proto d)) (S : ℕ → Bool → Spec d) : Prop where
  length : protos.length = g.mult
  proto_length : ∀ p ∈ protos, p.length = g.div ^ d
  cube_range : ∀ p ∈ protos, ∀ c : Cube d, some c ∈ p → ∀ j, 0 ≤ c j ∧ c j < (g.div : ℤ)
  ends : ∀ p ∈ protos, ∀ last, (endCube p last).isSome
  spec_range : ∀ p < g.mult, ∀ last, (S p last).pnum < g.mult

theorem specRow_end {n : ℕ} (hn : 2 ≤ n) (S : Bool → Spec d) (last : Bool) : (specRow n S)[endIdx n last]? = some (some (S last)) := by
  unfold specRow endIdx
  cases last
  · simp only [Bool.false_eq_true, if_false]
    rw [List.getElem?_set_ne (by omega), List.getElem?_set_self (by simp; omega)]
  · simp only [if_true]
    rw [List.getElem?_set_self (by simp; omega)]

theorem specRow_mem {n : ℕ} {S : Bool → Spec d} {s : Spec d} (h : some s ∈ specRow n S) : ∃ last, s = S last := by
  unfold specRow at h
  rcases List.mem_or_eq_of_mem_set h with h | h
  · rcases List.mem_or_eq_of_mem_set h with h | h
    · have := List.eq_of_mem_replicate h
      simp at this
    · exact ⟨false, Option.some.inj h⟩
  · exact ⟨true, Option.some.inj h⟩

/-- The boundary curve: its first and last entries are the given ones. -/
theorem boundaryCurve_spec (hdiv : 2 ≤ g.div) (hd : 1 ≤ d) {protos : List (Proto d)} {S : ℕ → Bool → Spec d} (h : g.CandOK protos S) :
    ∃ c, g.boundaryCurve protos ((boundary g.mult).map fun e => S e.1 e.2) = some c ∧ c.div = g.div ∧ c.mult = g.mult ∧ c.GatesDefined ∧
      (∀ p last, c.cube? p (endIdx c.genus last) = (protos[p]?).bind fun pr => endCube pr last) ∧
      ∀ p < g.mult, ∀ last, c.spec? p (endIdx c.genus last) = some (S p last) := by
  have hn : 2 ≤ g.div ^ d := le_trans hdiv (Nat.le_self_pow (by omega) _)
  let P : List (Pattern d) := (protos.zip ((List.range g.mult).map fun p => specRow (g.div ^ d) (S p))).map fun e => ⟨e.1, e.2⟩
  have hmult : P.length = g.mult := by simp [P, h.length]
  have hpat : ∀ p, P[p]? = (protos[p]?).map fun pr => (⟨pr, specRow (g.div ^ d) (S p)⟩ : Pattern d) := by
    intro p
    by_cases hp : p < g.mult
    · have hp' : p < protos.length := by rw [h.length]; exact hp
      rw [List.getElem?_eq_getElem (by rw [hmult]; exact hp), List.getElem?_eq_getElem hp']
      simp [P]
    · rw [List.getElem?_eq_none (by rw [hmult]; omega), List.getElem?_eq_none (by rw [h.length]; omega)]
      rfl
  let c : FCurve d := { div := g.div, patterns := P, pnum := 0, kind := .fuzzy }
  have hgenus : c.genus = g.div ^ d := rfl
  have hcube : ∀ p i, c.cube? p i = (protos[p]?).bind fun pr => pr.cube? i := by
    intro p i
    show (P[p]?).bind _ = _
    rw [hpat]
    cases protos[p]? <;> rfl
  have hspec : ∀ p i, c.spec? p i = (protos[p]?).bind fun _ => ((specRow (g.div ^ d) (S p))[i]?).join := by
    intro p i
    show (P[p]?).bind _ = _
    rw [hpat]
    cases protos[p]? <;> rfl
  have hcubeEnd : ∀ p last, c.cube? p (endIdx c.genus last) = (protos[p]?).bind fun pr => endCube pr last := by
    intro p last
    rw [hcube, hgenus]
    cases hp : protos[p]? with
    | none => rfl
    | some pr =>
      simp only [Option.bind_some]
      unfold endCube
      rw [h.proto_length pr (List.mem_of_getElem? hp)]
      rfl
  have hspecEnd : ∀ p < g.mult, ∀ last, c.spec? p (endIdx c.genus last) = some (S p last) := by
    intro p hp last
    rw [hspec, hgenus, specRow_end hn, List.getElem?_eq_getElem (by rw [h.length]; exact hp)]
    rfl
  have hends : ∀ p < g.mult, ∀ last, (c.cube? p (endIdx c.genus last)).isSome ∧ (c.spec? p (endIdx c.genus last)).isSome := by
    intro p hp last
    have hp' : p < protos.length := by rw [h.length]; exact hp
    refine ⟨?_, by rw [hspecEnd p hp]; rfl⟩
    rw [hcubeEnd, List.getElem?_eq_getElem hp']
    exact h.ends _ (List.getElem_mem hp') last
  have hP : ∀ p ∈ P, p.proto ∈ protos ∧ ∃ k < g.mult, p.specs = specRow (g.div ^ d) (S k) := by
    intro p hp
    obtain ⟨k, hk⟩ := List.getElem?_of_mem hp
    have hkm : k < g.mult := by rw [← hmult]; exact (List.getElem?_eq_some_iff.1 hk).1
    rw [hpat] at hk
    cases hpr : protos[k]? with
    | none => rw [hpr] at hk; simp at hk
    | some pr =>
      rw [hpr] at hk
      simp at hk
      subst hk
      exact ⟨List.mem_of_getElem? hpr, k, hkm, rfl⟩
  refine ⟨c, by unfold boundaryCurve; rw [patternSpecs_eq (by omega)]; rfl, rfl, hmult, ?_, hcubeEnd, hspecEnd⟩
  exact {
    two_le_div := hdiv
    proto_length := fun p hp => h.proto_length _ (hP p hp).1
    specs_length := by
      intro p hp
      obtain ⟨_, k, _, hk⟩ := hP p hp
      rw [hk, hgenus]
      simp [specRow]
    cube_range := by
      intro p i cube hc j
      rw [hcube] at hc
      cases hpr : protos[p]? with
      | none => rw [hpr] at hc; simp at hc
      | some pr =>
        rw [hpr] at hc
        simp only [Option.bind_some, Proto.cube?] at hc
        cases hi : pr[i]? with
        | none => rw [hi] at hc; simp at hc
        | some y =>
          rw [hi] at hc
          simp at hc
          subst hc
          exact h.cube_range pr (List.mem_of_getElem? hpr) cube (List.mem_of_getElem? hi) j
    spec_range := by
      intro p i s hs
      have hpm : p < g.mult := by rw [← hmult]; exact FCurve.spec?_lt hs
      rw [hspec] at hs
      show s.pnum < P.length
      rw [hmult]
      cases hpr : protos[p]? with
      | none => rw [hpr] at hs; simp at hs
      | some pr =>
        rw [hpr] at hs
        simp only [Option.bind_some] at hs
        cases hi : (specRow (g.div ^ d) (S p))[i]? with
        | none => rw [hi] at hs; simp at hs
        | some y =>
          rw [hi] at hs
          simp at hs
          subst hs
          obtain ⟨last, rfl⟩ := specRow_mem (List.mem_of_getElem? hi)
          exact h.spec_range p hpm last
    cube_def := fun p hp => by
      have hp : p < g.mult := by rw [← hmult]; exact hp
      exact ⟨(hends p hp false).1, (hends p hp true).1⟩
    spec_def := fun p hp => by
      have hp : p < g.mult := by rw [← hmult]; exact hp
      exact ⟨(hends p hp false).2, (hends p hp true).2⟩ }

end GatesGen
end Peano
