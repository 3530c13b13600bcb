import Verif.Lemmas.MinBound

set_option autoImplicit false

/-
Certificates for curves with two patterns.
-/
namespace Peano
namespace MinCert
variable {d : ℕ} {T : Tab}

/-- Two patterns: the list of pairs of paths is split into parts, with a certificate for each. -/
theorem Tab.refuted_two {r : Ratio} {vn vd G : ℕ} (hm : T.E.m = 2) {L M : List ℕ} {K : List (List ℕ)} (hL : ∀ P ∈ (T.en.getD 0 default).all G, P ∈ L)
    (hM : ∀ P ∈ (T.en.getD 1 default).all G, P ∈ M) (hK : (L.all fun P => M.all fun Q => K.contains [P, Q]) = true)
    (h : ∀ ps ∈ K, ∃ ts st, run r d vn vd T.E [] ts st = true ∧ (⟨ps, []⟩ : St) ∈ st) : T.Refuted r d vn vd G := by
  intro ps hl hp
  rw [hm] at hl hp
  obtain ⟨P, Q, rfl⟩ := List.length_eq_two.1 hl
  refine h _ ?_
  have h1 := List.all_eq_true.1 hK P (hL P (hp 0 (by omega)))
  have h2 := List.all_eq_true.1 h1 Q (hM Q (hp 1 (by omega)))
  exact List.contains_iff_mem.1 h2

theorem part2 {r : Ratio} {vn vd : ℕ} {E : Env} {ts : List ℕ} {K : List (List ℕ)} (h : run r d vn vd E [] ts (K.map fun ps => ⟨ps, []⟩) = true) :
    ∀ ps ∈ K, ∃ ts st, run r d vn vd E [] ts st = true ∧ (⟨ps, []⟩ : St) ∈ st :=
  fun _ hP => ⟨ts, _, h, List.mem_map_of_mem (f := fun ps => (⟨ps, []⟩ : St)) hP⟩

theorem parts2 {p : List ℕ → Prop} {L M : List (List ℕ)} (h1 : ∀ P ∈ L, p P) (h2 : ∀ P ∈ M, p P) : ∀ P ∈ L ++ M, p P := by
  intro P hP
  rcases List.mem_append.1 hP with h | h
  · exact h1 P h
  · exact h2 P h

/-! ### big trees in parts -/
variable {r : Ratio} {vn vd : ℕ} {E : Env} {allow : List (List ℕ × List Sp)}

theorem run_append : ∀ {ts : List ℕ} {st : List St} {ts' : List ℕ} {st' : List St}, run r d vn vd E allow ts st = true → run r d vn vd E allow ts' st' = true →
    run r d vn vd E allow (ts ++ ts') (st ++ st') = true
  | [], [], _, _, _, h' => h'
  | [], _ :: _, _, _, h, _ => by simp [run] at h
  | _ :: _, [], _, _, h, _ => by simp [run] at h
  | t :: ts, s :: st, ts', st', h, h' => by
    rw [run] at h
    rw [List.cons_append, List.cons_append, run]
    cases h0 : Nat.beq (t % 4) 0
    · rw [h0, cond_false] at h
      rw [cond_false]
      cases h1 : Nat.beq (t % 4) 1
      · rw [h1, cond_false, Bool.and_eq_true] at h
        rw [cond_false, Bool.and_eq_true]
        exact ⟨h.1, run_append h.2 h'⟩
      · rw [h1, cond_true, Bool.and_eq_true] at h
        rw [cond_true, Bool.and_eq_true]
        exact ⟨h.1, run_append h.2 h'⟩
    · rw [h0, cond_true, Bool.and_eq_true] at h
      rw [cond_true, Bool.and_eq_true, ← List.append_assoc]
      exact ⟨h.1, run_append h.2 h'⟩

/-- The tree for the first state, then for the others. -/
theorem run_cons {ts ts' : List ℕ} {s : St} {st : List St} (h : run r d vn vd E allow ts [s] = true) (h' : run r d vn vd E allow ts' st = true) :
    run r d vn vd E allow (ts ++ ts') (s :: st) = true := run_append h h'

instance : DecidableEq St := fun a b =>
  decidable_of_iff (a.paths = b.paths ∧ a.asg = b.asg) ⟨fun h => by cases a; cases b; simp_all, fun h => by simp [h]⟩

/-- A choice of the spec of the fraction `k`. -/
theorem run_node {k : ℕ} {ts : List ℕ} {s : St} {st : List St}
    (h : k < E.m * E.G ∧ (E.doms.getD (E.code s.paths k % E.L) []).map (fun e => (⟨s.paths, (k, e) :: s.asg⟩ : St)) = st)
    (h' : run r d vn vd E allow ts st = true) : run r d vn vd E allow (4 * k :: ts) [s] = true := by
  have e1 : 4 * k % 4 = 0 := by omega
  have e2 : 4 * k / 4 = k := by omega
  rw [run, e1, e2, show Nat.beq 0 0 = true from rfl, cond_true, List.append_nil, h.2, h']
  rw [show Nat.blt k (E.m * E.G) = true by rw [Nat.blt_eq]; exact h.1]; rfl

/-- The states have a certificate. -/
def Refs (r : Ratio) (d vn vd : ℕ) (E : Env) (st : List St) : Prop := ∃ ts, run r d vn vd E [] ts st = true

theorem Refs.cons {s : St} {st : List St} : Refs r d vn vd E [s] → Refs r d vn vd E st → Refs r d vn vd E (s :: st)
  | ⟨_, h⟩, ⟨_, h'⟩ => ⟨_, run_cons h h'⟩

theorem Refs.node {k : ℕ} {s : St} {st : List St}
    (h : k < E.m * E.G ∧ (E.doms.getD (E.code s.paths k % E.L) []).map (fun e => (⟨s.paths, (k, e) :: s.asg⟩ : St)) = st) :
    Refs r d vn vd E st → Refs r d vn vd E [s]
  | ⟨_, h'⟩ => ⟨_, run_node h h'⟩

theorem part2r {K : List (List ℕ)} : Refs r d vn vd E (K.map fun ps => ⟨ps, []⟩) →
    ∀ ps ∈ K, ∃ ts st, run r d vn vd E [] ts st = true ∧ (⟨ps, []⟩ : St) ∈ st
  | ⟨_, h⟩ => part2 h

end MinCert
end Peano
