import Verif.Lemmas.MinFast

set_option autoImplicit false

/-
A faster check of the list of pairs of paths.
-/
namespace Peano
namespace MinCert
namespace Fast
noncomputable section

/-- The list starts with the pairs `[P, Q]` for the given `Q`; what follows. -/
def strip (P : ℕ) (k : List (List ℕ) → Bool) (M : List ℕ) : List (List ℕ) → Bool :=
  @List.rec ℕ (fun _ => List (List ℕ) → Bool) k
    (fun Q _ ih K => @List.rec (List ℕ) (fun _ => Bool) false (fun x K' _ => cond (beqL x [P, Q]) (ih K') false) K) M
/-- The list starts with all pairs. -/
def pairsB (M L : List ℕ) : List (List ℕ) → Bool :=
  @List.rec ℕ (fun _ => List (List ℕ) → Bool) (fun _ => true) (fun P _ ih K => strip P ih M K) L
end

theorem strip_sound {P : ℕ} {k : List (List ℕ) → Bool} : ∀ {M : List ℕ} {K : List (List ℕ)}, strip P k M K = true →
    (∀ Q ∈ M, [P, Q] ∈ K) ∧ ∃ K', k K' = true ∧ ∀ x ∈ K', x ∈ K
  | [], K, h => ⟨by simp, K, h, fun _ h => h⟩
  | Q :: M, [], h => by cases h
  | Q :: M, x :: K, h => by
    have h : cond (beqL x [P, Q]) (strip P k M K) false = true := h
    rw [cond_and, beqL_iff] at h
    obtain ⟨h1, K', h2, h3⟩ := strip_sound h.2
    refine ⟨fun R hR => ?_, K', h2, fun y hy => List.mem_cons_of_mem _ (h3 y hy)⟩
    rcases List.mem_cons.1 hR with rfl | hR
    · rw [h.1]
      exact List.mem_cons_self
    · exact List.mem_cons_of_mem _ (h1 R hR)

theorem pairs_mem {M : List ℕ} : ∀ {L : List ℕ} {K : List (List ℕ)}, pairsB M L K = true → ∀ P ∈ L, ∀ Q ∈ M, [P, Q] ∈ K
  | [], K, h => by simp
  | P :: L, K, h => by
    have h : strip P (pairsB M L) M K = true := h
    obtain ⟨h1, K', h2, h3⟩ := strip_sound h
    intro R hR Q hQ
    rcases List.mem_cons.1 hR with rfl | hR
    · exact h1 Q hQ
    · exact h3 _ (pairs_mem h2 R hR Q hQ)

theorem pairs_sound {L M : List ℕ} {K : List (List ℕ)} (h : pairsB M L K = true) : (L.all fun P => M.all fun Q => K.contains [P, Q]) = true := by
  simp only [List.all_eq_true]
  intro P hP Q hQ
  exact List.contains_iff_mem.2 (pairs_mem h P hP Q hQ)

end Fast
end MinCert
end Peano
