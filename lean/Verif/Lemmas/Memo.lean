import Verif.Model.Memo

namespace Peano.Memo
variable {κ ν : Type} [DecidableEq κ]

/-- Every entry is right. -/
def Ok (f : κ → ν) (st : State κ ν) : Prop := ∀ e ∈ st, e.2 = f e.1

theorem lookup_mem {st : State κ ν} {k : κ} {v : ν} (h : st.lookup k = some v) : (k, v) ∈ st := by
  induction st with
  | nil => simp at h
  | cons e st ih =>
    obtain ⟨k', v'⟩ := e
    rw [List.lookup_cons] at h
    by_cases hk : k = k'
    · subst hk; simp at h; simp [h]
    · have : (k == k') = false := by simpa using hk
      rw [this] at h
      exact List.mem_cons_of_mem _ (ih h)

theorem call_spec {f : κ → ν} {m : Nat} {st : State κ ν} (h : Ok f st) (k : κ) :
    (call f m st k).1 = f k ∧ Ok f (call f m st k).2 := by
  unfold call
  cases hl : st.lookup k with
  | none =>
    refine ⟨rfl, ?_⟩
    intro e he
    have he := List.mem_of_mem_take he
    rcases List.mem_cons.1 he with rfl | he
    · rfl
    · exact h e he
  | some v =>
    have hv : v = f k := h _ (lookup_mem hl)
    refine ⟨hv, ?_⟩
    intro e he
    rcases List.mem_cons.1 he with rfl | he
    · exact hv
    · exact h e (List.mem_filter.1 he).1

theorem run_spec {f : κ → ν} {m : Nat} {st : State κ ν} (h : Ok f st) (ks : List κ) :
    (run f m st ks).1 = ks.map f ∧ Ok f (run f m st ks).2 := by
  induction ks generalizing st with
  | nil => exact ⟨rfl, h⟩
  | cons k ks ih =>
    have hc := call_spec (m := m) h k
    have := ih hc.2
    simp only [run, List.map_cons]
    exact ⟨by rw [this.1, hc.1], this.2⟩

end Peano.Memo
