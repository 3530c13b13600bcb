import Verif.Lemmas.CubePathTreeB
import Verif.Lemmas.CubePathTreeE

set_option autoImplicit false

/-!
C38: the search of cube paths.
-/
namespace Peano
namespace CubeTree
namespace Tree
variable {d : ℕ} {S : Type} [DecidableEq S]

/-- C38. On a grid with at least two cubes, for start and finish cubes in the grid and `prev_func` (needed only to expand the finish
paths) the reverse of `next_func` — at least on some class `P` of nodes that contains the start and finish nodes and is closed under both
functions —, `grow` does not raise and yields exactly the sequences of nodes that visit every cube once, from a start
node to a finish node, following `next_func` — for all limits and all hash functions. -/
theorem C38_grow_exact (t : Tree d S) (hash : Finset (Cube d) × Node d S → ℤ) (start finish : List (Node d S)) (startMax finishMax : Option ℤ)
    (hM : 2 ≤ t.div ^ d) (hs : ∀ n ∈ start, InGrid t.div n.1) (hf : ∀ n ∈ finish, InGrid t.div n.1)
    (P : Node d S → Prop) (hsP : ∀ n ∈ start, P n) (hfP : ∀ n ∈ finish, P n) (hnc : Closed t.div P t.nextFunc)
    (hprev : ∀ prev, t.prevFunc = some prev → Closed t.div P prev ∧ IsReverse t.div P t.nextFunc prev) (hfm : finishMax ≠ none → t.prevFunc ≠ none) :
    ∃ out, t.grow hash start finish startMax finishMax = some out ∧ ∀ L, L ∈ out ↔ Fills t.div t.nextFunc start finish L := by
  obtain ⟨out, h1, h2, _⟩ := grow_spec t hash start finish startMax finishMax hM hs hf P hsP hfP hnc hprev hfm
  exact ⟨out, h1, h2⟩

/-- C38. Each sequence is yielded once (if start, finish and the continuations are listed without repetitions). -/
theorem C38_grow_once (t : Tree d S) (hash : Finset (Cube d) × Node d S → ℤ) (start finish : List (Node d S)) (startMax finishMax : Option ℤ)
    (hM : 2 ≤ t.div ^ d) (hs : ∀ n ∈ start, InGrid t.div n.1) (hf : ∀ n ∈ finish, InGrid t.div n.1)
    (P : Node d S → Prop) (hsP : ∀ n ∈ start, P n) (hfP : ∀ n ∈ finish, P n) (hnc : Closed t.div P t.nextFunc)
    (hprev : ∀ prev, t.prevFunc = some prev → Closed t.div P prev ∧ IsReverse t.div P t.nextFunc prev) (hfm : finishMax ≠ none → t.prevFunc ≠ none)
    (hsn : start.Nodup) (hfn : finish.Nodup) (hn : ∀ c s, (t.nextFunc c s).Nodup)
    (hpn : ∀ prev, t.prevFunc = some prev → ∀ c s, (prev c s).Nodup) (out : List (List (Node d S)))
    (hout : t.grow hash start finish startMax finishMax = some out) : out.Nodup := by
  obtain ⟨out', h1, _, h3⟩ := grow_spec t hash start finish startMax finishMax hM hs hf P hsP hfP hnc hprev hfm
  rw [hout, Option.some.injEq] at h1
  subst h1
  exact h3 hsn hfn hn hpn

/-- C38. Hence the limits and the hash function do not influence the set of results. -/
theorem C38_grow_limits (t : Tree d S) (hash hash' : Finset (Cube d) × Node d S → ℤ) (start finish : List (Node d S))
    (startMax finishMax startMax' finishMax' : Option ℤ)
    (hM : 2 ≤ t.div ^ d) (hs : ∀ n ∈ start, InGrid t.div n.1) (hf : ∀ n ∈ finish, InGrid t.div n.1)
    (P : Node d S → Prop) (hsP : ∀ n ∈ start, P n) (hfP : ∀ n ∈ finish, P n) (hnc : Closed t.div P t.nextFunc)
    (hprev : ∀ prev, t.prevFunc = some prev → Closed t.div P prev ∧ IsReverse t.div P t.nextFunc prev) (hp : t.prevFunc ≠ none)
    (out out' : List (List (Node d S))) (h : t.grow hash start finish startMax finishMax = some out)
    (h' : t.grow hash' start finish startMax' finishMax' = some out') (L : List (Node d S)) : L ∈ out ↔ L ∈ out' := by
  obtain ⟨o, h1, h2, _⟩ := grow_spec t hash start finish startMax finishMax hM hs hf P hsP hfP hnc hprev (fun _ => hp)
  obtain ⟨o', h1', h2', _⟩ := grow_spec t hash' start finish startMax' finishMax' hM hs hf P hsP hfP hnc hprev (fun _ => hp)
  rw [h, Option.some.injEq] at h1
  rw [h', Option.some.injEq] at h1'
  subst h1 h1'
  rw [h2, h2']

/-- C38. The restriction to at least two cubes is necessary: on the grid of one cube, `grow` yields nothing although the single node is
a valid path. -/
theorem C38_one_cube (t : Tree d S) (hash : Finset (Cube d) × Node d S → ℤ) (n : Node d S) (hM : t.div = 1) (h : n.1 = fun _ => 0) :
    t.grow hash [n] [n] none none = some [] ∧ Fills t.div t.nextFunc [n] [n] [n] := by
  constructor
  · unfold grow
    have : t.div ^ d / 2 - 1 = 0 := by rw [hM, one_pow]; rfl
    simp only [this, widthSearch, List.map_cons, List.map_nil, finishPaths, Option.map_some, Option.some.injEq]
    rw [List.flatMap_eq_nil_iff]
    intro g hg
    obtain ⟨r, hr, hg1, _⟩ := group_head hg
    rw [List.mem_singleton] at hr
    subst hr
    rw [hg1, hM, one_pow]
    have : t.depthSearch [initPath n] (1 - (initPath n).length + 1) = [] := by
      unfold depthSearch
      rw [depthLoop_eq]
      simp [initPath, CPath.length, CPath.nodes, dfs]
    rw [this]
    rfl
  · refine ⟨⟨n, by simp, rfl⟩, ⟨n, by simp, rfl⟩, ?_, by simp, ?_⟩
    · intro i a b ha hb
      simp at hb
    · intro c
      simp only [List.map_cons, List.map_nil, List.mem_singleton, InGrid, h, hM]
      constructor
      · rintro rfl j; simp
      · intro hc; funext j; have := hc j; push_cast at this; omega

/-- Steps to the adjacent squares of the plane, without states. -/
def rookFunc : NextFunc 2 Unit := fun _ _ => [(![0, 1], ()), (![0, -1], ()), (![1, 0], ()), (![-1, 0], ())]

/-- The hypotheses of C38 are met by rook steps on the 2 × 2 grid: there is a path from corner to corner. -/
example : (Closed 2 (fun _ => True) rookFunc ∧ IsReverse 2 (fun _ => True) rookFunc rookFunc) ∧
    Fills 2 rookFunc [(![0, 0], ())] [(![1, 0], ())] [(![0, 0], ()), (![0, 1], ()), (![1, 1], ()), (![1, 0], ())] := by
  refine ⟨⟨fun _ _ _ _ _ _ => trivial, ?_⟩, ?_⟩
  · rintro ⟨a, _⟩ ⟨b, _⟩ _ _ _ _
    unfold Follows rookFunc
    simp only [List.mem_cons, Prod.mk.injEq, and_true, List.not_mem_nil, or_false]
    have key : ∀ x y : ℤ, ((fun j => b j - a j) = ![x, y] ↔ (fun j => a j - b j) = ![-x, -y]) := by
      intro x y
      constructor <;> intro h <;> funext j <;> have := congrFun h j <;>
        (match j with | 0 => simp at this ⊢; omega | 1 => simp at this ⊢; omega)
    rw [key 0 1, key 0 (-1), key 1 0, key (-1) 0]
    simp only [neg_zero, neg_neg]
    tauto
  · refine ⟨⟨_, by simp, rfl⟩, ⟨_, by simp, rfl⟩, ?_, by decide, ?_⟩
    · intro i a b ha hb
      rcases i with _ | _ | _ | i <;> simp at ha hb
      all_goals
        subst ha hb
        unfold Follows rookFunc
        decide
    · intro c
      constructor
      · intro h
        simp only [List.map_cons, List.map_nil, List.mem_cons, List.not_mem_nil, or_false] at h
        rcases h with rfl | rfl | rfl | rfl <;> intro j <;> (match j with | 0 => simp | 1 => simp)
      · intro h
        have h0 := h 0
        have h1 := h 1
        have e : c = ![c 0, c 1] := by funext j; match j with | 0 => rfl | 1 => rfl
        rw [e]
        have a0 : c 0 = 0 ∨ c 0 = 1 := by omega
        have a1 : c 1 = 0 ∨ c 1 = 1 := by omega
        rcases a0 with a0 | a0 <;> rcases a1 with a1 | a1 <;> rw [a0, a1] <;> simp

end Tree

/-- C38, functions that may raise. If neither function raises at the nodes of the class `P`, then no exception leaves `grow` and the same
sequences are yielded: `next` and `prev` are the values of the functions. -/
theorem C38_no_exceptions {d : ℕ} {S : Type} [DecidableEq S] (t : TreeE d S) (hash : Finset (Cube d) × Node d S → ℤ) (start finish : List (Node d S))
    (startMax finishMax : Option ℤ) (hM : 2 ≤ t.div ^ d) (hs : ∀ n ∈ start, InGrid t.div n.1) (hf : ∀ n ∈ finish, InGrid t.div n.1)
    (P : Node d S → Prop) (hsP : ∀ n ∈ start, P n) (hfP : ∀ n ∈ finish, P n) (next prev : NextFunc d S)
    (hnext : ∀ n, P n → t.nextFunc n.1 n.2 = some (next n.1 n.2))
    (hprev : ∃ f, t.prevFunc = some f ∧ ∀ n, P n → f n.1 n.2 = some (prev n.1 n.2))
    (hnc : Closed t.div P next) (hpc : Closed t.div P prev) (hrev : IsReverse t.div P next prev) :
    ∃ out, t.grow hash start finish startMax finishMax = some out ∧ ∀ L, L ∈ out ↔ Fills t.div next start finish L := by
  obtain ⟨f, hf1, hf2⟩ := hprev
  rw [TreeE.grow_eq (t' := ⟨t.div, next, some prev⟩) rfl hash startMax finishMax hf1 rfl hM
    (P := fun p => InGrid t.div p.head.1 ∧ P p.head) (Q := fun p => InGrid t.div p.head.1 ∧ P p.head)
    (fun n hn => ⟨hs n hn, hsP n hn⟩) (fun n hn => ⟨hf n hn, hfP n hn⟩) (TreeE.safe_of_closed _ hnext hnc) (TreeE.safe_of_closed _ hf2 hpc)]
  exact Tree.C38_grow_exact ⟨t.div, next, some prev⟩ hash start finish startMax finishMax hM hs hf P hsP hfP hnc
    (by rintro _ ⟨⟩; exact ⟨hpc, hrev⟩) (by simp)

end CubeTree
end Peano
