import Verif.Spec.CubePathTree
import Verif.Lemmas.Dict
import Verif.Lemmas.Points
import Mathlib.Data.List.Chain
import Mathlib.Data.List.Flatten
import Mathlib.Data.Fintype.BigOperators
import Mathlib.Order.Interval.Finset.Basic
import Mathlib.Data.Int.Interval

/-! Lemmas about the search of cube paths (C38). -/
namespace Peano
namespace CubeTree
variable {d : ℕ} {S : Type}

theorem CPath.nodes_injective : Function.Injective (CPath.nodes : CPath d S → List (Node d S)) := by
  rintro ⟨a, l⟩ ⟨b, m⟩ h
  simp only [CPath.nodes, List.cons.injEq] at h
  obtain ⟨rfl, rfl⟩ := h
  rfl

/-- nodes from the last to the first form a path in the grid without repetitions of cubes -/
structure Ok (N : ℕ) (func : NextFunc d S) (l : List (Node d S)) : Prop where
  chain : l.IsChain fun b a => Follows func a b
  nodup : (l.map Prod.fst).Nodup
  grid : ∀ n ∈ l, InGrid N n.1

namespace Tree
variable (t : Tree d S) (func : NextFunc d S)

/-- continuations of a path -/
def ext (p : CPath d S) : List (CPath d S) := t.continuePath func p p.support

theorem mem_continuePath {p q : CPath d S} : q ∈ t.ext func p ↔
    q.tail = p.nodes ∧ Follows func p.head q.head ∧ InGrid t.div q.head.1 ∧ q.head.1 ∉ p.nodes.map Prod.fst := by
  unfold ext continuePath
  rw [List.mem_filterMap]
  constructor
  · rintro ⟨⟨δ, s⟩, he, hq⟩
    dsimp only at hq
    split at hq
    · simp at hq
    · rename_i hc
      simp only [Option.some.injEq] at hq
      subst hq
      push Not at hc
      refine ⟨rfl, ?_, fun j => ?_, ?_⟩
      · unfold Follows
        simp only [add_sub_cancel_left]
        exact he
      · have := hc.1 j
        exact ⟨this.1, by exact_mod_cast this.2⟩
      · have := hc.2
        unfold CPath.support at this
        simpa using this
  · rintro ⟨h1, h2, h3, h4⟩
    refine ⟨_, h2, ?_⟩
    have e : (fun j => p.head.1 j + (q.head.1 j - p.head.1 j)) = q.head.1 := by funext j; ring
    dsimp only
    rw [if_neg]
    · congr 1
      apply CPath.nodes_injective
      simp [CPath.nodes, h1]
    · simp only [add_sub_cancel]
      push Not
      refine ⟨fun j => ⟨(h3 j).1, (h3 j).2⟩, ?_⟩
      unfold CPath.support
      simpa using h4

theorem nodup_ext (hf : ∀ c s, (func c s).Nodup) (p : CPath d S) : (t.ext func p).Nodup := by
  unfold ext continuePath
  refine (hf _ _).filterMap ?_
  rintro ⟨δ, s⟩ ⟨δ', s'⟩ q h h'
  rw [Option.mem_def] at h h'
  dsimp only at h h'
  split at h
  · simp at h
  · split at h'
    · simp at h'
    · rw [Option.some.injEq] at h h'
      have := h.trans h'.symm
      simp only [CPath.mk.injEq, Prod.mk.injEq, and_true] at this
      obtain ⟨h1, h2⟩ := this
      rw [Prod.mk.injEq]
      refine ⟨?_, h2⟩
      funext j
      have := congrFun h1 j
      simpa using this

theorem mem_ext_ok {p q : CPath d S} (hp : Ok t.div func p.nodes) : q ∈ t.ext func p ↔ q.tail = p.nodes ∧ Ok t.div func q.nodes := by
  rw [mem_continuePath]
  refine and_congr_right fun hq => ?_
  have e : q.nodes = q.head :: p.nodes := by rw [CPath.nodes, hq]
  constructor
  · rintro ⟨h1, h2, h3⟩
    rw [e]
    refine ⟨?_, ?_, ?_⟩
    · rw [CPath.nodes] at hp ⊢
      rw [List.isChain_cons_cons]
      exact ⟨h1, hp.chain⟩
    · rw [List.map_cons, List.nodup_cons]
      exact ⟨h3, hp.nodup⟩
    · intro n hn
      rcases List.mem_cons.1 hn with rfl | hn
      · exact h2
      · exact hp.grid n hn
  · rw [e]
    rintro ⟨h1, h2, h3⟩
    rw [List.map_cons, List.nodup_cons] at h2
    refine ⟨?_, h3 _ (by simp), h2.1⟩
    rw [CPath.nodes, List.isChain_cons_cons] at h1
    exact h1.1

/-- `k` steps of growing -/
def iter : ℕ → List (CPath d S) → List (CPath d S)
  | 0, ps => ps
  | k + 1, ps => iter k (ps.flatMap (t.ext func))

theorem widthInner_eq (m : Option ℤ) (new ps r : List (CPath d S)) (h : t.widthInner func m new ps = some r) :
    r = new ++ ps.flatMap (t.ext func) := by
  induction ps generalizing new with
  | nil => simp [widthInner] at h; simp [h]
  | cons p ps ih =>
    have : t.widthInner func m (new ++ t.continuePath func p p.support) ps = some r := by
      cases m with
      | none => simpa only [widthInner] using h
      | some m =>
        simp only [widthInner] at h
        split at h
        · simp at h
        · exact h
    rw [ih _ this, List.flatMap_cons, List.append_assoc]
    rfl

theorem widthSearch_eq (m : Option ℤ) (n : ℕ) (ps : List (CPath d S)) : ∃ k ≤ n, t.widthSearch func m n ps = t.iter func k ps := by
  induction n generalizing ps with
  | zero => exact ⟨0, le_refl _, rfl⟩
  | succ n ih =>
    rw [widthSearch]
    cases h : t.widthInner func m [] ps with
    | none => exact ⟨0, by omega, rfl⟩
    | some new =>
      obtain ⟨k, hk, e⟩ := ih new
      refine ⟨k + 1, by omega, ?_⟩
      dsimp only
      rw [e, widthInner_eq t func m _ _ _ h]
      rfl

theorem ok_of_append {N : ℕ} {func : NextFunc d S} {a b : List (Node d S)} (h : Ok N func (a ++ b)) : Ok N func b := by
  obtain ⟨h1, h2, h3⟩ := h
  rw [List.isChain_append] at h1
  rw [List.map_append] at h2
  exact ⟨h1.2.1, h2.of_append_right, fun n hn => h3 n (List.mem_append_right _ hn)⟩

theorem exists_path {l : List (Node d S)} (h : l ≠ []) : ∃ q : CPath d S, q.nodes = l := by
  obtain ⟨a, l, rfl⟩ := List.exists_cons_of_ne_nil h
  exact ⟨⟨a, l⟩, rfl⟩

theorem CPath.nodes_ne (p : CPath d S) : p.nodes ≠ [] := by simp [CPath.nodes]

theorem mem_iter {k : ℕ} {ps : List (CPath d S)} (hps : ∀ p ∈ ps, Ok t.div func p.nodes) {q : CPath d S} :
    q ∈ t.iter func k ps ↔ ∃ p ∈ ps, ∃ e, e.length = k ∧ q.nodes = e ++ p.nodes ∧ Ok t.div func q.nodes := by
  induction k generalizing ps with
  | zero =>
    simp only [iter]
    constructor
    · intro h
      exact ⟨q, h, [], rfl, rfl, hps q h⟩
    · rintro ⟨p, hp, e, he, hq, _⟩
      rw [List.length_eq_zero_iff] at he
      subst he
      rw [List.nil_append] at hq
      rwa [CPath.nodes_injective hq]
  | succ k ih =>
    rw [iter, ih]
    · constructor
      · rintro ⟨p, hp, e, he, hq, hok⟩
        rw [List.mem_flatMap] at hp
        obtain ⟨p', hp', hpp⟩ := hp
        rw [mem_ext_ok t func (hps p' hp')] at hpp
        refine ⟨p', hp', e ++ [p.head], by simp [he], ?_, hok⟩
        rw [hq, CPath.nodes, hpp.1]
        simp
      · rintro ⟨p, hp, e, he, hq, hok⟩
        obtain ⟨e', n, rfl⟩ : ∃ e' n, e = e' ++ [n] := by
          rcases List.eq_nil_or_concat e with rfl | ⟨e', n, rfl⟩
          · simp at he
          · exact ⟨e', n, by simp⟩
        refine ⟨⟨n, p.nodes⟩, ?_, e', by simpa using he, by rw [hq]; simp [CPath.nodes], hok⟩
        rw [List.mem_flatMap]
        refine ⟨p, hp, ?_⟩
        rw [mem_ext_ok t func (hps p hp)]
        refine ⟨rfl, ?_⟩
        rw [hq, List.append_assoc] at hok
        exact ok_of_append hok
    · intro p hp
      rw [List.mem_flatMap] at hp
      obtain ⟨p', hp', hpp⟩ := hp
      rw [mem_ext_ok t func (hps p' hp')] at hpp
      exact hpp.2

theorem nodup_flatMap_ext (hf : ∀ c s, (func c s).Nodup) {ps : List (CPath d S)} (h : ps.Nodup) : (ps.flatMap (t.ext func)).Nodup := by
  rw [List.nodup_flatMap]
  refine ⟨fun p _ => nodup_ext t func hf p, ?_⟩
  refine List.Pairwise.imp ?_ h
  intro a b hab q ha hb
  rw [mem_continuePath] at ha hb
  exact hab (CPath.nodes_injective (ha.1.symm.trans hb.1))

theorem nodup_iter (hf : ∀ c s, (func c s).Nodup) (k : ℕ) {ps : List (CPath d S)} (h : ps.Nodup) : (t.iter func k ps).Nodup := by
  induction k generalizing ps with
  | zero => exact h
  | succ k ih => exact ih (nodup_flatMap_ext t func hf h)

/-- recursive form of the depth search -/
def dfs : ℕ → CPath d S → List (CPath d S)
  | 0, _ => []
  | 1, p => t.ext t.nextFunc p
  | k + 2, p => (t.ext t.nextFunc p).reverse.flatMap (dfs (k + 1))

theorem ext_length {p q : CPath d S} (h : q ∈ t.ext func p) : q.length = p.length + 1 := by
  rw [mem_continuePath] at h
  unfold CPath.length
  rw [CPath.nodes, h.1]
  simp

theorem CPath.length_pos (p : CPath d S) : 0 < p.length := by simp [CPath.length, CPath.nodes]

theorem depthLoop_eq (length : ℕ) (todo : List (CPath d S)) :
    t.depthLoop length todo = todo.flatMap fun p => t.dfs (length - p.length) p := by
  induction todo using depthLoop.induct t length with
  | case1 => simp [depthLoop]
  | case2 p todo h ih =>
    have hp := CPath.length_pos p
    rw [depthLoop, if_pos h, ih, List.flatMap_cons]
    have : length - p.length = 1 := by omega
    rw [this]
    rfl
  | case3 p todo h1 h2 ih =>
    rw [depthLoop, if_neg h1, if_pos h2, ih, List.flatMap_cons, List.flatMap_append]
    congr 1
    obtain ⟨k, hk⟩ : ∃ k, length - p.length = k + 2 := ⟨length - p.length - 2, by omega⟩
    rw [hk, dfs]
    have : ∀ q ∈ (t.continuePath t.nextFunc p p.support).reverse, t.dfs (length - q.length) q = t.dfs (k + 1) q := by
      intro q hq
      rw [List.mem_reverse] at hq
      have := ext_length t t.nextFunc hq
      have e : length - q.length = k + 1 := by omega
      rw [e]
    rw [List.flatMap_congr this]
    rfl
  | case4 p todo h1 h2 ih =>
    rw [depthLoop, if_neg h1, if_neg h2, ih, List.flatMap_cons]
    have : length - p.length = 0 := by omega
    rw [this]
    rfl

theorem mem_dfs {k : ℕ} {p q : CPath d S} (hp : Ok t.div t.nextFunc p.nodes) :
    q ∈ t.dfs k p ↔ k ≠ 0 ∧ ∃ e, e.length = k ∧ q.nodes = e ++ p.nodes ∧ Ok t.div t.nextFunc q.nodes := by
  induction k using Nat.strong_induction_on generalizing p with
  | _ k ih =>
  match k with
  | 0 => simp [dfs]
  | 1 =>
    rw [dfs, mem_ext_ok t _ hp]
    constructor
    · rintro ⟨h1, h2⟩
      exact ⟨by omega, [q.head], rfl, by rw [CPath.nodes, h1]; rfl, h2⟩
    · rintro ⟨_, e, he, hq, hok⟩
      obtain ⟨n, rfl⟩ := List.length_eq_one_iff.1 he
      refine ⟨?_, hok⟩
      have : q.nodes = (⟨n, p.nodes⟩ : CPath d S).nodes := hq
      rw [CPath.nodes_injective this]
  | k + 2 =>
    rw [dfs, List.mem_flatMap]
    constructor
    · rintro ⟨p', hp', hq⟩
      rw [List.mem_reverse, mem_ext_ok t _ hp] at hp'
      rw [ih (k + 1) (by omega) hp'.2] at hq
      obtain ⟨_, e, he, hq, hok⟩ := hq
      refine ⟨by omega, e ++ [p'.head], by simp [he], ?_, hok⟩
      rw [hq, CPath.nodes, hp'.1]
      simp
    · rintro ⟨_, e, he, hq, hok⟩
      obtain ⟨e', n, rfl⟩ : ∃ e' n, e = e' ++ [n] := by
        rcases List.eq_nil_or_concat e with rfl | ⟨e', n, rfl⟩
        · simp at he
        · exact ⟨e', n, by simp⟩
      have hok' : Ok t.div t.nextFunc (⟨n, p.nodes⟩ : CPath d S).nodes := by
        rw [hq, List.append_assoc] at hok
        exact ok_of_append hok
      refine ⟨⟨n, p.nodes⟩, ?_, ?_⟩
      · rw [List.mem_reverse, mem_ext_ok t _ hp]
        exact ⟨rfl, hok'⟩
      · rw [ih (k + 1) (by omega) hok']
        exact ⟨by omega, e', by simpa using he, by rw [hq]; simp [CPath.nodes], hok⟩

theorem nodup_dfs (hf : ∀ c s, (t.nextFunc c s).Nodup) (k : ℕ) {p : CPath d S} (hp : Ok t.div t.nextFunc p.nodes) : (t.dfs k p).Nodup := by
  induction k using Nat.strong_induction_on generalizing p with
  | _ k ih =>
  match k with
  | 0 => simp [dfs]
  | 1 => exact nodup_ext t _ hf p
  | k + 2 =>
    rw [dfs, List.nodup_flatMap]
    constructor
    · intro q hq
      rw [List.mem_reverse, mem_ext_ok t _ hp] at hq
      exact ih (k + 1) (by omega) hq.2
    · have hnd : (t.ext t.nextFunc p).reverse.Nodup := by rw [List.nodup_reverse]; exact nodup_ext t _ hf p
      refine List.Pairwise.imp_of_mem ?_ hnd
      intro a b ha hb hab q hqa hqb
      rw [List.mem_reverse, mem_ext_ok t _ hp] at ha hb
      rw [mem_dfs t ha.2] at hqa
      rw [mem_dfs t hb.2] at hqb
      obtain ⟨_, e, he, hq, _⟩ := hqa
      obtain ⟨_, e', he', hq', _⟩ := hqb
      rw [hq] at hq'
      have := List.append_inj_right hq' (by rw [he, he'])
      exact hab (CPath.nodes_injective this)

theorem mem_depthSearch {p q : CPath d S} {length : ℕ} (hp : Ok t.div t.nextFunc p.nodes) (hl : p.length < length) :
    q ∈ t.depthSearch [p] length ↔ ∃ e, e.length = length - p.length ∧ q.nodes = e ++ p.nodes ∧ Ok t.div t.nextFunc q.nodes := by
  unfold depthSearch
  rw [depthLoop_eq]
  simp only [List.reverse_singleton, List.flatMap_cons, List.flatMap_nil, List.append_nil]
  rw [mem_dfs t hp]
  exact ⟨fun h => h.2, fun h => ⟨by omega, h⟩⟩

theorem nodup_depthSearch (hf : ∀ c s, (t.nextFunc c s).Nodup) {p : CPath d S} {length : ℕ} (hp : Ok t.div t.nextFunc p.nodes) :
    (t.depthSearch [p] length).Nodup := by
  unfold depthSearch
  rw [depthLoop_eq]
  simp only [List.reverse_singleton, List.flatMap_cons, List.flatMap_nil, List.append_nil]
  exact nodup_dfs t hf _ hp

theorem mem_allCubes {c : Cube d} : c ∈ t.allCubes ↔ InGrid t.div c := by
  unfold allCubes InGrid
  rw [List.mem_toFinset, mem_productFn (f := fun _ => (List.range t.div).map (fun x : ℕ => (x : ℤ)))]
  refine forall_congr' fun j => ?_
  rw [List.mem_map]
  constructor
  · rintro ⟨n, hn, h⟩
    rw [List.mem_range] at hn
    omega
  · rintro ⟨h1, h2⟩
    exact ⟨(c j).toNat, by rw [List.mem_range]; omega, by omega⟩

theorem card_allCubes : t.allCubes.card = t.div ^ d := by
  have e : t.allCubes = Fintype.piFinset fun _ : Fin d => Finset.Ico (0 : ℤ) t.div := by
    ext c
    rw [mem_allCubes, Fintype.mem_piFinset]
    simp [InGrid]
  rw [e, Fintype.card_piFinset]
  simp

variable [DecidableEq S]

theorem mem_groups (hash : Finset (Cube d) × Node d S → ℤ) (ps g : List (CPath d S)) :
    g ∈ groupPathsByFuture hash ps ↔ ∃ p ∈ ps, g = ps.filter fun q => q.future = p.future := by
  unfold groupPathsByFuture
  rw [List.mem_flatMap]
  constructor
  · rintro ⟨⟨k, v⟩, h1, h2⟩
    rw [List.mem_map] at h2
    obtain ⟨⟨f, w⟩, h2, rfl⟩ := h2
    rw [Dict.mem_groupBy] at h1 h2
    obtain ⟨h1, h1'⟩ := h1
    obtain ⟨h2, h2'⟩ := h2
    obtain ⟨p, hp⟩ := List.exists_mem_of_ne_nil _ h2'
    have hp' := hp
    rw [h2, h1] at hp'
    simp only [List.mem_filter, decide_eq_true_eq] at hp'
    refine ⟨p, hp'.1.1, ?_⟩
    dsimp only at h1 h2 ⊢
    rw [h2, h1, List.filter_filter]
    refine List.filter_congr fun q _ => ?_
    rw [hp'.2]
    rw [← hp'.1.2]
    by_cases hq : q.future = f
    · have : q.futureHash hash = p.futureHash hash := by
        unfold CPath.futureHash; rw [hq, hp'.2]
      simp [hq, this]
    · simp [hq]
  · rintro ⟨p, hp, rfl⟩
    refine ⟨(p.futureHash hash, ps.filter fun q => q.futureHash hash = p.futureHash hash), ?_, ?_⟩
    · rw [Dict.mem_groupBy]
      exact ⟨rfl, List.ne_nil_of_mem (List.mem_filter.2 ⟨hp, by simp⟩)⟩
    · rw [List.mem_map]
      refine ⟨(p.future, ps.filter fun q => q.future = p.future), ?_, rfl⟩
      rw [Dict.mem_groupBy]
      refine ⟨?_, List.ne_nil_of_mem (List.mem_filter.2 ⟨hp, by simp⟩)⟩
      rw [List.filter_filter]
      refine List.filter_congr fun q _ => ?_
      by_cases hq : q.future = p.future
      · have : q.futureHash hash = p.futureHash hash := by
          unfold CPath.futureHash; rw [hq]
        simp [hq, this]
      · simp [hq]

theorem groups_pairwise (hash : Finset (Cube d) × Node d S → ℤ) (ps : List (CPath d S)) :
    (groupPathsByFuture hash ps).Pairwise fun g g' => ∀ x ∈ g, ∀ y ∈ g', x ≠ y := by
  unfold groupPathsByFuture
  rw [List.pairwise_flatMap]
  constructor
  · rintro ⟨k, v⟩ _
    rw [List.pairwise_map]
    refine (Dict.groupBy_pairwise CPath.future v).imp ?_
    intro a b h x hx y hy e
    exact h x hx y hy (by rw [e])
  · refine List.Pairwise.imp_of_mem ?_ (Dict.groupBy_pairwise (CPath.futureHash hash) ps)
    rintro ⟨k, v⟩ ⟨k', v'⟩ h1 h2 h g hg g' hg' x hx y hy e
    have hsub : ∀ (v g : List (CPath d S)), g ∈ (Dict.groupBy CPath.future v).map Prod.snd → ∀ x ∈ g, x ∈ v := by
      intro v g hg x hx
      obtain ⟨⟨f, w⟩, hw, rfl⟩ := List.mem_map.1 hg
      rw [Dict.mem_groupBy] at hw
      rw [hw.1] at hx
      exact (List.mem_filter.1 hx).1
    exact h x (hsub _ _ hg x hx) y (hsub _ _ hg' y hy) (by rw [e])

end Tree
end CubeTree
end Peano
