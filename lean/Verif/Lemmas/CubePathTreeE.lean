import Verif.Lemmas.CubePathTree

set_option autoImplicit false

/-
The tree with functions that may raise grows the same paths as the tree without exceptions, if no exception is raised at the paths that are
continued.
-/
namespace Peano
namespace CubeTree
namespace TreeE
variable {d : ℕ} {S : Type}

/-- The function does not raise at the paths of at most `n` nodes which satisfy `P`, and continuations satisfy `P`. -/
def Safe (t : TreeE d S) (func : NextFuncE d S) (func' : NextFunc d S) (n : ℕ) (P : CPath d S → Prop) : Prop :=
  ∀ p, P p → p.length ≤ n → func p.head.1 p.head.2 = some (func' p.head.1 p.head.2) ∧
    ∀ q ∈ t.toTree.continuePath func' p p.support, P q

variable {t : TreeE d S} {t' : Tree d S} (hdiv : t'.div = t.div) {func : NextFuncE d S} {func' : NextFunc d S} {n : ℕ} {P : CPath d S → Prop}

theorem length_pos (p : CPath d S) : 1 ≤ p.length := by unfold CPath.length CPath.nodes; simp

theorem length_continue {t : Tree d S} {f : NextFunc d S} {p q : CPath d S} {X : Finset (Cube d)} (hq : q ∈ t.continuePath f p X) :
    q.length = p.length + 1 := by
  unfold Tree.continuePath at hq
  rw [List.mem_filterMap] at hq
  obtain ⟨e, _, he⟩ := hq
  have hq' : q.tail = p.nodes := by
    dsimp only at he
    split at he
    · simp at he
    · simp only [Option.some.injEq] at he
      rw [← he]
  unfold CPath.length
  rw [CPath.nodes, hq']
  simp

theorem safe_of_closed (n : ℕ) {R : Node d S → Prop} (h : ∀ a : Node d S, R a → func a.1 a.2 = some (func' a.1 a.2)) (hc : Closed t.div R func') :
    t.Safe func func' n fun p => InGrid t.div p.head.1 ∧ R p.head := by
  rintro p ⟨h1, h2⟩ _
  refine ⟨h _ h2, fun q hq => ?_⟩
  obtain ⟨_, k1, k2, _⟩ := (Tree.mem_continuePath t.toTree func').1 hq
  exact ⟨k2, hc _ _ h1 k2 h2 k1⟩

include hdiv

theorem continuePath_div (f : NextFunc d S) (p : CPath d S) (X : Finset (Cube d)) : t'.continuePath f p X = t.toTree.continuePath f p X := by
  unfold Tree.continuePath toTree
  rw [hdiv]

theorem continuePath_eq (h : t.Safe func func' n P) {p : CPath d S} (hp : P p) (hl : p.length ≤ n) :
    t.continuePath func p p.support = some (t'.continuePath func' p p.support) := by
  unfold continuePath Tree.continuePath
  rw [(h p hp hl).1, hdiv]
  rfl

theorem depthLoop_eq (h : t.Safe t.nextFunc t'.nextFunc n P) (length : ℕ) (hn : length - 1 ≤ n) :
    ∀ todo : List (CPath d S), (∀ p ∈ todo, P p) → t.depthLoop length todo = some (t'.depthLoop length todo) := by
  intro todo
  induction todo using Tree.depthLoop.induct t' length with
  | case1 => intro _; rw [depthLoop, Tree.depthLoop]
  | case2 p todo h1 ih =>
    intro hP
    rw [depthLoop, Tree.depthLoop, if_pos h1, if_pos h1, continuePath_eq hdiv h (hP p List.mem_cons_self) (by omega),
      ih fun q hq => hP q (List.mem_cons_of_mem _ hq)]
    rfl
  | case3 p todo h1 h2 ih =>
    intro hP
    rw [depthLoop, Tree.depthLoop, if_neg h1, if_neg h1, if_pos h2, if_pos h2]
    have e := continuePath_eq hdiv h (hP p List.mem_cons_self) (by omega)
    split
    · next h' => rw [h'] at e; simp at e
    · next l h' =>
      rw [h', Option.some.injEq] at e
      subst e
      refine ih fun q hq => ?_
      rcases List.mem_append.1 hq with hq | hq
      · rw [List.mem_reverse, continuePath_div hdiv] at hq
        exact (h p (hP p List.mem_cons_self) (by omega)).2 q hq
      · exact hP q (List.mem_cons_of_mem _ hq)
  | case4 p todo h1 h2 ih =>
    intro hP
    rw [depthLoop, Tree.depthLoop, if_neg h1, if_neg h1, if_neg h2, if_neg h2]
    exact ih fun q hq => hP q (List.mem_cons_of_mem _ hq)

theorem widthInner_eq (h : t.Safe func func' n P) (mc : Option ℤ) (cur : List (CPath d S)) :
    (∀ p ∈ cur, P p ∧ p.length ≤ n) → ∀ new, t.widthInner func mc new cur = some (t'.widthInner func' mc new cur) := by
  induction cur with
  | nil => intro _ new; rw [widthInner, Tree.widthInner]
  | cons p rest ih =>
    intro hP new
    obtain ⟨h1, h2⟩ := hP p List.mem_cons_self
    have ih' := ih fun q hq => hP q (List.mem_cons_of_mem _ hq)
    rw [widthInner, Tree.widthInner.eq_def, continuePath_eq hdiv h h1 h2]
    dsimp only
    cases mc with
    | none => exact ih' _
    | some m =>
      dsimp only
      show (if _ then _ else _) = _
      split
      · rfl
      · exact ih' _

theorem widthInner_mem (h : t.Safe func func' n P) (mc : Option ℤ) (cur : List (CPath d S)) (k : ℕ) (hk : k ≤ n) :
    (∀ p ∈ cur, P p ∧ p.length = k) → ∀ new, (∀ p ∈ new, P p ∧ p.length = k + 1) → ∀ r, t'.widthInner func' mc new cur = some r →
      ∀ p ∈ r, P p ∧ p.length = k + 1 := by
  induction cur with
  | nil =>
    intro _ new hnew r hr
    rw [Tree.widthInner, Option.some.injEq] at hr
    subst hr
    exact hnew
  | cons p rest ih =>
    intro hP new hnew r hr
    obtain ⟨h1, h2⟩ := hP p List.mem_cons_self
    have hnew' : ∀ q ∈ new ++ t'.continuePath func' p p.support, P q ∧ q.length = k + 1 := by
      intro q hq
      rcases List.mem_append.1 hq with hq | hq
      · exact hnew q hq
      · exact ⟨(h p h1 (by omega)).2 q (by rwa [continuePath_div hdiv] at hq), by rw [length_continue hq, h2]⟩
    have ih' := ih (fun q hq => hP q (List.mem_cons_of_mem _ hq)) _ hnew' r
    rw [Tree.widthInner.eq_def] at hr
    cases mc with
    | none => exact ih' hr
    | some m =>
      dsimp only at hr
      split at hr
      · simp at hr
      · exact ih' hr

theorem widthSearch_eq (h : t.Safe func func' n P) (mc : Option ℤ) (steps : ℕ) : ∀ (cur : List (CPath d S)) (k : ℕ), k + steps ≤ n + 1 →
    (∀ p ∈ cur, P p ∧ p.length = k) → t.widthSearch func mc steps cur = some (t'.widthSearch func' mc steps cur) ∧
      ∀ p ∈ t'.widthSearch func' mc steps cur, P p := by
  induction steps with
  | zero =>
    intro cur k _ hP
    rw [widthSearch, Tree.widthSearch]
    exact ⟨rfl, fun p hp => (hP p hp).1⟩
  | succ steps ih =>
    intro cur k hk hP
    rw [widthSearch, Tree.widthSearch, widthInner_eq hdiv h mc cur fun p hp => ⟨(hP p hp).1, by rw [(hP p hp).2]; omega⟩]
    cases hr : t'.widthInner func' mc [] cur with
    | none => exact ⟨rfl, fun p hp => (hP p hp).1⟩
    | some new => exact ih new (k + 1) (by omega) (widthInner_mem hdiv h mc cur k (by omega) hP [] (by simp) new hr)

variable [DecidableEq S]

omit hdiv in
theorem mapM_eq {α β : Type} {f : α → Option β} {g : α → β} {l : List α} (h : ∀ a ∈ l, f a = some (g a)) : l.mapM f = some (l.map g) := by
  induction l with
  | nil => rfl
  | cons a l ih =>
    rw [List.mapM_cons, h a List.mem_cons_self, ih fun b hb => h b (List.mem_cons_of_mem _ hb)]
    rfl

/-- `grow` never meets an exception, if the functions do not raise at the paths that can be built (other than complete ones). -/
theorem grow_eq (hash : Finset (Cube d) × Node d S → ℤ) {start finish : List (Node d S)} (sm fm : Option ℤ) {Q : CPath d S → Prop}
    {prev : NextFuncE d S} {prev' : NextFunc d S} (hprev : t.prevFunc = some prev) (hprev' : t'.prevFunc = some prev')
    (hN : 2 ≤ t.div ^ d) (hs : ∀ a ∈ start, P (Tree.initPath a)) (hf : ∀ a ∈ finish, Q (Tree.initPath a))
    (h1 : t.Safe t.nextFunc t'.nextFunc (t.div ^ d - 1) P) (h2 : t.Safe prev prev' (t.div ^ d - 1) Q) :
    t.grow hash start finish sm fm = t'.grow hash start finish sm fm := by
  have hlen : ∀ (l : List (Node d S)) (R : CPath d S → Prop), (∀ a ∈ l, R (Tree.initPath a)) → ∀ p ∈ l.map Tree.initPath, R p ∧ p.length = 1 := by
    intro l R h p hp
    obtain ⟨a, ha, rfl⟩ := List.mem_map.1 hp
    exact ⟨h a ha, rfl⟩
  have hall : t'.allCubes = t.toTree.allCubes := by unfold Tree.allCubes toTree; rw [hdiv]
  obtain ⟨s1, s2⟩ := widthSearch_eq hdiv h1 sm (t.div ^ d / 2 - 1) (start.map Tree.initPath) 1 (by omega) (hlen _ _ hs)
  have f1 : t.finishPaths finish fm (t.div ^ d / 2 - 1) = t'.finishPaths finish fm (t.div ^ d / 2 - 1) := by
    unfold finishPaths Tree.finishPaths
    cases fm with
    | none => rfl
    | some m =>
      dsimp only
      rw [hprev, hprev']
      exact (widthSearch_eq hdiv h2 (some m) (t.div ^ d / 2 - 1) (finish.map Tree.initPath) 1 (by omega) (hlen _ _ hf)).1
  unfold grow Tree.grow
  dsimp only
  rw [hdiv, hall, s1, f1]
  cases hsp : t'.widthSearch t'.nextFunc sm (t.div ^ d / 2 - 1) (start.map Tree.initPath) with
  | nil => rfl
  | cons a l =>
    rw [hsp] at s2
    cases hfp : t'.finishPaths finish fm (t.div ^ d / 2 - 1) with
    | none => rfl
    | some fp =>
      cases fp with
      | nil => rfl
      | cons p0 fp =>
        have hp0 := length_pos p0
        simp only [Option.bind_eq_bind, Option.bind_some, Option.map_some]
        rw [mapM_eq (g := fun (paths : List (CPath d S)) => (t'.depthSearch (paths.take 1) (t.div ^ d - p0.length + 1)).flatMap fun mid =>
          ((((Dict.get? (mid.futureHash hash) (Dict.groupBy (CPath.complementFutureHash hash t.toTree.allCubes) (p0 :: fp))).getD []).filter
            fun path => Tree.checkGlue mid path)).flatMap fun fin => paths.map fun s => Tree.gluePaths s mid fin)]
        · rw [Option.bind_some, List.flatMap_def]
          rfl
        · intro paths hpaths
          unfold depthSearch Tree.depthSearch
          rw [depthLoop_eq hdiv h1 _ (by omega)]
          · rfl
          · intro p hp
            rw [List.mem_reverse] at hp
            obtain ⟨p', _, rfl⟩ := (Tree.mem_groups hash _ _).1 hpaths
            exact s2 p (List.mem_filter.1 (List.mem_of_mem_take hp)).1

end TreeE
end CubeTree
end Peano
