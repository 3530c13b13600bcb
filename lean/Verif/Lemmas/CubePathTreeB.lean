import Verif.Lemmas.CubePathTree

/-! Exactness of `grow` (C38). -/
namespace Peano
namespace CubeTree
variable {d : ℕ} {S : Type}

/-- nodes in the direction of the path -/
structure OkF (N : ℕ) (func : NextFunc d S) (l : List (Node d S)) : Prop where
  chain : l.IsChain fun a b => Follows func a b
  nodup : (l.map Prod.fst).Nodup
  grid : ∀ n ∈ l, InGrid N n.1

theorem ok_reverse {N : ℕ} {func : NextFunc d S} {l : List (Node d S)} : Ok N func l.reverse ↔ OkF N func l := by
  constructor
  · rintro ⟨h1, h2, h3⟩
    rw [List.isChain_reverse] at h1
    rw [List.map_reverse, List.nodup_reverse] at h2
    exact ⟨h1, h2, fun n hn => h3 n (List.mem_reverse.2 hn)⟩
  · rintro ⟨h1, h2, h3⟩
    refine ⟨?_, ?_, fun n hn => h3 n (List.mem_reverse.1 hn)⟩
    · rw [List.isChain_reverse]; exact h1
    · rw [List.map_reverse, List.nodup_reverse]; exact h2

theorem okF_reverse {N : ℕ} {func : NextFunc d S} {l : List (Node d S)} : OkF N func l.reverse ↔ Ok N func l := by
  rw [← ok_reverse, List.reverse_reverse]

theorem okF_take {N : ℕ} {func : NextFunc d S} {l : List (Node d S)} (h : OkF N func l) (n : ℕ) : OkF N func (l.take n) :=
  ⟨h.chain.take n, h.nodup.sublist ((List.take_sublist n l).map _), fun x hx => h.grid x (List.mem_of_mem_take hx)⟩

theorem okF_drop {N : ℕ} {func : NextFunc d S} {l : List (Node d S)} (h : OkF N func l) (n : ℕ) : OkF N func (l.drop n) :=
  ⟨h.chain.drop n, h.nodup.sublist ((List.drop_sublist n l).map _), fun x hx => h.grid x (List.mem_of_mem_drop hx)⟩

theorem isChain_getElem? {R : Node d S → Node d S → Prop} {l : List (Node d S)} :
    l.IsChain R ↔ ∀ (i : ℕ) (a b : Node d S), l[i]? = some a → l[i + 1]? = some b → R a b := by
  rw [List.isChain_iff_getElem]
  constructor
  · intro h i a b ha hb
    obtain ⟨h1, rfl⟩ := List.getElem?_eq_some_iff.1 ha
    obtain ⟨h2, rfl⟩ := List.getElem?_eq_some_iff.1 hb
    exact h i h2
  · intro h i hi
    exact h i _ _ (List.getElem?_eq_getElem _) (List.getElem?_eq_getElem _)

theorem Fills.okF {N : ℕ} {func : NextFunc d S} {start finish l : List (Node d S)} (h : Fills N func start finish l) : OkF N func l :=
  ⟨isChain_getElem?.2 h.follows, h.once, fun _ hn => (h.all _).1 (List.mem_map_of_mem hn)⟩

namespace Tree
variable (t : Tree d S)

theorem length_of_fills {func : NextFunc d S} {start finish l : List (Node d S)} (h : Fills t.div func start finish l) :
    l.length = t.div ^ d := by
  rw [← card_allCubes t, ← List.length_map Prod.fst, ← List.toFinset_card_of_nodup h.once]
  congr 1
  ext c
  rw [List.mem_toFinset, h.all, mem_allCubes]

theorem fills_of_okF {func : NextFunc d S} {start finish l : List (Node d S)} (h : OkF t.div func l) (hl : l.length = t.div ^ d)
    (hs : ∃ n ∈ start, l.head? = some n) (hf : ∃ n ∈ finish, l.getLast? = some n) : Fills t.div func start finish l := by
  refine ⟨hs, hf, isChain_getElem?.1 h.chain, h.nodup, fun c => ?_⟩
  have hsub : (l.map Prod.fst).toFinset ⊆ t.allCubes := by
    intro c hc
    rw [List.mem_toFinset, List.mem_map] at hc
    obtain ⟨n, hn, rfl⟩ := hc
    rw [mem_allCubes]
    exact h.grid n hn
  have : (l.map Prod.fst).toFinset = t.allCubes := by
    refine Finset.eq_of_subset_of_card_le hsub ?_
    rw [card_allCubes, List.toFinset_card_of_nodup h.nodup, List.length_map, hl]
  rw [← List.mem_toFinset, this, mem_allCubes]

theorem support_eq_insert (p : CPath d S) : p.support = insert p.head.1 p.tailSupport := by
  unfold CPath.tailSupport
  rw [Finset.insert_erase]
  simp [CPath.support, CPath.nodes]

theorem future_support {s r : CPath d S} (h : s.future = r.future) : s.head = r.head ∧ s.support = r.support := by
  unfold CPath.future at h
  rw [Prod.mk.injEq] at h
  refine ⟨h.2, ?_⟩
  rw [support_eq_insert, support_eq_insert, h.1, h.2]

theorem ok_swap {N : ℕ} {func : NextFunc d S} {s r : CPath d S} (h : s.future = r.future) (hs : Ok N func s.nodes)
    {e : List (Node d S)} (hr : Ok N func (e ++ r.nodes)) : Ok N func (e ++ s.nodes) := by
  obtain ⟨h1, h2⟩ := future_support h
  have hmem : ∀ c, c ∈ s.nodes.map Prod.fst ↔ c ∈ r.nodes.map Prod.fst := by
    intro c
    have := congrArg (fun f : Finset (Cube d) => c ∈ f) h2
    simpa only [CPath.support, List.mem_toFinset, eq_iff_iff] using this
  obtain ⟨c1, c2, c3⟩ := hr
  refine ⟨?_, ?_, ?_⟩
  · rw [List.isChain_append] at c1 ⊢
    refine ⟨c1.1, hs.chain, ?_⟩
    intro x hx y hy
    refine c1.2.2 x hx y ?_
    simp only [CPath.nodes, List.head?_cons, Option.mem_some_iff] at hy ⊢
    rw [← h1]; exact hy
  · rw [List.map_append, List.nodup_append] at c2 ⊢
    refine ⟨c2.1, hs.nodup, ?_⟩
    intro a ha b hb
    exact c2.2.2 a ha b ((hmem b).1 hb)
  · intro n hn
    rcases List.mem_append.1 hn with hn | hn
    · exact c3 n (List.mem_append_left _ hn)
    · exact hs.grid n hn

theorem glue_eq {s r mid fin : CPath d S} {e : List (Node d S)} (hm : mid.nodes = e ++ r.nodes) (hl : r.length = s.length) :
    gluePaths s mid fin = (e ++ s.nodes).reverse ++ fin.tail := by
  unfold gluePaths CPath.flat
  rw [hm, List.reverse_append, List.reverse_append]
  have : r.nodes.reverse.length = s.length := by rw [List.length_reverse]; exact hl
  rw [← this, List.drop_left, List.reverse_reverse]
  simp [CPath.nodes]

theorem parts {s fin : CPath d S} {e : List (Node d S)} {L : List (Node d S)} (h : L = (e ++ s.nodes).reverse ++ fin.tail) :
    L.take s.length = s.nodes.reverse ∧ (L.drop s.length).take e.length = e.reverse ∧ L.drop (s.length + e.length) = fin.tail := by
  have hs : s.nodes.reverse.length = s.length := by rw [List.length_reverse]; rfl
  have he : e.reverse.length = e.length := by simp
  have h' : L = s.nodes.reverse ++ (e.reverse ++ fin.tail) := by rw [h]; simp
  refine ⟨?_, ?_, ?_⟩
  · rw [h', ← hs, List.take_left]
  · rw [h', ← hs, List.drop_left, ← he, List.take_left]
  · rw [← List.drop_drop, h', ← hs, List.drop_left, ← he, List.drop_left]

variable [DecidableEq S]

/-- the nested loops of `grow` -/
def core (hash : Finset (Cube d) × Node d S → ℤ) (sp fp : List (CPath d S)) (midLength : ℕ) : List (List (Node d S)) :=
  (groupPathsByFuture hash sp).flatMap fun paths =>
    (t.depthSearch (paths.take 1) midLength).flatMap fun mid =>
      ((((Dict.get? (mid.futureHash hash) (Dict.groupBy (CPath.complementFutureHash hash t.allCubes) fp)).getD []).filter
        fun path => checkGlue mid path)).flatMap fun fin =>
          paths.map fun s => gluePaths s mid fin

theorem mem_fin {hash : Finset (Cube d) × Node d S → ℤ} {fp : List (CPath d S)} {mid fin : CPath d S} :
    fin ∈ (((Dict.get? (mid.futureHash hash) (Dict.groupBy (CPath.complementFutureHash hash t.allCubes) fp)).getD []).filter
        fun path => checkGlue mid path) ↔
      fin ∈ fp ∧ fin.complementFutureHash hash t.allCubes = mid.futureHash hash ∧ mid.head = fin.head ∧
        fin.tailSupport ∩ mid.tailSupport = ∅ := by
  rw [Dict.get?_groupBy]
  simp only [List.mem_filter, checkGlue, decide_eq_true_eq, Bool.and_eq_true]
  tauto

theorem group_head {hash : Finset (Cube d) × Node d S → ℤ} {sp g : List (CPath d S)} (hg : g ∈ groupPathsByFuture hash sp) :
    ∃ r ∈ sp, g.take 1 = [r] ∧ g = sp.filter fun q => q.future = r.future := by
  rw [mem_groups] at hg
  obtain ⟨p, hp, hg⟩ := hg
  have hne : g ≠ [] := by rw [hg]; exact List.ne_nil_of_mem (List.mem_filter.2 ⟨hp, by simp⟩)
  obtain ⟨r, g', rfl⟩ := List.exists_cons_of_ne_nil hne
  have hr : r ∈ sp.filter fun q => q.future = p.future := by rw [← hg]; simp
  simp only [List.mem_filter, decide_eq_true_eq] at hr
  refine ⟨r, hr.1, rfl, ?_⟩
  rw [hg, hr.2]

section core
variable {t} {hash : Finset (Cube d) × Node d S → ℤ} {sp fp : List (CPath d S)} {start finish : List (Node d S)} {a b : ℕ}
  (hsp : ∀ q, q ∈ sp ↔ q.length = a ∧ Ok t.div t.nextFunc q.nodes ∧ ∃ n ∈ start, q.nodes.getLast? = some n)
  (ha : 1 ≤ a) (hb : 1 ≤ b) (hab : a + b ≤ t.div ^ d)

include hsp ha hb hab

theorem mem_core {P : Node d S → Prop}
    (hfp : ∀ q, q ∈ fp ↔ q.length = b ∧ OkF t.div t.nextFunc q.nodes ∧ (∀ n ∈ q.nodes, P n) ∧ ∃ n ∈ finish, q.nodes.getLast? = some n)
    (hP : ∀ L, Fills t.div t.nextFunc start finish L → ∀ n ∈ L, P n) {L : List (Node d S)} : L ∈ t.core hash sp fp (t.div ^ d - b + 1) ↔ Fills t.div t.nextFunc start finish L := by
  set M := t.div ^ d with hM
  unfold core
  simp only [List.mem_flatMap, List.mem_map]
  constructor
  · rintro ⟨g, hg, mid, hmid, fin, hfin, s, hs, rfl⟩
    obtain ⟨r, hr, hg1, hg2⟩ := group_head hg
    rw [hg1] at hmid
    rw [hg2] at hs
    simp only [List.mem_filter, decide_eq_true_eq] at hs
    obtain ⟨hs, hsr⟩ := hs
    obtain ⟨hr1, hr2, hr3⟩ := (hsp r).1 hr
    obtain ⟨hs1, hs2, hs3⟩ := (hsp s).1 hs
    rw [mem_depthSearch t hr2 (by omega)] at hmid
    obtain ⟨e, he, hmid, hok⟩ := hmid
    rw [mem_fin] at hfin
    obtain ⟨hfin, _, hhead, hdisj⟩ := hfin
    obtain ⟨hf1, hf2, _, hf3⟩ := (hfp fin).1 hfin
    rw [glue_eq hmid (by rw [hr1, hs1])]
    rw [hmid] at hok
    have hW := ok_swap hsr hs2 hok
    obtain ⟨hfs1, hfs2⟩ := future_support hsr
    set W := e ++ s.nodes with hWdef
    -- head of W
    have hWh : ∃ W', W = fin.head :: W' := by
      rw [← hhead]
      have hn : mid.nodes = mid.head :: mid.tail := rfl
      rcases e with _ | ⟨n, e⟩
      · rw [List.length_nil] at he
        omega
      · rw [hn, List.cons_append, List.cons.injEq] at hmid
        rw [hWdef, hmid.1]
        exact ⟨_, rfl⟩
    obtain ⟨W', hW'⟩ := hWh
    have hsupp : ∀ c, c ∈ W.map Prod.fst ↔ c ∈ mid.support := by
      intro c
      unfold CPath.support
      rw [List.mem_toFinset, hmid, hWdef, List.map_append, List.map_append, List.mem_append, List.mem_append]
      have := congrArg (fun f : Finset (Cube d) => c ∈ f) hfs2
      simp only [CPath.support, List.mem_toFinset, eq_iff_iff] at this
      rw [this]
    have hfn : fin.nodes = fin.head :: fin.tail := rfl
    have hL2 : W.reverse ++ fin.tail = W'.reverse ++ fin.nodes := by rw [hW', hfn]; simp
    refine fills_of_okF t ⟨?_, ?_, ?_⟩ ?_ ?_ ?_
    · rw [List.isChain_append]
      refine ⟨(okF_reverse.2 hW).chain, ?_, ?_⟩
      · have := hf2.chain
        rw [hfn] at this
        exact this.tail
      · intro x hx y hy
        rw [hW'] at hx
        simp only [List.reverse_cons, List.getLast?_append, List.getLast?_singleton, Option.some_or, Option.mem_some_iff] at hx
        subst hx
        have := hf2.chain
        rw [hfn, List.isChain_cons] at this
        exact this.1 y hy
    · rw [List.map_append, List.nodup_append]
      have hfnd := hf2.nodup
      rw [hfn, List.map_cons, List.nodup_cons] at hfnd
      refine ⟨(okF_reverse.2 hW).nodup, hfnd.2, ?_⟩
      rintro c hc c' hc' rfl
      rw [List.map_reverse, List.mem_reverse, hsupp] at hc
      have hne : c ≠ fin.head.1 := by rintro rfl; exact hfnd.1 hc'
      have h1 : c ∈ fin.tailSupport := by
        unfold CPath.tailSupport CPath.support
        rw [Finset.mem_erase, List.mem_toFinset, hfn, List.map_cons]
        exact ⟨hne, List.mem_cons_of_mem _ hc'⟩
      have h2 : c ∈ mid.tailSupport := by
        unfold CPath.tailSupport
        rw [Finset.mem_erase, hhead]
        exact ⟨hne, hc⟩
      have : c ∈ fin.tailSupport ∩ mid.tailSupport := Finset.mem_inter.2 ⟨h1, h2⟩
      rw [hdisj] at this
      simp at this
    · intro n hn
      rcases List.mem_append.1 hn with hn | hn
      · exact hW.grid n (List.mem_reverse.1 hn)
      · exact hf2.grid n (by rw [hfn]; exact List.mem_cons_of_mem _ hn)
    · rw [List.length_append, List.length_reverse, hWdef, List.length_append, he]
      have h1 : s.nodes.length = a := hs1
      have h2 : fin.tail.length + 1 = b := by rw [← hf1]; rfl
      omega
    · obtain ⟨n, hn, hn'⟩ := hs3
      refine ⟨n, hn, ?_⟩
      rw [hWdef, List.reverse_append, List.append_assoc, List.head?_append, List.head?_reverse, hn']
      rfl
    · obtain ⟨n, hn, hn'⟩ := hf3
      refine ⟨n, hn, ?_⟩
      rw [hL2, List.getLast?_append, hn']
      rfl
  · intro hF
    have hL := length_of_fills t hF
    have hokF := hF.okF
    have hne : L ≠ [] := by rintro rfl; simp at hL; omega
    obtain ⟨s, hs⟩ := exists_path (l := (L.take a).reverse) (by
      rw [ne_eq, List.reverse_eq_nil_iff, List.take_eq_nil_iff]; push Not; exact ⟨by omega, hne⟩)
    obtain ⟨fin, hfin⟩ := exists_path (l := L.drop (M - b)) (by
      rw [ne_eq, List.drop_eq_nil_iff]; omega)
    have hslen : s.length = a := by
      unfold CPath.length; rw [hs]; simp; omega
    have hflen : fin.length = b := by
      unfold CPath.length; rw [hfin]; simp; omega
    have hssp : s ∈ sp := by
      rw [hsp]
      refine ⟨hslen, by rw [hs]; exact ok_reverse.2 (okF_take hokF a), ?_⟩
      obtain ⟨n, hn, hn'⟩ := hF.start
      refine ⟨n, hn, ?_⟩
      rw [hs, List.getLast?_reverse, List.head?_take, if_neg (by omega), hn']
    have hfinfp : fin ∈ fp := by
      rw [hfp]
      refine ⟨hflen, by rw [hfin]; exact okF_drop hokF _, fun n hn => ?_, ?_⟩
      · rw [hfin] at hn
        exact hP L hF n (List.mem_of_mem_drop hn)
      obtain ⟨n, hn, hn'⟩ := hF.finish
      refine ⟨n, hn, ?_⟩
      rw [hfin, List.getLast?_drop, if_neg (by omega), hn']
    set g := sp.filter fun q => q.future = s.future with hg
    have hgg : g ∈ groupPathsByFuture hash sp := (mem_groups hash sp g).2 ⟨s, hssp, rfl⟩
    have hsg : s ∈ g := List.mem_filter.2 ⟨hssp, by simp⟩
    obtain ⟨r, hr, hg1, hg2⟩ := group_head hgg
    have hsr : s.future = r.future := by
      rw [hg2] at hsg
      simpa using (List.mem_filter.1 hsg).2
    obtain ⟨hr1, hr2, hr3⟩ := (hsp r).1 hr
    set e := ((L.drop a).take (M - b + 1 - a)).reverse with he
    have helen : e.length = M - b + 1 - a := by rw [he]; simp; omega
    have hW : e ++ s.nodes = (L.take (M - b + 1)).reverse := by
      rw [he, hs, ← List.reverse_append]
      congr 1
      have : M - b + 1 = a + (M - b + 1 - a) := by omega
      conv_rhs => rw [this, List.take_add]
    have hWok : Ok t.div t.nextFunc (e ++ s.nodes) := by rw [hW]; exact ok_reverse.2 (okF_take hokF _)
    obtain ⟨mid, hmid⟩ := exists_path (l := e ++ r.nodes) (by simp [CPath.nodes])
    have hmok : Ok t.div t.nextFunc mid.nodes := by rw [hmid]; exact ok_swap hsr.symm hr2 hWok
    obtain ⟨hfs1, hfs2⟩ := future_support hsr
    have hsupp : ∀ c, c ∈ mid.support ↔ c ∈ (L.take (M - b + 1)).map Prod.fst := by
      intro c
      have := congrArg (fun f : Finset (Cube d) => c ∈ f) hfs2
      simp only [CPath.support, List.mem_toFinset, eq_iff_iff] at this
      unfold CPath.support
      rw [List.mem_toFinset, hmid, List.map_append, List.mem_append, ← this, ← List.mem_append, ← List.map_append, hW, List.map_reverse,
        List.mem_reverse]
    have hidx : M - b < L.length := by omega
    have hdrop : L.drop (M - b) = L[M - b] :: L.drop (M - b + 1) := List.drop_eq_getElem_cons hidx
    have hfh : fin.head = L[M - b] ∧ fin.tail = L.drop (M - b + 1) := by
      have : fin.head :: fin.tail = L[M - b] :: L.drop (M - b + 1) := by rw [← hdrop, ← hfin]; rfl
      exact List.cons.inj this
    have htake : L.take (M - b + 1) = L.take (M - b) ++ [L[M - b]] := by rw [List.take_succ_eq_append_getElem hidx]
    have hmh : mid.head = L[M - b] := by
      have hne' : e ≠ [] := by rintro h; rw [h] at helen; simp at helen; omega
      obtain ⟨n, e', hne'⟩ := List.exists_cons_of_ne_nil hne'
      have h1 : mid.head = n := by
        have : mid.head :: mid.tail = (n :: e') ++ r.nodes := by rw [← hne', ← hmid]; rfl
        exact (List.cons.inj this).1
      have h2 : (L.take (M - b + 1)).reverse = L[M - b] :: (L.take (M - b)).reverse := by rw [htake]; simp
      rw [← hW, hne', List.cons_append] at h2
      rw [h1, (List.cons.inj h2).1]
    have hnd : ((L.take (M - b)).map Prod.fst ++ (L.drop (M - b)).map Prod.fst).Nodup := by
      rw [← List.map_append, List.take_append_drop]; exact hokF.nodup
    rw [List.nodup_append] at hnd
    have hmts : ∀ c, c ∈ mid.tailSupport ↔ c ∈ (L.take (M - b)).map Prod.fst := by
      intro c
      unfold CPath.tailSupport
      rw [Finset.mem_erase, hsupp, htake, hmh, List.map_append, List.mem_append]
      simp only [List.map_cons, List.map_nil, List.mem_singleton]
      constructor
      · rintro ⟨h1, h2 | h2⟩
        · exact h2
        · exact absurd h2 h1
      · intro h
        refine ⟨?_, Or.inl h⟩
        rintro rfl
        exact hnd.2.2 _ h _ (by rw [hdrop, List.map_cons]; exact List.mem_cons_self) rfl
    have hfsupp : ∀ c, c ∈ fin.support ↔ c ∈ (L.drop (M - b)).map Prod.fst := by
      intro c
      unfold CPath.support
      rw [List.mem_toFinset, hfin]
    refine ⟨g, hgg, mid, ?_, fin, ?_, s, hsg, ?_⟩
    · rw [hg1, mem_depthSearch t hr2 (by omega)]
      exact ⟨e, by rw [helen, hr1], hmid, hmok⟩
    · rw [mem_fin]
      refine ⟨hfinfp, ?_, by rw [hmh, hfh.1], ?_⟩
      · unfold CPath.complementFutureHash CPath.futureHash CPath.future
        congr 1
        rw [Prod.mk.injEq]
        refine ⟨?_, by rw [hmh, hfh.1]⟩
        ext c
        rw [Finset.mem_sdiff, hmts, hfsupp, mem_allCubes, ← hF.all]
        have : L.map Prod.fst = (L.take (M - b)).map Prod.fst ++ (L.drop (M - b)).map Prod.fst := by
          rw [← List.map_append, List.take_append_drop]
        rw [this, List.mem_append]
        constructor
        · rintro ⟨h1 | h1, h2⟩
          · exact h1
          · exact absurd h1 h2
        · intro h
          exact ⟨Or.inl h, fun h' => hnd.2.2 _ h _ h' rfl⟩
      · rw [Finset.eq_empty_iff_forall_notMem]
        intro c hc
        rw [Finset.mem_inter, hmts] at hc
        have : c ∈ fin.support := Finset.mem_of_mem_erase hc.1
        rw [hfsupp] at this
        exact hnd.2.2 _ hc.2 _ this rfl
    · rw [glue_eq hmid (by rw [hr1, hslen]), hW, List.reverse_reverse, hfh.2, List.take_append_drop]

theorem nodup_core (hspn : sp.Nodup) (hfpn : fp.Nodup) (hf : ∀ c s, (t.nextFunc c s).Nodup) :
    (t.core hash sp fp (t.div ^ d - b + 1)).Nodup := by
  set M := t.div ^ d with hM
  -- data of an element
  have key : ∀ g ∈ groupPathsByFuture hash sp, ∀ mid ∈ t.depthSearch (g.take 1) (M - b + 1), ∀ s ∈ g, ∀ fin : CPath d S,
      ∃ e r, g.take 1 = [r] ∧ mid.nodes = e ++ r.nodes ∧ e.length = M - b + 1 - a ∧ s.length = a ∧
        gluePaths s mid fin = (e ++ s.nodes).reverse ++ fin.tail := by
    intro g hg mid hmid s hs fin
    obtain ⟨r, hr, hg1, hg2⟩ := group_head hg
    rw [hg1] at hmid
    rw [hg2] at hs
    simp only [List.mem_filter, decide_eq_true_eq] at hs
    obtain ⟨hr1, hr2, hr3⟩ := (hsp r).1 hr
    obtain ⟨hs1, hs2, hs3⟩ := (hsp s).1 hs.1
    rw [mem_depthSearch t hr2 (by omega)] at hmid
    obtain ⟨e, he, hmid, hok⟩ := hmid
    exact ⟨e, r, hg1, hmid, by rw [he, hr1], hs1, glue_eq hmid (by rw [hr1, hs1])⟩
  unfold core
  rw [List.nodup_flatMap]
  constructor
  · intro g hg
    obtain ⟨r, hr, hg1, hg2⟩ := group_head hg
    obtain ⟨hr1, hr2, hr3⟩ := (hsp r).1 hr
    have hgn : g.Nodup := by rw [hg2]; exact hspn.filter _
    rw [List.nodup_flatMap]
    constructor
    · intro mid hmid
      rw [List.nodup_flatMap]
      constructor
      · intro fin hfin
        refine List.Nodup.map_on ?_ hgn
        intro s hs s' hs' h
        obtain ⟨e, _, _, _, _, hsl, h1⟩ := key g hg mid hmid s hs fin
        obtain ⟨e', _, _, _, _, hsl', h1'⟩ := key g hg mid hmid s' hs' fin
        have p1 := (parts h1).1
        have p2 := (parts h1').1
        rw [hsl, h, ← hsl', p2] at p1
        exact (CPath.nodes_injective (List.reverse_injective p1)).symm
      · have hfn : (((Dict.get? (mid.futureHash hash) (Dict.groupBy (CPath.complementFutureHash hash t.allCubes) fp)).getD []).filter
            fun path => checkGlue mid path).Nodup := by
          rw [Dict.get?_groupBy]
          exact (hfpn.filter _).filter _
        refine List.Pairwise.imp_of_mem ?_ hfn
        intro fin fin' hfin hfin' hne L hL hL'
        rw [List.mem_map] at hL hL'
        obtain ⟨s, hs, rfl⟩ := hL
        obtain ⟨s', hs', h⟩ := hL'
        obtain ⟨e, _, _, _, hel, hsl, h1⟩ := key g hg mid hmid s hs fin
        obtain ⟨e', _, _, _, hel', hsl', h1'⟩ := key g hg mid hmid s' hs' fin'
        have p1 := (parts h1).2.2
        have p2 := (parts h1').2.2
        rw [hsl, hel, ← h, ← hel', ← hsl', p2] at p1
        rw [mem_fin] at hfin hfin'
        refine hne ?_
        apply CPath.nodes_injective
        rw [CPath.nodes, CPath.nodes, ← hfin.2.2.1, ← hfin'.2.2.1, p1]
    · have hmn : (t.depthSearch (g.take 1) (M - b + 1)).Nodup := by
        rw [hg1]
        exact nodup_depthSearch t hf hr2
      refine List.Pairwise.imp_of_mem ?_ hmn
      intro mid mid' hmid hmid' hne L hL hL'
      rw [List.mem_flatMap] at hL hL'
      obtain ⟨fin, _, hL⟩ := hL
      obtain ⟨fin', _, hL'⟩ := hL'
      rw [List.mem_map] at hL hL'
      obtain ⟨s, hs, rfl⟩ := hL
      obtain ⟨s', hs', h⟩ := hL'
      obtain ⟨e, r1, hr1', hm, hel, hsl, h1⟩ := key g hg mid hmid s hs fin
      obtain ⟨e', r2, hr2', hm', hel', hsl', h1'⟩ := key g hg mid' hmid' s' hs' fin'
      have p1 := (parts h1).2.1
      have p2 := (parts h1').2.1
      rw [hsl, hel, ← h, ← hel', ← hsl', p2] at p1
      have hee := List.reverse_injective p1
      have hrr : r1 = r2 := by
        rw [hr1'] at hr2'
        exact List.cons.inj hr2' |>.1
      refine hne ?_
      apply CPath.nodes_injective
      rw [hm, hm', hee, hrr]
  · refine List.Pairwise.imp_of_mem ?_ (groups_pairwise hash sp)
    intro g g' hg hg' hne L hL hL'
    rw [List.mem_flatMap] at hL hL'
    obtain ⟨mid, hmid, hL⟩ := hL
    obtain ⟨mid', hmid', hL'⟩ := hL'
    rw [List.mem_flatMap] at hL hL'
    obtain ⟨fin, _, hL⟩ := hL
    obtain ⟨fin', _, hL'⟩ := hL'
    rw [List.mem_map] at hL hL'
    obtain ⟨s, hs, rfl⟩ := hL
    obtain ⟨s', hs', h⟩ := hL'
    obtain ⟨e, _, _, _, _, hsl, h1⟩ := key g hg mid hmid s hs fin
    obtain ⟨e', _, _, _, _, hsl', h1'⟩ := key g' hg' mid' hmid' s' hs' fin'
    have p1 := (parts h1).1
    have p2 := (parts h1').1
    rw [hsl, ← h, ← hsl', p2] at p1
    exact hne s hs s' hs' (CPath.nodes_injective (List.reverse_injective p1)).symm

end core

theorem mem_initPaths {start : List (Node d S)} {func : NextFunc d S} (hg : ∀ n ∈ start, InGrid t.div n.1) (k : ℕ) {q : CPath d S} :
    q ∈ t.iter func k (start.map initPath) ↔ q.length = k + 1 ∧ Ok t.div func q.nodes ∧ ∃ n ∈ start, q.nodes.getLast? = some n := by
  rw [mem_iter]
  · constructor
    · rintro ⟨p, hp, e, he, hq, hok⟩
      obtain ⟨n, hn, rfl⟩ := List.mem_map.1 hp
      have hq' : q.nodes = e ++ [n] := hq
      refine ⟨?_, hok, n, hn, ?_⟩
      · unfold CPath.length; rw [hq']; simp [he]
      · rw [hq']; simp
    · rintro ⟨h1, hok, n, hn, hl⟩
      refine ⟨initPath n, List.mem_map_of_mem hn, q.nodes.dropLast, ?_, ?_, hok⟩
      · have : q.nodes.length = k + 1 := h1
        rw [List.length_dropLast]; omega
      · obtain ⟨l, hl'⟩ := List.getLast?_eq_some_iff.1 hl
        rw [hl']
        simp [initPath, CPath.nodes]
  · intro p hp
    obtain ⟨n, hn, rfl⟩ := List.mem_map.1 hp
    refine ⟨by simp [initPath, CPath.nodes], by simp [initPath, CPath.nodes], ?_⟩
    intro m hm
    have : m = n := by simpa [initPath, CPath.nodes] using hm
    rw [this]; exact hg n hn

theorem closed_all {N : ℕ} {P : Node d S → Prop} {func : NextFunc d S} (hc : Closed N P func) {l : List (Node d S)} (h : OkF N func l)
    (h0 : ∀ n, l.head? = some n → P n) : ∀ n ∈ l, P n := by
  have : ∀ (i : ℕ) (n : Node d S), l[i]? = some n → P n := by
    intro i
    induction i with
    | zero => intro n hn; exact h0 n (by rw [List.head?_eq_getElem?]; exact hn)
    | succ i ih =>
      intro n hn
      obtain ⟨hi, _⟩ := List.getElem?_eq_some_iff.1 hn
      have hp : l[i]? = some l[i] := List.getElem?_eq_getElem _
      exact hc _ _ (h.grid _ (List.getElem_mem _)) (h.grid n (List.mem_of_getElem? hn)) (ih _ hp) (isChain_getElem?.1 h.chain i _ _ hp hn)
  intro n hn
  obtain ⟨i, hi⟩ := List.mem_iff_getElem?.1 hn
  exact this i n hi

/-- as `IsReverse`, except for continuations from one cube -/
def IsReverseBut (N : ℕ) (P : Node d S → Prop) (c : Cube d) (next prev : NextFunc d S) : Prop :=
  ∀ a b : Node d S, InGrid N a.1 → InGrid N b.1 → P a → P b → a.1 ≠ c → (Follows next a b ↔ Follows prev b a)

theorem ok_prev_iff {N : ℕ} {P : Node d S → Prop} {next prev : NextFunc d S} {n : Node d S} (h : IsReverseBut N P n.1 next prev)
    {l : List (Node d S)} (hl : l.getLast? = some n) (hP : ∀ n ∈ l, P n) : Ok N prev l ↔ OkF N next l := by
  have hlast : (l.map Prod.fst).Nodup → ∀ (i : ℕ) (a b : Node d S), l[i]? = some a → l[i + 1]? = some b → a.1 ≠ n.1 := by
    intro hn i a b ha hb hab
    obtain ⟨hi, ha'⟩ := List.getElem?_eq_some_iff.1 ha
    obtain ⟨hi', _⟩ := List.getElem?_eq_some_iff.1 hb
    rw [List.getLast?_eq_getElem?] at hl
    obtain ⟨hj, hl'⟩ := List.getElem?_eq_some_iff.1 hl
    have := (List.nodup_iff_injective_getElem.1 hn) (a₁ := ⟨i, by simpa using hi⟩) (a₂ := ⟨l.length - 1, by simpa using hj⟩)
      (by simp [ha', hl', hab])
    simp only [Fin.mk.injEq] at this
    omega
  constructor
  · rintro ⟨h1, h2, h3⟩
    refine ⟨?_, h2, h3⟩
    rw [isChain_getElem?] at h1 ⊢
    intro i a b ha hb
    have ha' := List.mem_of_getElem? ha
    have hb' := List.mem_of_getElem? hb
    rw [h a b (h3 a ha') (h3 b hb') (hP a ha') (hP b hb') (hlast h2 i a b ha hb)]
    exact h1 i a b ha hb
  · rintro ⟨h1, h2, h3⟩
    refine ⟨?_, h2, h3⟩
    rw [isChain_getElem?] at h1 ⊢
    intro i a b ha hb
    have ha' := List.mem_of_getElem? ha
    have hb' := List.mem_of_getElem? hb
    rw [← h a b (h3 a ha') (h3 b hb') (hP a ha') (hP b hb') (hlast h2 i a b ha hb)]
    exact h1 i a b ha hb

theorem ok_single_iff {N : ℕ} {next f : NextFunc d S} {l : List (Node d S)} (hl : l.length = 1) : Ok N f l ↔ OkF N next l := by
  obtain ⟨n, rfl⟩ := List.length_eq_one_iff.1 hl
  constructor
  · rintro ⟨h1, h2, h3⟩; exact ⟨by simp, h2, h3⟩
  · rintro ⟨h1, h2, h3⟩; exact ⟨by simp, h2, h3⟩

/-- The whole search. -/
theorem grow_spec' (hash : Finset (Cube d) × Node d S → ℤ) (start finish : List (Node d S)) (sm fm : Option ℤ)
    (hM : 2 ≤ t.div ^ d) (hs : ∀ n ∈ start, InGrid t.div n.1) (hfi : ∀ n ∈ finish, InGrid t.div n.1)
    (P : Node d S → Prop) (hsP : ∀ n ∈ start, P n) (hfP : ∀ n ∈ finish, P n) (hnc : Closed t.div P t.nextFunc)
    (hprev : ∀ prev, t.prevFunc = some prev → Closed t.div P prev ∧ ∀ n ∈ finish, IsReverseBut t.div P n.1 t.nextFunc prev) (hfm : fm ≠ none → t.prevFunc ≠ none) :
    ∃ out, t.grow hash start finish sm fm = some out ∧ (∀ L, L ∈ out ↔ Fills t.div t.nextFunc start finish L) ∧
      (start.Nodup → finish.Nodup → (∀ c s, (t.nextFunc c s).Nodup) → (∀ prev, t.prevFunc = some prev → ∀ c s, (prev c s).Nodup) →
        out.Nodup) := by
  obtain ⟨k, hk, hsw⟩ := widthSearch_eq t t.nextFunc sm (t.div ^ d / 2 - 1) (start.map initPath)
  have hsp : ∀ q, q ∈ t.iter t.nextFunc k (start.map initPath) ↔
      q.length = k + 1 ∧ Ok t.div t.nextFunc q.nodes ∧ ∃ n ∈ start, q.nodes.getLast? = some n := fun q => mem_initPaths t hs k
  have hinit : ∀ l : List (Node d S), l.Nodup → (l.map initPath).Nodup := fun l hl =>
    hl.map (fun a b h => by simpa [initPath] using h)
  -- finish paths
  obtain ⟨fp, b, hfpe, hb1, hb2, hfp, hfpn⟩ : ∃ fp b,
      t.finishPaths finish fm (t.div ^ d / 2 - 1) = some fp ∧
      1 ≤ b ∧ b ≤ t.div ^ d / 2 ∧
      (∀ q, q ∈ fp ↔ q.length = b ∧ OkF t.div t.nextFunc q.nodes ∧ (∀ n ∈ q.nodes, P n) ∧ ∃ n ∈ finish, q.nodes.getLast? = some n) ∧
      (finish.Nodup → (∀ prev, t.prevFunc = some prev → ∀ c s, (prev c s).Nodup) → fp.Nodup) := by
    cases fm with
    | none =>
      refine ⟨finish.map initPath, 1, rfl, le_refl _, by omega, ?_, fun h _ => hinit _ h⟩
      intro q
      have := mem_initPaths t (func := t.nextFunc) hfi 0 (q := q)
      simp only [iter, zero_add] at this
      rw [this]
      refine and_congr_right fun hl => ?_
      rw [ok_single_iff (next := t.nextFunc) hl]
      refine and_congr_right fun hok => ⟨fun h => ⟨?_, h⟩, fun h => h.2⟩
      obtain ⟨n, hn, hl'⟩ := h
      obtain ⟨m, hm⟩ := List.length_eq_one_iff.1 (show q.nodes.length = 1 from hl)
      rw [hm] at hl' ⊢
      simp only [List.getLast?_singleton, Option.some.injEq] at hl'
      intro x hx
      rw [List.mem_singleton] at hx
      rw [hx, hl']
      exact hfP n hn
    | some m =>
      obtain ⟨prev, hp⟩ := Option.ne_none_iff_exists'.1 (hfm (by simp))
      obtain ⟨k', hk', hfw⟩ := widthSearch_eq t prev (some m) (t.div ^ d / 2 - 1) (finish.map initPath)
      refine ⟨t.widthSearch prev (some m) (t.div ^ d / 2 - 1) (finish.map initPath), k' + 1, by simp [finishPaths, hp], by omega, by omega, ?_, ?_⟩
      · intro q
        rw [hfw, mem_initPaths t hfi k']
        refine and_congr_right fun hl => ?_
        constructor
        · rintro ⟨hok, n, hn, hl'⟩
          have hall : ∀ m ∈ q.nodes, P m := by
            have := closed_all (hprev prev hp).1 (okF_reverse.2 hok) (fun m hm => by
              rw [List.head?_reverse, hl', Option.some.injEq] at hm
              rw [← hm]
              exact hfP n hn)
            intro m hm
            exact this m (List.mem_reverse.2 hm)
          exact ⟨(ok_prev_iff ((hprev prev hp).2 n hn) hl' hall).1 hok, hall, n, hn, hl'⟩
        · rintro ⟨hok, hall, n, hn, hl'⟩
          exact ⟨(ok_prev_iff ((hprev prev hp).2 n hn) hl' hall).2 hok, n, hn, hl'⟩
      · intro h1 h2
        rw [hfw]
        exact nodup_iter t prev (h2 prev hp) k' (hinit _ h1)
  have hFP : ∀ L, Fills t.div t.nextFunc start finish L → ∀ n ∈ L, P n := by
    intro L hF
    refine closed_all hnc hF.okF ?_
    intro n hn
    obtain ⟨m, hm, hm'⟩ := hF.start
    rw [hn, Option.some.injEq] at hm'
    rw [hm']
    exact hsP m hm
  unfold grow
  simp only [hsw]
  cases hst : t.iter t.nextFunc k (start.map initPath) with
  | nil =>
    refine ⟨[], rfl, ?_, fun _ _ _ _ => List.nodup_nil⟩
    intro L
    simp only [List.not_mem_nil, false_iff]
    intro hF
    have := (mem_core (hash := fun _ => 0) hsp (by omega) hb1 (by omega) hfp hFP).2 hF
    rw [hst] at this
    simp [core, groupPathsByFuture, Dict.groupBy] at this
  | cons s0 sp' =>
    dsimp only
    rw [hfpe, Option.map_some]
    cases hft : fp with
    | nil =>
      refine ⟨_, rfl, ?_, fun _ _ _ _ => List.nodup_nil⟩
      intro L
      simp only [List.not_mem_nil, false_iff]
      intro hF
      have := (mem_core (hash := fun _ => 0) hsp (by omega) hb1 (by omega) hfp hFP).2 hF
      rw [hft] at this
      simp [core, Dict.groupBy, Dict.get?] at this
    | cons f0 fp' =>
      have hf0 : f0.length = b := ((hfp f0).1 (by rw [hft]; simp)).1
      dsimp only
      rw [hf0, ← hft, ← hst]
      refine ⟨_, rfl, fun L => ?_, fun h1 h2 h3 h4 => ?_⟩
      · exact mem_core hsp (by omega) hb1 (by omega) hfp hFP
      · exact nodup_core hsp (by omega) hb1 (by omega) (nodup_iter t _ h3 k (hinit _ h1)) (hfpn h2 h4) h3

theorem grow_spec (hash : Finset (Cube d) × Node d S → ℤ) (start finish : List (Node d S)) (sm fm : Option ℤ)
    (hM : 2 ≤ t.div ^ d) (hs : ∀ n ∈ start, InGrid t.div n.1) (hfi : ∀ n ∈ finish, InGrid t.div n.1)
    (P : Node d S → Prop) (hsP : ∀ n ∈ start, P n) (hfP : ∀ n ∈ finish, P n) (hnc : Closed t.div P t.nextFunc)
    (hprev : ∀ prev, t.prevFunc = some prev → Closed t.div P prev ∧ IsReverse t.div P t.nextFunc prev) (hfm : fm ≠ none → t.prevFunc ≠ none) :
    ∃ out, t.grow hash start finish sm fm = some out ∧ (∀ L, L ∈ out ↔ Fills t.div t.nextFunc start finish L) ∧
      (start.Nodup → finish.Nodup → (∀ c s, (t.nextFunc c s).Nodup) → (∀ prev, t.prevFunc = some prev → ∀ c s, (prev c s).Nodup) →
        out.Nodup) :=
  grow_spec' t hash start finish sm fm hM hs hfi P hsP hfP hnc
    (fun prev hp => ⟨(hprev prev hp).1, fun _ _ a b ha hb hPa hPb _ => (hprev prev hp).2 a b ha hb hPa hPb⟩) hfm

end Tree
end CubeTree
end Peano
