import Verif.Lemmas.GatesGen
import Verif.Props.PathsGen

set_option autoImplicit false

/-! `_check_and_std` and the loops over candidates: invariant of the sets of seen gates. -/
namespace Peano
variable {d : ℕ}

/-! ### Sorting by a key -/

theorem insertionSort_keyOrder {α κ : Type*} [LinearOrder κ] {lt : α → α → Bool} {key : α → κ} (h : KeyOrder lt key) (l : List α) :
    (l.insertionSort fun a b => lt b a = false).Perm l ∧ (l.insertionSort fun a b => lt b a = false).Pairwise fun a b => key a ≤ key b := by
  have hle : ∀ a b, lt b a = false ↔ key a ≤ key b := by
    intro a b
    rw [← not_lt, ← h.lt_iff, Bool.not_eq_true]
  refine ⟨List.perm_insertionSort _ _, ?_⟩
  haveI : Std.Total (fun a b => lt b a = false) := ⟨fun a b => by simp only [hle]; exact le_total _ _⟩
  haveI : IsTrans α (fun a b => lt b a = false) := ⟨fun a b c => by simp only [hle]; exact le_trans⟩
  have := List.pairwise_insertionSort (fun a b => lt b a = false) l
  exact this.imp fun {a b} hab => (hle a b).1 hab

theorem sorted_unique {α κ : Type*} [LinearOrder κ] {key : α → κ} (hk : Function.Injective key) {l m : List α} (hp : l.Perm m)
    (hl : l.Pairwise fun a b => key a ≤ key b) (hm : m.Pairwise fun a b => key a ≤ key b) : l = m :=
  hp.eq_of_pairwise (fun a b _ _ h1 h2 => hk (le_antisymm h1 h2)) hl hm

namespace Link

/-- The standard form. -/
def stdOf (l : Link (Point d)) : Link (Point d) := l.stdPoint.getD l

theorem stdPoint_eq (l : Link (Point d)) : l.stdPoint = some l.stdOf := by
  obtain ⟨m, h, _⟩ := stdPoint_spec l
  unfold stdOf
  rw [h]; rfl

theorem stdOf_act_le (l : Link (Point d)) (a : BaseMap d) : l.stdOf.key ≤ (Link.act a l).key := by
  obtain ⟨m, h, _, h3⟩ := stdPoint_spec l
  have : l.stdOf = m := by unfold stdOf; rw [h]; rfl
  rw [this]; exact h3 a

theorem exists_act_stdOf (l : Link (Point d)) : ∃ a : BaseMap d, Link.act a l = l.stdOf := by
  obtain ⟨m, h, h2, _⟩ := stdPoint_spec l
  have : l.stdOf = m := by unfold stdOf; rw [h]; rfl
  rw [this]; exact h2

theorem stdOf_act (l : Link (Point d)) (a : BaseMap d) : (Link.act a l).stdOf = l.stdOf := by
  obtain ⟨b, hb⟩ := exists_act_stdOf l
  obtain ⟨c, hc⟩ := exists_act_stdOf (Link.act a l)
  apply Link.keyOrder.inj
  apply le_antisymm
  · have := stdOf_act_le (Link.act a l) (b * a⁻¹)
    rw [← Link.act_mul, inv_mul_cancel_right, hb] at this
    exact this
  · have := stdOf_act_le l (c * a)
    rw [Link.act_mul, hc] at this
    exact this

end Link

/-- Both ends of the link are in the unit cube. -/
def Link.InUnit (l : Link (Point d)) : Prop := ∀ j, (0 ≤ l.entrance j ∧ l.entrance j ≤ 1) ∧ (0 ≤ l.exit j ∧ l.exit j ≤ 1)

theorem Link.InUnit.act {l : Link (Point d)} (h : l.InUnit) (a : BaseMap d) : (Link.act a l).InUnit := by
  have h1 := BaseMap.applyX_mem a (fun i => (h i).1)
  have h2 := BaseMap.applyX_mem a (fun i => (h i).2)
  rw [Link.act_def]
  intro j
  by_cases ha : a.timeRev = true
  · simp only [ha, if_true]; exact ⟨h2 j, h1 j⟩
  · simp only [ha]; exact ⟨h1 j, h2 j⟩

namespace GatesGen
variable {g : GatesGen d}

/-- The sorted tuple of standard gates. -/
def sortedStd (G : GateTuple d) : GateTuple d := (G.map Link.stdOf).insertionSort fun a b => Link.lt b a = false

theorem stdGates_eq (G : GateTuple d) : stdGates G = some (sortedStd G) := by
  unfold stdGates sortedStd
  have : G.mapM Link.stdPoint = some (G.map Link.stdOf) := by
    induction G with
    | nil => rfl
    | cons a G ih => simp [List.mapM_cons, ih, Link.stdPoint_eq]
  rw [this]; rfl

theorem sortedStd_perm (G : GateTuple d) : (sortedStd G).Perm (G.map Link.stdOf) := (insertionSort_keyOrder Link.keyOrder _).1

theorem sortedStd_sorted (G : GateTuple d) : (sortedStd G).Pairwise fun a b => a.key ≤ b.key := (insertionSort_keyOrder Link.keyOrder _).2

theorem sortedStd_congr {G H : GateTuple d} (h : (G.map Link.stdOf).Perm (H.map Link.stdOf)) : sortedStd G = sortedStd H :=
  sorted_unique Link.keyOrder.inj ((sortedStd_perm G).trans (h.trans (sortedStd_perm H).symm)) (sortedStd_sorted G) (sortedStd_sorted H)

/-- All gates of the tuple have paths made of images of these gates. -/
def HasPaths (g : GatesGen d) (S : GateTuple d) : Prop := S ≠ [] ∧ ∀ link ∈ S, ∃ p, Generated g.div S none link p

/-- Tuple of gates accepted by the generator. -/
structure Accepted (g : GatesGen d) (G : GateTuple d) : Prop where
  length : G.length = g.mult
  inUnit : ∀ l ∈ G, l.InUnit
  ok : ∀ l ∈ G, g.rejects l.entrance = false ∧ g.rejects l.exit = false

/-- Invariant of the generator: `out` are the tuples yielded so far. -/
structure Inv (g : GatesGen d) (seen : Seen d) (out : List (GateTuple d)) : Prop where
  seen_std : ∀ G ∈ seen.gates, sortedStd G ∈ seen.std
  std_out : ∀ S ∈ seen.std, S ∈ out ∨ ¬ g.HasPaths S
  out_std : ∀ S ∈ out, S ∈ seen.std
  nodup : out.Nodup
  good : ∀ S ∈ out, g.HasPaths S ∧ ∃ G, g.Accepted G ∧ S = sortedStd G

theorem mem_sortedStd {G : GateTuple d} {l : Link (Point d)} : l ∈ sortedStd G ↔ ∃ m ∈ G, m.stdOf = l := by
  rw [(sortedStd_perm G).mem_iff, List.mem_map]

theorem sortedStd_inUnit {G : GateTuple d} (h : ∀ l ∈ G, l.InUnit) : ∀ l ∈ sortedStd G, l.InUnit := by
  intro l hl
  obtain ⟨m, hm, rfl⟩ := mem_sortedStd.1 hl
  obtain ⟨a, ha⟩ := Link.exists_act_stdOf m
  rw [← ha]
  exact (h m hm).act a

theorem checkGates_spec (hdiv : 2 ≤ g.div) (hd : 1 ≤ d) (hash : Hash d) {seen : Seen d} {out : List (GateTuple d)} (hinv : g.Inv seen out)
    {G : GateTuple d} (hG : g.Accepted G) : ∃ seen' r, g.checkGates hash seen G = some (seen', r) ∧ g.Inv seen' (out ++ r.toList) ∧
      (∀ S ∈ seen.std, S ∈ seen'.std) ∧ sortedStd G ∈ seen'.std := by
  have hn : 2 ≤ g.div ^ d := le_trans hdiv (Nat.le_self_pow (by omega) _)
  unfold checkGates
  by_cases h1 : G ∈ seen.gates
  · rw [if_pos h1]
    exact ⟨_, _, rfl, by simpa using hinv, fun S h => h, hinv.seen_std G h1⟩
  rw [if_neg h1, stdGates_eq]
  simp only [Option.bind_eq_bind, Option.bind_some]
  by_cases h2 : sortedStd G ∈ seen.std
  · rw [if_pos h2]
    refine ⟨_, _, rfl, ?_, fun S h => h, h2⟩
    simp only [Option.toList_none, List.append_nil]
    exact { hinv with
      seen_std := by
        intro H hH
        rcases List.mem_cons.1 hH with rfl | hH
        · exact h2
        · exact hinv.seen_std H hH }
  rw [if_neg h2]
  -- a new tuple
  have hunit := sortedStd_inUnit hG.inUnit
  have hex := PathsGen.C39_example ⟨g.div, sortedStd G, none⟩ hash (sortedStd G) (some 1000) (some 1000000) hn hunit
  have hseen : ∀ H ∈ G :: seen.gates, sortedStd H ∈ sortedStd G :: seen.std := by
    intro H hH
    rcases List.mem_cons.1 hH with rfl | hH
    · simp
    · exact List.mem_cons_of_mem _ (hinv.seen_std H hH)
  have hbad : ¬ g.HasPaths (sortedStd G) → g.Inv ⟨G :: seen.gates, sortedStd G :: seen.std⟩ out := fun hno => {
    seen_std := hseen
    std_out := by
      intro S hS
      rcases List.mem_cons.1 hS with rfl | hS
      · exact Or.inr hno
      · exact hinv.std_out S hS
    out_std := fun S hS => List.mem_cons_of_mem _ (hinv.out_std S hS)
    nodup := hinv.nodup
    good := hinv.good }
  rcases hex with ⟨ps, h3, h4⟩ | ⟨h3, l, hl, h4⟩
  · cases ps with
    | nil =>
      have he : sortedStd G = [] := by
        cases hs : sortedStd G with
        | nil => rfl
        | cons a l => rw [hs] at h4; simp at h4
      refine ⟨⟨G :: seen.gates, sortedStd G :: seen.std⟩, none, ?_, by simpa using hbad fun h => h.1 he, fun S hS => List.mem_cons_of_mem _ hS, by simp⟩
      rw [h3]; rfl
    | cons p ps =>
      refine ⟨⟨G :: seen.gates, sortedStd G :: seen.std⟩, some (sortedStd G), ?_, ?_, fun S hS => List.mem_cons_of_mem _ hS, by simp⟩
      · rw [h3]; rfl
      have hpaths : g.HasPaths (sortedStd G) := by
        refine ⟨fun he => by rw [he] at h4; simp at h4, ?_⟩
        intro link hlink
        obtain ⟨i, hi⟩ := List.getElem?_of_mem hlink
        have hlt : i < (sortedStd G).length := (List.getElem?_eq_some_iff.1 hi).1
        have hlt' : i < (p :: ps).length := by rw [← h4.length_eq]; exact hlt
        have := List.forall₂_iff_get.1 h4
        refine ⟨(p :: ps)[i], ?_⟩
        have h5 := this.2 i hlt hlt'
        simp only [List.get_eq_getElem] at h5
        have h6 : (sortedStd G)[i] = link := (List.getElem?_eq_some_iff.1 hi).2
        rw [h6] at h5
        exact h5
      simp only [Option.toList_some]
      exact {
        seen_std := hseen
        std_out := by
          intro S hS
          rcases List.mem_cons.1 hS with rfl | hS
          · exact Or.inl (by simp)
          · rcases hinv.std_out S hS with h | h
            · exact Or.inl (List.mem_append_left _ h)
            · exact Or.inr h
        out_std := by
          intro S hS
          rcases List.mem_append.1 hS with hS | hS
          · exact List.mem_cons_of_mem _ (hinv.out_std S hS)
          · simp at hS; subst hS; simp
        nodup := by
          rw [List.nodup_append]
          refine ⟨hinv.nodup, by simp, ?_⟩
          intro a ha b hb hab
          simp at hb
          subst hb hab
          exact h2 (hinv.out_std _ ha)
        good := by
          intro S hS
          rcases List.mem_append.1 hS with hS | hS
          · exact hinv.good S hS
          · simp at hS; subst hS; exact ⟨hpaths, G, hG, rfl⟩ }
  · refine ⟨⟨G :: seen.gates, sortedStd G :: seen.std⟩, none, ?_, by simpa using hbad fun h => h4 (h.2 l hl), fun S hS => List.mem_cons_of_mem _ hS, by simp⟩
    rw [h3]; rfl

theorem gatesLoop_spec {c : FCurve d} {Q : Bool → ℕ → Point d} (hQ : ∀ p < c.mult, c.getEntrance p = some (Q false p) ∧ c.getExit p = some (Q true p))
    (l : List ℕ) (hl : ∀ p ∈ l, p < c.mult) :
    (g.gatesLoop c l = some (some (l.map fun p => ⟨Q false p, Q true p⟩)) ∧ ∀ p ∈ l, ∀ last, g.rejects (Q last p) = false) ∨
      (g.gatesLoop c l = some none ∧ ∃ p ∈ l, ∃ last, g.rejects (Q last p) = true) := by
  induction l with
  | nil => exact Or.inl ⟨rfl, by simp⟩
  | cons p l ih =>
    have hp := hQ p (hl p (by simp))
    unfold gatesLoop
    simp only [hp.1, hp.2, Option.bind_eq_bind, Option.bind_some]
    by_cases h1 : g.rejects (Q false p) = true
    · exact Or.inr ⟨by simp [h1], p, by simp, false, h1⟩
    by_cases h2 : g.rejects (Q true p) = true
    · exact Or.inr ⟨by simp [h1, h2], p, by simp, true, h2⟩
    simp only [h1, h2]
    rcases ih fun q hq => hl q (List.mem_cons_of_mem _ hq) with ⟨h3, h4⟩ | ⟨h3, q, hq, last, h4⟩
    · refine Or.inl ⟨by rw [h3]; rfl, ?_⟩
      intro q hq last
      rcases List.mem_cons.1 hq with rfl | hq
      · cases last
        · simpa using h1
        · simpa using h2
      · exact h4 q hq last
    · exact Or.inr ⟨by rw [h3]; rfl, q, List.mem_cons_of_mem _ hq, last, h4⟩

/-- What is known after the candidate was processed: if its end points are accepted, their standard form was seen. -/
def Processed (g : GatesGen d) (seen : Seen d) (protos : List (Proto d)) (S : ℕ → Bool → Spec d) : Prop :=
  ∀ Q : Bool → ℕ → Fin d → ℚ,
    (∀ last, ∀ p < g.mult, ∀ cube, (protos[p]?).bind (fun pr => endCube pr last) = some cube →
      ∀ j, Q last p j = (cube j + (S p last).baseMap.applyX 1 (Q (xor last (S p last).baseMap.timeRev) (S p last).pnum) j) / g.div) →
    (∀ last, ∀ p < g.mult, g.rejects (Q last p) = false) →
    sortedStd ((List.range g.mult).map fun p => ⟨Q false p, Q true p⟩) ∈ seen.std

theorem Processed.mono {seen seen' : Seen d} {protos : List (Proto d)} {S : ℕ → Bool → Spec d} (h : g.Processed seen protos S)
    (hs : ∀ S ∈ seen.std, S ∈ seen'.std) : g.Processed seen' protos S := fun Q h1 h2 => hs _ (h Q h1 h2)

theorem checkAndStd_spec (hdiv : 2 ≤ g.div) (hd : 1 ≤ d) (hash : Hash d) {seen : Seen d} {out : List (GateTuple d)} (hinv : g.Inv seen out)
    {protos : List (Proto d)} {S : ℕ → Bool → Spec d} (hok : g.CandOK protos S) :
    ∃ seen' r, g.checkAndStd hash seen protos ((boundary g.mult).map fun e => S e.1 e.2) = some (seen', r) ∧ g.Inv seen' (out ++ r.toList) ∧
      (∀ S ∈ seen.std, S ∈ seen'.std) ∧ g.Processed seen' protos S := by
  obtain ⟨c, h1, h2, h3, h4, h5, h6⟩ := boundaryCurve_spec hdiv hd hok
  obtain ⟨e, he1, he2⟩ := h4.toShape.exists_endEqs_mem
  obtain ⟨Q, hQ1, hQ2⟩ := h4.exists_gates he1
  -- any solution of the equations gives the same points
  have huniq : ∀ Q' : Bool → ℕ → Fin d → ℚ,
      (∀ last, ∀ p < g.mult, ∀ cube, (protos[p]?).bind (fun pr => endCube pr last) = some cube →
        ∀ j, Q' last p j = (cube j + (S p last).baseMap.applyX 1 (Q' (xor last (S p last).baseMap.timeRev) (S p last).pnum) j) / g.div) →
      ∀ last, ∀ p < g.mult, Q' last p = Q last p := by
    intro Q' hQ'
    have hends : c.EndEqs fun last p j => (Q' last p j : ℝ) := by
      intro last p cube s hc hs
      have hp : p < g.mult := by rw [← h3]; exact FCurve.cube?_lt hc
      rw [h5] at hc
      rw [h6 p hp] at hs
      cases hs
      funext j
      beta_reduce
      rw [hQ' last p hp cube hc j, h2]
      push_cast
      rw [applyX_cast]
      rfl
    intro last p hp
    have hp' : p < c.mult := by rw [h3]; exact hp
    obtain ⟨q, hq1, hq2⟩ := FCurve.getCubeLimit_spec h4 hends hp' last
    have hq3 : c.getCubeLimit p (endIdx c.genus last) = some (Q last p) := by
      cases last
      · exact (hQ1 p hp').1
      · exact (hQ1 p hp').2
    rw [hq3] at hq1
    cases hq1
    funext j
    have := hq2 j
    exact_mod_cast this.symm
  unfold checkAndStd
  simp only [h1, Option.bind_eq_bind, Option.bind_some]
  rw [← h3] at huniq ⊢
  rcases gatesLoop_spec (g := g) hQ1 (List.range c.mult) (fun p hp => List.mem_range.1 hp) with ⟨h7, h8⟩ | ⟨h7, p, hp, last, h8⟩
  · simp only [h7, Option.bind_some]
    have hacc : g.Accepted ((List.range c.mult).map fun p => (⟨Q false p, Q true p⟩ : Link (Point d))) := by
      refine ⟨by simp [h3], ?_, ?_⟩
      · intro l hl j
        obtain ⟨p, hp, rfl⟩ := List.mem_map.1 hl
        have hp := List.mem_range.1 hp
        have key : ∀ last, 0 ≤ Q last p j ∧ Q last p j ≤ 1 := by
          intro last
          have := he2 last p hp j
          rw [← hQ2 last p hp j] at this
          exact ⟨by exact_mod_cast this.1, by exact_mod_cast this.2⟩
        exact ⟨key false, key true⟩
      · intro l hl
        obtain ⟨p, hp, rfl⟩ := List.mem_map.1 hl
        exact ⟨h8 p hp false, h8 p hp true⟩
    obtain ⟨seen', r, k1, k2, k3, k4⟩ := checkGates_spec hdiv hd hash hinv hacc
    refine ⟨seen', r, k1, k2, k3, ?_⟩
    intro Q' hQ' _
    rw [← h3] at hQ' ⊢
    have := huniq Q' hQ'
    have heq : ((List.range c.mult).map fun p => (⟨Q' false p, Q' true p⟩ : Link (Point d))) =
        (List.range c.mult).map fun p => (⟨Q false p, Q true p⟩ : Link (Point d)) := by
      apply List.map_congr_left
      intro p hp
      rw [this false p (List.mem_range.1 hp), this true p (List.mem_range.1 hp)]
    rw [heq]
    exact k4
  · simp only [h7, Option.bind_some]
    refine ⟨seen, none, rfl, by simpa using hinv, fun S h => h, ?_⟩
    intro Q' hQ' hrej
    rw [← h3] at hQ' hrej
    have hp := List.mem_range.1 hp
    have := huniq Q' hQ' last p hp
    have h9 := hrej last p hp
    rw [this, h8] at h9
    simp at h9

/-- Functional form of a list of specs. -/
theorem exists_specFun (dflt : Spec d) {k : ℕ} {l : List (Spec d)} {ls : List (List (Spec d))} (h : l ∈ Itertools.product ls) (hls : ls.length = 2 * k) :
    ∃ S : ℕ → Bool → Spec d, l = (boundary k).map fun e => S e.1 e.2 := by
  have hlen : l.length = 2 * k := by rw [← hls]; exact (Itertools.mem_product.1 h).length_eq
  clear h hls ls
  induction k generalizing l with
  | zero =>
    cases l with
    | nil => exact ⟨fun _ _ => dflt, rfl⟩
    | cons a l => simp at hlen
  | succ k ih =>
    obtain ⟨S, hS⟩ := ih (l := l.take (2 * k)) (by simp; omega)
    have hx : ∃ a b, l = l.take (2 * k) ++ [a, b] := by
      refine ⟨l[2 * k], l[2 * k + 1], ?_⟩
      apply List.ext_getElem (by simp; omega)
      intro i h1 h2
      by_cases hi : i < 2 * k
      · rw [List.getElem_append_left (by simp; omega)]
        simp
      · rw [List.getElem_append_right (by simp; omega)]
        have : i = 2 * k ∨ i = 2 * k + 1 := by omega
        have hm : min (2 * k) l.length = 2 * k := by omega
        rcases this with rfl | rfl <;> simp [hm]
    obtain ⟨a, b, hab⟩ := hx
    refine ⟨fun p last => if p = k then (if last then b else a) else S p last, ?_⟩
    rw [boundary_succ, List.map_append, hab, hS]
    congr 1
    · apply List.map_congr_left
      intro e he
      have : e.1 ≠ k := by have := mem_boundary.1 he; omega
      simp [this]
    · simp

theorem variantsLoop_spec (hdiv : 2 ≤ g.div) (hd : 1 ≤ d) (hash : Hash d) {protos : List (Proto d)} (vs : List (List (Spec d)))
    {seen : Seen d} {out : List (GateTuple d)} (hinv : g.Inv seen out)
    (hvs : ∀ v ∈ vs, ∃ S, v = ((boundary g.mult).map fun e => S e.1 e.2) ∧ g.CandOK protos S) :
    ∃ seen' r, g.variantsLoop hash protos seen vs = some (seen', r) ∧ g.Inv seen' (out ++ r) ∧ (∀ S ∈ seen.std, S ∈ seen'.std) ∧
      ∀ S, ((boundary g.mult).map fun e => S e.1 e.2) ∈ vs → g.CandOK protos S → g.Processed seen' protos S := by
  induction vs generalizing seen out with
  | nil => exact ⟨seen, [], rfl, by simpa using hinv, fun S h => h, by simp⟩
  | cons v vs ih =>
    obtain ⟨S, rfl, hS⟩ := hvs v (by simp)
    obtain ⟨seen1, r1, h1, h2, h3, h4⟩ := checkAndStd_spec hdiv hd hash hinv hS
    obtain ⟨seen2, r2, k1, k2, k3, k4⟩ := ih h2 fun v hv => hvs v (List.mem_cons_of_mem _ hv)
    refine ⟨seen2, r1.toList ++ r2, ?_, by rw [← List.append_assoc]; exact k2, fun S h => k3 S (h3 S h), ?_⟩
    · unfold variantsLoop
      simp only [h1, Option.bind_eq_bind, Option.bind_some, k1, Option.pure_def]
    · intro T hT hok
      rcases List.mem_cons.1 hT with hT | hT
      · have hTS : ∀ p < g.mult, ∀ last, T p last = S p last := by
          intro p hp last
          have hm : (p, last) ∈ boundary g.mult := mem_boundary.2 hp
          have := (List.map_inj_left.1 hT) (p, last) hm
          exact this
        have h5 : g.Processed seen1 protos T := by
          intro Q hQ hrej
          refine h4 Q ?_ hrej
          intro last p hp cube hc j
          have := hQ last p hp cube hc j
          rw [hTS p hp last] at this
          exact this
        exact h5.mono k3
      · exact k4 T hT hok

theorem checkVariants_spec (hdiv : 2 ≤ g.div) (hd : 1 ≤ d) (hash : Hash d) {protos : List (Proto d)} {dict : List (List (Spec d))}
    {seen : Seen d} {out : List (GateTuple d)} (hinv : g.Inv seen out) (hlen : dict.length = 2 * g.mult)
    (hok : ∀ S, List.Forall₂ (· ∈ ·) ((boundary g.mult).map fun e => S e.1 e.2) dict → g.CandOK protos S) :
    ∃ seen' r, g.checkVariants hash seen protos dict = some (seen', r) ∧ g.Inv seen' (out ++ r) ∧ (∀ S ∈ seen.std, S ∈ seen'.std) ∧
      ∀ S, List.Forall₂ (· ∈ ·) ((boundary g.mult).map fun e => S e.1 e.2) dict → g.Processed seen' protos S := by
  obtain ⟨seen', r, h1, h2, h3, h4⟩ := variantsLoop_spec hdiv hd hash (protos := protos) (Itertools.product dict) hinv (by
    intro v hv
    obtain ⟨S, rfl⟩ := exists_specFun ⟨BaseMap.idMap d, 0⟩ hv hlen
    exact ⟨S, rfl, hok S (Itertools.mem_product.1 hv)⟩)
  exact ⟨seen', r, h1, h2, h3, fun S hS => h4 S (Itertools.mem_product.2 hS) (hok S hS)⟩

/-- Arguments of `_check_variants` that make sense. -/
structure ArgsOK (g : GatesGen d) (e : List (Proto d) × List (List (Spec d))) : Prop where
  length : e.2.length = 2 * g.mult
  ok : ∀ S, List.Forall₂ (· ∈ ·) ((boundary g.mult).map fun x => S x.1 x.2) e.2 → g.CandOK e.1 S

theorem candidatesLoop_spec (hdiv : 2 ≤ g.div) (hd : 1 ≤ d) (hash : Hash d) (cands : List (List (Proto d) × List (List (Spec d))))
    {seen : Seen d} {out : List (GateTuple d)} (hinv : g.Inv seen out) (hc : ∀ e ∈ cands, g.ArgsOK e) :
    ∃ seen' r, g.candidatesLoop hash seen cands = some (seen', r) ∧ g.Inv seen' (out ++ r) ∧ (∀ S ∈ seen.std, S ∈ seen'.std) ∧
      ∀ e ∈ cands, ∀ S, List.Forall₂ (· ∈ ·) ((boundary g.mult).map fun x => S x.1 x.2) e.2 → g.Processed seen' e.1 S := by
  induction cands generalizing seen out with
  | nil => exact ⟨seen, [], rfl, by simpa using hinv, fun S h => h, by simp⟩
  | cons e cands ih =>
    have he := hc e (by simp)
    obtain ⟨seen1, r1, h1, h2, h3, h4⟩ := checkVariants_spec hdiv hd hash hinv he.length he.ok
    obtain ⟨seen2, r2, k1, k2, k3, k4⟩ := ih h2 fun v hv => hc v (List.mem_cons_of_mem _ hv)
    refine ⟨seen2, r1 ++ r2, ?_, by rw [← List.append_assoc]; exact k2, fun S h => k3 S (h3 S h), ?_⟩
    · unfold candidatesLoop
      simp only [h1, Option.bind_eq_bind, Option.bind_some, k1, Option.pure_def]
    · intro x hx S hS
      rcases List.mem_cons.1 hx with rfl | hx
      · exact (h4 S hS).mono k3
      · exact k4 x hx S hS

end GatesGen
end Peano
