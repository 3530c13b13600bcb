import Verif.Model.FacetGates
import Verif.Lemmas.GatesFinal
import Verif.Lemmas.GatesAll
import Verif.Props.FacetPaths
import Verif.Lemmas.Search

set_option autoImplicit false

/-! Lemmas about the candidates of `only_facet=True`: nothing is raised, the candidates make sense, all compatible ones are processed. -/
namespace Peano
namespace GatesGen
variable {n : ℕ}

/-- Paths for the given links, agreeing with the global ones. -/
def Coarse (div : ℕ) (links : List (Link (FacetDivSubset n))) (ps : List (Path (FacetDivSubset n) (n + 1))) : Prop :=
  List.Forall₂ (fun link p => FacetPath div links none p ∧ FacetPath.Agrees link p) links ps

/-- Paths refining the given ones. -/
def Finer (div : ℕ) (qs ns : List (Path (FacetDivSubset n) (n + 1))) : Prop :=
  List.Forall₂ (fun q p => FacetPath div (qs.map Path.link) none p ∧ FacetPath.Refines q p) qs ns

/-- The link of the first or the last fraction. -/
def endLinkOf (p : Path (FacetDivSubset n) (n + 1)) (last : Bool) : Option (Link (FacetDivSubset n)) :=
  if last then p.links.getLast? else p.links.head?

/-- The specs admitted by the narrow paths. -/
def Admitted (ns : List (Path (FacetDivSubset n) (n + 1))) (p : ℕ) (last : Bool) (s : Spec (n + 1)) : Prop :=
  ∃ N N' l, ns[s.pnum]? = some N ∧ ns[p]? = some N' ∧ endLinkOf N' last = some l ∧ s.baseMap ∈ Link.argmulIntersectFacet N.link l

theorem _root_.Peano.FacetPath.link_inDiv {div : ℕ} {links : List (Link (FacetDivSubset n))} {m : Option ℤ} {p : Path (FacetDivSubset n) (n + 1)}
    (h : FacetPath div links m p) (hL : ∀ l ∈ links, l.InDiv div) : p.link.InDiv div := by
  obtain ⟨c0, c1, l0, l1, e, x, hc0, hc1, h0, h1, he, hx, hp⟩ := FacetGen.make_iff.1 h.made
  rw [congrArg Path.link hp]
  have hl : ∀ l ∈ p.links, l.InDiv div := by
    intro l hl
    obtain ⟨a, m, hm, rfl⟩ := h.links_image l hl
    exact (hL m hm).act a
  have i0 := (hl l0 (List.mem_of_mem_head? h0)).1
  have i1 := (hl l1 (List.mem_of_getLast? h1)).2
  have g0 := (h.all c0).1 (List.mem_of_mem_head? hc0)
  have g1 := (h.all c1).1 (List.mem_of_getLast? hc1)
  rw [h.div_eq] at he hx
  refine ⟨⟨?_, ?_⟩, ⟨?_, ?_⟩⟩
  · refine FacetDivSubset.mapToCube_wf (cube := c0) i0.1 (by rw [i0.2]; exact g0) (by rw [i0.2]; exact he)
  · rw [← i0.2] at he ⊢
    rw [(FacetDivSubset.mapToCube_eq.1 he).2]
  · refine FacetDivSubset.mapToCube_wf (cube := c1) i1.1 (by rw [i1.2]; exact g1) (by rw [i1.2]; exact hx)
  · rw [← i1.2] at hx ⊢
    rw [(FacetDivSubset.mapToCube_eq.1 hx).2]

theorem _root_.Peano.FacetPath.proto_length {div : ℕ} {links : List (Link (FacetDivSubset n))} {m : Option ℤ} {p : Path (FacetDivSubset n) (n + 1)}
    (h : FacetPath div links m p) : p.proto.length = div ^ (n + 1) := by
  have h1 : p.proto.toFinset = (Fintype.piFinset fun _ : Fin (n + 1) => Finset.Ico (0 : ℤ) div).map Function.Embedding.some := by
    ext o
    rw [List.mem_toFinset, Finset.mem_map]
    constructor
    · intro ho
      cases o with
      | none => exact absurd rfl (h.cubes none ho)
      | some c =>
        refine ⟨c, ?_, rfl⟩
        rw [Fintype.mem_piFinset]
        intro j
        exact Finset.mem_Ico.2 ((h.all c).1 ho j)
    · rintro ⟨c, hc, rfl⟩
      rw [Fintype.mem_piFinset] at hc
      exact (h.all c).2 fun j => Finset.mem_Ico.1 (hc j)
  rw [← List.toFinset_card_of_nodup h.once, h1, Finset.card_map, card_grid]

theorem endCube_eq {p : Proto (n + 1)} (last : Bool) : endCube p last = ((if last then p.getLast? else p.head?) : Option (Option (Cube (n + 1)))).join := by
  unfold endCube endPos Proto.cube?
  cases last
  · simp [List.head?_eq_getElem?]
  · simp [List.getLast?_eq_getElem?]

theorem _root_.Peano.FacetPath.exists_key {div : ℕ} {links : List (Link (FacetDivSubset n))} {m : Option ℤ} {p : Path (FacetDivSubset n) (n + 1)}
    (h : FacetPath div links m p) : ∃ k, narrowKey p = some k ∧ k.link = p.link ∧ ∀ last, endLinkOf p last = some (k.endLink last) := by
  obtain ⟨c0, c1, l0, l1, e, x, hc0, hc1, h0, h1, he, hx, hp⟩ := FacetGen.make_iff.1 h.made
  refine ⟨⟨p.link, l0, l1⟩, ?_, rfl, ?_⟩
  · unfold narrowKey
    rw [h0, h1]; rfl
  · intro last
    cases last
    · exact h0
    · exact h1

theorem narrowLoop_mem (seen ks : List (Narrow n)) (k : Narrow n) : k ∈ narrowLoop seen ks ↔ k ∈ ks ∧ k ∉ seen := by
  induction ks generalizing seen with
  | nil => simp [narrowLoop]
  | cons a ks ih =>
    unfold narrowLoop
    by_cases h : a ∈ seen
    · rw [if_pos h, ih]
      constructor
      · rintro ⟨h1, h2⟩; exact ⟨List.mem_cons_of_mem _ h1, h2⟩
      · rintro ⟨h1, h2⟩
        rcases List.mem_cons.1 h1 with rfl | h1
        · exact absurd h h2
        · exact ⟨h1, h2⟩
    · rw [if_neg h, List.mem_cons, ih]
      simp only [List.mem_cons, not_or]
      constructor
      · rintro (rfl | ⟨h1, h2, h3⟩)
        · exact ⟨Or.inl rfl, h⟩
        · exact ⟨Or.inr h1, h3⟩
      · rintro ⟨h1 | h1, h2⟩
        · exact Or.inl h1
        · by_cases e : k = a
          · exact Or.inl e
          · exact Or.inr ⟨h1, e, h2⟩

/-- What `_gen_narrow_links` yields. -/
theorem genNarrowLinks_spec {div : ℕ} (hM : 2 ≤ div ^ (n + 1)) (hash : FacetHash n) {qs : List (Path (FacetDivSubset n) (n + 1))} (hne : qs ≠ [])
    {links : List (Link (FacetDivSubset n))} (hL : ∀ l ∈ links, l.InDiv div) (hq : ∀ q ∈ qs, FacetPath div links none q) :
    ∃ out, genNarrowLinks hash qs = some out ∧ (∀ nar ∈ out, nar.length = qs.length) ∧
      ∀ ns, Finer div qs ns → ∃ nar ∈ out, List.Forall₂ (fun N k => narrowKey N = some k) ns nar := by
  obtain ⟨q0, hq0⟩ : ∃ q0, qs.head? = some q0 := by
    cases qs with
    | nil => exact absurd rfl hne
    | cons q qs => exact ⟨q, rfl⟩
  have hd : q0.div = div := (hq q0 (List.mem_of_mem_head? hq0)).div_eq
  set npg : PathsGen (n + 1) (FacetDivSubset n) := { div := div, links := qs.map Path.link, maxCdist := none } with hnpg
  have hNL : ∀ m ∈ npg.links, m.InDiv npg.div := by
    intro m hm
    obtain ⟨q, hq', rfl⟩ := List.mem_map.1 hm
    exact (hq q hq').link_inDiv hL
  have hpar : ∀ q ∈ qs, ∃ ks, (do
      let narrowPaths ← npg.generatePathsParent hash q false (some 100) (some 1000000)
      let keys ← narrowPaths.mapM narrowKey
      return narrowLoop [] keys) = some ks ∧ ∀ p, FacetPath div (qs.map Path.link) none p ∧ FacetPath.Refines q p → ∃ k ∈ ks, narrowKey p = some k := by
    intro q hq'
    obtain ⟨out, h1, _, h3⟩ := PathsGen.C65_parent npg hash (some 100) (some 1000000) hM hNL q links none hL (hq q hq')
    obtain ⟨keys, hk, hkf⟩ := mapM_some_of narrowKey out fun p hp => by
      obtain ⟨k, hk, _⟩ := ((h3 p).1 hp).1.exists_key
      exact ⟨k, hk⟩
    refine ⟨narrowLoop [] keys, ?_, ?_⟩
    · rw [h1]
      simp only [Option.bind_eq_bind, Option.bind_some, hk, Option.pure_def]
    · intro p hp
      obtain ⟨i, hi⟩ := List.mem_iff_getElem?.1 ((h3 p).2 hp)
      obtain ⟨k, hk1, hk2⟩ := forall₂_getElem?' hkf i p hi
      exact ⟨k, (narrowLoop_mem _ _ _).2 ⟨List.mem_of_getElem? hk1, by simp⟩, hk2⟩
  have unf : genNarrowLinks hash qs = (npg.getPathsExampleFor hash none (some qs) false (some 100) (some 1000000)).bind fun ex =>
      match ex with
      | none | some [] => some []
      | some _ => (qs.mapM fun path => do
          let narrowPaths ← npg.generatePathsParent hash path false (some 100) (some 1000000)
          let keys ← narrowPaths.mapM narrowKey
          return narrowLoop [] keys).bind fun narrows => some (Itertools.product narrows) := by
    unfold genNarrowLinks
    rw [hq0]
    simp only [Option.bind_eq_bind, Option.bind_some, hd, Option.pure_def]
    rfl
  rw [unf]
  rcases PathsGen.C65_parent_example npg hash (some 100) (some 1000000) qs hM hNL links none hL hq with ⟨ps, h1, h2⟩ | ⟨h1, q, hq1, hq2⟩
  · obtain ⟨p0, ps', rfl⟩ : ∃ p0 ps', ps = p0 :: ps' := by
      cases h2 with
      | nil => exact absurd rfl hne
      | cons _ _ => exact ⟨_, _, rfl⟩
    obtain ⟨narrows, hn1, hn2⟩ := mapM_some_of _ qs fun q hq' => by
      obtain ⟨ks, hks, _⟩ := hpar q hq'
      exact ⟨ks, hks⟩
    rw [h1]
    simp only [Option.bind_some, hn1]
    refine ⟨_, rfl, ?_, ?_⟩
    · intro nar hnar
      rw [(Itertools.mem_product.1 hnar).length_eq, hn2.length_eq]
    · intro ns hns
      have h3 : List.Forall₂ (fun N ks => ∃ k ∈ ks, narrowKey N = some k) ns narrows := by
        rw [List.forall₂_iff_get]
        refine ⟨by rw [← hns.length_eq, hn2.length_eq], ?_⟩
        intro i hi1 hi2
        have hi : i < qs.length := by rw [hns.length_eq]; exact hi1
        have a1 := (List.forall₂_iff_get.1 hns).2 i hi hi1
        have a2 := (List.forall₂_iff_get.1 hn2).2 i hi hi2
        obtain ⟨ks, hks, hks2⟩ := hpar _ (List.get_mem qs ⟨i, hi⟩)
        rw [hks] at a2
        cases a2
        exact hks2 _ a1
      clear hn1 hn2 hns unf h1 h2
      induction h3 with
      | nil => exact ⟨[], by simp [Itertools.product], List.Forall₂.nil⟩
      | @cons N ks ns narrows hk _ ih =>
        obtain ⟨k, hk1, hk2⟩ := hk
        obtain ⟨nar, hn1, hn2⟩ := ih
        exact ⟨k :: nar, Itertools.mem_product.2 (List.Forall₂.cons hk1 (Itertools.mem_product.1 hn1)), List.Forall₂.cons hk2 hn2⟩
  · rw [h1]
    refine ⟨[], rfl, by simp, ?_⟩
    intro ns hns
    obtain ⟨i, hi⟩ := List.mem_iff_getElem?.1 hq1
    obtain ⟨p, _, hp⟩ := forall₂_getElem?' hns i q hi
    exact absurd ⟨p, hp⟩ hq2

/-- The specs for one end. -/
theorem narrowSpecs_spec {g : GatesGen (n + 1)} {narrow : List (Narrow n)} (hlen : narrow.length = g.mult) {p : ℕ} (hp : p < g.mult) (last : Bool) :
    ∃ l, g.narrowSpecs narrow p last = some l ∧ ∀ s : Spec (n + 1), s ∈ l ↔ s.pnum < g.mult ∧
      ∃ k k', narrow[s.pnum]? = some k ∧ narrow[p]? = some k' ∧ s.baseMap ∈ Link.argmulIntersectFacet k.link (k'.endLink last) := by
  have hk' := List.getElem?_eq_getElem (show p < narrow.length by omega)
  have hex : ∀ pn, ∃ part : List (Spec (n + 1)), pn < g.mult → (do
      let k ← narrow[pn]?
      let k' ← narrow[p]?
      return (Link.argmulIntersectFacet k.link (k'.endLink last)).map fun bm => (⟨bm, pn⟩ : Spec (n + 1))) = some part ∧
      ∀ s, s ∈ part ↔ s.pnum = pn ∧ ∃ k k', narrow[pn]? = some k ∧ narrow[p]? = some k' ∧ s.baseMap ∈ Link.argmulIntersectFacet k.link (k'.endLink last) := by
    intro pn
    by_cases hpn : pn < g.mult
    · have hk := List.getElem?_eq_getElem (show pn < narrow.length by omega)
      refine ⟨(Link.argmulIntersectFacet narrow[pn].link (narrow[p].endLink last)).map fun bm => (⟨bm, pn⟩ : Spec (n + 1)), fun _ => ⟨?_, ?_⟩⟩
      · simp only [hk, hk', Option.bind_eq_bind, Option.bind_some, Option.pure_def]
      · intro s
        simp only [List.mem_map, hk, hk', Option.some.injEq, exists_and_left, exists_eq_left']
        constructor
        · rintro ⟨bm, hbm, rfl⟩; exact ⟨rfl, hbm⟩
        · rintro ⟨rfl, hbm⟩; exact ⟨_, hbm, rfl⟩
    · exact ⟨[], fun h => absurd h hpn⟩
  choose part hpart using hex
  refine ⟨((List.range g.mult).map part).flatten, ?_, ?_⟩
  · unfold narrowSpecs
    rw [mapM_eq_some_map (g := part) fun pn hpn => (hpart pn (List.mem_range.1 hpn)).1]
    rfl
  · intro s
    simp only [List.mem_flatten, List.mem_map, List.mem_range, exists_exists_and_eq_and]
    constructor
    · rintro ⟨pn, hpn, hs⟩
      obtain ⟨rfl, h⟩ := ((hpart pn hpn).2 s).1 hs
      exact ⟨hpn, h⟩
    · rintro ⟨hs, h⟩
      exact ⟨s.pnum, hs, ((hpart _ hs).2 s).2 ⟨rfl, h⟩⟩

theorem narrowCandidate_spec {g : GatesGen (n + 1)} {links : List (Link (FacetDivSubset n))} {qs : List (Path (FacetDivSubset n) (n + 1))}
    (hq : ∀ q ∈ qs, FacetPath g.div links none q) (hql : qs.length = g.mult) {narrow : List (Narrow n)} (hlen : narrow.length = g.mult) :
    ∃ dict, g.narrowCandidate qs narrow = some (qs.map Path.proto, dict) ∧ g.ArgsOK (qs.map Path.proto, dict) ∧
      ∀ S : ℕ → Bool → Spec (n + 1), (∀ p < g.mult, ∀ last, (S p last).pnum < g.mult ∧
          ∃ k k', narrow[(S p last).pnum]? = some k ∧ narrow[p]? = some k' ∧ (S p last).baseMap ∈ Link.argmulIntersectFacet k.link (k'.endLink last)) →
        List.Forall₂ (· ∈ ·) ((boundary g.mult).map fun x => S x.1 x.2) dict := by
  have hex : ∀ e : ℕ × Bool, ∃ l, e ∈ boundary g.mult → g.narrowSpecs narrow e.1 e.2 = some l ∧
      ∀ s : Spec (n + 1), s ∈ l ↔ s.pnum < g.mult ∧
        ∃ k k', narrow[s.pnum]? = some k ∧ narrow[e.1]? = some k' ∧ s.baseMap ∈ Link.argmulIntersectFacet k.link (k'.endLink e.2) := by
    intro e
    by_cases he : e ∈ boundary g.mult
    · obtain ⟨l, hl⟩ := narrowSpecs_spec hlen (mem_boundary.1 he) e.2
      exact ⟨l, fun _ => hl⟩
    · exact ⟨[], fun h => absurd h he⟩
  choose T hT using hex
  refine ⟨(boundary g.mult).map T, ?_, ⟨by simp [length_boundary], ?_⟩, ?_⟩
  · unfold narrowCandidate
    rw [mapM_eq_some_map (g := T) (fun e he => (hT e he).1)]
    rfl
  · intro S hS
    simp only at hS ⊢
    rw [List.forall₂_map_left_iff, List.forall₂_map_right_iff, List.forall₂_same] at hS
    exact {
      length := by simp [hql]
      proto_length := by
        intro p hp
        obtain ⟨q, hq', rfl⟩ := List.mem_map.1 hp
        exact (hq q hq').proto_length
      cube_range := by
        intro p hp c hc
        obtain ⟨q, hq', rfl⟩ := List.mem_map.1 hp
        exact ((hq q hq').all c).1 hc
      ends := by
        intro p hp last
        obtain ⟨q, hq', rfl⟩ := List.mem_map.1 hp
        obtain ⟨c0, c1, l0, l1, e, x, hc0, hc1, _⟩ := FacetGen.make_iff.1 (hq q hq').made
        rw [endCube_eq]
        cases last
        · simp [hc0]
        · simp [hc1]
      spec_range := by
        intro p hp last
        have he : (p, last) ∈ boundary g.mult := mem_boundary.2 hp
        exact ((hT _ he).2 _).1 (hS _ he) |>.1 }
  · intro S hS
    rw [List.forall₂_map_left_iff, List.forall₂_map_right_iff, List.forall₂_same]
    intro e he
    exact ((hT e he).2 _).2 (hS e.1 (mem_boundary.1 he) e.2)

theorem wholeFacet_wf {g : GatesGen (n + 1)} (hdiv : 2 ≤ g.div) (c : Fin (n + 1)) (v : Bool) : (g.wholeFacet c v).WF := ⟨by show 0 < g.div; omega, by simp [wholeFacet]⟩

/-- The candidates for one tuple of global links. -/
theorem linksCandidates_spec {g : GatesGen (n + 1)} (hdiv : 2 ≤ g.div) (hm : 0 < g.mult) (hash : FacetHash n) {links : List (Link (FacetDivSubset n))}
    (hL : ∀ l ∈ links, l.InDiv g.div) (hlen : links.length = g.mult) :
    ∃ cands, g.linksCandidates hash links = some cands ∧ (∀ e ∈ cands, g.ArgsOK e) ∧
      ∀ ps, Coarse g.div links ps → ∃ qs, Coarse g.div links qs ∧ PathTuple.SameUpToSymmetry links ps qs ∧
        ∀ ns, Finer g.div qs ns → ∀ S : ℕ → Bool → Spec (n + 1),
          (∀ p < g.mult, ∀ last, (S p last).pnum < g.mult ∧ Admitted ns p last (S p last)) →
          ∃ e ∈ cands, e.1 = qs.map Path.proto ∧ List.Forall₂ (· ∈ ·) ((boundary g.mult).map fun x => S x.1 x.2) e.2 := by
  have hM : 2 ≤ g.div ^ (n + 1) := le_trans hdiv (Nat.le_self_pow (by omega) _)
  obtain ⟨plist, h1, _, h3, h4⟩ := PathsGen.C65_tuples_std { div := g.div, links := links, maxCdist := none } hash (some 100) (some 1000000) none hM hL hL
  simp only [Option.getD_none] at h3 h4
  have hqs : ∀ qs ∈ plist, qs.length = g.mult ∧ ∀ q ∈ qs, FacetPath g.div links none q := by
    intro qs hqs
    have := h3 qs hqs
    refine ⟨by rw [← this.length_eq, hlen], ?_⟩
    intro q hq
    obtain ⟨i, hi⟩ := List.mem_iff_getElem?.1 hq
    obtain ⟨_, _, hp⟩ := forall₂_getElem? this i q hi
    exact hp.1
  have hpart : ∀ qs ∈ plist, ∃ cands, (do
      let narrows ← genNarrowLinks hash qs
      narrows.mapM (g.narrowCandidate qs)) = some cands ∧ (∀ e ∈ cands, g.ArgsOK e) ∧
      ∀ ns, Finer g.div qs ns → ∀ S : ℕ → Bool → Spec (n + 1),
          (∀ p < g.mult, ∀ last, (S p last).pnum < g.mult ∧ Admitted ns p last (S p last)) →
          ∃ e ∈ cands, e.1 = qs.map Path.proto ∧ List.Forall₂ (· ∈ ·) ((boundary g.mult).map fun x => S x.1 x.2) e.2 := by
    intro qs hqs'
    obtain ⟨hl, hf⟩ := hqs qs hqs'
    obtain ⟨narrows, k1, k2, k3⟩ := genNarrowLinks_spec hM hash (qs := qs) (by intro h; rw [h] at hl; simp at hl; omega) hL hf
    have hcand := fun nar (hn : nar ∈ narrows) => narrowCandidate_spec hf hl ((k2 nar hn).trans hl)
    obtain ⟨cands, c1, c2⟩ := mapM_some_of (g.narrowCandidate qs) narrows fun nar hn => by
      obtain ⟨dict, hd, _⟩ := hcand nar hn
      exact ⟨_, hd⟩
    refine ⟨cands, by rw [k1]; exact c1, ?_, ?_⟩
    · intro e he
      obtain ⟨i, hi⟩ := List.mem_iff_getElem?.1 he
      obtain ⟨nar, hn1, hn2⟩ := forall₂_getElem? c2 i e hi
      obtain ⟨dict, hd1, hd2, _⟩ := hcand nar (List.mem_of_getElem? hn1)
      rw [hd1] at hn2
      cases hn2
      exact hd2
    · intro ns hns S hS
      obtain ⟨nar, hn1, hn2⟩ := k3 ns hns
      obtain ⟨dict, hd1, _, hd3⟩ := hcand nar hn1
      obtain ⟨i, hi⟩ := List.mem_iff_getElem?.1 hn1
      obtain ⟨e, he1, he2⟩ := forall₂_getElem?' c2 i nar hi
      rw [hd1] at he2
      cases he2
      refine ⟨_, List.mem_of_getElem? he1, rfl, hd3 S ?_⟩
      intro p hp last
      obtain ⟨s1, N, N', l, a1, a2, a3, a4⟩ := hS p hp last
      refine ⟨s1, ?_⟩
      obtain ⟨k, b1, b2⟩ := forall₂_getElem?' hn2 _ N a1
      obtain ⟨k', b1', b2'⟩ := forall₂_getElem?' hn2 _ N' a2
      have hN : ∀ (i : ℕ) M, ns[i]? = some M → FacetPath g.div (qs.map Path.link) none M := by
        intro i M hi
        obtain ⟨_, _, h⟩ := forall₂_getElem? hns i M hi
        exact h.1
      obtain ⟨_, e1, e2, _⟩ := (hN _ N a1).exists_key
      obtain ⟨_, e1', _, e3'⟩ := (hN _ N' a2).exists_key
      rw [b2] at e1
      cases e1
      rw [b2'] at e1'
      cases e1'
      refine ⟨k, k', b1, b1', ?_⟩
      rw [e3' last] at a3
      cases a3
      rw [e2]
      exact a4
  obtain ⟨parts, p1, p2⟩ := mapM_some_of _ plist fun qs hq => by
    obtain ⟨cands, hc, _⟩ := hpart qs hq
    exact ⟨cands, hc⟩
  refine ⟨parts.flatten, ?_, ?_, ?_⟩
  · unfold linksCandidates
    simp only [h1, Option.bind_eq_bind, Option.bind_some]
    simp only [Option.bind_eq_bind] at p1
    rw [p1]
    rfl
  · intro e he
    obtain ⟨cands, hc1, hc2⟩ := List.mem_flatten.1 he
    obtain ⟨i, hi⟩ := List.mem_iff_getElem?.1 hc1
    obtain ⟨qs, hq1, hq2⟩ := forall₂_getElem? p2 i cands hi
    obtain ⟨cands', d1, d2, _⟩ := hpart qs (List.mem_of_getElem? hq1)
    rw [d1] at hq2
    cases hq2
    exact d2 e hc2
  · intro ps hps
    obtain ⟨qs, ⟨hq1, hq2⟩, _⟩ := h4 ps hps
    refine ⟨qs, h3 qs hq1, hq2, ?_⟩
    intro ns hns S hS
    obtain ⟨cands', d1, _, d3⟩ := hpart qs hq1
    obtain ⟨e, he1, he2⟩ := d3 ns hns S hS
    obtain ⟨i, hi⟩ := List.mem_iff_getElem?.1 hq1
    obtain ⟨cands, hc1, hc2⟩ := forall₂_getElem?' p2 i qs hi
    rw [d1] at hc2
    cases hc2
    exact ⟨e, List.mem_flatten.2 ⟨_, List.mem_of_getElem? hc1, he1⟩, he2⟩

theorem linkVariants_eq {g : GatesGen (n + 1)} (hn : 1 ≤ n) (hdiv : 2 ≤ g.div) : ∃ variants, g.linkVariants = some variants ∧
    (∀ l ∈ variants, l.InDiv g.div) ∧ (∀ v, (⟨g.wholeFacet 0 false, g.wholeFacet 0 v⟩ : Link (FacetDivSubset n)) ∈ variants) ∧
    ⟨g.wholeFacet 0 false, g.wholeFacet ⟨1, by omega⟩ false⟩ ∈ variants := by
  unfold linkVariants
  rw [dif_pos (by omega)]
  refine ⟨_, rfl, ?_, ?_, by simp⟩
  · intro l hl
    simp only [List.mem_cons, List.not_mem_nil, or_false] at hl
    rcases hl with rfl | rfl | rfl <;> exact ⟨⟨wholeFacet_wf hdiv _ _, rfl⟩, ⟨wholeFacet_wf hdiv _ _, rfl⟩⟩
  · intro v
    cases v <;> simp

/-- Summary: the generator does not raise; what it yields; which candidates are processed. -/
theorem genFacetGates_spec {g : GatesGen (n + 1)} (hn : 1 ≤ n) (hdiv : 2 ≤ g.div) (hm : 0 < g.mult) (hashF : FacetHash n) (hash : Hash (n + 1)) :
    ∃ out seen, g.genFacetGates hashF hash = some out ∧ g.Inv seen out ∧ ∀ variants, g.linkVariants = some variants →
      ∀ links ∈ Itertools.combinationsWithReplacement variants g.mult, ∀ ps, Coarse g.div links ps →
        ∃ qs, Coarse g.div links qs ∧ PathTuple.SameUpToSymmetry links ps qs ∧
        ∀ ns, Finer g.div qs ns → ∀ S : ℕ → Bool → Spec (n + 1),
          (∀ p < g.mult, ∀ last, (S p last).pnum < g.mult ∧ Admitted ns p last (S p last)) → g.Processed seen (qs.map Path.proto) S := by
  obtain ⟨variants, hv, hL, _⟩ := linkVariants_eq hn hdiv
  have hlc := fun links (h : links ∈ Itertools.combinationsWithReplacement variants g.mult) =>
    linksCandidates_spec hdiv hm hashF (links := links) (fun l hl => hL l ((Itertools.cwr_mem h).2 l hl)) (Itertools.cwr_mem h).1
  obtain ⟨parts, p1, p2⟩ := mapM_some_of (g.linksCandidates hashF) _ fun links h => by
    obtain ⟨cands, hc, _⟩ := hlc links h
    exact ⟨cands, hc⟩
  obtain ⟨seen, r, h1, h2, _, h4⟩ := candidatesLoop_spec hdiv (by omega) hash parts.flatten inv_init (by
    intro e he
    obtain ⟨cands, hc1, hc2⟩ := List.mem_flatten.1 he
    obtain ⟨i, hi⟩ := List.mem_iff_getElem?.1 hc1
    obtain ⟨links, hq1, hq2⟩ := forall₂_getElem? p2 i cands hi
    obtain ⟨cands', d1, d2, _⟩ := hlc links (List.mem_of_getElem? hq1)
    rw [d1] at hq2
    cases hq2
    exact d2 e hc2)
  refine ⟨r, seen, ?_, by simpa using h2, ?_⟩
  · unfold genFacetGates
    simp only [hv, p1, Option.bind_eq_bind, Option.bind_some, h1, Option.pure_def]
  · intro variants' hv' links hlinks ps hps
    rw [hv] at hv'
    cases hv'
    obtain ⟨cands, c1, _, c3⟩ := hlc links hlinks
    obtain ⟨qs, q1, q2, q3⟩ := c3 ps hps
    refine ⟨qs, q1, q2, ?_⟩
    intro ns hns S hS
    obtain ⟨e, e1, e2, e3⟩ := q3 ns hns S hS
    obtain ⟨i, hi⟩ := List.mem_iff_getElem?.1 hlinks
    obtain ⟨cands', f1, f2⟩ := forall₂_getElem?' p2 i links hi
    rw [c1] at f2
    cases f2
    rw [← e2]
    exact h4 e (List.mem_flatten.2 ⟨_, List.mem_of_getElem? f1, e1⟩) S e3

end GatesGen
end Peano
