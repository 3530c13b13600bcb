import Verif.Lemmas.FacetPaths
import Verif.Lemmas.UtilsB
import Verif.Model.GeneratePaths

set_option autoImplicit false

/-! The search of paths with facet links finds exactly the required paths. -/
namespace Peano
variable {n : ℕ}

theorem mapM_spec {α β : Type} {f : α → Option β} {l : List α} (h : ∀ a ∈ l, ∃ b, f a = some b)
    (hinj : ∀ a ∈ l, ∀ a' ∈ l, ∀ b, f a = some b → f a' = some b → a = a') :
    ∃ r, l.mapM f = some r ∧ (l.Nodup → r.Nodup) ∧ ∀ b, b ∈ r ↔ ∃ a ∈ l, f a = some b := by
  induction l with
  | nil => exact ⟨[], rfl, fun _ => List.nodup_nil, by simp⟩
  | cons a l ih =>
    obtain ⟨b, hb⟩ := h a List.mem_cons_self
    obtain ⟨r, h1, h2, h3⟩ := ih (fun a ha => h a (List.mem_cons_of_mem _ ha))
      (fun a ha a' ha' => hinj a (List.mem_cons_of_mem _ ha) a' (List.mem_cons_of_mem _ ha'))
    refine ⟨b :: r, ?_, ?_, ?_⟩
    · rw [List.mapM_cons, hb, h1]; rfl
    · intro hn
      rw [List.nodup_cons] at hn ⊢
      refine ⟨?_, h2 hn.2⟩
      intro hm
      obtain ⟨a', ha', hb'⟩ := (h3 b).1 hm
      have := hinj a List.mem_cons_self a' (List.mem_cons_of_mem _ ha') b hb hb'
      exact hn.1 (this ▸ ha')
    · intro x
      rw [List.mem_cons, h3]
      constructor
      · rintro (rfl | ⟨a', ha', hx⟩)
        · exact ⟨a, List.mem_cons_self, hb⟩
        · exact ⟨a', List.mem_cons_of_mem _ ha', hx⟩
      · rintro ⟨a', ha', hx⟩
        rcases List.mem_cons.1 ha' with rfl | ha'
        · rw [hb, Option.some.injEq] at hx
          exact Or.inl hx.symm
        · exact Or.inr ⟨a', ha', hx⟩

theorem placed_inter {d div : ℕ} (hd : 0 < div) {c c' : Cube d} {A B : Set (Fin d → ℝ)} :
    (placed div c A ∩ placed div c' B).Nonempty ↔ (A ∩ translated (fun j => c' j - c j) B).Nonempty := by
  have hd' : (div : ℝ) ≠ 0 := by exact_mod_cast hd.ne'
  constructor
  · rintro ⟨y, ⟨x, hx, e1⟩, ⟨z, hz, e2⟩⟩
    refine ⟨x, hx, z, hz, fun j => ?_⟩
    have := (e1 j).symm.trans (e2 j)
    field_simp at this
    push_cast
    linarith
  · rintro ⟨x, hx, z, hz, e⟩
    refine ⟨fun j => ((c j : ℝ) + x j) / div, ⟨x, hx, fun _ => rfl⟩, ⟨z, hz, fun j => ?_⟩⟩
    beta_reduce
    rw [e j]
    push_cast
    ring

theorem placed_mono {d div : ℕ} {c : Cube d} {A B : Set (Fin d → ℝ)} (h : (A ∩ B).Nonempty) : (placed div c A ∩ placed div c B).Nonempty := by
  obtain ⟨x, hA, hB⟩ := h
  exact ⟨fun j => ((c j : ℝ) + x j) / div, ⟨x, hA, fun _ => rfl⟩, ⟨x, hB, fun _ => rfl⟩⟩

theorem placed_self {d div : ℕ} (hd : 0 < div) {c : Cube d} {A B : Set (Fin d → ℝ)} : (placed div c A ∩ placed div c B).Nonempty ↔ (A ∩ B).Nonempty := by
  refine ⟨fun h => ?_, placed_mono⟩
  rw [placed_inter hd] at h
  obtain ⟨x, hx, z, hz, e⟩ := h
  refine ⟨x, hx, ?_⟩
  have : x = z := by funext j; have := e j; simpa using this
  rw [this]; exact hz

namespace FacetDivSubset

theorem meets_iff {s t : FacetDivSubset n} (hs : s.WF) (ht : t.WF) (hd : s.div = t.div) : s.intersects t = true ↔ s.Meets t := toSet_inter hs ht hd

theorem Meets.symm {s t : FacetDivSubset n} (h : s.Meets t) : t.Meets s := by
  unfold Meets
  rw [Set.inter_comm]; exact h

theorem mapToCube_some {s : FacetDivSubset n} {div : ℕ} {cube : Cube (n + 1)} {t : FacetDivSubset n} (h : s.mapToCube div cube = some t) : div = s.div := by
  by_contra hne
  unfold mapToCube at h
  rw [if_neg hne] at h
  simp at h

/-- Subsets of one facet may be placed in the same cubes. -/
theorem mapToCube_of_intersects {s t s' : FacetDivSubset n} {cube : Cube (n + 1)} (h : s.mapToCube s.div cube = some s') (hi : t.intersects s = true)
    (hd : t.div = s.div) : ∃ t', t.mapToCube s.div cube = some t' := by
  rw [intersects_iff] at hi
  have := (mapToCube_facet (s := s)).1 ⟨_, h⟩
  rw [← hd]
  rw [mapToCube_facet, hi.1, hi.2.1, hd]
  exact this

end FacetDivSubset

namespace FacetGen
open PathsGen
variable {g : PathsGen (n + 1) (FacetDivSubset n)}

/-- start or finish nodes -/
theorem nodes_spec (hg : Good g) {s : FacetDivSubset n} (hs : s.WF) (hsd : s.div = g.div) (f : Link (FacetDivSubset n) → Link (FacetDivSubset n))
    (hf : Function.Injective f) :
    ∃ r, (do
      let sets ← SubsetOps.divide s g.div
      let parts ← sets.mapM fun e => do
        let links ← g.genIntersectedLinks e.2
        return links.map fun l => (e.1, f l)
      return parts.flatten : Option (List (CubeTree.Node (n + 1) (Link (FacetDivSubset n))))) = some r ∧ r.Nodup ∧
      ∀ m, m ∈ r ↔ CubeTree.InGrid g.div m.1 ∧ ∃ l, m.2 = f l ∧ FacetImageOf g.links l ∧
        ∃ t, l.entrance.mapToCube g.div m.1 = some t ∧ t.Meets s := by
  obtain ⟨D, hD1, hD2, hD3, hD4⟩ := FacetDivSubset.divide_spec hs
  rw [hsd] at hD1 hD3 hD4
  choose F hF1 hF2 hF3 using genIntersectedLinks_eq (g := g)
  have hm : D.mapM (fun e => do
        let links ← g.genIntersectedLinks e.2
        return links.map fun l => (e.1, f l)) = some (D.map fun e => (F e.2).map fun l => (e.1, f l)) := by
    refine mapM_eq_some_map ?_
    intro e _
    rw [hF1]
    rfl
  refine ⟨(D.map fun e => (F e.2).map fun l => (e.1, f l)).flatten, ?_, ?_, ?_⟩
  · have : (SubsetOps.divide s g.div : Option (List (Cube (n + 1) × FacetDivSubset n))) = some D := hD1
    rw [this]
    simp only [Option.bind_eq_bind, Option.bind_some]
    simp only [Option.bind_eq_bind] at hm
    rw [hm]
    rfl
  · rw [← List.flatMap_def, List.nodup_flatMap]
    constructor
    · intro e _
      exact (hF2 _).map fun a b h => hf (Prod.mk.inj h).2
    · have hD2' : D.Pairwise fun a b => a.1 ≠ b.1 := (List.pairwise_map.1 hD2)
      refine hD2'.imp ?_
      rintro ⟨c, q⟩ ⟨c', q'⟩ hne ⟨c'', l⟩ hx hx'
      rw [List.mem_map] at hx hx'
      obtain ⟨a, ha1, ha⟩ := hx
      obtain ⟨a', ha1', ha'⟩ := hx'
      rw [Prod.mk.injEq] at ha ha'
      exact hne (ha.1.trans ha'.1.symm)
  · rintro ⟨c, l⟩
    simp only [← List.flatMap_def, List.mem_flatMap, List.mem_map, Prod.exists, Prod.mk.injEq, hF3]
    constructor
    · rintro ⟨c', q, hcq, l', ⟨h4, h5⟩, rfl, rfl⟩
      obtain ⟨w1, w2, w3, w4, w5⟩ := hD3 _ hcq
      dsimp only at w1 w2 w3 w4 w5
      obtain ⟨q', hq'⟩ := Option.ne_none_iff_exists'.1 w4
      obtain ⟨i1, i2⟩ := (hg.image h5).1
      rw [← w2] at hq'
      obtain ⟨t, ht⟩ := FacetDivSubset.mapToCube_of_intersects hq' h4 (i2.trans w2.symm)
      rw [w2] at ht
      refine ⟨w3, l', rfl, h5, t, ht, ?_⟩
      rw [← i2] at ht
      unfold FacetDivSubset.Meets
      rw [FacetDivSubset.toSet_mapToCube i1 ht, i2]
      rw [FacetDivSubset.meets_iff i1 w1 (i2.trans w2.symm)] at h4
      obtain ⟨y, hy1, hy2⟩ := placed_mono (div := g.div) (c := c') h4
      refine ⟨y, hy1, ?_⟩
      rw [← w5] at hy2
      exact hy2.1
    · rintro ⟨h1, l', rfl, h5, t, ht, x, hx1, hx2⟩
      obtain ⟨i1, i2⟩ := (hg.image h5).1
      rw [← i2] at ht
      have htw := FacetDivSubset.mapToCube_wf i1 (by rw [i2]; exact h1) ht
      have hc := (FacetDivSubset.mapToCube_eq.1 ht).1
      have hte := (FacetDivSubset.mapToCube_eq.1 ht).2
      have htd : t.div = g.div := by rw [hte]; exact i2
      have hi := (FacetDivSubset.toSet_inter htw hs (htd.trans hsd.symm)).2 ⟨x, hx1, hx2⟩
      rw [FacetDivSubset.intersects_iff] at hi
      have hfc : l'.entrance.facetCoord = s.facetCoord := by rw [← hi.1, hte]
      have hx1' := hx1
      rw [FacetDivSubset.toSet_mapToCube i1 ht, i2] at hx1'
      obtain ⟨y, hy, hxy⟩ := hx1'
      have hdp : (0 : ℝ) < g.div := by exact_mod_cast hg.1
      have hcell : x ∈ cellOpenBut s.facetCoord g.div c := by
        intro j
        rw [hxy j, div_le_div_iff_of_pos_right hdp, div_le_div_iff_of_pos_right hdp, div_lt_div_iff_of_pos_right hdp, div_lt_div_iff_of_pos_right hdp]
        by_cases hj : j = s.facetCoord
        · rw [if_pos hj]
          rw [hj, ← hfc, hy.1]
          cases l'.entrance.facetValue <;> simp
        · rw [if_neg hj]
          have := FacetDivSubset.toSet_unit i1 hy (by rw [hfc]; exact hj)
          constructor <;> linarith [this.1, this.2]
      have := hD4 c h1 ⟨x, hx2, hcell⟩
      rw [List.mem_map] at this
      obtain ⟨⟨c', q⟩, hcq, rfl⟩ := this
      obtain ⟨w1, w2, w3, w4, w5⟩ := hD3 _ hcq
      refine ⟨c', q, hcq, l', ⟨?_, h5⟩, rfl, rfl⟩
      rw [FacetDivSubset.meets_iff i1 w1 (i2.trans w2.symm)]
      have hxq : x ∈ placed g.div c' q.toSet := by rw [← w5]; exact ⟨hx2, hcell⟩
      exact (placed_self hg.1).1 ⟨x, ⟨y, hy, hxy⟩, hxq⟩

theorem start_spec (hg : Good g) {link : Link (FacetDivSubset n)} (hl : link.InDiv g.div) : ∃ r, g.startNodes link = some r ∧ r.Nodup ∧
      ∀ m, m ∈ r ↔ CubeTree.InGrid g.div m.1 ∧ FacetImageOf g.links m.2 ∧ ∃ t, m.2.entrance.mapToCube g.div m.1 = some t ∧ t.Meets link.entrance := by
  obtain ⟨r, h1, h2, h3⟩ := nodes_spec hg hl.1.1 hl.1.2 id Function.injective_id
  refine ⟨r, h1, h2, fun n => ?_⟩
  rw [h3]
  refine and_congr_right fun _ => ?_
  constructor
  · rintro ⟨l, h, h'⟩
    simp only [id] at h
    rw [h]
    exact h'
  · intro h
    exact ⟨n.2, rfl, h⟩

theorem finish_spec (hg : Good g) {link : Link (FacetDivSubset n)} (hl : link.InDiv g.div) : ∃ r, g.finishNodes link = some r ∧ r.Nodup ∧
      ∀ m, m ∈ r ↔ CubeTree.InGrid g.div m.1 ∧ FacetImageOf g.links m.2 ∧ ∃ t, m.2.exit.mapToCube g.div m.1 = some t ∧ t.Meets link.exit := by
  obtain ⟨r, h1, h2, h3⟩ := nodes_spec hg hl.2.1 hl.2.2 Link.invert (by
    rintro ⟨a, b⟩ ⟨a', b'⟩ h
    simp only [Link.invert, Link.mk.injEq] at h ⊢
    tauto)
  refine ⟨r, h1, h2, fun n => ?_⟩
  rw [h3]
  refine and_congr_right fun _ => ?_
  constructor
  · rintro ⟨l, h, h1, h2⟩
    rw [h]
    exact ⟨h1.invert, h2⟩
  · rintro ⟨h1, h2⟩
    exact ⟨n.2.invert, rfl, h1.invert, h2⟩

/-! ### paths and lists of nodes -/

/-- the constructor of the path with the given nodes -/
abbrev mk (div : ℕ) (L : List (CubeTree.Node (n + 1) (Link (FacetDivSubset n)))) : Option (Path (FacetDivSubset n) (n + 1)) :=
  Path.make div (L.map fun m => some m.1) (L.map Prod.snd)

theorem make_iff {div : ℕ} {proto : Proto (n + 1)} {links : List (Link (FacetDivSubset n))} {p : Path (FacetDivSubset n) (n + 1)} :
    Path.make div proto links = some p ↔ ∃ c0 c1 l0 l1 e x, proto.head? = some (some c0) ∧ proto.getLast? = some (some c1) ∧
      links.head? = some l0 ∧ links.getLast? = some l1 ∧ l0.entrance.mapToCube div c0 = some e ∧ l1.exit.mapToCube div c1 = some x ∧
      p = ⟨div, proto, links, ⟨e, x⟩⟩ := by
  have hm : ∀ (q : FacetDivSubset n) c r, SubsetOps.mapToCube q div c = some r ↔ q.mapToCube div c = some r := fun _ _ _ => Iff.rfl
  unfold Path.make
  simp only [Option.bind_eq_bind, Option.bind_eq_some_iff, Option.pure_def, Option.some.injEq, hm]
  constructor
  · rintro ⟨l0, h1, l1, h2, _, h3, c0, rfl, _, h4, c1, rfl, e, h5, x, h6, rfl⟩
    exact ⟨c0, c1, l0, l1, e, x, h3, h4, h1, h2, h5, h6, rfl⟩
  · rintro ⟨c0, c1, l0, l1, e, x, h3, h4, h1, h2, h5, h6, rfl⟩
    exact ⟨l0, h1, l1, h2, _, h3, c0, rfl, _, h4, c1, rfl, e, h5, x, h6, rfl⟩

theorem mk_iff {div : ℕ} {L : List (CubeTree.Node (n + 1) (Link (FacetDivSubset n)))} {p : Path (FacetDivSubset n) (n + 1)} :
    mk div L = some p ↔ ∃ n0 n1 e x, L.head? = some n0 ∧ L.getLast? = some n1 ∧ n0.2.entrance.mapToCube div n0.1 = some e ∧
      n1.2.exit.mapToCube div n1.1 = some x ∧ p = ⟨div, L.map fun m => some m.1, L.map Prod.snd, ⟨e, x⟩⟩ := by
  rw [mk, make_iff]
  constructor
  · rintro ⟨c0, c1, l0, l1, e, x, h1, h2, h3, h4, h5, h6, h7⟩
    rw [List.head?_map, Option.map_eq_some_iff] at h1 h3
    rw [List.getLast?_map, Option.map_eq_some_iff] at h2 h4
    obtain ⟨n0, a1, b1⟩ := h1
    obtain ⟨n1, a2, b2⟩ := h2
    obtain ⟨n0', a3, b3⟩ := h3
    obtain ⟨n1', a4, b4⟩ := h4
    rw [a1, Option.some.injEq] at a3
    rw [a2, Option.some.injEq] at a4
    subst a3 a4 b3 b4
    rw [Option.some.injEq] at b1 b2
    subst b1 b2
    exact ⟨n0, n1, e, x, a1, a2, h5, h6, h7⟩
  · rintro ⟨n0, n1, e, x, h1, h2, h3, h4, h5⟩
    refine ⟨n0.1, n1.1, n0.2, n1.2, e, x, ?_, ?_, ?_, ?_, h3, h4, h5⟩
    · rw [List.head?_map, h1]; rfl
    · rw [List.getLast?_map, h2]; rfl
    · rw [List.head?_map, h1]; rfl
    · rw [List.getLast?_map, h2]; rfl

theorem mk_fields {div : ℕ} {L : List (CubeTree.Node (n + 1) (Link (FacetDivSubset n)))} {p : Path (FacetDivSubset n) (n + 1)} (h : mk div L = some p) :
    p.div = div ∧ p.proto = L.map (fun m => some m.1) ∧ p.links = L.map Prod.snd := by
  obtain ⟨n0, n1, e, x, _, _, _, _, rfl⟩ := mk_iff.1 h
  exact ⟨rfl, rfl, rfl⟩

theorem mk_inj {div : ℕ} {L M : List (CubeTree.Node (n + 1) (Link (FacetDivSubset n)))} {p : Path (FacetDivSubset n) (n + 1)} (hL : mk div L = some p)
    (hM : mk div M = some p) : L = M := by
  have h1 := (mk_fields hL).2.1.symm.trans (mk_fields hM).2.1
  have h2 := (mk_fields hL).2.2.symm.trans (mk_fields hM).2.2
  apply List.ext_getElem?
  intro i
  have e1 := congrArg (fun l : List (Option (Cube (n + 1))) => l[i]?) h1
  have e2 := congrArg (fun l : List (Link (FacetDivSubset n)) => l[i]?) h2
  simp only [List.getElem?_map] at e1 e2
  cases hL : L[i]? with
  | none =>
    rw [hL] at e1
    cases hM : M[i]? with
    | none => rfl
    | some n => rw [hM] at e1; simp at e1
  | some n =>
    rw [hL] at e1 e2
    cases hM : M[i]? with
    | none => rw [hM] at e1; simp at e1
    | some m =>
      rw [hM] at e1 e2
      simp at e1 e2
      rw [Prod.ext e1 e2]

theorem exists_nodes {p : Path (FacetDivSubset n) (n + 1)} (hm : Path.make p.div p.proto p.links = some p) (hlen : p.links.length = p.proto.length)
    (hc : ∀ c ∈ p.proto, c ≠ none) : ∃ L, mk p.div L = some p := by
  obtain ⟨cs, hcs⟩ : ∃ cs : List (Cube (n + 1)), p.proto = cs.map some := by
    refine ⟨p.proto.filterMap id, ?_⟩
    generalize p.proto = l at hc
    induction l with
    | nil => rfl
    | cons a l ih =>
      obtain ⟨b, hb⟩ := Option.ne_none_iff_exists'.1 (hc a List.mem_cons_self)
      subst hb
      rw [show List.filterMap id (some b :: l) = b :: List.filterMap id l from rfl, List.map_cons, ← ih fun c h => hc c (List.mem_cons_of_mem _ h)]
  have hlen' : p.links.length = cs.length := by rw [hlen, hcs, List.length_map]
  have hz : (cs.zip p.links).map Prod.fst = cs := List.map_fst_zip (by omega)
  have hz2 : (cs.zip p.links).map Prod.snd = p.links := List.map_snd_zip (by omega)
  refine ⟨cs.zip p.links, ?_⟩
  have e1 : (cs.zip p.links).map (fun m => some m.1) = p.proto := by
    rw [hcs]
    conv_rhs => rw [← hz]
    rw [List.map_map]
    rfl
  rw [mk, e1, hz2, hm]

/-- what is required of the nodes of a path -/
structure Nodes (g : PathsGen (n + 1) (FacetDivSubset n)) (dict : List (FacetDivSubset n × List (Cube (n + 1) × Link (FacetDivSubset n))))
    (L : List (CubeTree.Node (n + 1) (Link (FacetDivSubset n)))) : Prop where
  image : ∀ m ∈ L, FacetImageOf g.links m.2
  follows : ∀ (i : ℕ) (a b : CubeTree.Node (n + 1) (Link (FacetDivSubset n))), L[i]? = some a → L[i + 1]? = some b → CubeTree.Follows (nextOf dict) a b
  once : (L.map Prod.fst).Nodup
  all : ∀ c : Cube (n + 1), c ∈ L.map Prod.fst ↔ CubeTree.InGrid g.div c

theorem facetPath_iff (hg : Good g) {dict : List (FacetDivSubset n × List (Cube (n + 1) × Link (FacetDivSubset n)))} (hgood : GoodDict g dict)
    (hall : ∀ e, End g e → ∃ L, Dict.get? e dict = some L) {p : Path (FacetDivSubset n) (n + 1)}
    {L : List (CubeTree.Node (n + 1) (Link (FacetDivSubset n)))} (hp : mk g.div L = some p) :
    FacetPath g.div g.links g.maxCdist p ↔ Nodes g dict L := by
  obtain ⟨hdiv, hpr, hli⟩ := mk_fields hp
  have hproto : ∀ (i : ℕ) (c : Cube (n + 1)), p.proto[i]? = some (some c) ↔ ∃ l, L[i]? = some (c, l) := by
    intro i c
    simp only [hpr, List.getElem?_map, Option.map_eq_some_iff, Option.some.injEq, Prod.exists]
    constructor
    · rintro ⟨a, b, h, rfl⟩; exact ⟨b, h⟩
    · rintro ⟨b, h⟩; exact ⟨c, b, h, rfl⟩
  have hlinks : ∀ (i : ℕ) (l : Link (FacetDivSubset n)), p.links[i]? = some l ↔ ∃ c, L[i]? = some (c, l) := by
    intro i c
    simp only [hli, List.getElem?_map, Option.map_eq_some_iff, Prod.exists]
    constructor
    · rintro ⟨a, b, h, rfl⟩; exact ⟨a, h⟩
    · rintro ⟨b, h⟩; exact ⟨b, c, h, rfl⟩
  have hm : ∀ c : Cube (n + 1), some c ∈ p.proto ↔ c ∈ L.map Prod.fst := by
    intro c
    simp [hpr]
  have honce : p.proto.Nodup ↔ (L.map Prod.fst).Nodup := by
    have : p.proto = (L.map Prod.fst).map some := by simp [hpr]
    rw [this, List.nodup_map_iff (Option.some_injective _)]
  constructor
  · intro h
    have himg : ∀ m ∈ L, FacetImageOf g.links m.2 := fun m hm => h.links_image _ (by rw [hli]; exact List.mem_map_of_mem hm)
    have hnd := honce.1 h.once
    refine ⟨himg, ?_, hnd, fun c => by rw [← hm]; exact h.all c⟩
    intro i a b ha hb
    have ha' := himg _ (List.mem_of_getElem? ha)
    have hb' := himg _ (List.mem_of_getElem? hb)
    rw [follows_next hgood hall ha']
    refine ⟨?_, ?_, ?_, hb'⟩
    · intro hcon
      have hab : a.1 = b.1 := by
        funext j
        have := congrFun hcon j
        simp only [Pi.zero_apply] at this
        omega
      obtain ⟨hi, ha2⟩ := List.getElem?_eq_some_iff.1 ha
      obtain ⟨hi', hb2⟩ := List.getElem?_eq_some_iff.1 hb
      have := (List.nodup_iff_injective_getElem.1 hnd) (a₁ := ⟨i, by simpa using hi⟩) (a₂ := ⟨i + 1, by simpa using hi'⟩)
        (by simp [ha2, hb2, hab])
      simp at this
    · rw [← placed_inter hg.1]
      exact h.joined i a.1 b.1 a.2 b.2 ((hproto _ _).2 ⟨_, ha⟩) ((hproto _ _).2 ⟨_, hb⟩) ((hlinks _ _).2 ⟨_, ha⟩) ((hlinks _ _).2 ⟨_, hb⟩)
    · intro m hm
      rw [cdist_eq]
      exact h.cdist_le m hm i a.1 b.1 ((hproto _ _).2 ⟨_, ha⟩) ((hproto _ _).2 ⟨_, hb⟩)
  · intro h
    have hstep : ∀ (i : ℕ) (a b : CubeTree.Node (n + 1) (Link (FacetDivSubset n))), L[i]? = some a → L[i + 1]? = some b →
        Step g a.2.exit (fun j => b.1 j - a.1 j) b.2 := by
      intro i a b ha hb
      have := h.follows i a b ha hb
      rwa [follows_next hgood hall (h.image _ (List.mem_of_getElem? ha))] at this
    refine ⟨hdiv, ?_, ?_, ?_, ?_, ?_, ?_, ?_, ?_⟩
    · rw [hdiv, hpr, hli]; exact hp
    · rw [hpr, hli]; simp
    · intro c hc
      rw [hpr, List.mem_map] at hc
      obtain ⟨m, _, rfl⟩ := hc
      simp
    · intro c
      rw [hm]
      exact h.all c
    · exact honce.2 h.once
    · intro i c c' l l' e1 e2 e3 e4
      rw [hproto] at e1 e2
      rw [hlinks] at e3 e4
      obtain ⟨x1, e1⟩ := e1
      obtain ⟨x2, e2⟩ := e2
      obtain ⟨x3, e3⟩ := e3
      obtain ⟨x4, e4⟩ := e4
      rw [e1, Option.some.injEq, Prod.mk.injEq] at e3
      rw [e2, Option.some.injEq, Prod.mk.injEq] at e4
      obtain ⟨rfl, rfl⟩ := e3
      obtain ⟨rfl, rfl⟩ := e4
      rw [placed_inter hg.1]
      exact (hstep i _ _ e1 e2).2.1
    · intro l hl
      rw [hli, List.mem_map] at hl
      obtain ⟨m, hm, rfl⟩ := hl
      exact h.image m hm
    · intro m hmm i c c' e1 e2
      rw [hproto] at e1 e2
      obtain ⟨x1, e1⟩ := e1
      obtain ⟨x2, e2⟩ := e2
      have := (hstep i _ _ e1 e2).2.2.1 m hmm
      rw [cdist_eq] at this
      exact this

theorem pow_pos_of {d div : ℕ} (hM : 2 ≤ div ^ (d + 1)) : 0 < div := by
  rcases Nat.eq_zero_or_pos div with h | h
  · rw [h, zero_pow (Nat.succ_ne_zero d)] at hM; omega
  · exact h

/-- The search of paths finds exactly the required paths, each once. -/
theorem rawPaths_spec (hL : ∀ m ∈ g.links, m.InDiv g.div) (hM : 2 ≤ g.div ^ (n + 1))
    (hash : Finset (Cube (n + 1)) × CubeTree.Node (n + 1) (Link (FacetDivSubset n)) → ℤ) {link : Link (FacetDivSubset n)} (hlink : link.InDiv g.div)
    (sm fm : Option ℤ) : ∃ out, g.rawPaths hash link sm fm = some out ∧ out.Nodup ∧
      ∀ p, p ∈ out ↔ FacetPath g.div g.links g.maxCdist p ∧ FacetPath.Agrees link p := by
  have hg : Good g := ⟨pow_pos_of hM, hL⟩
  obtain ⟨dict, hx1, hgood, hall⟩ := exit2next_spec hg
  obtain ⟨s, hs1, hs2, hs3⟩ := start_spec hg hlink
  obtain ⟨f, hf1, hf2, hf3⟩ := finish_spec hg hlink
  set tree : CubeTree.Tree (n + 1) (Link (FacetDivSubset n)) := { div := g.div, nextFunc := nextOf dict, prevFunc := some (prevOf dict) } with htree
  obtain ⟨found, hg1, hg2, hg3⟩ := CubeTree.Tree.grow_spec tree hash s f sm fm hM (fun n hn => ((hs3 n).1 hn).1) (fun n hn => ((hf3 n).1 hn).1)
    (fun n => FacetImageOf g.links n.2) (fun n hn => ((hs3 n).1 hn).2.1) (fun n hn => ((hf3 n).1 hn).2.1) (closed_next hgood hall _)
    (by
      intro prev hp
      rw [htree] at hp
      simp only [Option.some.injEq] at hp
      subst hp
      exact ⟨closed_prev hgood hall _, isReverse hgood hall _⟩) (by simp [htree])
  have key : ∀ L, CubeTree.Fills g.div (nextOf dict) s f L ↔ ∃ p, mk g.div L = some p ∧ FacetPath g.div g.links g.maxCdist p ∧ FacetPath.Agrees link p := by
    intro L
    constructor
    · intro hF
      obtain ⟨n0, hn0, h0⟩ := hF.start
      obtain ⟨n1, hn1, h1⟩ := hF.finish
      obtain ⟨_, _, e, he1, he2⟩ := (hs3 n0).1 hn0
      obtain ⟨_, _, x, hx1, hx2⟩ := (hf3 n1).1 hn1
      have hp := mk_iff.2 ⟨n0, n1, e, x, h0, h1, he1, hx1, rfl⟩
      refine ⟨_, hp, (facetPath_iff hg hgood hall hp).2 ⟨?_, hF.follows, hF.once, hF.all⟩, he2, hx2⟩
      refine CubeTree.Tree.closed_all (closed_next hgood hall g.div) hF.okF ?_
      intro n hn
      rw [hn, Option.some.injEq] at h0
      rw [h0]
      exact ((hs3 n0).1 hn0).2.1
    · rintro ⟨p, hp, h1, h2⟩
      have hN := (facetPath_iff hg hgood hall hp).1 h1
      obtain ⟨n0, n1, e, x, k1, k2, k3, k4, rfl⟩ := mk_iff.1 hp
      have m0 := List.mem_of_head? k1
      have m1 := List.mem_of_getLast? k2
      exact ⟨⟨n0, (hs3 n0).2 ⟨(hN.all _).1 (List.mem_map_of_mem m0), hN.image _ m0, e, k3, h2.1⟩, k1⟩,
        ⟨n1, (hf3 n1).2 ⟨(hN.all _).1 (List.mem_map_of_mem m1), hN.image _ m1, x, k4, h2.2⟩, k2⟩, hN.follows, hN.once, hN.all⟩
  obtain ⟨out, ho1, ho2, ho3⟩ := mapM_spec (f := mk g.div) (l := found)
    (fun L hL => by
      obtain ⟨p, hp, _⟩ := (key L).1 ((hg2 L).1 hL)
      exact ⟨p, hp⟩) (fun L _ M _ p h1 h2 => mk_inj h1 h2)
  refine ⟨out, ?_, ?_, ?_⟩
  · unfold rawPaths
    rw [hx1, hs1, hf1]
    simp only [Option.bind_eq_bind, Option.bind_some]
    rw [CubeTree.TreeE.grow_eq (t' := tree) rfl hash sm fm rfl rfl hM (P := fun p => CubeTree.InGrid g.div p.head.1 ∧ FacetImageOf g.links p.head.2)
      (Q := fun p => CubeTree.InGrid g.div p.head.1 ∧ FacetImageOf g.links p.head.2) (fun n hn => ⟨((hs3 n).1 hn).1, ((hs3 n).1 hn).2.1⟩)
      (fun n hn => ⟨((hf3 n).1 hn).1, ((hf3 n).1 hn).2.1⟩)
      (CubeTree.TreeE.safe_of_closed _ (R := fun n => FacetImageOf g.links n.2) (fun a ha => genNext_eq hall ha) (closed_next hgood hall _))
      (CubeTree.TreeE.safe_of_closed _ (R := fun n => FacetImageOf g.links n.2) (fun a ha => genPrev_eq hall ha) (closed_prev hgood hall _)),
      hg1, Option.bind_some]
    exact ho1
  · refine ho2 (hg3 hs2 hf2 (nodup_next hgood) ?_)
    intro prev hp
    rw [htree] at hp
    simp only [Option.some.injEq] at hp
    subst hp
    exact nodup_prev hgood
  · intro p
    rw [ho3]
    constructor
    · rintro ⟨L, hL, hp⟩
      obtain ⟨p', hp', h⟩ := (key L).1 ((hg2 L).1 hL)
      rw [hp, Option.some.injEq] at hp'
      rw [hp']; exact h
    · intro h
      obtain ⟨L, hL⟩ := exists_nodes h.1.made h.1.length h.1.cubes
      rw [h.1.div_eq] at hL
      exact ⟨L, (hg2 L).2 ((key L).2 ⟨p, hL, h⟩), hL⟩

end FacetGen
end Peano
