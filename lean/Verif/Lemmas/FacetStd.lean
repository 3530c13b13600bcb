import Verif.Lemmas.StdLoop
import Verif.Lemmas.Paths
import Verif.Lemmas.FacetParent

set_option autoImplicit false

/-! Symmetries of facet paths; the filter of equivalent paths. -/
namespace Peano
variable {n : ℕ}

/-- key of a facet subset -/
def FacetDivSubset.key (s : FacetDivSubset n) : ℕ ×ₗ (Fin (n + 1) ×ₗ (ℕ ×ₗ List (List ℤ))) :=
  toLex (s.div, toLex (s.facetCoord, toLex (s.facetValue.toNat, cubesKey s.cubes)))

theorem FacetDivSubset.keyOrder : KeyOrder (SubsetOps.lt (S := FacetDivSubset n) (d := n + 1)) FacetDivSubset.key where
  lt_iff s t := by
    show FacetDivSubset.lt s t = true ↔ _
    unfold FacetDivSubset.lt key
    rw [Prod.Lex.toLex_lt_toLex, Prod.Lex.toLex_lt_toLex, Prod.Lex.toLex_lt_toLex]
    by_cases h1 : s.div = t.div
    · by_cases h2 : s.facetCoord = t.facetCoord
      · by_cases h3 : s.facetValue = t.facetValue
        · simp [h1, h2, h3]
        · have h3' : s.facetValue.toNat ≠ t.facetValue.toNat := by
            intro h; apply h3; revert h; cases s.facetValue <;> cases t.facetValue <;> simp
          simp [h1, h2, h3, h3']
      · simp [h1, h2]
    · simp [h1]
  inj := by
    intro s t h
    have h := toLex.injective h
    rw [Prod.mk.injEq] at h
    have h2 := toLex.injective h.2
    rw [Prod.mk.injEq] at h2
    have h3 := toLex.injective h2.2
    rw [Prod.mk.injEq] at h3
    have hv : s.facetValue = t.facetValue := by
      have := h3.1
      revert this; cases s.facetValue <;> cases t.facetValue <;> simp
    have hc : s.cubes = t.cubes := List.map_injective_iff.2 List.ofFn_injective h3.2
    obtain ⟨h1, _⟩ := h
    obtain ⟨h2, _⟩ := h2
    cases s; cases t
    simp only at *
    subst h1 h2 hv hc
    rfl

namespace FacetGen
open PathsGen

/-- the image of a path as a total function -/
def img (b : BaseMap (n + 1)) (p : Path (FacetDivSubset n) (n + 1)) : Path (FacetDivSubset n) (n + 1) :=
  ⟨p.div, p.proto.act p.div b, (if b.timeRev then p.links.reverse else p.links).map (Link.act b), Link.act b p.link⟩

theorem img_mul (a b : BaseMap (n + 1)) (p : Path (FacetDivSubset n) (n + 1)) : img (a * b) p = img a (img b p) := by
  unfold img
  simp only [Path.mk.injEq, true_and, Path.proto_act_mul, Link.act_mul_facet, and_true]
  by_cases ha : a.timeRev = true <;> by_cases hb : b.timeRev = true <;>
    simp [ha, hb, List.map_reverse, Function.comp_def, Link.act_mul_facet]

theorem img_one (p : Path (FacetDivSubset n) (n + 1)) : img 1 p = p := by
  unfold img Proto.act
  have : (fun c : Option (Cube (n + 1)) => Option.map (BaseMap.applyCube 1 (p.div : ℤ)) c) = id := by
    funext c
    have : (BaseMap.applyCube (1 : BaseMap (n + 1)) (p.div : ℤ)) = id := by funext x; simp
    rw [this]
    simp
  have h2 : (fun l : Link (FacetDivSubset n) => Link.act (1 : BaseMap (n + 1)) l) = id := by funext l; simp [Link.act_one_facet]
  simp [this, h2, Link.act_one_facet]

/-- what is needed of a path to act on it -/
def Acts (p : Path (FacetDivSubset n) (n + 1)) : Prop := Path.make p.div p.proto p.links = some p ∧ ∀ c ∈ p.proto, c ≠ none

theorem act_eq {p : Path (FacetDivSubset n) (n + 1)} (h : Acts p) (b : BaseMap (n + 1)) : Path.act b p = some (img b p) := by
  obtain ⟨c0, c1, l0, l1, e, x, hc0, hc1, h0, h1, he, hx, hp⟩ := make_iff.1 h.1
  have hlink : p.link = ⟨e, x⟩ := congrArg Path.link hp
  have hd0 := FacetDivSubset.mapToCube_some he
  have hd1 := FacetDivSubset.mapToCube_some hx
  have he' : (FacetDivSubset.act b l0.entrance).mapToCube p.div (b.applyCube p.div c0) = some (FacetDivSubset.act b e) := by
    rw [hd0] at he ⊢
    exact FacetDivSubset.mapToCube_act b he
  have hx' : (FacetDivSubset.act b l1.exit).mapToCube p.div (b.applyCube p.div c1) = some (FacetDivSubset.act b x) := by
    rw [hd1] at hx ⊢
    exact FacetDivSubset.mapToCube_act b hx
  unfold Path.act
  rw [make_iff]
  by_cases ht : b.timeRev = true
  · refine ⟨b.applyCube p.div c1, b.applyCube p.div c0, Link.act b l1, Link.act b l0, FacetDivSubset.act b x, FacetDivSubset.act b e, ?_, ?_, ?_, ?_, ?_, ?_, ?_⟩
    · rw [Path.proto_act_head, if_pos ht, hc1]; rfl
    · rw [Path.proto_act_last, if_pos ht, hc0]; rfl
    · simp [ht, h1]
    · simp [ht, h0]
    · rw [Link.act_def_facet, if_pos ht]; exact hx'
    · rw [Link.act_def_facet, if_pos ht]; exact he'
    · unfold img
      simp [hlink, Link.act_def_facet, ht]
  · refine ⟨b.applyCube p.div c0, b.applyCube p.div c1, Link.act b l0, Link.act b l1, FacetDivSubset.act b e, FacetDivSubset.act b x, ?_, ?_, ?_, ?_, ?_, ?_, ?_⟩
    · rw [Path.proto_act_head, if_neg ht, hc0]; rfl
    · rw [Path.proto_act_last, if_neg ht, hc1]; rfl
    · simp [ht, h0]
    · simp [ht, h1]
    · rw [Link.act_def_facet, if_neg ht]; exact he'
    · rw [Link.act_def_facet, if_neg ht]; exact hx'
    · unfold img
      simp [hlink, Link.act_def_facet, ht]

theorem img_acts {p : Path (FacetDivSubset n) (n + 1)} (h : Acts p) (b : BaseMap (n + 1)) : Acts (img b p) := by
  refine ⟨act_eq h b, ?_⟩
  intro c hc
  simp only [img, Proto.act, List.mem_map] at hc
  obtain ⟨c', hc', rfl⟩ := hc
  have := h.2 c' (by split at hc' <;> simpa using hc')
  obtain ⟨c'', rfl⟩ := Option.ne_none_iff_exists'.1 this
  simp

/-- a list of base maps that is a group acts on paths -/
theorem actionOn {B : List (BaseMap (n + 1))} (h1 : 1 ∈ B) (h2 : ∀ a ∈ B, ∀ b ∈ B, a * b ∈ B) (h3 : ∀ a ∈ B, a⁻¹ ∈ B) :
    ActionOn (S := FacetDivSubset n) Acts (Path.keyOf FacetDivSubset.key) B img where
  act _ hp b _ := act_eq hp b
  wf _ hp b _ := img_acts hp b
  mul a _ b _ p := img_mul a b p
  one p := img_one p
  lt_iff p q := Path.lt_iff_keyOf FacetDivSubset.keyOrder p q
  inj _ _ hp hq hd h := Path.keyOf_inj FacetDivSubset.keyOrder hp.2 hq.2 hd h
  div _ _ := rfl
  one_mem := h1
  mul_mem := h2
  inv_mem := h3

theorem facetPath_acts {div : ℕ} {links : List (Link (FacetDivSubset n))} {m : Option ℤ} {p : Path (FacetDivSubset n) (n + 1)} (h : FacetPath div links m p) : Acts p :=
  ⟨h.made, h.cubes⟩

variable {g : PathsGen (n + 1) (FacetDivSubset n)}

theorem generic_all (hL : ∀ m ∈ g.links, m.InDiv g.div) (hM : 2 ≤ g.div ^ (n + 1))
    (hash : Finset (Cube (n + 1)) × CubeTree.Node (n + 1) (Link (FacetDivSubset n)) → ℤ) {link : Link (FacetDivSubset n)} (hlink : link.InDiv g.div)
    (sm fm : Option ℤ) : ∃ out, g.generatePathsGeneric hash link false sm fm = some out ∧ out.Nodup ∧
      ∀ p, p ∈ out ↔ FacetPath g.div g.links g.maxCdist p ∧ FacetPath.Agrees link p := by
  obtain ⟨out, h1, h2, h3⟩ := rawPaths_spec hL hM hash hlink sm fm
  refine ⟨out, ?_, h2, h3⟩
  unfold generatePathsGeneric
  simp [h1]

theorem generic_std (hL : ∀ m ∈ g.links, m.InDiv g.div) (hM : 2 ≤ g.div ^ (n + 1))
    (hash : Finset (Cube (n + 1)) × CubeTree.Node (n + 1) (Link (FacetDivSubset n)) → ℤ) {link : Link (FacetDivSubset n)} (hlink : link.InDiv g.div)
    (sm fm : Option ℤ) : ∃ out, g.generatePathsGeneric hash link true sm fm = some out ∧ out.Nodup ∧
      (∀ p ∈ out, FacetPath g.div g.links g.maxCdist p ∧ FacetPath.Agrees link p) ∧
      ∀ p, FacetPath g.div g.links g.maxCdist p ∧ FacetPath.Agrees link p →
        ∃! q, q ∈ out ∧ ∃ b : BaseMap (n + 1), Link.act b link = link ∧ Path.act b p = some q := by
  obtain ⟨raw, h1, h2, h3⟩ := rawPaths_spec hL hM hash hlink sm fm
  set B := (BaseMap.genBaseMaps (n + 1) none).filter fun bm => decide (Link.act bm link = link) with hB
  have mem : ∀ b, b ∈ B ↔ Link.act b link = link := by
    intro b
    rw [hB, List.mem_filter, BaseMap.mem_genBaseMaps]
    simp
  have hA := actionOn (B := B) ((mem 1).2 (Link.act_one_facet link)) (by
      intro a ha b hb
      rw [mem] at *
      rw [Link.act_mul_facet, hb, ha]) (by
      intro a ha
      rw [mem] at *
      conv_lhs => rw [← ha]
      rw [← Link.act_mul_facet, inv_mul_cancel, Link.act_one_facet])
  obtain ⟨out, o1, o2, o3, _, o5⟩ := hA.stdLoop_spec (paths := raw) fun p hp => facetPath_acts ((h3 p).1 hp).1
  refine ⟨out, ?_, o2, fun p hp => (h3 p).1 (o3 p hp), ?_⟩
  · unfold generatePathsGeneric
    simp only [h1, Option.bind_eq_bind, Option.bind_some, if_true]
    exact o1
  · intro p hp
    have := o5 p ((h3 p).2 hp)
    simp only [mem] at this
    exact this

variable {parent : Path (FacetDivSubset n) (n + 1)}

theorem parent_all (hL : ∀ m ∈ g.links, m.InDiv g.div) (hM : 2 ≤ g.div ^ (n + 1))
    (hash : Finset (Cube (n + 1)) × CubeTree.Node (n + 1) (Link (FacetDivSubset n)) → ℤ) (hp : Parent g parent)
    (sm fm : Option ℤ) : ∃ out, g.generatePathsParent hash parent false sm fm = some out ∧ out.Nodup ∧
      ∀ p, p ∈ out ↔ FacetPath g.div g.links g.maxCdist p ∧ FacetPath.Refines parent p := by
  obtain ⟨out, h1, h2, h3⟩ := rawPathsParent_spec hL hM hash hp sm fm
  refine ⟨out, ?_, h2, h3⟩
  unfold generatePathsParent
  simp [h1]

theorem parent_std (hL : ∀ m ∈ g.links, m.InDiv g.div) (hM : 2 ≤ g.div ^ (n + 1))
    (hash : Finset (Cube (n + 1)) × CubeTree.Node (n + 1) (Link (FacetDivSubset n)) → ℤ) (hp : Parent g parent)
    (sm fm : Option ℤ) : ∃ out, g.generatePathsParent hash parent true sm fm = some out ∧ out.Nodup ∧
      (∀ p ∈ out, FacetPath g.div g.links g.maxCdist p ∧ FacetPath.Refines parent p) ∧
      ∀ p, FacetPath g.div g.links g.maxCdist p ∧ FacetPath.Refines parent p →
        ∃! q, q ∈ out ∧ ∃ b : BaseMap (n + 1), Path.act b parent = some parent ∧ Path.act b p = some q := by
  obtain ⟨raw, h1, h2, h3⟩ := rawPathsParent_spec hL hM hash hp sm fm
  have hacts : Acts parent := ⟨hp.made, hp.cubes⟩
  set B := (BaseMap.genBaseMaps (n + 1) none).filter fun bm => decide (img bm parent = parent) with hB
  have mem' : ∀ b, b ∈ B ↔ img b parent = parent := by
    intro b
    rw [hB, List.mem_filter, BaseMap.mem_genBaseMaps]
    simp
  have mem : ∀ b, b ∈ B ↔ Path.act b parent = some parent := by
    intro b
    rw [mem', act_eq hacts, Option.some.injEq]
  have hB' : filterCheck (fun bm => (Path.act bm parent).map fun p => decide (p = parent)) (BaseMap.genBaseMaps (n + 1) none) = some B := by
    rw [hB]
    apply filterCheck_eq
    intro a _
    rw [act_eq hacts]
    rfl
  have hA := actionOn (B := B) ((mem' 1).2 (img_one parent)) (by
      intro a ha b hb
      rw [mem'] at *
      rw [img_mul, hb, ha]) (by
      intro a ha
      rw [mem'] at *
      conv_lhs => rw [← ha]
      rw [← img_mul, inv_mul_cancel, img_one])
  obtain ⟨out, o1, o2, o3, _, o5⟩ := hA.stdLoop_spec (paths := raw) fun p hp => facetPath_acts ((h3 p).1 hp).1
  refine ⟨out, ?_, o2, fun p hp => (h3 p).1 (o3 p hp), ?_⟩
  · unfold generatePathsParent
    simp only [h1, Option.bind_eq_bind, Option.bind_some, if_true, hB']
    exact o1
  · intro p hp
    have := o5 p ((h3 p).2 hp)
    simp only [mem] at this
    exact this

/-- a path for some links is a parent -/
theorem facetPath_parent {links : List (Link (FacetDivSubset n))} {m : Option ℤ} (hL : ∀ l ∈ links, l.InDiv g.div) (h : FacetPath g.div links m parent) : Parent g parent where
  div_eq := h.div_eq
  made := h.made
  length := h.length
  cubes := h.cubes
  all := h.all
  once := h.once
  links l hl := by
    obtain ⟨a, m, hm, rfl⟩ := h.links_image l hl
    exact (hL m hm).act a

end FacetGen
end Peano
