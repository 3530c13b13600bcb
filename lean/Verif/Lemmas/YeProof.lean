import Verif.Lemmas.Search
import Verif.Model.YeProof
import Verif.Spec.YeProof

set_option autoImplicit false

/-! The curves examined by YE-proof.py. -/
namespace Peano
variable {d : ℕ}

theorem Path.proto_act_one (N : ℕ) (p : Proto d) : Proto.act N 1 p = p := by
  unfold Proto.act
  have : (fun c : Option (Cube d) => Option.map (BaseMap.applyCube 1 (N : ℤ)) c) = id := by
    funext c
    have : (BaseMap.applyCube (1 : BaseMap d) (N : ℤ)) = id := by funext x; simp
    rw [this]
    simp
  simp [this]

namespace FCurve
variable {c c0 : FCurve d}

/-- An examined tuple of paths gives a fuzzy curve, all its possible curves are candidates with the given gates. -/
theorem examined_ok {N : ℕ} (hN : 2 ≤ N) {mc : Option ℤ} {S : GateTuple d} (hpos : 0 < S.length) {ps : List (Path (Point d) d)}
    (hF : List.Forall₂ (fun link p => Generated N S mc link p) S ps) :
    ∃ pc, initFromPaths ps none false = some pc ∧ pc.Estimable ∧ ∀ e, Possible pc e → e.IsCandidate N S.length mc ∧ e.HasGates S := by
  have hmem : ∀ q ∈ ps, ∃ l ∈ S, Generated N S mc l q := by
    intro q hq
    obtain ⟨j, hj⟩ := List.mem_iff_getElem?.1 hq
    obtain ⟨h1, h2⟩ := List.getElem?_eq_some_iff.1 hj
    have := hF
    rw [List.forall₂_iff_get] at this
    have := this.2 j (by omega) h1
    simp only [List.get_eq_getElem, h2] at this
    exact ⟨_, List.getElem_mem _, this⟩
  obtain ⟨pc, hpc⟩ : ∃ pc, initFromPaths ps none false = some pc := by
    refine (C18_init_iff ps none false (by simp)).2 ⟨?_, ?_⟩
    · rintro rfl
      rw [hF.length_eq] at hpos
      simp at hpos
    · intro path hpath link hlink
      obtain ⟨l, hl, hg⟩ := hmem path hpath
      obtain ⟨b, m, hm, rfl⟩ := imageOf_iff_act.1 (hg.links_image link hlink)
      obtain ⟨j, hj⟩ := List.mem_iff_getElem?.1 hm
      obtain ⟨k1, k2⟩ := List.getElem?_eq_some_iff.1 hj
      have hF' := hF
      rw [List.forall₂_iff_get] at hF'
      have k3 := hF'.2 j k1 (by omega)
      simp only [List.get_eq_getElem, k2] at k3
      exact ⟨ps[j]'(by omega), List.getElem_mem _, b, ⟨by simp, by simp⟩, by rw [k3.link_eq]⟩
  refine ⟨pc, hpc, estimable_of_pathFuzzy hN (by simp) (fun q hq => ?_) (fun q hq => ?_) (fun q hq => ?_) (.init hpc),
    fun e he => possible_candidate hN hF hpc he⟩
  · obtain ⟨_, _, h⟩ := hmem q hq
    exact h.valid
  · obtain ⟨_, _, h⟩ := hmem q hq
    exact h.continuous
  · obtain ⟨_, _, h⟩ := hmem q hq
    exact fun cube hc => (h.all cube).2 hc

/-- The cubes of the first pattern as a prototype. -/
theorem Full.proto_eq (h : c.Full) {p : Pattern d} (hp : c.patterns[0]? = some p) :
    p.proto = ((List.range c.genus).map fun i => c.cubeD 0 i).map some := by
  have hm : 0 < c.mult := (List.getElem?_eq_some_iff.1 hp).1
  apply List.ext_getElem?
  intro i
  by_cases hi : i < c.genus
  · have := h.cube_eq hm hi
    unfold FCurve.cube? Proto.cube? at this
    rw [hp, Option.bind_some, Option.join_eq_some_iff] at this
    rw [this]
    simp [hi]
  · rw [List.getElem?_eq_none (by rw [h.proto_length p (List.mem_of_getElem? hp)]; omega), List.getElem?_eq_none (by simp; omega)]

theorem protoAct_getElem? (div : ℕ) (b : BaseMap d) (P : Proto d) {i : ℕ} (hi : i < P.length) :
    (Proto.act div b P)[i]? = (P[b.applyCnum P.length i]?).map fun o => o.map (b.applyCube div) := by
  unfold Proto.act BaseMap.applyCnum
  by_cases hb : b.timeRev = true
  · simp only [hb, if_true]
    rw [List.getElem?_map, List.getElem?_reverse hi]
  · simp [hb]

theorem sameProto_iff (h : c.Full) (h0 : c0.Full) (hdiv : c.div = c0.div) {p p0 : Pattern d} (hp : c.patterns[0]? = some p)
    (hp0 : c0.patterns[0]? = some p0) : SameProto c c0 ↔ ∃ b : BaseMap d, p.proto = Proto.act c0.div b p0.proto := by
  have hg : c.genus = c0.genus := by unfold FCurve.genus; rw [hdiv]
  have l1 : p.proto.length = c.genus := h.proto_length p (List.mem_of_getElem? hp)
  have l0 : p0.proto.length = c.genus := by rw [hg]; exact h0.proto_length p0 (List.mem_of_getElem? hp0)
  refine exists_congr fun b => ?_
  have e1 : ∀ i, c.cube? 0 i = (p.proto[i]?).join := fun i => by
    unfold FCurve.cube? Proto.cube?
    rw [hp]; rfl
  have e0 : ∀ i, c0.cube? 0 i = (p0.proto[i]?).join := fun i => by
    unfold FCurve.cube? Proto.cube?
    rw [hp0]; rfl
  have hact : (Proto.act c0.div b p0.proto).length = c.genus := by simp [Proto.act, apply_ite List.length, l0]
  constructor
  · intro hh
    apply List.ext_getElem?
    intro i
    by_cases hi : i < c.genus
    · have := hh i hi
      rw [e1, e0] at this
      rw [protoAct_getElem? _ _ _ (by omega), l0]
      have hj := BaseMap.applyCnum_lt b hi
      rw [List.getElem?_eq_getElem (by omega : i < p.proto.length)] at this ⊢
      rw [List.getElem?_eq_getElem (by omega : b.applyCnum c.genus i < p0.proto.length)] at this ⊢
      simp only [Option.join_some, Option.map_some, Option.some.injEq] at this ⊢
      rw [this, hdiv]
    · rw [List.getElem?_eq_none (by omega), List.getElem?_eq_none (by omega)]
  · intro hh i hi
    rw [e1, e0, hh, protoAct_getElem? _ _ _ (by omega), l0, hdiv]
    cases p0.proto[b.applyCnum c.genus i]? <;> rfl

end FCurve

namespace YeProof

/-- The value of `SIDE_LINK`. -/
def side : Link (Point 2) := ⟨![0, 0], ![1, 0]⟩

theorem sideLink_eq : sideLink = some side := by decide +kernel

theorem filterPaths_spec (l : List (Proto 2)) (v : Bool) (L : List (Path (Point 2) 2)) :
    filterPaths l v (L.map fun q => [q]) = some ((L.filter fun q => decide (q.proto ∈ l) = v).map fun q => [q]) := by
  induction L with
  | nil => rfl
  | cons q L ih =>
    rw [List.map_cons, filterPaths, ih]
    show some _ = _
    congr 1
    by_cases h : (decide (q.proto ∈ l) = v)
    · rw [List.filter_cons_of_pos (by simpa using h), List.map_cons, if_pos h]
    · rw [List.filter_cons_of_neg (by simpa using h), if_neg h]

theorem singles {α : Type} {R : Link (Point 2) → α → Prop} {l : Link (Point 2)} {out : List (List α)} (h : ∀ ps ∈ out, List.Forall₂ R [l] ps) :
    ∃ L : List α, out = L.map (fun q => [q]) ∧ ∀ q ∈ L, R l q := by
  induction out with
  | nil => exact ⟨[], rfl, by simp⟩
  | cons ps out ih =>
    obtain ⟨L, rfl, hL⟩ := ih fun ps hps => h ps (List.mem_cons_of_mem _ hps)
    have := h ps (List.mem_cons_self ..)
    rw [List.forall₂_cons_left_iff] at this
    obtain ⟨q, u, h1, h2, rfl⟩ := this
    rw [List.forall₂_nil_left_iff] at h2
    subst h2
    exact ⟨q :: L, rfl, by simpa [h1] using hL⟩

theorem same_single {p q : Path (Point 2) 2} : PathTuple.SameUpToSymmetry [side] [p] [q] ↔ Path.SameUpToSymmetry side p q := by
  constructor
  · rintro ⟨_, _, ws, h1, h2⟩
    simp only [List.zip_cons_cons, List.zip_nil_right] at h1
    rw [List.forall₂_cons_left_iff] at h1
    obtain ⟨w, u, h1, h3, rfl⟩ := h1
    rw [List.forall₂_nil_left_iff] at h3
    subst h3
    simp only [List.zip_cons_cons, List.zip_nil_right, List.perm_singleton, List.cons.injEq, Prod.mk.injEq, true_and, and_true] at h2
    rw [← h2]
    exact h1
  · intro h
    exact ⟨rfl, rfl, [q], List.Forall₂.cons h List.Forall₂.nil, List.Perm.refl _⟩

theorem single_paths (g : PathsGen 2 (Point 2)) (hl : g.links = [side]) (hash : Search.Hashes 1) (a b : Option ℤ) (hM : 2 ≤ g.div ^ 2) :
    ∃ L : List (Path (Point 2) 2), g.generatePaths hash.point none none true a b = some (L.map fun q => [q]) ∧ L.Nodup ∧
    (∀ q ∈ L, Generated g.div [side] g.maxCdist side q) ∧
    ∀ p, Generated g.div [side] g.maxCdist side p → ∃! q, q ∈ L ∧ Path.SameUpToSymmetry side p q := by
  obtain ⟨out, h1, h2, h3, h4⟩ := PathsGen.C63_std_tuples g hash.point none a b hM (by
      intro m hm j
      rw [hl] at hm
      rw [List.mem_singleton.1 hm]
      fin_cases j <;> simp [side])
  rw [Option.getD_none, hl] at h3 h4
  obtain ⟨L, rfl, hL⟩ := singles h3
  refine ⟨L, h1, h2.of_map, hL, fun p hp => ?_⟩
  obtain ⟨qs, ⟨hq1, hq2⟩, hq3⟩ := h4 [p] (List.Forall₂.cons hp List.Forall₂.nil)
  obtain ⟨q, hq, rfl⟩ := List.mem_map.1 hq1
  refine ⟨q, ⟨hq, same_single.1 hq2⟩, fun q' hq' => ?_⟩
  have := hq3 [q'] ⟨List.mem_map_of_mem hq'.1, same_single.2 hq'.2⟩
  simpa using this

theorem sidePaths_eq (hash : Search.Hashes 1) (g : PathsGen 2 (Point 2)) (hg : g = { div := 5, links := [side], maxCdist := some 1 }) :
    sidePaths hash = g.generatePaths hash.point none none true (some 100) (some 1000000) := by
  rw [sidePaths]
  refine (congrArg (fun o => Option.bind o _) sideLink_eq).trans ?_
  subst hg
  exact Option.bind_some _ _

theorem sidePaths_spec (hash : Search.Hashes 1) : ∃ L : List (Path (Point 2) 2), sidePaths hash = some (L.map fun q => [q]) ∧ L.Nodup ∧
    (∀ q ∈ L, Generated 5 [side] (some 1) side q) ∧
    ∀ p, Generated 5 [side] (some 1) side p → ∃! q, q ∈ L ∧ Path.SameUpToSymmetry side p q := by
  obtain ⟨g, hg⟩ : ∃ g : PathsGen 2 (Point 2), g = { div := 5, links := [side], maxCdist := some 1 } := ⟨_, rfl⟩
  rw [sidePaths_eq hash g hg]
  have e1 : g.div = 5 := by rw [hg]
  have e2 : g.links = [side] := by rw [hg]
  have e3 : g.maxCdist = some 1 := by rw [hg]
  have := single_paths g e2 hash (some 100) (some 1000000) (by rw [e1]; norm_num)
  rw [e1, e3] at this
  exact this

/-- The curves considered by both checks. -/
structure Wanted (c : FCurve 2) : Prop where
  candidate : c.IsCandidate 5 1 (some 1)
  gates : ∃ G, c.HasGates G ∧ GateTuple.SameUpToSymmetry G [side]

/-- For a wanted curve, exactly one of the generated paths is an image of its own path. -/
theorem wanted_path {L : List (Path (Point 2) 2)} (hall : ∀ p, Generated 5 [side] (some 1) side p → ∃! q, q ∈ L ∧ Path.SameUpToSymmetry side p q)
    {c : FCurve 2} (h : Wanted c) :
    ∃ (Q : Bool → ℕ → Point 2) (path : Path (Point 2) 2), (∀ p < c.mult, c.getEntrance p = some (Q false p) ∧ c.getExit p = some (Q true p)) ∧
      c.OwnPath Q 0 path ∧ ∃ b : BaseMap 2, Path.img b path ∈ L := by
  obtain ⟨G, hG1, hG2⟩ := h.gates
  obtain ⟨Q, path, h1, h2, qs, hqs, w, B, hw, hB⟩ := FCurve.exists_examined_paths (out := L.map fun q => [q]) (S := [side]) (by
    intro ps hps
    rw [List.forall₂_cons_left_iff] at hps
    obtain ⟨p, u, hp, hu, rfl⟩ := hps
    rw [List.forall₂_nil_left_iff] at hu
    subst hu
    obtain ⟨q, ⟨hq1, hq2⟩, _⟩ := hall p hp
    exact ⟨[q], List.mem_map_of_mem hq1, same_single.2 hq2⟩) h.candidate hG1 hG2
  have hm : c.mult = 1 := h.candidate.mult_eq
  rw [hm] at hw
  have hw : w = [0] := List.perm_singleton.1 hw
  subst hw
  obtain ⟨q, hq, rfl⟩ := List.mem_map.1 hqs
  refine ⟨Q, path 0, h1, h2 0 (by omega), B 0, ?_⟩
  simp only [List.forall₂_cons, List.Forall₂.nil, and_true] at hB
  rw [hB]
  exact hq

theorem Wanted.pattern {c : FCurve 2} (h : Wanted c) : ∃ p, c.patterns[0]? = some p ∧ c.patterns = [p] := by
  have := h.candidate.mult_eq
  unfold FCurve.mult at this
  obtain ⟨p, hp⟩ := List.length_eq_one_iff.1 this
  exact ⟨p, by rw [hp]; rfl, hp⟩

/-- The image of the own path of a curve belongs to a fuzzy curve together with the image of the curve. -/
theorem possible_image {c : FCurve 2} (h : c.Full) (hm : c.mult = 1) {Q : Bool → ℕ → Point 2} {path : Path (Point 2) 2} (hp : c.OwnPath Q 0 path) {b : BaseMap 2}
    (hv : (Path.img b path).Valid c.div) {pc : FCurve 2} (hpc : FCurve.initFromPaths [Path.img b path] none false = some pc) :
    FCurve.Possible pc (c.reparam [0] fun _ => b) := by
  have h0 : ∀ p < c.mult, p = 0 := by omega
  exact FCurve.possible_reparam h (by omega) (Q := Q) (path := fun _ => path) (fun p hp' => h0 p hp' ▸ hp.2.2.1) (fun p hp' => h0 p hp' ▸ hp.2.2.2)
    (fun p hp' => hp.1) (fun p hp' => h0 p hp' ▸ hp.2.1) (by rw [hm]; exact List.Perm.refl _)
    (List.Forall₂.cons rfl List.Forall₂.nil) (by simpa using hv) hpc

theorem protos_eq {c0 : FCurve 2} {p0 : Pattern 2} (h : c0.patterns[0]? = some p0) (hp : c0.pnum = 0) :
    ∃ l, protos c0 = some l ∧ ∀ P, P ∈ l ↔ ∃ b : BaseMap 2, P = Proto.act c0.div b p0.proto := by
  refine ⟨_, by unfold protos; rw [hp, h]; rfl, fun P => ?_⟩
  simp only [List.mem_map]
  constructor
  · rintro ⟨b, _, rfl⟩
    exact ⟨b, rfl⟩
  · rintro ⟨b, rfl⟩
    exact ⟨b, BaseMap.mem_genBaseMaps.2 (by simp), rfl⟩

theorem sameProto_of_img {c c0 : FCurve 2} (h : c.Full) (h0 : c0.Full) (hdiv : c.div = c0.div) {p p0 : Pattern 2} (hp : c.patterns[0]? = some p)
    (hp0 : c0.patterns[0]? = some p0) {Q : Bool → ℕ → Point 2} {path : Path (Point 2) 2} (ho : c.OwnPath Q 0 path) (b : BaseMap 2) :
    (∃ b' : BaseMap 2, (Path.img b path).proto = Proto.act c0.div b' p0.proto) ↔ FCurve.SameProto c c0 := by
  rw [FCurve.sameProto_iff h h0 hdiv hp hp0]
  have e : path.proto = p.proto := by rw [ho.2.2.1, h.proto_eq hp]
  have e2 : (Path.img b path).proto = Proto.act c0.div b p.proto := by
    show Proto.act path.div b path.proto = _
    rw [ho.1, hdiv, e]
  rw [e2]
  constructor
  · rintro ⟨b', hb⟩
    refine ⟨b⁻¹ * b', ?_⟩
    rw [Path.proto_act_mul, ← hb, ← Path.proto_act_mul, inv_mul_cancel, Path.proto_act_one]
  · rintro ⟨b', hb⟩
    refine ⟨b * b', ?_⟩
    rw [hb, Path.proto_act_mul]

/-- The fuzzy curves of `check_genus5_non_ye`. -/
theorem otherProto_spec (c0 : FCurve 2) (h0 : Wanted c0) (hp0 : c0.pnum = 0) (hash : Search.Hashes 1) :
    ∃ pcs, otherProtoPcurves c0 hash = some pcs ∧
      (∀ pc ∈ pcs, pc.Estimable ∧ ∀ e, FCurve.Possible pc e → Wanted e ∧ ¬ e.SameProto c0) ∧
      ∀ c, Wanted c → ¬ c.SameProto c0 → ∃ pc ∈ pcs, ∃ e, FCurve.Possible pc e ∧ ∀ r D, c.IsDilation r D → e.IsDilation r D := by
  obtain ⟨L, h1, h2, h3, h4⟩ := sidePaths_spec hash
  obtain ⟨p0, hpat0, hpats0⟩ := h0.pattern
  obtain ⟨l, hl1, hl2⟩ := protos_eq hpat0 hp0
  have hex : ∀ q ∈ L, ∃ pc, FCurve.initFromPaths [q] none false = some pc ∧ pc.Estimable ∧
      ∀ e, FCurve.Possible pc e → e.IsCandidate 5 1 (some 1) ∧ e.HasGates [side] := fun q hq =>
    FCurve.examined_ok (S := [side]) (by norm_num) (by simp) (List.Forall₂.cons (h3 q hq) List.Forall₂.nil)
  have : Nonempty (FCurve 2) := ⟨⟨0, [], 0, .curve⟩⟩
  choose! F hF1 hF2 hF3 using hex
  set M := L.filter fun q => decide (q.proto ∈ l) = false with hM
  refine ⟨M.map F, ?_, ?_, ?_⟩
  · unfold otherProtoPcurves
    rw [hl1, h1]
    simp only [Option.bind_eq_bind, Option.bind_some]
    rw [filterPaths_spec, Option.bind_some, ← hM, List.mapM_map]
    exact mapM_eq_some_map fun q hq => hF1 q (List.mem_filter.1 hq).1
  · intro pc hpc
    obtain ⟨q, hq, rfl⟩ := List.mem_map.1 hpc
    obtain ⟨hqL, hqP⟩ := List.mem_filter.1 hq
    refine ⟨hF2 q hqL, fun e he => ?_⟩
    obtain ⟨k1, k2⟩ := hF3 q hqL e he
    have hw : Wanted e := ⟨k1, [side], k2, GateTuple.SameUpToSymmetry.refl _⟩
    refine ⟨hw, fun hs => ?_⟩
    obtain ⟨pe, hpe, _⟩ := hw.pattern
    obtain ⟨b, hb⟩ := (FCurve.sameProto_iff k1.full h0.candidate.full (by rw [k1.div_eq, h0.candidate.div_eq]) hpe hpat0).1 hs
    have hv : ∀ path ∈ [q], path.Valid 5 := by simpa using (h3 q hqL).valid
    have hfol := he.follows (by simp) hv (FCurve.pathFuzzy_inv (by simp) hv (FCurve.PathFuzzy.init (hF1 q hqL)))
    have := hfol.proto 0 q pe rfl hpe
    simp only [decide_eq_false_iff_not, decide_eq_true_eq] at hqP
    exact hqP ((hl2 _).2 ⟨b, by rw [← this, hb]⟩)
  · intro c hc hns
    obtain ⟨Q, path, k1, k2, b, k3⟩ := wanted_path h4 hc
    obtain ⟨p, hp, _⟩ := hc.pattern
    have hdiv : c.div = c0.div := by rw [hc.candidate.div_eq, h0.candidate.div_eq]
    refine ⟨F (Path.img b path), List.mem_map_of_mem (List.mem_filter.2 ⟨k3, ?_⟩), c.reparam [0] fun _ => b, ?_, ?_⟩
    · simp only [decide_eq_false_iff_not, decide_eq_true_eq]
      intro hm
      exact hns ((sameProto_of_img hc.candidate.full h0.candidate.full hdiv hp hpat0 k2 b).1 ((hl2 _).1 hm))
    · refine possible_image hc.candidate.full hc.candidate.mult_eq k2 ?_ (hF1 _ k3)
      rw [hc.candidate.div_eq]
      exact (h3 _ k3).valid
    · intro r D hD
      exact hD.reparam hc.candidate.full (by rw [hc.candidate.mult_eq]; exact List.Perm.refl _)

end YeProof
end Peano
