import Verif.Lemmas.YeProof
import Verif.Lemmas.Valid

set_option autoImplicit false

/-! Paths with the prototype of the curve YE, and curves with such paths. -/
namespace Peano
namespace YeProof
open FCurve

/-- A reference curve: its gates are those of the side link, and its links are the only possible ones for its prototype. -/
structure Ref (c0 : FCurve 2) : Prop where
  candidate : c0.IsCandidate 5 1 (some 1)
  gates : c0.HasGates [side]
  pnum : c0.pnum = 0
  kind : c0.kind = .curve
  rigid : ∀ (p q : Path (Point 2) 2) (a b : BaseMap 2), Generated 5 [side] (some 1) (Link.act a side) p → Generated 5 [side] (some 1) (Link.act b side) q →
    p.proto = ((List.range c0.genus).map fun i => c0.cubeD 0 i).map some → q.proto = ((List.range c0.genus).map fun i => c0.cubeD 0 i).map some →
    p.links = q.links

theorem Ref.wanted {c0 : FCurve 2} (h : Ref c0) : Wanted c0 := ⟨h.candidate, [side], h.gates, GateTuple.SameUpToSymmetry.refl _⟩

theorem forget_eq {c : FCurve 2} {paths : List (Path (Point 2) 2)} (h : c.getPaths = some paths) (g : Option (List (BaseMap 2))) (t : Bool) :
    c.forget g t = FCurve.initFromPaths paths g t := by
  rw [FCurve.forget, h]
  rfl

/-- The own path of a wanted curve. -/
theorem own_path {c : FCurve 2} (h : Wanted c) : ∃ (Q : Bool → ℕ → Point 2) (path : Path (Point 2) 2) (a : BaseMap 2),
    (∀ p < c.mult, c.getEntrance p = some (Q false p) ∧ c.getExit p = some (Q true p)) ∧ c.OwnPath Q 0 path ∧
    Generated 5 [side] (some 1) (Link.act a side) path ∧ c.getPaths = some [path] := by
  obtain ⟨L, h1, h2, h3, h4⟩ := sidePaths_spec ⟨fun _ => 0, fun _ => 0⟩
  obtain ⟨Q, path, k1, k2, b, k3⟩ := wanted_path h4 h
  have hg := (h3 _ k3).imgC b⁻¹
  rw [← Path.img_mul, inv_mul_cancel, Path.img_one] at hg
  refine ⟨Q, path, b⁻¹, k1, k2, hg, ?_⟩
  obtain ⟨paths, e1, e2, e3⟩ := h.candidate.full.getPaths_eq k1
  rw [h.candidate.mult_eq] at e2
  obtain ⟨q, rfl⟩ := List.length_eq_one_iff.1 e2
  obtain ⟨f1, f2, f3, f4⟩ := e3 0 q rfl
  have hm := hg.wf.made
  rw [k2.2.2.1, k2.2.2.2, k2.1, ← f2, ← f3, f4] at hm
  rw [e1, Option.some.inj hm]

theorem eq_of_links {p q : Path (Point 2) 2} (hp : p.WF) (hq : q.WF) (h1 : p.div = q.div) (h2 : p.proto = q.proto) (h3 : p.links = q.links) : p = q := by
  have := hp.made
  rw [h1, h2, h3, hq.made] at this
  exact (Option.some.inj this).symm

/-- A wanted curve with the prototype of the reference curve: its path is an image of the path of the reference curve. -/
theorem same_path {c c0 : FCurve 2} (h : Wanted c) (h0 : Ref c0) (hs : c.SameProto c0) {Q Q0 : Bool → ℕ → Point 2} {path path0 : Path (Point 2) 2}
    {a a0 : BaseMap 2} (ho : c.OwnPath Q 0 path) (hg : Generated 5 [side] (some 1) (Link.act a side) path)
    (ho0 : c0.OwnPath Q0 0 path0) (hg0 : Generated 5 [side] (some 1) (Link.act a0 side) path0) : ∃ b, Path.img b path = path0 := by
  obtain ⟨p, hp, _⟩ := h.pattern
  obtain ⟨p0, hp0, _⟩ := h0.wanted.pattern
  obtain ⟨b, hb⟩ := (sameProto_iff h.candidate.full h0.candidate.full (by rw [h.candidate.div_eq, h0.candidate.div_eq]) hp hp0).1 hs
  refine ⟨b⁻¹, ?_⟩
  have hgi := hg.imgC b⁻¹
  have e : (Path.img b⁻¹ path).proto = path0.proto := by
    show Proto.act path.div b⁻¹ path.proto = _
    rw [hg.div_eq, ho.2.2.1, ho0.2.2.1, ← h.candidate.full.proto_eq hp, ← h0.candidate.full.proto_eq hp0, hb, h0.candidate.div_eq, ← Path.proto_act_mul,
      inv_mul_cancel, Path.proto_act_one]
  refine eq_of_links hgi.wf hg0.wf (by rw [hgi.div_eq, hg0.div_eq]) e ?_
  rw [← Link.act_mul] at hgi
  exact h0.rigid _ _ _ _ hgi hg0 (by rw [e, ho0.2.2.1]) ho0.2.2.1

/-- The curves have the same cubes and specs. -/
theorem realizes_congr {c e : FCurve 2} {f : ℕ → ℝ → Fin 2 → ℝ} (hm : c.mult = e.mult) (hg : c.genus = e.genus) (hd : c.div = e.div)
    (hc : ∀ p i, c.cube? p i = e.cube? p i) (hs : ∀ p i, c.spec? p i = e.spec? p i) (h : e.Realizes f) : c.Realizes f where
  mem_cube := fun p hp => h.mem_cube p (by omega)
  eqn := by
    intro p i cube s h1 h2
    rw [hg, hd]
    exact h.eqn p i cube s (by rw [← hc, h1]) (by rw [← hs, h2])

theorem cube?_none {c : FCurve 2} (h : c.Full) {p i : ℕ} (hpi : c.mult ≤ p ∨ c.genus ≤ i) : c.cube? p i = none := by
  unfold FCurve.cube? Proto.cube?
  rcases hq : c.patterns[p]? with _ | q
  · rfl
  · have hlt : p < c.mult := (List.getElem?_eq_some_iff.1 hq).1
    have := h.proto_length q (List.mem_of_getElem? hq)
    rw [Option.bind_some, List.getElem?_eq_none (by omega)]
    rfl

theorem spec?_none {c : FCurve 2} (h : c.Full) {p i : ℕ} (hpi : c.mult ≤ p ∨ c.genus ≤ i) : c.spec? p i = none := by
  unfold FCurve.spec?
  rcases hq : c.patterns[p]? with _ | q
  · rfl
  · have hlt : p < c.mult := (List.getElem?_eq_some_iff.1 hq).1
    have := h.specs_length q (List.mem_of_getElem? hq)
    rw [Option.bind_some, List.getElem?_eq_none (by omega)]
    rfl

/-- A wanted curve with the prototype of the reference curve is the same curve, or an image of it is one of the possible curves of the
forgotten reference curve and has other specs. -/
theorem same_or_other {c c0 pc : FCurve 2} (h : Wanted c) (h0 : Ref c0) (hs : c.SameProto c0) (hpc : c0.forget none false = some pc) :
    c.SameCurve c0 ∨ ∃ e, FCurve.Possible pc e ∧ (∃ i < c0.genus, e.spec? 0 i ≠ c0.spec? 0 i) ∧ ∀ r D, c.IsDilation r D → e.IsDilation r D := by
  obtain ⟨Q, path, a, h1, h2, h3, _⟩ := own_path h
  obtain ⟨Q0, path0, a0, k1, k2, k3, k4⟩ := own_path h0.wanted
  obtain ⟨b, hb⟩ := same_path h h0 hs h2 h3 k2 k3
  have hinit : FCurve.initFromPaths [path0] none false = some pc := by
    rw [forget_eq k4] at hpc
    exact hpc
  have hposs : FCurve.Possible pc (c.reparam [0] fun _ => b) := by
    refine possible_image h.candidate.full h.candidate.mult_eq h2 (b := b) ?_ (by rw [hb]; exact hinit)
    rw [hb, h.candidate.div_eq]
    exact k3.valid
  have hperm : [0].Perm (List.range c.mult) := by rw [h.candidate.mult_eq]; exact List.Perm.refl _
  by_cases hd : ∃ i < c0.genus, (c.reparam [0] fun _ => b).spec? 0 i ≠ c0.spec? 0 i
  · exact .inr ⟨_, hposs, hd, fun r D hD => hD.reparam h.candidate.full hperm⟩
  · left
    push Not at hd
    refine ⟨b, fun f g hf hg t ht0 ht1 => ?_⟩
    have hgenus : c.genus = c0.genus := by unfold FCurve.genus; rw [h.candidate.div_eq, h0.candidate.div_eq]
    have hfull : (c.reparam [0] fun _ => b).Full := 
      (FCurve.C19_gates [path0] none false 5 (by norm_num) pc _ (by simp) (by simpa using k3.valid) (.init hinit) hposs).1
    have hm1 : (c.reparam [0] fun _ => b).mult = 1 := by simp
    have hre := hf.reparam (B := fun _ => b) h.candidate.full hperm
    have hre0 : c0.Realizes _ := realizes_congr (c := c0) (e := c.reparam [0] fun _ => b) (by rw [hm1, h0.candidate.mult_eq]) hgenus.symm
      (by rw [reparam_div, h.candidate.div_eq, h0.candidate.div_eq]) (fun p i => ?_) (fun p i => ?_) hre
    · have := h0.candidate.full
      have := FCurve.C12_unique c0 h0.candidate.full _ _ hg hre0 0 (by rw [h0.candidate.mult_eq]; omega) (x := t) ⟨ht0, ht1⟩
      simpa using this
    · by_cases hlt : p < 1 ∧ i < c0.genus
      · obtain ⟨hp, hi⟩ := hlt
        obtain rfl : p = 0 := by omega
        obtain ⟨p0, hp0, _⟩ := h0.wanted.pattern
        obtain ⟨pe, hpe⟩ : ∃ pe, (c.reparam [0] fun _ => b).patterns[0]? = some pe := ⟨_, rfl⟩
        have e1 := hfull.proto_eq hpe
        have e2 := h0.candidate.full.proto_eq hp0
        have hv : ∀ path ∈ [path0], path.Valid 5 := by simpa using k3.valid
        have hfol := hposs.follows (by simp) hv (FCurve.pathFuzzy_inv (by simp) hv (FCurve.PathFuzzy.init hinit))
        have e3 := hfol.proto 0 path0 pe rfl hpe
        rw [k2.2.2.1, ← e2] at e3
        unfold FCurve.cube? Proto.cube?
        rw [hpe, hp0, Option.bind_some, Option.bind_some, e3]
      · rw [cube?_none h0.candidate.full (by rw [h0.candidate.mult_eq]; omega), cube?_none hfull (by rw [hm1, reparam_genus, hgenus]; omega)]
    · by_cases hlt : p < 1 ∧ i < c0.genus
      · obtain ⟨hp, hi⟩ := hlt
        obtain rfl : p = 0 := by omega
        exact (hd i hi).symm
      · rw [spec?_none h0.candidate.full (by rw [h0.candidate.mult_eq]; omega), spec?_none hfull (by rw [hm1, reparam_genus, hgenus]; omega)]

/-- The test curves. -/
theorem otherSpecs_spec {c0 : FCurve 2} (h0 : Ref c0) : ∃ pc pcs, c0.forget none false = some pc ∧ otherSpecsPcurves c0 = some pcs ∧
    (∀ pc' ∈ pcs, pc'.Estimable ∧ ∀ e, FCurve.Possible pc' e → FCurve.Possible pc e ∧ ∃ i < c0.genus, e.spec? 0 i ≠ c0.spec? 0 i) ∧
    (∀ e, FCurve.Possible pc e → (∃ i < c0.genus, e.spec? 0 i ≠ c0.spec? 0 i) → ∃ pc' ∈ pcs, FCurve.Possible pc' e) ∧
    ∀ e, FCurve.Possible pc e → Wanted e ∧ e.SameProto c0 ∧ ∀ i, e.cube? 0 i = c0.cube? 0 i := by
  obtain ⟨Q0, path0, a0, k1, k2, k3, k4⟩ := own_path h0.wanted
  obtain ⟨p0, hp0, _⟩ := h0.wanted.pattern
  have hlink : path0.link = side := by
    have := h0.gates.eq k1
    rw [h0.candidate.mult_eq] at this
    rw [k2.2.1]
    simpa using this.symm
  have hgen : Generated 5 [side] (some 1) side path0 := { k3 with link_eq := hlink }
  obtain ⟨pc, hinit, hest, hcand⟩ := FCurve.examined_ok (S := [side]) (by norm_num) (by simp) (List.Forall₂.cons hgen List.Forall₂.nil)
  have hforget : c0.forget none false = some pc := by
    rw [forget_eq k4]
    exact hinit
  have hv : ∀ path ∈ [path0], path.Valid 5 := by simpa using k3.valid
  have hinv := FCurve.pathFuzzy_inv (group := none) (t := false) (by simp) hv (FCurve.PathFuzzy.init hinit)
  obtain ⟨e0, -, he0⟩ := FCurve.C19_example _ _ _ 5 pc (by simp) hv (.init hinit)
  have hmult : pc.mult = 1 := by rw [← he0.mult, (hcand _ he0).1.mult_eq]; rfl
  have hgenus : pc.genus = c0.genus := by
    have := he0.div
    unfold FCurve.genus
    rw [← this, (hcand _ he0).1.div_eq, h0.candidate.div_eq]
  have hall : ∀ e : Option (Spec 2) × ℕ, e.2 < c0.genus → ∃ l out, pc.genAllowedSpecs 0 e.2 = some l ∧ otherSpecAt pc e = some out ∧
      (∀ pc' ∈ out, ∃ s ∈ l, some s ≠ e.1 ∧ pc.specify 0 e.2 s = .ok pc') ∧ ∀ s ∈ l, some s ≠ e.1 → ∃ pc' ∈ out, pc.specify 0 e.2 s = .ok pc' := by
    intro e he
    obtain ⟨l, s, hl, _, _⟩ := he0.allowed 0 (by omega) e.2 (by omega)
    have hsp : ∀ s ∈ l.filter fun sp => some sp ≠ e.1, ∃ c1, pc.specify 0 e.2 s = .ok c1 := fun s hs => by
      obtain ⟨c1, hc1, _⟩ := FCurve.C20_specify _ _ _ 5 pc (by simp) hv (.init hinit) 0 e.2 (by omega) (by omega) s l hl (List.mem_filter.1 hs).1
      exact ⟨c1, hc1⟩
    have : Nonempty (FCurve 2) := ⟨c0⟩
    choose! F hF using hsp
    refine ⟨l, (l.filter fun sp => some sp ≠ e.1).map F, hl, ?_, ?_, ?_⟩
    · unfold otherSpecAt
      rw [hl]
      show ((l.filter _).mapM _ : Option _) = _
      refine mapM_eq_some_map fun s hs => ?_
      unfold specified
      rw [hF s hs]
    · intro pc' hpc'
      obtain ⟨s, hs, rfl⟩ := List.mem_map.1 hpc'
      have := List.mem_filter.1 hs
      exact ⟨s, this.1, by simpa using this.2, hF s hs⟩
    · intro s hs hne
      have : s ∈ l.filter fun sp => some sp ≠ e.1 := List.mem_filter.2 ⟨hs, by simpa using hne⟩
      exact ⟨F s, List.mem_map_of_mem this, hF s this⟩
  have hlt : ∀ e ∈ p0.specs.zipIdx, e.2 < c0.genus := by
    rintro ⟨o, i⟩ he
    have := List.snd_lt_of_mem_zipIdx he
    rw [h0.candidate.full.specs_length p0 (List.mem_of_getElem? hp0)] at this
    exact this
  have hall' : ∀ e ∈ p0.specs.zipIdx, ∃ out, otherSpecAt pc e = some out := fun e he => by
    obtain ⟨_, out, _, h, _⟩ := hall e (hlt e he)
    exact ⟨out, h⟩
  choose! F hF using hall'
  have hspec : ∀ i < c0.genus, ∃ o, (o, i) ∈ p0.specs.zipIdx ∧ c0.spec? 0 i = o := by
    intro i hi
    have hlen := h0.candidate.full.specs_length p0 (List.mem_of_getElem? hp0)
    refine ⟨p0.specs[i]'(by omega), ?_, ?_⟩
    · rw [List.mem_zipIdx_iff_getElem?]
      simp
    · unfold FCurve.spec?
      rw [hp0, Option.bind_some, List.getElem?_eq_getElem (by omega)]
      rfl
  have hspec' : ∀ o i, (o, i) ∈ p0.specs.zipIdx → c0.spec? 0 i = o := by
    intro o i h
    rw [List.mem_zipIdx_iff_getElem?] at h
    unfold FCurve.spec?
    rw [hp0, Option.bind_some, h]
    rfl
  refine ⟨pc, (p0.specs.zipIdx.map F).flatten, hforget, ?_, ?_, ?_, ?_⟩
  · unfold otherSpecsPcurves
    rw [hforget, h0.pnum, hp0]
    show Option.bind (p0.specs.zipIdx.mapM (otherSpecAt pc)) _ = _
    rw [mapM_eq_some_map hF]
    rfl
  · intro pc' hpc'
    obtain ⟨l', hl', hpc'⟩ := List.mem_flatten.1 hpc'
    obtain ⟨⟨o, i⟩, he, rfl⟩ := List.mem_map.1 hl'
    have hi : i < c0.genus := hlt _ he
    obtain ⟨l, out, m1, m2, m3, _⟩ := hall (o, i) hi
    rw [hF _ he, Option.some.injEq] at m2
    subst m2
    obtain ⟨s, hs, hne, hsp⟩ := m3 pc' hpc'
    have hpf : FCurve.PathFuzzy [path0] none false pc' := .specify (.init hinit) (by omega) (by omega) hsp
    refine ⟨FCurve.estimable_of_pathFuzzy (N := 5) (by norm_num) (by simp) hv (by simpa using k3.continuous)
      (fun path hp => by
        rw [List.mem_singleton.1 hp]
        exact fun cube hc => (k3.all cube).2 hc) hpf, fun e he' => ?_⟩
    obtain ⟨c1, hc1, hiff⟩ := FCurve.C20_specify _ _ _ 5 pc (by simp) hv (.init hinit) 0 i (by omega) (by omega) s l m1 hs
    rw [hsp] at hc1
    cases hc1
    obtain ⟨n1, n2⟩ := (hiff e).1 he'
    exact ⟨n1, i, hi, by rw [n2, hspec' o i he]; exact hne⟩
  · rintro e he ⟨i, hi, hne⟩
    obtain ⟨o, ho, ho'⟩ := hspec i hi
    obtain ⟨l, out, m1, m2, _, m4⟩ := hall (o, i) hi
    rw [hF _ ho, Option.some.injEq] at m2
    subst m2
    obtain ⟨l', s, n1, n2, n3⟩ := he.allowed 0 (by omega) i (by omega)
    rw [m1, Option.some.injEq] at n1
    subst n1
    obtain ⟨pc', q1, q2⟩ := m4 s n2 (by rw [← n3, ← ho']; exact hne)
    refine ⟨pc', List.mem_flatten.2 ⟨_, List.mem_map_of_mem ho, q1⟩, ?_⟩
    obtain ⟨c1, hc1, hiff⟩ := FCurve.C20_specify _ _ _ 5 pc (by simp) hv (.init hinit) 0 i (by omega) (by omega) s l m1 n2
    rw [q2] at hc1
    cases hc1
    exact (hiff e).2 ⟨he, n3⟩
  · intro e he
    obtain ⟨n1, n2⟩ := hcand e he
    have hw : Wanted e := ⟨n1, [side], n2, GateTuple.SameUpToSymmetry.refl _⟩
    obtain ⟨pe, hpe, _⟩ := hw.pattern
    have hfol := he.follows (by simp) hv hinv
    have hproto : pe.proto = p0.proto := by rw [hfol.proto 0 path0 pe rfl hpe, k2.2.2.1, h0.candidate.full.proto_eq hp0]
    refine ⟨hw, ?_, fun i => ?_⟩
    · refine (sameProto_iff n1.full h0.candidate.full (by rw [n1.div_eq, h0.candidate.div_eq]) hpe hp0).2 ⟨1, ?_⟩
      rw [hproto, Path.proto_act_one]
    · unfold FCurve.cube?
      rw [hpe, hp0, Option.bind_some, Option.bind_some, hproto]

/-- The assertion in `check_genus5_ye_proto` never fails. -/
theorem one_path {c0 : FCurve 2} (h0 : Ref c0) (hash : Search.Hashes 1) : sameProtoPcurves c0 hash = otherSpecsPcurves c0 := by
  obtain ⟨L, h1, h2, h3, h4⟩ := sidePaths_spec hash
  obtain ⟨p0, hpat0, hpats0⟩ := h0.wanted.pattern
  obtain ⟨l, hl1, hl2⟩ := protos_eq hpat0 h0.pnum
  obtain ⟨Q0, path0, a0, k1, k2, k3, k4⟩ := own_path h0.wanted
  have hlink : path0.link = side := by
    have := h0.gates.eq k1
    rw [h0.candidate.mult_eq] at this
    rw [k2.2.1]
    simpa using this.symm
  have hgen : Generated 5 [side] (some 1) side path0 := { k3 with link_eq := hlink }
  obtain ⟨q, ⟨hq, b, hb1, hb2⟩, huniq⟩ := h4 path0 hgen
  rw [Path.act_eq k3.wf] at hb2
  have hb2 : Path.img b path0 = q := Option.some.inj hb2
  have hM : L.filter (fun q => decide (q.proto ∈ l) = true) = [q] := by
    have hmem : ∀ q', q' ∈ L.filter (fun q => decide (q.proto ∈ l) = true) ↔ q' = q := by
      intro q'
      rw [List.mem_filter]
      simp only [decide_eq_true_eq]
      constructor
      · rintro ⟨hq', hp'⟩
        obtain ⟨b', hb'⟩ := (hl2 _).1 hp'
        have hg' := h3 q' hq'
        have hgi := hg'.imgC b'⁻¹
        have e : (Path.img b'⁻¹ q').proto = path0.proto := by
          show Proto.act q'.div b'⁻¹ q'.proto = _
          rw [hb', hg'.div_eq, h0.candidate.div_eq, ← Path.proto_act_mul, inv_mul_cancel, Path.proto_act_one, k2.2.2.1, h0.candidate.full.proto_eq hpat0]
        have heq : Path.img b'⁻¹ q' = path0 :=
          eq_of_links hgi.wf k3.wf (by rw [hgi.div_eq, k3.div_eq]) e (h0.rigid _ _ _ _ hgi k3 (by rw [e, k2.2.2.1]) k2.2.2.1)
        have heq' : Path.img b' path0 = q' := by rw [← heq, ← Path.img_mul, mul_inv_cancel, Path.img_one]
        refine huniq q' ⟨hq', b', ?_, ?_⟩
        · have e1 : Link.act b' path0.link = q'.link := congrArg Path.link heq'
          rw [hg'.link_eq, hlink] at e1
          exact e1
        · rw [Path.act_eq k3.wf]
          exact congrArg some heq'
      · rintro rfl
        refine ⟨hq, (hl2 _).2 ⟨b, ?_⟩⟩
        rw [← hb2]
        show Proto.act path0.div b path0.proto = _
        rw [k3.div_eq, h0.candidate.div_eq, k2.2.2.1, h0.candidate.full.proto_eq hpat0]
    exact List.perm_singleton.1 ((List.perm_ext_iff_of_nodup (h2.filter _) (List.nodup_singleton q)).2 (by simpa using hmem))
  unfold sameProtoPcurves
  rw [hl1, h1]
  simp only [Option.bind_eq_bind, Option.bind_some]
  rw [filterPaths_spec, hM]
  rfl

/-! ### The curve YE -/

/-- The links with the gates of neighbouring vertices of the square. -/
def sides : List (Link (Point 2)) := (BaseMap.genBaseMaps 2 none).map fun b => Link.act b side

theorem mem_sides (b : BaseMap 2) : Link.act b side ∈ sides := List.mem_map_of_mem (BaseMap.mem_genBaseMaps.2 (by simp))

def joinedB (c c' : Cube 2) (l l' : Link (Point 2)) : Bool := decide (∀ j, (c j : ℚ) + l.exit j = c' j + l'.entrance j)

/-- All continuous sequences of such links for the given cubes. -/
def chains : List (Cube 2) → List (List (Link (Point 2)))
  | [] => [[]]
  | [_] => sides.dedup.map fun l => [l]
  | c :: c' :: rest => (chains (c' :: rest)).flatMap fun ls => match ls with
    | l' :: _ => (sides.dedup.filter fun l => joinedB c c' l l').map (· :: ls)
    | [] => []

theorem mem_chains : ∀ (cs : List (Cube 2)) (ls : List (Link (Point 2))), ls.length = cs.length → (∀ l ∈ ls, l ∈ sides) →
    (∀ (i : ℕ) c c' l l', cs[i]? = some c → cs[i + 1]? = some c' → ls[i]? = some l → ls[i + 1]? = some l' → ∀ j, (c j : ℚ) + l.exit j = c' j + l'.entrance j) →
    ls ∈ chains cs := by
  intro cs
  induction cs with
  | nil =>
    intro ls h _ _
    rw [List.length_eq_zero_iff.1 h]
    simp [chains]
  | cons c cs ih =>
    intro ls h1 h2 h3
    match ls, h1 with
    | l :: ls, h1 =>
      match cs, ls, h1 with
      | [], [], _ =>
        simp only [chains, List.mem_map, List.mem_dedup]
        exact ⟨l, h2 l (by simp), rfl⟩
      | c' :: cs, l' :: ls, h1 =>
        rw [chains, List.mem_flatMap]
        refine ⟨l' :: ls, ih _ (by simpa using h1) (fun x hx => h2 x (List.mem_cons_of_mem _ hx)) ?_, ?_⟩
        · intro i
          exact h3 (i + 1)
        · simp only [List.mem_map, List.mem_filter, List.mem_dedup]
          exact ⟨l, ⟨h2 l (by simp), decide_eq_true (h3 0 c c' l l' rfl rfl rfl rfl)⟩, rfl⟩

/-- The global link. -/
def total (cs : List (Cube 2)) (ls : List (Link (Point 2))) : Option (Link (Point 2)) := do
  let c ← cs.head?
  let c' ← cs.getLast?
  let l ← ls.head?
  let l' ← ls.getLast?
  return ⟨fun j => (l.entrance j + c j) * (1 / 5), fun j => (l'.exit j + c' j) * (1 / 5)⟩

def goodChains (cs : List (Cube 2)) : List (List (Link (Point 2))) := (chains cs).filter fun ls => (total cs ls).any fun l => decide (l ∈ sides)

theorem links_good {cs : List (Cube 2)} {p : Path (Point 2) 2} {a : BaseMap 2} (h : Generated 5 [side] (some 1) (Link.act a side) p)
    (hp : p.proto = cs.map some) : p.links ∈ goodChains cs := by
  have hlen : p.links.length = cs.length := by rw [h.wf.length, hp, List.length_map]
  refine List.mem_filter.2 ⟨mem_chains _ _ hlen (fun l hl => ?_) ?_, ?_⟩
  · obtain ⟨b, m, hm, rfl⟩ := imageOf_iff_act.1 (h.links_image l hl)
    rw [List.mem_singleton.1 hm]
    exact mem_sides b
  · intro i c c' l l' hc hc' hl hl'
    exact h.joined i c c' l l' (by rw [hp, List.getElem?_map, hc]; rfl) (by rw [hp, List.getElem?_map, hc']; rfl) hl hl'
  · have hm := h.wf.made
    rw [Path.make_iff] at hm
    obtain ⟨_, c0, c1, l0, l1, hc0, hc1, h0, h1, he⟩ := hm
    rw [hp, List.head?_map, Option.map_eq_some_iff] at hc0
    rw [hp, List.getLast?_map, Option.map_eq_some_iff] at hc1
    obtain ⟨c0, hc0, ⟨⟩⟩ := hc0
    obtain ⟨c1, hc1, ⟨⟩⟩ := hc1
    have e : total cs p.links = some p.link := by
      unfold total
      rw [hc0, hc1, h0, h1, congrArg Path.link he, h.div_eq]
      rfl
    rw [e, h.link_eq]
    simpa using mem_sides a

def yeCubes : List (Cube 2) := (List.range Zoo.ye.genus).map fun i => Zoo.ye.cubeD 0 i

theorem ye_chains : (goodChains yeCubes).length = 1 := by decide +kernel

theorem ye_full : Zoo.ye.Full := full_of_fullB (by decide +kernel)

theorem ye_candidate : Zoo.ye.IsCandidate 5 1 (some 1) where
  full := ye_full
  fills := fills_of_fillsB ye_full (by decide +kernel)
  checked := by decide +kernel
  div_eq := by decide +kernel
  mult_eq := by decide +kernel
  steps := by
    have key : ∀ i < 25, ∀ x ∈ Zoo.ye.cube? 0 i, ∀ y ∈ Zoo.ye.cube? 0 (i + 1), ∑ j, |y j - x j| ≤ 1 := by decide +kernel
    intro m hm p i x y hx hy
    cases hm
    have hg : Zoo.ye.genus = 25 := by decide +kernel
    have hm1 : Zoo.ye.mult = 1 := by decide +kernel
    have hlt : p < 1 ∧ i < 25 := by
      by_contra hne
      rw [cube?_none ye_full (by rw [hg, hm1]; omega)] at hx
      cases hx
    obtain ⟨hp, hi⟩ := hlt
    obtain rfl : p = 0 := by omega
    exact key i hi x hx y hy

theorem ye_ref : Ref Zoo.ye where
  candidate := ye_candidate
  gates := by
    have h1 : Zoo.ye.getEntrance 0 = some side.entrance := by decide +kernel
    have h2 : Zoo.ye.getExit 0 = some side.exit := by decide +kernel
    refine ⟨ye_candidate.mult_eq.symm, fun p l hl => ?_⟩
    match p with
    | 0 =>
      cases hl
      exact ⟨h1, h2⟩
    | _ + 1 => cases hl
  pnum := by decide +kernel
  kind := by decide +kernel
  rigid := by
    intro p q a b hp hq h1 h2
    have e1 := links_good hp h1
    have e2 := links_good hq h2
    obtain ⟨x, hx⟩ := List.length_eq_one_iff.1 ye_chains
    have hx : goodChains ((List.range Zoo.ye.genus).map fun i => Zoo.ye.cubeD 0 i) = [x] := hx
    rw [hx, List.mem_singleton] at e1 e2
    rw [e1, e2]

end YeProof
end Peano
