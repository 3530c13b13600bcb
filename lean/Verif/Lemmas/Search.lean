import Verif.Lemmas.Reparam
import Verif.Lemmas.EstimableOf
import Verif.Props.GeneratePaths
import Verif.Props.Fuzzy
import Verif.Spec.Search

set_option autoImplicit false

/-! The curves examined by the search are, up to symmetries, all curves with the given gates. -/
namespace Peano
variable {d : ℕ}

/-! ### Generated paths -/

theorem applyCube_sub (b : BaseMap d) (N : ℤ) (x y : Cube d) : (∑ j, |b.applyCube N y j - b.applyCube N x j|) = ∑ j, |y j - x j| := by
  have h := PathsGen.cdist_applyVec b fun j => y j - x j
  rw [PathsGen.cdist_eq, PathsGen.cdist_eq] at h
  rw [← h]
  apply Finset.sum_congr rfl
  intro j _
  unfold BaseMap.applyCube BaseMap.applyVec
  beta_reduce
  split
  · congr 1
    ring
  · rfl

theorem Generated.imgC {div : ℕ} {links : List (Link (Point d))} {mc : Option ℤ} {link : Link (Point d)} {p : Path (Point d) d}
    (h : Generated div links mc link p) (b : BaseMap d) : Generated div links mc (Link.act b link) (Path.img b p) := by
  have h0 : Generated div links none link p := { h with cdist_le := by simp }
  refine { h0.img b with cdist_le := ?_ }
  intro m hm i x y hx hy
  have hh := h.cdist_le m hm
  simp only [Path.img, Proto.act, List.getElem?_map, Option.map_eq_some_iff] at hx hy
  obtain ⟨ox, hx1, hx2⟩ := hx
  obtain ⟨oy, hy1, hy2⟩ := hy
  obtain ⟨x', rfl, rfl⟩ := hx2
  obtain ⟨y', rfl, rfl⟩ := hy2
  rw [applyCube_sub]
  by_cases hb : b.timeRev = true
  · simp only [hb, if_true] at hx1 hy1
    have hi : i + 1 < p.proto.length := by
      have := (List.getElem?_eq_some_iff.1 hy1).1
      simpa using this
    rw [List.getElem?_reverse (by omega)] at hx1
    rw [List.getElem?_reverse (by omega)] at hy1
    calc ∑ j, |y' j - x' j| = ∑ j, |x' j - y' j| := Finset.sum_congr rfl fun j _ => abs_sub_comm _ _
      _ ≤ m := hh _ y' x' hy1 (by rw [← hx1]; congr 1; omega)
  · simp only [hb] at hx1 hy1
    exact hh i x' y' hx1 hy1

theorem card_grid (N : ℕ) : (Fintype.piFinset fun _ : Fin d => Finset.Ico (0 : ℤ) N).card = N ^ d := by
  rw [Fintype.card_piFinset]
  simp

theorem Generated.valid {div : ℕ} {links : List (Link (Point d))} {mc : Option ℤ} {link : Link (Point d)} {p : Path (Point d) d}
    (h : Generated div links mc link p) : p.Valid div := by
  have hlen : p.proto.length = div ^ d := by
    have h1 : p.proto.toFinset = (Fintype.piFinset fun _ : Fin d => Finset.Ico (0 : ℤ) div).map Function.Embedding.some := by
      ext o
      rw [List.mem_toFinset, Finset.mem_map]
      constructor
      · intro ho
        cases o with
        | none => exact absurd rfl (h.wf.cubes none ho)
        | some c =>
          refine ⟨c, ?_, rfl⟩
          rw [Fintype.mem_piFinset]
          intro j
          exact Finset.mem_Ico.2 ((h.all c).1 ho j)
      · rintro ⟨c, hc, rfl⟩
        rw [Fintype.mem_piFinset] at hc
        exact (h.all c).2 fun j => Finset.mem_Ico.1 (hc j)
    rw [← List.toFinset_card_of_nodup h.once, h1, Finset.card_map, card_grid]
  refine ⟨h.div_eq, hlen, by rw [h.wf.length, hlen], ?_, ?_⟩
  · intro c hc
    cases c with
    | none => exact absurd rfl (h.wf.cubes none hc)
    | some c => exact ⟨c, rfl, (h.all c).1 hc⟩
  · rw [← h.div_eq]
    exact h.wf.made

theorem Generated.continuous {div : ℕ} {links : List (Link (Point d))} {mc : Option ℤ} {link : Link (Point d)} {p : Path (Point d) d}
    (h : Generated div links mc link p) : p.isContinuous = some true := by
  obtain ⟨b, h1, h2⟩ := Path.isContinuous_iff h.wf
  rw [h1, h2.2 h.joined]

/-! ### Lists -/

theorem forall₂_choose {α β γ : Type*} [Nonempty γ] {R : α → γ → β → Prop} {w : List α} {q : List β} (hw : w.Nodup)
    (h : List.Forall₂ (fun k q => ∃ b, R k b q) w q) : ∃ B : α → γ, List.Forall₂ (fun k q => R k (B k) q) w q := by
  classical
  induction h with
  | nil => exact ⟨fun _ => Classical.arbitrary γ, List.Forall₂.nil⟩
  | @cons k y w q hk _ ih =>
    obtain ⟨hk', hw'⟩ := List.nodup_cons.1 hw
    obtain ⟨B, hB⟩ := ih hw'
    obtain ⟨b, hb⟩ := hk
    refine ⟨fun x => if x = k then b else B x, List.Forall₂.cons (by simpa using hb) ?_⟩
    rw [List.forall₂_iff_get] at hB ⊢
    refine ⟨hB.1, fun i h1 h2 => ?_⟩
    have := hB.2 i h1 h2
    have hne : w.get ⟨i, h1⟩ ≠ k := fun he => hk' (he ▸ List.get_mem w ⟨i, h1⟩)
    beta_reduce
    rw [if_neg hne]
    exact this

theorem forall₂_perm {α β : Type*} {R : α → β → Prop} {w : List α} {q q' : List β} (h : List.Forall₂ R w q) (hp : q.Perm q') :
    ∃ w', w'.Perm w ∧ List.Forall₂ R w' q' := by
  have : Relation.Comp (List.Forall₂ R) List.Perm w q' := ⟨q, h, hp⟩
  rw [List.forall₂_comp_perm_eq_perm_comp_forall₂] at this
  obtain ⟨w', h1, h2⟩ := this
  exact ⟨w', h1.symm, h2⟩

/-! ### The examined curve with the dilation of the given one -/

namespace FCurve
variable {c : FCurve d}

/-- If the paths are mapped paths of the curve, then the curve with mapped patterns is one of the possible curves of these paths. -/
theorem possible_reparam (h : c.Full) (hpos : 0 < c.mult) {Q : Bool → ℕ → Point d} {path : ℕ → Path (Point d) d}
    (hproto : ∀ p < c.mult, (path p).proto = ((List.range c.genus).map fun i => c.cubeD p i).map some)
    (hlinks : ∀ p < c.mult, (path p).links = (List.range c.genus).map fun i => Link.act (c.specD p i).baseMap (gateLink Q (c.specD p i).pnum))
    (hdiv : ∀ p < c.mult, (path p).div = c.div) (hlink : ∀ p < c.mult, (path p).link = gateLink Q p)
    {w : List ℕ} {B : ℕ → BaseMap d} {qs : List (Path (Point d) d)} (hw : w.Perm (List.range c.mult))
    (hqs : List.Forall₂ (fun k q => Path.img (B k) (path k) = q) w qs) (hv : ∀ q ∈ qs, q.Valid c.div) {pc : FCurve d}
    (hpc : initFromPaths qs none false = some pc) : Possible pc (c.reparam w B) := by
  have hlen : w.length = qs.length := hqs.length_eq
  have hlt : ∀ {j k : ℕ}, w[j]? = some k → k < c.mult := fun hj => List.mem_range.1 (hw.mem_iff.1 (List.mem_of_getElem? hj))
  have hq : ∀ {j k : ℕ}, w[j]? = some k → qs[j]? = some (Path.img (B k) (path k)) := by
    intro j k hj
    obtain ⟨h1, h2⟩ := List.getElem?_eq_some_iff.1 hj
    rw [List.forall₂_iff_get] at hqs
    have := hqs.2 j h1 (by omega)
    rw [List.getElem?_eq_getElem (by omega)]
    simp only [List.get_eq_getElem, h2] at this
    rw [this]
  obtain ⟨g1, g2, g3, g4, g5, g6, _⟩ := init_facts (by simp) hv hpc
  have hgenus : pc.genus = c.genus := by unfold FCurve.genus; rw [g1]
  have hmult : pc.mult = w.length := g2.trans hlen.symm
  have hlen' : ∀ {j k : ℕ}, w[j]? = some k → (Path.img (B k) (path k)).proto.length = c.genus := by
    intro j k hj
    simp [Path.img, Proto.act, hproto k (hlt hj), apply_ite List.length]
  refine ⟨rfl, ?_, ?_, ?_, ?_, ?_⟩
  · rw [reparam_div, g1]
  · obtain ⟨first, D, fr, h1, h2, h3, rfl⟩ := initFromPaths_spec (effectiveGroup_isSubgroup (by simp) false) hpc
    rfl
  · rw [reparam_mult, hmult]
  · intro j pat pat' h1 h2
    have hj : j < w.length := by rw [← hmult]; exact (List.getElem?_eq_some_iff.1 h1).1
    have hk := List.getElem?_eq_getElem hj
    have e1 := congrArg (fun l => l[j]?) g4
    simp only [List.getElem?_map, h1, hq hk, Option.map_some, Option.some.injEq] at e1
    simp only [reparam, List.getElem?_map, hk, Option.map_some, Option.some.injEq] at h2
    rw [e1, ← h2, hgenus]
    refine ⟨?_, by simp⟩
    simp only [Path.img, hproto _ (hlt hk), hdiv _ (hlt hk), Proto.act, List.map_map]
    apply List.ext_getElem?
    intro i
    by_cases hi : i < c.genus
    · have hi' := BaseMap.applyCnum_lt (B w[j]) hi
      by_cases hb : (B w[j]).timeRev = true
      · simp only [hb, if_true, reparamCube, BaseMap.applyCnum]
        rw [List.getElem?_map, List.getElem?_map, List.getElem?_reverse (by simpa using hi)]
        have h3 : c.genus - 1 - i < c.genus := by omega
        simp [hi, h3]
      · simp only [hb, reparamCube, BaseMap.applyCnum]
        simp [hi]
    · have hi := not_lt.1 hi
      rw [List.getElem?_eq_none (by simpa using hi), List.getElem?_eq_none (by simpa [apply_ite List.length] using hi)]
  · intro j hj i hi
    rw [hmult] at hj
    rw [hgenus] at hi
    have hk := List.getElem?_eq_getElem hj
    obtain ⟨pat, hpat⟩ := getElem?_of_lt (c := pc) (p := j) (by omega)
    have hraw := g5 j (by omega) i (by omega)
    unfold raw at hraw
    rw [hpat, Option.bind_some] at hraw
    set k := w[j] with hkdef
    have hkm := hlt hk
    have hi' := BaseMap.applyCnum_lt (B k) hi
    set s := c.specD k ((B k).applyCnum c.genus i) with hs
    have hli : (Path.img (B k) (path k)).links[i]? = some (Link.act (B k) (Link.act s.baseMap (gateLink Q s.pnum))) := by
      simp only [Path.img, hlinks k hkm]
      by_cases hb : (B k).timeRev = true
      · simp only [hb, if_true]
        rw [List.getElem?_map, List.getElem?_reverse (by simpa using hi)]
        have h3 : c.genus - 1 - i < c.genus := by omega
        have h4 : (B k).applyCnum c.genus i = c.genus - 1 - i := by simp [BaseMap.applyCnum, hb]
        simp [h3, hs, h4]
      · have h4 : (B k).applyCnum c.genus i = i := by simp [BaseMap.applyCnum, hb]
        simp [hi, hs, h4, hb]
    obtain ⟨l, a1, _, _, a4⟩ := C18_allowed_specs qs none false pc pc (by simp) hpc rfl j i _ _ (hq hk) hli pat hpat hraw
    refine ⟨l, c.reparamSpec w B k i, a1, (a4 _).2 ⟨⟨by simp, by simp⟩, ?_⟩, reparam_spec? hk hi⟩
    have hm : s.pnum < c.mult := h.specD_lt hkm hi'
    have hidx : w.idxOf s.pnum < w.length := List.idxOf_lt_length_iff.2 (hw.mem_iff.2 (List.mem_range.2 hm))
    have hwm : w[w.idxOf s.pnum]? = some s.pnum := by
      rw [List.getElem?_eq_getElem hidx, List.getElem_idxOf]
    refine ⟨_, hq hwm, ?_⟩
    simp only [reparamSpec, ← hs]
    have : (Path.img (B s.pnum) (path s.pnum)).link = Link.act (B s.pnum) (gateLink Q s.pnum) := by
      simp [Path.img, hlink _ hm]
    rw [this, ← Link.act_mul, ← Link.act_mul]
    congr 1
    group

/-- Sound: all possible curves of the paths are candidates with the gates of the paths. -/
theorem possible_candidate {N : ℕ} (hN : 2 ≤ N) {mc : Option ℤ} {S : GateTuple d} {qs : List (Path (Point d) d)}
    (hqs : List.Forall₂ (fun link p => Generated N S mc link p) S qs) {pc e : FCurve d} (hpc : initFromPaths qs none false = some pc)
    (he : Possible pc e) : e.IsCandidate N S.length mc ∧ e.HasGates S := by
  have hlen := hqs.length_eq
  have hgen : ∀ {j : ℕ} {q : Path (Point d) d}, qs[j]? = some q → ∃ l, S[j]? = some l ∧ Generated N S mc l q := by
    intro j q hj
    obtain ⟨h1, h2⟩ := List.getElem?_eq_some_iff.1 hj
    rw [List.forall₂_iff_get] at hqs
    have := hqs.2 j (by omega) h1
    simp only [List.get_eq_getElem, h2] at this
    exact ⟨S[j], List.getElem?_eq_getElem (by omega), this⟩
  have hmem : ∀ q ∈ qs, ∃ l, Generated N S mc l q := by
    intro q hq
    obtain ⟨j, hj⟩ := List.mem_iff_getElem?.1 hq
    obtain ⟨l, _, h⟩ := hgen hj
    exact ⟨l, h⟩
  have hv : ∀ q ∈ qs, q.Valid N := fun q hq => (hmem q hq).choose_spec.valid
  have hE := estimable_of_pathFuzzy hN (by simp) hv (fun q hq => (hmem q hq).choose_spec.continuous)
    (fun q hq cube hc => ((hmem q hq).choose_spec.all cube).2 hc) (PathFuzzy.init hpc)
  have hfol := he.follows (by simp) hv (pathFuzzy_inv (by simp) hv (PathFuzzy.init hpc))
  obtain ⟨h1, h2, h3⟩ := hE.possible e he
  refine ⟨⟨h1, h3, h2, hfol.div, hfol.mult.trans hlen.symm, ?_⟩, ?_, ?_⟩
  · intro m hm p i x y hx hy
    have hp : p < qs.length := by rw [← hfol.mult]; exact cube?_lt hx
    have hget := List.getElem?_eq_getElem hp
    obtain ⟨pat, hpat⟩ := getElem?_of_lt (cube?_lt hx)
    obtain ⟨l, _, hg⟩ := hgen hget
    have hpr := hfol.proto p _ pat hget hpat
    unfold FCurve.cube? Proto.cube? at hx hy
    rw [hpat, Option.bind_some, Option.join_eq_some_iff, hpr] at hx hy
    exact hg.cdist_le m hm i x y hx hy
  · exact hlen.trans hfol.mult.symm
  · intro p l hl
    have hp : p < qs.length := by rw [← hlen]; exact (List.getElem?_eq_some_iff.1 hl).1
    have hget := List.getElem?_eq_getElem hp
    obtain ⟨l', hl', hg⟩ := hgen hget
    rw [hl] at hl'
    cases hl'
    rw [← hg.link_eq]
    exact hfol.gates hN hv hget

/-- The own path of pattern `p` of the curve. -/
def OwnPath (c : FCurve d) (Q : Bool → ℕ → Point d) (p : ℕ) (path : Path (Point d) d) : Prop :=
  path.div = c.div ∧ path.link = gateLink Q p ∧ path.proto = ((List.range c.genus).map fun i => c.cubeD p i).map some ∧
    path.links = (List.range c.genus).map fun i => Link.act (c.specD p i).baseMap (gateLink Q (c.specD p i).pnum)

/-- A candidate whose gates are the given ones up to symmetry: some examined tuple of paths consists of images of its own paths. -/
theorem exists_examined_paths {N : ℕ} {mc : Option ℤ} {S : GateTuple d} {out : List (List (Path (Point d) d))}
    (hout : ∀ ps, List.Forall₂ (fun link p => Generated N S mc link p) S ps → ∃ qs ∈ out, PathTuple.SameUpToSymmetry S ps qs)
    (h : c.IsCandidate N S.length mc) {G : GateTuple d} (hG : c.HasGates G) (hsame : GateTuple.SameUpToSymmetry G S) :
    ∃ (Q : Bool → ℕ → Point d) (path : ℕ → Path (Point d) d), (∀ p < c.mult, c.getEntrance p = some (Q false p) ∧ c.getExit p = some (Q true p)) ∧
      (∀ p < c.mult, c.OwnPath Q p (path p)) ∧ ∃ qs ∈ out, ∃ (w : List ℕ) (B : ℕ → BaseMap d), w.Perm (List.range c.mult) ∧
        List.Forall₂ (fun k q => Path.img (B k) (path k) = q) w qs := by
  have : Nonempty (BaseMap d) := ⟨1⟩
  obtain ⟨Q, hQ1, hQ2, hQ3⟩ := h.full.exists_rat_gates
  have hGe := hG.eq hQ1
  -- the own paths of the curve
  have hown : ∀ p, ∃ path, p < c.mult → Generated N ((List.range c.mult).map (gateLink Q)) mc (gateLink Q p) path ∧
      path.proto = ((List.range c.genus).map fun i => c.cubeD p i).map some ∧
      path.links = (List.range c.genus).map (fun i => Link.act (c.specD p i).baseMap (gateLink Q (c.specD p i).pnum)) := by
    intro p
    by_cases hp : p < c.mult
    · obtain ⟨path, h1, h2, h3⟩ := h.full.hasPaths h.checked h.fills hQ1 hp
      refine ⟨path, fun _ => ⟨?_, h2, h3⟩⟩
      rw [h.div_eq] at h1
      refine { h1 with cdist_le := ?_ }
      intro m hm i x y hx hy
      have key : ∀ {i : ℕ} {x : Cube d}, path.proto[i]? = some (some x) → c.cube? p i = some x := by
        intro i x hx
        rw [h2, List.map_map, List.getElem?_map, Option.map_eq_some_iff] at hx
        obtain ⟨i', hi', hx⟩ := hx
        obtain ⟨hi1, rfl⟩ := List.getElem?_eq_some_iff.1 hi'
        rw [List.length_range] at hi1
        simp only [List.getElem_range, Function.comp_apply, Option.some.injEq] at hx ⊢
        rw [← hx]
        exact h.full.cube_eq hp hi1
      exact h.steps m hm p i x y (key hx) (key hy)
    · exact ⟨⟨0, [], [], ⟨0, 0⟩⟩, fun h => absurd h hp⟩
  choose path hpath using hown
  -- the first permutation
  obtain ⟨W, hW1, hW2⟩ := hsame
  rw [hGe, List.forall₂_map_left_iff] at hW2
  obtain ⟨w, hw1, hw2⟩ := forall₂_perm hW2 hW1
  have hwn : w.Nodup := hw1.nodup_iff.2 List.nodup_range
  obtain ⟨b0, hb0⟩ := forall₂_choose hwn hw2
  have hlt : ∀ k ∈ w, k < c.mult := fun k hk => List.mem_range.1 (hw1.mem_iff.1 hk)
  have himage : ∀ l, ImageOf ((List.range c.mult).map (gateLink Q)) l → ImageOf S l := by
    intro l hl
    obtain ⟨b, m, hm, rfl⟩ := imageOf_iff_act.1 hl
    obtain ⟨k, hk, rfl⟩ := List.mem_map.1 hm
    have hkw := hw1.mem_iff.2 hk
    obtain ⟨j, hj⟩ := List.mem_iff_getElem?.1 hkw
    obtain ⟨hj1, hj2⟩ := List.getElem?_eq_some_iff.1 hj
    rw [List.forall₂_iff_get] at hb0
    have hj3 := hb0.2 j hj1 (by rw [← hb0.1]; exact hj1)
    simp only [List.get_eq_getElem, hj2] at hj3
    refine imageOf_iff_act.2 ⟨b * (b0 k)⁻¹, _, List.getElem_mem (by rw [← hb0.1]; exact hj1), ?_⟩
    rw [← hj3, ← Link.act_mul, inv_mul_cancel_right]
  have hps : List.Forall₂ (fun link p => Generated N S mc link p) S (w.map fun k => Path.img (b0 k) (path k)) := by
    rw [List.forall₂_map_right_iff]
    refine List.Forall₂.flip ?_
    rw [List.forall₂_iff_get] at hb0 ⊢
    refine ⟨hb0.1, fun i h1 h2 => ?_⟩
    have e := hb0.2 i h1 h2
    obtain ⟨k1, _, _⟩ := hpath (w.get ⟨i, h1⟩) (hlt _ (List.get_mem _ _))
    have := k1.imgC (b0 (w.get ⟨i, h1⟩))
    rw [e] at this
    exact { this with links_image := fun l hl => himage l (this.links_image l hl) }
  obtain ⟨qs, hqs, hq1, hq2, ws, hq3, hq4⟩ := hout _ hps
  -- the second permutation
  have hlen : w.length = S.length := hb0.length_eq
  have hws : List.Forall₂ (fun k (e : Link (Point d) × Path (Point d) d) => ∃ b : BaseMap d, Path.img b (path k) = e.2) w (S.zip ws) := by
    have hl3 := hq3.length_eq
    rw [List.length_zip, List.length_map] at hl3
    rw [List.forall₂_iff_get]
    refine ⟨by rw [List.length_zip]; omega, fun i h1 h2 => ?_⟩
    rw [List.forall₂_iff_get] at hq3
    have h4 : i < ws.length := by rw [← hl3]; omega
    obtain ⟨b, hb1, hb2⟩ := hq3.2 i (by rw [List.length_zip, List.length_map]; omega) h4
    simp only [List.get_eq_getElem, List.getElem_zip, List.getElem_map] at hb1 hb2 ⊢
    obtain ⟨k1, _, _⟩ := hpath w[i] (hlt _ (List.getElem_mem _))
    rw [Path.act_eq (Path.img_wf k1.wf _), Option.some.injEq] at hb2
    exact ⟨b * b0 w[i], by rw [Path.img_mul]; exact hb2⟩
  obtain ⟨w', hw1', hw2'⟩ := forall₂_perm hws hq4
  have hwr : w'.Perm (List.range c.mult) := hw1'.trans hw1
  obtain ⟨B, hB⟩ := forall₂_choose (hwr.nodup_iff.2 List.nodup_range) hw2'
  have hB' : List.Forall₂ (fun k q => Path.img (B k) (path k) = q) w' qs := by
    have hl := hB.length_eq
    rw [List.length_zip] at hl
    rw [List.forall₂_iff_get] at hB ⊢
    refine ⟨by omega, fun i h1 h2 => ?_⟩
    have := hB.2 i h1 (by rw [List.length_zip]; omega)
    simpa using this
  exact ⟨Q, path, hQ1, fun p hp => ⟨by rw [(hpath p hp).1.div_eq, h.div_eq], (hpath p hp).1.link_eq, (hpath p hp).2⟩, qs, hqs, w', B, hwr, hB'⟩

/-- Complete: a candidate whose gates are the given ones up to symmetry has the same dilation as some possible curve of some examined tuple of
paths. -/
theorem exists_examined {N : ℕ} {mc : Option ℤ} {S : GateTuple d} {out : List (List (Path (Point d) d))}
    (hout : ∀ ps, List.Forall₂ (fun link p => Generated N S mc link p) S ps → ∃ qs ∈ out, PathTuple.SameUpToSymmetry S ps qs)
    (hgen : ∀ ps ∈ out, List.Forall₂ (fun link p => Generated N S mc link p) S ps)
    (h : c.IsCandidate N S.length mc) {G : GateTuple d} (hG : c.HasGates G) (hsame : GateTuple.SameUpToSymmetry G S) (hpos : 0 < S.length) :
    ∃ qs ∈ out, ∀ pc, initFromPaths qs none false = some pc → ∃ e, Possible pc e ∧ ∀ r D, c.IsDilation r D → e.IsDilation r D := by
  obtain ⟨Q, path, _, hpath, qs, hqs, w', B, hwr, hB'⟩ := exists_examined_paths hout h hG hsame
  refine ⟨qs, hqs, fun pc hpc => ?_⟩
  have hv : ∀ q ∈ qs, q.Valid c.div := by
    intro q hq
    have := hgen qs hqs
    obtain ⟨j, hj⟩ := List.mem_iff_getElem?.1 hq
    obtain ⟨h1, h2⟩ := List.getElem?_eq_some_iff.1 hj
    rw [List.forall₂_iff_get] at this
    have := this.2 j (by omega) h1
    simp only [List.get_eq_getElem, h2] at this
    rw [h.div_eq]
    exact this.valid
  refine ⟨c.reparam w' B, ?_, fun r D hD => hD.reparam h.full hwr⟩
  exact possible_reparam h.full (by rw [h.mult_eq]; exact hpos) (Q := Q) (path := path) (fun p hp => (hpath p hp).2.2.1)
    (fun p hp => (hpath p hp).2.2.2) (fun p hp => (hpath p hp).1) (fun p hp => (hpath p hp).2.1) hwr hB' hv hpc

end FCurve

namespace Search
variable {n : ℕ}

theorem gatesPcurves_spec (hash : Hashes n) (p : Params n) (hdiv : 2 ≤ p.div) {S : GateTuple (n + 1)} (hpos : 0 < S.length)
    (hunit : ∀ m ∈ S, ∀ j, (0 ≤ m.entrance j ∧ m.entrance j ≤ 1) ∧ (0 ≤ m.exit j ∧ m.exit j ≤ 1)) :
    ∃ pcs, gatesPcurves hash p S = some pcs ∧
      (∀ pc ∈ pcs, pc.Estimable ∧ ∀ e, FCurve.Possible pc e → e.IsCandidate p.div S.length p.maxCdist ∧ e.HasGates S) ∧
      ∀ (c : FCurve (n + 1)) G, c.IsCandidate p.div S.length p.maxCdist → c.HasGates G → GateTuple.SameUpToSymmetry G S →
        ∃ pc ∈ pcs, ∃ e, FCurve.Possible pc e ∧ ∀ r D, c.IsDilation r D → e.IsDilation r D := by
  have hM : 2 ≤ p.div ^ (n + 1) := le_trans hdiv (Nat.le_self_pow (by omega) _)
  obtain ⟨out, h1, h2, h3, h4⟩ := PathsGen.C63_std_tuples { div := p.div, links := S, maxCdist := p.maxCdist } hash.point none (some 100)
    (some (p.finishMaxCount.getD 1000000)) hM hunit
  simp only [Option.getD_none] at h3 h4
  have hmem : ∀ ps ∈ out, ∀ q ∈ ps, ∃ l ∈ S, Generated p.div S p.maxCdist l q := by
    intro ps hps q hq
    have := h3 ps hps
    obtain ⟨j, hj⟩ := List.mem_iff_getElem?.1 hq
    obtain ⟨h1, h2⟩ := List.getElem?_eq_some_iff.1 hj
    rw [List.forall₂_iff_get] at this
    have := this.2 j (by omega) h1
    simp only [List.get_eq_getElem, h2] at this
    exact ⟨_, List.getElem_mem _, this⟩
  have hinit : ∀ ps ∈ out, ∃ pc, FCurve.initFromPaths ps none false = some pc := by
    intro ps hps
    have hF := h3 ps hps
    refine (FCurve.C18_init_iff ps none false (by simp)).2 ⟨?_, ?_⟩
    · rintro rfl
      rw [hF.length_eq] at hpos
      simp at hpos
    · intro path hpath link hlink
      obtain ⟨l, hl, hg⟩ := hmem ps hps path hpath
      obtain ⟨b, m, hm, rfl⟩ := imageOf_iff_act.1 (hg.links_image link hlink)
      obtain ⟨j, hj⟩ := List.mem_iff_getElem?.1 hm
      obtain ⟨k1, k2⟩ := List.getElem?_eq_some_iff.1 hj
      rw [List.forall₂_iff_get] at hF
      have k3 := hF.2 j k1 (by omega)
      simp only [List.get_eq_getElem, k2] at k3
      exact ⟨ps[j]'(by omega), List.getElem_mem _, b, ⟨by simp, by simp⟩, by rw [k3.link_eq]⟩
  have : Nonempty (FCurve (n + 1)) := ⟨⟨0, [], 0, .curve⟩⟩
  choose! F hF using hinit
  refine ⟨out.map F, ?_, ?_, ?_⟩
  · unfold gatesPcurves
    show Option.bind (PathsGen.generatePaths _ _ _ _ _ _ _) _ = _
    rw [h1, Option.bind_some]
    exact mapM_eq_some_map hF
  · intro pc hpc
    obtain ⟨ps, hps, rfl⟩ := List.mem_map.1 hpc
    refine ⟨FCurve.estimable_of_pathFuzzy hdiv (by simp) (fun q hq => ?_) (fun q hq => ?_) (fun q hq => ?_) (.init (hF ps hps)), ?_⟩
    · obtain ⟨_, _, h⟩ := hmem ps hps q hq
      exact h.valid
    · obtain ⟨_, _, h⟩ := hmem ps hps q hq
      exact h.continuous
    · obtain ⟨_, _, h⟩ := hmem ps hps q hq
      exact fun cube hc => (h.all cube).2 hc
    · exact fun e he => FCurve.possible_candidate hdiv (h3 ps hps) (hF ps hps) he
  · intro c G hc hG hs
    obtain ⟨qs, hqs, hh⟩ := FCurve.exists_examined (out := out) (fun ps hps => by
      obtain ⟨qs, hq, _⟩ := h4 ps hps
      exact ⟨qs, hq⟩) h3 hc hG hs hpos
    exact ⟨_, List.mem_map_of_mem hqs, hh _ (hF qs hqs)⟩

theorem genPcurves_spec (hash : Hashes n) (p : Params n) (hdiv : 2 ≤ p.div) (hpos : 0 < p.mult) {gl : List (GateTuple (n + 1))}
    (hgl : ∀ S ∈ gl, S.length = p.mult ∧ GateTuple.InCube S) :
    ∃ pcs, genPcurves hash p gl = some pcs ∧
      (∀ pc ∈ pcs, pc.Estimable ∧ ∀ e, FCurve.Possible pc e → e.IsCandidate p.div p.mult p.maxCdist ∧ ∃ S ∈ gl, e.HasGates S) ∧
      ∀ c : FCurve (n + 1), c.IsCandidate p.div p.mult p.maxCdist → c.GatesIn gl →
        ∃ pc ∈ pcs, ∃ e, FCurve.Possible pc e ∧ ∀ r D, c.IsDilation r D → e.IsDilation r D := by
  have h := fun S hS => gatesPcurves_spec hash p hdiv (S := S) (by rw [(hgl S hS).1]; exact hpos) (hgl S hS).2
  choose! F h1 h2 h3 using h
  refine ⟨(gl.map F).flatten, ?_, ?_, ?_⟩
  · unfold genPcurves
    rw [mapM_eq_some_map h1]
    rfl
  · intro pc hpc
    obtain ⟨l, hl, hpc⟩ := List.mem_flatten.1 hpc
    obtain ⟨S, hS, rfl⟩ := List.mem_map.1 hl
    obtain ⟨k1, k2⟩ := h2 S hS pc hpc
    refine ⟨k1, fun e he => ?_⟩
    obtain ⟨k3, k4⟩ := k2 e he
    rw [(hgl S hS).1] at k3
    exact ⟨k3, S, hS, k4⟩
  · rintro c hc ⟨G, hG, S, hS, hs⟩
    rw [← (hgl S hS).1] at hc
    obtain ⟨pc, k1, k2⟩ := h3 S hS c G hc hG hs
    exact ⟨pc, List.mem_flatten.2 ⟨_, List.mem_map_of_mem hS, k1⟩, k2⟩

end Search
theorem GateTuple.SameUpToSymmetry.refl {d : ℕ} (G : GateTuple d) : GateTuple.SameUpToSymmetry G G :=
  ⟨G, List.Perm.refl _, List.forall₂_same.2 fun l _ => ⟨1, Link.act_one l⟩⟩

end Peano
