import Verif.Lemmas.Realize
import Verif.Lemmas.Gates
import Mathlib.Topology.Order.Compact

/- Face moments. -/
namespace Peano
variable {d : ℕ}

theorem zipIdx_map_range {α : Type} (n : ℕ) (g : ℕ → α) : ((List.range n).map g).zipIdx = (List.range n).map fun i => (g i, i) := by
  apply List.ext_getElem?
  intro i
  by_cases hi : i < n
  · simp [hi]
  · simp [hi]

namespace FCurve
variable {c : FCurve d} {f : ℕ → ℝ → Fin d → ℝ}

/-! ### the first touching cube -/

theorem faceLoop_best {div : ℕ} {face : Face d} {R : ℕ → ℕ → Prop} (L : List (Cube d × ℕ)) (hL : L.Pairwise fun a b => R a.2 b.2)
    (hex : ∃ e ∈ L, touchesFace div e.1 face = true) :
    ∃ e ∈ L, faceLoop div face (L.map fun e => (some e.1, e.2)) = some e.2 ∧ touchesFace div e.1 face = true ∧
      ∀ e' ∈ L, touchesFace div e'.1 face = true → e' = e ∨ R e.2 e'.2 := by
  induction L with
  | nil => simp at hex
  | cons a L ih =>
    rw [List.pairwise_cons] at hL
    by_cases ha : touchesFace div a.1 face = true
    · refine ⟨a, List.mem_cons_self, by simp [faceLoop, ha], ha, ?_⟩
      intro e' he' _
      rcases List.mem_cons.1 he' with rfl | h
      · exact Or.inl rfl
      · exact Or.inr (hL.1 e' h)
    · obtain ⟨e0, h0, ht0⟩ := hex
      have h0' : e0 ∈ L := by
        rcases List.mem_cons.1 h0 with rfl | h
        · exact absurd ht0 ha
        · exact h
      obtain ⟨e, h1, h2, h3, h4⟩ := ih hL.2 ⟨e0, h0', ht0⟩
      refine ⟨e, List.mem_cons_of_mem _ h1, by simp [faceLoop, ha, h2], h3, ?_⟩
      intro e' he' ht'
      rcases List.mem_cons.1 he' with rfl | h
      · exact absurd ht' ha
      · exact h4 e' h ht'

/-- Cube number `i` of `s * curve`. -/
def curCube (c : FCurve d) (s : Spec d) (i : ℕ) : Cube d := s.baseMap.applyCube c.div (c.cubeD s.pnum (s.baseMap.applyCnum c.genus i))

theorem Full.curCube_range (h : c.Full) {s : Spec d} (hs : s.pnum < c.mult) {i : ℕ} (hi : i < c.genus) (j : Fin d) :
    0 ≤ c.curCube s i j ∧ c.curCube s i j < (c.div : ℤ) :=
  BaseMap.applyCube_mem s.baseMap (h.cubeD_range hs (BaseMap.applyCnum_lt s.baseMap hi)) j

theorem Full.act_proto (h : c.Full) {s : Spec d} {pat : Pattern d} (hp : c.patterns[s.pnum]? = some pat) :
    pat.proto.act c.div s.baseMap = (List.range c.genus).map fun i => some (c.curCube s i) := by
  have hpm : s.pnum < c.mult := (List.getElem?_eq_some_iff.1 hp).1
  have hl := h.proto_length pat (List.mem_of_getElem? hp)
  apply List.ext_getElem?
  intro i
  by_cases hi : i < c.genus
  · have hi' := BaseMap.applyCnum_lt s.baseMap hi
    have e := h.actCube hp s.baseMap hi
    rw [h.cube_eq hpm hi'] at e
    unfold Proto.cube? at e
    rw [List.getElem?_eq_getElem (by simp; omega)] at e ⊢
    simp only [Option.join_some, Option.map_some] at e
    rw [e]
    simp [hi, curCube]
  · rw [List.getElem?_eq_none (by simp; omega), List.getElem?_eq_none (by simp; omega)]

theorem exists_curCube (h : c.Full) (hfill : c.FillsGrid) {s : Spec d} (hs : s.pnum < c.mult) {cube : Cube d}
    (hc : ∀ j, 0 ≤ cube j ∧ cube j < (c.div : ℤ)) : ∃ i < c.genus, c.curCube s i = cube := by
  obtain ⟨i, hi, hi2⟩ := hfill s.pnum hs (s.baseMap⁻¹.applyCube c.div cube) (BaseMap.applyCube_mem s.baseMap⁻¹ hc)
  refine ⟨s.baseMap.applyCnum c.genus i, BaseMap.applyCnum_lt s.baseMap hi, ?_⟩
  unfold curCube
  rw [BaseMap.applyCnum_applyCnum _ hi]
  simp [cubeD, hi2]

/-- The order in which fractions are tried. -/
def better (last : Bool) (i k : ℕ) : Prop := if last then k < i else i < k

theorem getFaceCnum_spec (h : c.Full) (hfill : c.FillsGrid) {s : Spec d} {pat : Pattern d} (hp : c.patterns[s.pnum]? = some pat)
    (face : Face d) (last : Bool) :
    ∃ i < c.genus, getFaceCnum c.div (pat.proto.act c.div s.baseMap) face last = some i ∧ touchesFace c.div (c.curCube s i) face = true ∧
      ∀ k < c.genus, touchesFace c.div (c.curCube s k) face = true → k = i ∨ better last i k := by
  have hpm : s.pnum < c.mult := (List.getElem?_eq_some_iff.1 hp).1
  have hN : 0 < c.div := by have := h.two_le_div; omega
  obtain ⟨i0, hi0, hci0⟩ := exists_curCube h hfill hpm (cube := fun j => if face j = some true then (c.div : ℤ) - 1 else 0)
    (by intro j; split <;> constructor <;> omega)
  have ht0 : touchesFace c.div (c.curCube s i0) face = true := by
    unfold touchesFace
    rw [hci0, decide_eq_true_eq]
    rintro j (⟨h1, h2⟩ | ⟨h1, h2⟩)
    · simp [h1] at h2
    · simp [h1] at h2
  set L : List (Cube d × ℕ) := if last then ((List.range c.genus).map fun i => (c.curCube s i, i)).reverse
    else (List.range c.genus).map fun i => (c.curCube s i, i) with hL
  have hmem : ∀ e, e ∈ L ↔ ∃ i < c.genus, e = (c.curCube s i, i) := by
    intro e
    have : e ∈ L ↔ e ∈ (List.range c.genus).map fun i => (c.curCube s i, i) := by
      rw [hL]; cases last <;> simp
    rw [this]
    simp only [List.mem_map, List.mem_range]
    constructor
    · rintro ⟨i, hi, rfl⟩; exact ⟨i, hi, rfl⟩
    · rintro ⟨i, hi, rfl⟩; exact ⟨i, hi, rfl⟩
  have hpw : L.Pairwise fun a b => better last a.2 b.2 := by
    have hr : ((List.range c.genus).map fun i => (c.curCube s i, i)).Pairwise fun a b => a.2 < b.2 := by
      rw [List.pairwise_map]; exact List.pairwise_lt_range
    rw [hL]
    unfold better
    cases last
    · simpa using hr
    · simpa [List.pairwise_reverse] using hr
  obtain ⟨e, he, h1, h2, h3⟩ := faceLoop_best L hpw ⟨(c.curCube s i0, i0), (hmem _).2 ⟨i0, hi0, rfl⟩, ht0⟩
  obtain ⟨i, hi, rfl⟩ := (hmem e).1 he
  refine ⟨i, hi, ?_, h2, ?_⟩
  · unfold getFaceCnum
    rw [h.act_proto hp, zipIdx_map_range, ← h1]
    congr 1
    rw [hL]
    cases last <;> simp [Function.comp_def]
  · intro k hk htk
    rcases h3 (c.curCube s k, k) ((hmem _).2 ⟨k, hk, rfl⟩) htk with h | h
    · left; exact (Prod.mk.inj h).2
    · right; exact h

/-! ### times of touching -/

/-- Times at which `s * curve` is on the face. -/
def touchTimes (f : ℕ → ℝ → Fin d → ℝ) (face : Face d) (s : Spec d) : Set ℝ := {t | 0 ≤ t ∧ t ≤ 1 ∧ OnFace face (actFn s f t)}

theorem Realizes.actFn_mem (hf : c.Realizes f) {s : Spec d} (hs : s.pnum < c.mult) {t : ℝ} (h0 : 0 ≤ t) (h1 : t ≤ 1) (j : Fin d) :
    0 ≤ actFn s f t j ∧ actFn s f t j ≤ 1 := by
  have ht := applyT_mem01 s.baseMap h0 h1
  exact s.baseMap.applyX_mem (hf.mem_cube _ hs _ ht.1 ht.2) j

/-- Spec of fraction `i` of `s * curve`. -/
def curSpec (c : FCurve d) (s : Spec d) (i : ℕ) : Spec d := Spec.rmulBaseMap s.baseMap (c.specD s.pnum (s.baseMap.applyCnum c.genus i))

theorem Full.composeSpecs_cur (h : c.Full) {s : Spec d} (hs : s.pnum < c.mult) {i : ℕ} (hi : i < c.genus) :
    c.composeSpecs s i = some (c.curSpec s i) := by
  unfold composeSpecs
  rw [h.spec_eq hs (BaseMap.applyCnum_lt s.baseMap hi)]; rfl

theorem Full.curSpec_lt (h : c.Full) {s : Spec d} (hs : s.pnum < c.mult) {i : ℕ} (hi : i < c.genus) : (c.curSpec s i).pnum < c.mult :=
  h.specD_lt hs (BaseMap.applyCnum_lt s.baseMap hi)

theorem Realizes.walkD (h : c.Full) (hf : c.Realizes f) {s : Spec d} (hs : s.pnum < c.mult) {i : ℕ} (hi : i < c.genus) {t : ℝ}
    (h0 : 0 ≤ t) (h1 : t ≤ 1) :
    actFn s f ((i + t) / c.genus) = fun j => (c.curCube s i j + actFn (c.curSpec s i) f t j) / c.div :=
  hf.walk h.toShape hi (h.cube_eq hs (BaseMap.applyCnum_lt s.baseMap hi)) (h.composeSpecs_cur hs hi) h0 h1

theorem Realizes.onFace_frac (h : c.Full) (hf : c.Realizes f) {s : Spec d} (hs : s.pnum < c.mult) {i : ℕ} (hi : i < c.genus) {t : ℝ}
    (h0 : 0 ≤ t) (h1 : t ≤ 1) (face : Face d) :
    OnFace face (actFn s f ((i + t) / c.genus)) ↔ touchesFace c.div (c.curCube s i) face = true ∧ OnFace face (actFn (c.curSpec s i) f t) := by
  have hN := h.div_pos
  rw [hf.walkD h hs hi h0 h1]
  have hm := hf.actFn_mem (h.curSpec_lt hs hi) h0 h1
  have hr := h.curCube_range hs hi
  unfold OnFace touchesFace
  rw [decide_eq_true_eq]
  constructor
  · intro ho
    have key : ∀ j b, face j = some b → c.curCube s i j = (if b then (c.div : ℤ) - 1 else 0) ∧
        actFn (c.curSpec s i) f t j = if b then 1 else 0 := by
      intro j b hb
      have e := ho j b hb
      have hrj := hr j
      have hmj := hm j
      cases b
      · simp only [Bool.false_eq_true, if_false] at e ⊢
        rw [div_eq_zero_iff] at e
        rcases e with e | e
        · have h1 : (0 : ℝ) ≤ c.curCube s i j := by exact_mod_cast hrj.1
          have h2 : (c.curCube s i j : ℝ) = 0 := by linarith
          exact ⟨by exact_mod_cast h2, by linarith⟩
        · exact absurd e hN.ne'
      · simp only [if_true] at e ⊢
        rw [div_eq_one_iff_eq hN.ne'] at e
        have h1 : (c.curCube s i j : ℝ) + 1 ≤ c.div := by exact_mod_cast hrj.2
        have h2 : (c.curCube s i j : ℝ) + 1 = c.div := by linarith
        have h3 : c.curCube s i j + 1 = (c.div : ℤ) := by exact_mod_cast h2
        exact ⟨by omega, by linarith⟩
    refine ⟨?_, fun j b hb => (key j b hb).2⟩
    rintro j (⟨h1, h2⟩ | ⟨h1, h2⟩)
    · exact h2 (by simpa using (key j true h1).1)
    · exact h2 (by simpa using (key j false h1).1)
  · rintro ⟨htch, ho⟩ j b hb
    have e := ho j b hb
    show (↑(c.curCube s i j) + actFn (c.curSpec s i) f t j) / (c.div : ℝ) = _
    rw [e]
    cases b
    · have : c.curCube s i j = 0 := by
        by_contra hne
        exact htch j (Or.inr ⟨hb, hne⟩)
      simp [this]
    · have : c.curCube s i j = (c.div : ℤ) - 1 := by
        by_contra hne
        exact htch j (Or.inl ⟨hb, hne⟩)
      rw [this]
      push_cast
      field_simp
      simp

/-- Least (or greatest) element. -/
def IsBest (last : Bool) (T : Set ℝ) (t : ℝ) : Prop := if last then IsGreatest T t else IsLeast T t

theorem touchTimes_nonempty (h : c.Full) (hfill : c.FillsGrid) (hf : c.Realizes f) {s : Spec d} (hs : s.pnum < c.mult) (face : Face d) :
    (touchTimes f face s).Nonempty := by
  set x : Fin d → ℝ := fun j => if face j = some true then 1 else 0
  have hx : ∀ j, 0 ≤ x j ∧ x j ≤ 1 := by intro j; simp only [x]; split <;> norm_num
  obtain ⟨t, h0, h1, ht⟩ := hf.surjective h hfill hs (x := s.baseMap⁻¹.applyX 1 x) (fun j => BaseMap.applyX_mem _ hx j)
  have hm := applyT_mem01 s.baseMap h0 h1
  refine ⟨s.baseMap.applyT 1 t, hm.1, hm.2, ?_⟩
  unfold actFn
  rw [BaseMap.applyT_applyT, ht, BaseMap.applyX_applyX_inv]
  intro j b hb
  simp only [x, hb]
  cases b <;> simp

theorem touchTimes_compact (h : c.Full) (hf : c.Realizes f) {s : Spec d} (hs : s.pnum < c.mult) (face : Face d) :
    IsCompact (touchTimes f face s) := by
  have hcont : ContinuousOn (actFn s f) (Set.Icc 0 1) := by
    have h1 : ContinuousOn (fun t : ℝ => s.baseMap.applyT 1 t) (Set.Icc 0 1) := by
      unfold BaseMap.applyT
      by_cases hr : s.baseMap.timeRev = true
      · simp only [hr, if_true]; exact (continuous_const.sub continuous_id).continuousOn
      · simp only [hr]; exact continuous_id.continuousOn
    have h2 := (hf.continuousOn h hs).comp h1 (fun t ht => by
      have := applyT_mem01 s.baseMap ht.1 ht.2
      exact ⟨this.1, this.2⟩)
    have h3 : Continuous fun x : Fin d → ℝ => s.baseMap.applyX 1 x := by
      unfold BaseMap.applyX
      apply continuous_pi
      intro j
      by_cases hb : (s.baseMap.coords j).2 = true
      · simp only [hb, if_true]; exact continuous_const.sub (continuous_apply _)
      · simp only [hb]; exact continuous_apply _
    exact h3.comp_continuousOn h2
  have hclosed : IsClosed {x : Fin d → ℝ | OnFace face x} := by
    unfold OnFace
    simp only [Set.setOf_forall]
    refine isClosed_iInter fun j => isClosed_iInter fun b => isClosed_iInter fun _ => ?_
    exact isClosed_eq (continuous_apply j) continuous_const
  have e : touchTimes f face s = Set.Icc 0 1 ∩ actFn s f ⁻¹' {x | OnFace face x} := by
    ext t; simp [touchTimes, and_assoc]
  rw [e]
  exact isCompact_Icc.of_isClosed_subset (hcont.preimage_isClosed_of_isClosed isClosed_Icc hclosed) Set.inter_subset_left

theorem exists_best (h : c.Full) (hfill : c.FillsGrid) (hf : c.Realizes f) {s : Spec d} (hs : s.pnum < c.mult) (face : Face d) (last : Bool) :
    ∃ t, IsBest last (touchTimes f face s) t := by
  have hne := touchTimes_nonempty h hfill hf hs face
  have hc := touchTimes_compact h hf hs face
  cases last
  · exact hc.exists_isLeast hne
  · exact hc.exists_isGreatest hne

/-- The best time is in the first (last) touching fraction and best there. -/
theorem best_step (h : c.Full) (hf : c.Realizes f) {s : Spec d} (hs : s.pnum < c.mult) (face : Face d) (last : Bool) {i : ℕ} (hi : i < c.genus)
    (ht : touchesFace c.div (c.curCube s i) face = true)
    (hbest : ∀ k < c.genus, touchesFace c.div (c.curCube s k) face = true → k = i ∨ better last i k) {τ τ' : ℝ}
    (h1 : IsBest last (touchTimes f face s) τ) (h2 : IsBest last (touchTimes f face (c.curSpec s i)) τ') :
    τ = (i + τ') / c.genus := by
  have hG : (0 : ℝ) < c.genus := by exact_mod_cast h.genus_pos
  have hmem' : τ' ∈ touchTimes f face (c.curSpec s i) := by
    cases last
    · exact h2.1
    · exact h2.1
  have hmem : (i + τ') / c.genus ∈ touchTimes f face s := by
    refine ⟨?_, ?_, (hf.onFace_frac h hs hi hmem'.1 hmem'.2.1 face).2 ⟨ht, hmem'.2.2⟩⟩
    · have := hmem'.1; positivity
    · rw [div_le_one hG]
      have : (i : ℝ) + 1 ≤ c.genus := by exact_mod_cast hi
      linarith [hmem'.2.1]
  have hτ : τ ∈ touchTimes f face s := by
    cases last
    · exact h1.1
    · exact h1.1
  obtain ⟨k, hk, u, hu0, hu1, e⟩ := exists_cell h.toShape hτ.1 hτ.2.1
  have ho := hτ.2.2
  rw [e] at ho
  obtain ⟨hkt, hku⟩ := (hf.onFace_frac h hs hk hu0 hu1 face).1 ho
  have hb := hbest k hk hkt
  cases last
  · have hle : τ ≤ (i + τ') / c.genus := h1.2 hmem
    refine le_antisymm hle ?_
    rw [e]
    refine div_le_div_of_nonneg_right ?_ hG.le
    rcases hb with rfl | hb
    · have : τ' ≤ u := h2.2 ⟨hu0, hu1, hku⟩
      linarith
    · have hb' : i < k := hb
      have : (i : ℝ) + 1 ≤ k := by exact_mod_cast hb'
      linarith [hmem'.2.1]
  · have hle : (i + τ') / c.genus ≤ τ := h1.2 hmem
    refine le_antisymm ?_ hle
    rw [e]
    refine div_le_div_of_nonneg_right ?_ hG.le
    rcases hb with rfl | hb
    · have : u ≤ τ' := h2.2 ⟨hu0, hu1, hku⟩
      linarith
    · have hb' : k < i := hb
      have : (k : ℝ) + 1 ≤ i := by exact_mod_cast hb'
      linarith [hmem'.1]

/-! ### the loop -/

/-- One step of the loop of `get_face_moment`. -/
def faceStep (c : FCurve d) (face : Face d) (last : Bool) (cur : Spec d) : Option ((ℕ × Cube d) × Spec d) := do
  let pattern ← c.patterns[cur.pnum]?
  let curProto := pattern.proto.act c.div cur.baseMap
  let cnum ← getFaceCnum c.div curProto face last
  let cube ← curProto.cube? cnum
  let next ← c.composeSpecs cur cnum
  return ((cnum, cube), next)

theorem faceMomentLoop_eq (c : FCurve d) (face : Face d) (last : Bool) (fuel : ℕ) (seen : List (Spec d)) (acc : List (ℕ × Cube d)) (cur : Spec d) :
    c.faceMomentLoop face last fuel seen acc cur = walkLoop (c.faceStep face last) fuel seen acc cur := by
  induction fuel generalizing seen acc cur with
  | zero => rfl
  | succ fuel ih =>
    unfold faceMomentLoop walkLoop faceStep
    by_cases h : cur ∈ seen
    · simp [h]
    · simp only [h, if_false, ih]
      cases c.patterns[cur.pnum]? with
      | none => rfl
      | some pat =>
        simp only [Option.bind_eq_bind, Option.bind_some]
        cases getFaceCnum c.div (pat.proto.act c.div cur.baseMap) face last with
        | none => rfl
        | some cnum =>
          simp only [Option.bind_some]
          cases (pat.proto.act c.div cur.baseMap).cube? cnum with
          | none => rfl
          | some x =>
            simp only [Option.bind_some]
            cases c.composeSpecs cur cnum <;> rfl

theorem faceStep_spec (h : c.Full) (hfill : c.FillsGrid) (face : Face d) (last : Bool) {s : Spec d} (hs : s.pnum < c.mult) :
    ∃ i < c.genus, c.faceStep face last s = some ((i, c.curCube s i), c.curSpec s i) ∧ touchesFace c.div (c.curCube s i) face = true ∧
      ∀ k < c.genus, touchesFace c.div (c.curCube s k) face = true → k = i ∨ better last i k := by
  obtain ⟨pat, hp⟩ := getElem?_of_lt hs
  obtain ⟨i, hi, h1, h2, h3⟩ := getFaceCnum_spec h hfill hp face last
  refine ⟨i, hi, ?_, h2, h3⟩
  unfold faceStep
  have hc : (pat.proto.act c.div s.baseMap).cube? i = some (c.curCube s i) := by
    rw [h.act_proto hp]
    simp [Proto.cube?, hi]
  simp only [hp, Option.bind_eq_bind, Option.bind_some, h1, hc, h.composeSpecs_cur hs hi, Option.pure_def]

/-- The loop finds the touching time and point. -/
theorem faceLoop_spec (h : c.Full) (hfill : c.FillsGrid) (hf : c.Realizes f) (hd : d ≠ 0) (face : Face d) (last : Bool) {p : ℕ}
    (hp : p < c.mult) :
    ∃ (q : ℚ) (x : Point d), c.getFaceMoment face p last = some q ∧ c.getFacePoint face p last = some ⟨x, q⟩ ∧
      IsBest last {t | 0 ≤ t ∧ t ≤ 1 ∧ OnFace face (f p t)} q ∧ (fun j => (x j : ℝ)) = f p q := by
  classical
  have key : ∀ s : Spec d, ∃ t, s.pnum < c.mult → IsBest last (touchTimes f face s) t := by
    intro s
    by_cases hs : s.pnum < c.mult
    · obtain ⟨t, ht⟩ := exists_best h hfill hf hs face last
      exact ⟨t, fun _ => ht⟩
    · exact ⟨0, fun h' => absurd h' hs⟩
  choose τ hτ using key
  have hstep : ∀ s ∈ allSpecs d c.mult, ∃ a s', c.faceStep face last s = some (a, s') ∧ s' ∈ allSpecs d c.mult := by
    intro s hsm
    rw [mem_allSpecs] at hsm
    obtain ⟨i, hi, h1, _, _⟩ := faceStep_spec h hfill face last hsm
    exact ⟨_, _, h1, by rw [mem_allSpecs]; exact h.curSpec_lt hsm hi⟩
  obtain ⟨r, hr⟩ := walkLoop_isSome hstep c.fuel [] [] ⟨BaseMap.idMap d, p⟩ (by rw [mem_allSpecs]; exact hp) (by simp) (by simp)
    (by rw [length_allSpecs]; unfold fuel; simp)
  -- pairs (time, point)
  have hE : ∀ s a s', c.faceStep face last s = some (a, s') →
      (τ s, actFn s f (τ s)) = (fun (a : ℕ × Cube d) (y : ℝ × (Fin d → ℝ)) =>
        (((a.1 : ℝ) + y.1) / c.genus, fun j => ((a.2 j : ℝ) + y.2 j) / c.div)) a (τ s', actFn s' f (τ s')) := by
    intro s a s' hst
    have hs : s.pnum < c.mult := by
      unfold faceStep at hst
      by_contra hcon
      rw [List.getElem?_eq_none (by unfold mult at hcon; omega)] at hst
      simp at hst
    obtain ⟨i, hi, h1, h2, h3⟩ := faceStep_spec h hfill face last hs
    rw [h1] at hst
    simp only [Option.some.injEq, Prod.mk.injEq] at hst
    obtain ⟨rfl, rfl⟩ := hst
    have hs' := h.curSpec_lt hs hi
    have e := best_step h hf hs face last hi h2 h3 (hτ s hs) (hτ _ hs')
    have hm : τ (c.curSpec s i) ∈ touchTimes f face (c.curSpec s i) := by
      have := hτ _ hs'
      cases last
      · exact this.1
      · exact this.1
    simp only [Prod.mk.injEq]
    refine ⟨e, ?_⟩
    rw [e, hf.walkD h hs hi hm.1 hm.2.1]
  obtain ⟨y, h1, h2, h3⟩ := walkLoop_spec (E := fun s => (τ s, actFn s f (τ s))) (step := c.faceStep face last)
    (F := fun (a : ℕ × Cube d) (y : ℝ × (Fin d → ℝ)) => (((a.1 : ℝ) + y.1) / c.genus, fun j => ((a.2 j : ℝ) + y.2 j) / c.div)) hE _ _ _ _ ⟨BaseMap.idMap d, p⟩ _ hr rfl rfl (by simp)
  have fold1 : ∀ (l : List (ℕ × Cube d)) (y : ℝ × (Fin d → ℝ)),
      (l.foldr (fun (a : ℕ × Cube d) (y : ℝ × (Fin d → ℝ)) =>
        (((a.1 : ℝ) + y.1) / c.genus, fun j => ((a.2 j : ℝ) + y.2 j) / c.div)) y).1 =
      (l.map fun e => (e.1 : ℤ)).foldr (fun (c' : ℤ) (y : ℝ) => ((c' : ℝ) + y) / c.genus) y.1 := by
    intro l y
    induction l with
    | nil => rfl
    | cons a l ih => simp [ih]
  have fold2 : ∀ (l : List (ℕ × Cube d)) (y : ℝ × (Fin d → ℝ)),
      (l.foldr (fun (a : ℕ × Cube d) (y : ℝ × (Fin d → ℝ)) =>
        (((a.1 : ℝ) + y.1) / c.genus, fun j => ((a.2 j : ℝ) + y.2 j) / c.div)) y).2 =
      (l.map Prod.snd).foldr (fun (c' : Cube d) (y : Fin d → ℝ) j => ((c' j : ℝ) + y j) / c.div) y.2 := by
    intro l y
    induction l with
    | nil => rfl
    | cons a l ih => simp [ih]
  obtain ⟨q, hq1, hq2⟩ := periodic_unique (N := c.genus) (h.two_le_genus hd) (start := r.1.map fun e => (e.1 : ℤ))
    (period := r.2.map fun e => (e.1 : ℤ)) (by simpa using h3) (x := τ ⟨BaseMap.idMap d, p⟩) (y := y.1)
    (by rw [← fold1, ← h1]) (by rw [← fold1, ← h2])
  obtain ⟨x, hx1, hx2⟩ := getLimitPoint_spec (c := c) h.two_le_div (start := r.1.map Prod.snd) (period := r.2.map Prod.snd)
    (by simpa using h3) (x := actFn ⟨BaseMap.idMap d, p⟩ f (τ ⟨BaseMap.idMap d, p⟩)) (y := y.2)
    (by rw [← fold2, ← h1]) (by rw [← fold2, ← h2])
  have hset : touchTimes f face ⟨BaseMap.idMap d, p⟩ = {t | 0 ≤ t ∧ t ≤ 1 ∧ OnFace face (f p t)} := by
    unfold touchTimes
    simp only [actFn_id]
  refine ⟨q, x, ?_, ?_, ?_, ?_⟩
  · unfold getFaceMoment
    rw [faceMomentLoop_eq, hr]
    exact hq1
  · unfold getFacePoint
    rw [faceMomentLoop_eq, hr]
    simp only [Option.bind_eq_bind, Option.bind_some, hq1, hx1, Option.pure_def]
  · rw [← hset, hq2]
    exact hτ ⟨BaseMap.idMap d, p⟩ hp
  · funext j
    rw [hx2 j, hq2, actFn_id]

/-! ### vertices -/

theorem touching_unique (h : c.Full) (hfill : c.FillsGrid) {s : Spec d} (hs : s.pnum < c.mult) (v : Fin d → Bool) {i k : ℕ} (hi : i < c.genus)
    (hk : k < c.genus) (h1 : touchesFace c.div (c.curCube s i) (fun j => some (v j)) = true)
    (h2 : touchesFace c.div (c.curCube s k) (fun j => some (v j)) = true) : i = k := by
  -- the map from positions to cubes is onto a set of the same size
  have hN : 0 < c.div := by have := h.two_le_div; omega
  let F : Fin c.genus → (Fin d → Fin c.div) := fun i j => ⟨(c.curCube s i j).toNat, by
    have := h.curCube_range hs i.2 j; omega⟩
  have hsurj : Function.Surjective F := by
    intro g
    obtain ⟨i, hi, e⟩ := exists_curCube h hfill hs (cube := fun j => ((g j : ℕ) : ℤ)) (fun j => ⟨by positivity, by exact_mod_cast (g j).2⟩)
    refine ⟨⟨i, hi⟩, ?_⟩
    funext j
    apply Fin.ext
    simp [F, e]
  have hcard : Fintype.card (Fin c.genus) = Fintype.card (Fin d → Fin c.div) := by
    rw [Fintype.card_fin, Fintype.card_fun, Fintype.card_fin, Fintype.card_fin]; rfl
  have hinj := ((Fintype.bijective_iff_surjective_and_card F).2 ⟨hsurj, hcard⟩).1
  have hv : ∀ m < c.genus, touchesFace c.div (c.curCube s m) (fun j => some (v j)) = true →
      ∀ j, c.curCube s m j = if v j then (c.div : ℤ) - 1 else 0 := by
    intro m hm ht j
    unfold touchesFace at ht
    rw [decide_eq_true_eq] at ht
    have := ht j
    by_cases hvj : v j = true
    · simp only [hvj, if_true]
      by_contra hne
      exact this (Or.inl ⟨by simp [hvj], hne⟩)
    · simp only [hvj]
      by_contra hne
      refine this (Or.inr ⟨by simp [hvj], ?_⟩)
      simpa using hne
  have : F ⟨i, hi⟩ = F ⟨k, hk⟩ := by
    funext j
    apply Fin.ext
    simp only [F]
    rw [hv i hi h1 j, hv k hk h2 j]
  have := hinj this
  simpa using this

theorem vertex_time_unique (h : c.Full) (hfill : c.FillsGrid) (hf : c.Realizes f) (hd : d ≠ 0) (v : Fin d → Bool) {s : Spec d} (hs : s.pnum < c.mult)
    {t u : ℝ} (ht : t ∈ touchTimes f (fun j => some (v j)) s) (hu : u ∈ touchTimes f (fun j => some (v j)) s) : t = u := by
  have hG : (0 : ℝ) < c.genus := by exact_mod_cast h.genus_pos
  have hG2 : (2 : ℝ) ≤ c.genus := by exact_mod_cast h.two_le_genus hd
  have key : ∀ k : ℕ, ∀ s : Spec d, s.pnum < c.mult → ∀ t u : ℝ, t ∈ touchTimes f (fun j => some (v j)) s →
      u ∈ touchTimes f (fun j => some (v j)) s → |t - u| ≤ ((1 : ℝ) / c.genus) ^ k := by
    intro k
    induction k with
    | zero =>
      intro s _ t u ht hu
      rw [abs_le]; constructor <;> simp <;> linarith [ht.1, ht.2.1, hu.1, hu.2.1]
    | succ k ih =>
      intro s hs t u ht hu
      obtain ⟨i, hi, t', ht0, ht1, et⟩ := exists_cell h.toShape ht.1 ht.2.1
      obtain ⟨m, hm, u', hu0, hu1, eu⟩ := exists_cell h.toShape hu.1 hu.2.1
      have ho1 := ht.2.2
      have ho2 := hu.2.2
      rw [et] at ho1
      rw [eu] at ho2
      obtain ⟨a1, a2⟩ := (hf.onFace_frac h hs hi ht0 ht1 _).1 ho1
      obtain ⟨b1, b2⟩ := (hf.onFace_frac h hs hm hu0 hu1 _).1 ho2
      have := touching_unique h hfill hs v hi hm a1 b1
      subst this
      have e : t - u = (t' - u') / c.genus := by rw [et, eu]; ring
      rw [e, abs_div, abs_of_pos hG, pow_succ, mul_one_div]
      exact div_le_div_of_nonneg_right (ih _ (h.curSpec_lt hs hi) t' u' ⟨ht0, ht1, a2⟩ ⟨hu0, hu1, b2⟩) hG.le
  have hr : (1 : ℝ) / c.genus < 1 := by rw [div_lt_one hG]; linarith
  have hlim : Filter.Tendsto (fun k : ℕ => ((1 : ℝ) / c.genus) ^ k) Filter.atTop (nhds 0) :=
    tendsto_pow_atTop_nhds_zero_of_lt_one (by positivity) hr
  have h0 : |t - u| ≤ 0 := ge_of_tendsto' hlim fun k => key k s hs t u ht hu
  have := abs_nonpos_iff.1 h0
  linarith

end FCurve
end Peano
