import Verif.Lemmas.CurvesBasic
import Mathlib.Tactic.Group

namespace Peano
variable {d : ℕ}

theorem BaseMap.conjugateBy_one (s : BaseMap d) : s.conjugateBy 1 = s := by simp [BaseMap.conjugateBy]
theorem BaseMap.conjugateBy_mul (s a b : BaseMap d) : s.conjugateBy (a * b) = (s.conjugateBy b).conjugateBy a := by
  simp only [BaseMap.conjugateBy]; group
theorem Spec.conjugateBy_one (s : Spec d) : s.conjugateBy 1 = s := by simp [Spec.conjugateBy, BaseMap.conjugateBy_one]
theorem Spec.conjugateBy_mul (s : Spec d) (a b : BaseMap d) : s.conjugateBy (a * b) = (s.conjugateBy b).conjugateBy a := by
  simp [Spec.conjugateBy, BaseMap.conjugateBy_mul]

theorem BaseMap.cubeMap_one : (1 : BaseMap d).cubeMap = 1 := rfl
theorem BaseMap.cubeMap_cubeMap (a : BaseMap d) : a.cubeMap.cubeMap = a.cubeMap := rfl

theorem BaseMap.eq_cubeMap {a : BaseMap d} (h : a.timeRev = false) : a.cubeMap = a := by
  ext i <;> simp [h]

namespace FCurve

@[simp] theorem applyCubeMap_div (c : FCurve d) (b : BaseMap d) : (c.applyCubeMap b).div = c.div := rfl
@[simp] theorem applyCubeMap_pnum (c : FCurve d) (b : BaseMap d) : (c.applyCubeMap b).pnum = c.pnum := rfl
@[simp] theorem applyCubeMap_mult (c : FCurve d) (b : BaseMap d) : (c.applyCubeMap b).mult = c.mult := by simp [mult, applyCubeMap]
@[simp] theorem invert_div (c : FCurve d) : c.invert.div = c.div := rfl
@[simp] theorem invert_pnum (c : FCurve d) : c.invert.pnum = c.pnum := rfl
@[simp] theorem invert_mult (c : FCurve d) : c.invert.mult = c.mult := by simp [mult, invert]
@[simp] theorem act_div (c : FCurve d) (b : BaseMap d) : (act b c).div = c.div := by
  unfold act; split <;> rfl
@[simp] theorem act_pnum (c : FCurve d) (b : BaseMap d) : (act b c).pnum = c.pnum := by
  unfold act; split <;> rfl
@[simp] theorem act_mult (c : FCurve d) (b : BaseMap d) : (act b c).mult = c.mult := by
  unfold act; split <;> simp
@[simp] theorem act_genus (c : FCurve d) (b : BaseMap d) : (act b c).genus = c.genus := by simp [genus]

theorem ext' {c e : FCurve d} (h1 : c.div = e.div) (h2 : c.patterns = e.patterns) (h3 : c.pnum = e.pnum) (h4 : c.kind = e.kind) :
    c = e := by
  cases c; cases e; simp_all

theorem PathData.applyCubeMap_one (x : PathData d) : PathData.applyCubeMap 1 x = x := by
  cases x; simp [PathData.applyCubeMap]

theorem PathData.applyCubeMap_mul (a b : BaseMap d) (x : PathData d) :
    PathData.applyCubeMap (a * b) x = PathData.applyCubeMap a (PathData.applyCubeMap b x) := by
  cases x; simp [PathData.applyCubeMap, Function.comp_def, mul_assoc]

theorem PathData.invert_invert (x : PathData d) : PathData.invert (PathData.invert x) = x := by
  cases x; simp [PathData.invert, Function.comp_def]

theorem PathData.invert_applyCubeMap (b : BaseMap d) (x : PathData d) :
    PathData.invert (PathData.applyCubeMap b x) = PathData.applyCubeMap b (PathData.invert x) := by
  cases x
  simp [PathData.applyCubeMap, PathData.invert, Function.comp_def, BaseMap.invert_mul, BaseMap.mul_invert]

theorem applyCubeMap_one (c : FCurve d) : c.applyCubeMap 1 = c := by
  refine ext' rfl ?_ rfl ?_
  · show c.patterns.map _ = _
    conv_rhs => rw [← List.map_id c.patterns]
    apply List.map_congr_left
    rintro ⟨p, s⟩ _
    simp only [Proto.act_one, Spec.conjugateBy_one, id, Pattern.mk.injEq, true_and]
    conv_rhs => rw [← List.map_id s]
    apply List.map_congr_left
    intro a _
    cases a <;> rfl
  · show (match c.kind with | .path data => Kind.path (PathData.applyCubeMap 1 data) | k => k) = c.kind
    cases c.kind <;> simp [PathData.applyCubeMap_one]

theorem applyCubeMap_mul (c : FCurve d) (a b : BaseMap d) : c.applyCubeMap (a * b) = (c.applyCubeMap b).applyCubeMap a := by
  refine ext' rfl ?_ rfl ?_
  · show c.patterns.map _ = List.map _ (c.patterns.map _)
    rw [List.map_map]
    apply List.map_congr_left
    rintro ⟨p, s⟩ _
    simp only [Function.comp, Proto.act_mul, List.map_map, Pattern.mk.injEq]
    refine ⟨rfl, ?_⟩
    apply List.map_congr_left
    intro x _
    cases x <;> simp [Spec.conjugateBy_mul]
  · unfold applyCubeMap
    cases hk : c.kind <;> simp [PathData.applyCubeMap_mul]

theorem invert_invert (c : FCurve d) : c.invert.invert = c := by
  refine ext' rfl ?_ rfl ?_
  · show List.map _ (c.patterns.map _) = _
    rw [List.map_map]
    conv_rhs => rw [← List.map_id c.patterns]
    apply List.map_congr_left
    rintro ⟨p, s⟩ _
    simp [Pattern.invert, Proto.invert]
  · unfold invert
    cases hk : c.kind <;> simp [PathData.invert_invert]

theorem invert_applyCubeMap (c : FCurve d) (b : BaseMap d) (hb : b.timeRev = false) :
    (c.applyCubeMap b).invert = c.invert.applyCubeMap b := by
  refine ext' rfl ?_ rfl ?_
  · show List.map _ (c.patterns.map _) = List.map _ (c.patterns.map _)
    rw [List.map_map, List.map_map]
    apply List.map_congr_left
    rintro ⟨p, s⟩ _
    simp [Pattern.invert, Proto.invert, Proto.act, hb]
  · unfold invert applyCubeMap
    cases hk : c.kind <;> simp [PathData.invert_applyCubeMap]

theorem act_one (c : FCurve d) : act 1 c = c := by
  simp [act, BaseMap.cubeMap_one, applyCubeMap_one]

theorem act_mul (c : FCurve d) (a b : BaseMap d) : act (a * b) c = act a (act b c) := by
  unfold act
  rw [BaseMap.cubeMap_mul, applyCubeMap_mul]
  by_cases ha : a.timeRev = true <;> by_cases hb : b.timeRev = true <;>
    simp [ha, hb, invert_applyCubeMap _ _ (BaseMap.cubeMap_timeRev b), invert_invert]

theorem act_with_pnum (c : FCurve d) (a : BaseMap d) (n : ℕ) : act a { c with pnum := n } = { act a c with pnum := n } := by
  unfold act
  by_cases ha : a.timeRev = true <;> simp [ha, invert, applyCubeMap]

/-! ### entries of the mapped curve -/

theorem Shape.cube?_act {c : FCurve d} (hs : c.Shape) (b : BaseMap d) (p i : ℕ) (hi : i < c.genus) :
    (act b c).cube? p i = (c.cube? p (b.applyCnum c.genus i)).map (b.applyCube c.div) := by
  have hpat : (act b c).patterns[p]? = (c.patterns[p]?).map fun q =>
      (⟨Proto.act c.div b q.proto,
        (if b.timeRev then q.specs.reverse else q.specs).map fun s => s.map fun s => s.conjugateBy b.cubeMap⟩ : Pattern d) := by
    unfold act applyCubeMap
    by_cases hb : b.timeRev = true <;>
      simp [hb, invert, Pattern.invert, Proto.invert, Proto.act, Function.comp_def, BaseMap.applyCube_cubeMap] <;> rfl
  unfold cube?
  rw [hpat]
  cases hp : c.patterns[p]? with
  | none => rfl
  | some pat =>
    have := hs.actCube hp b hi
    simpa [cube?, hp] using this

theorem getElem?_act_patterns (c : FCurve d) (b : BaseMap d) (p : ℕ) :
    (act b c).patterns[p]? = (c.patterns[p]?).map fun q =>
      (⟨Proto.act c.div b q.proto,
        (if b.timeRev then q.specs.reverse else q.specs).map fun s => s.map fun s => s.conjugateBy b.cubeMap⟩ : Pattern d) := by
  unfold act applyCubeMap
  by_cases hb : b.timeRev = true <;>
    simp [hb, invert, Pattern.invert, Proto.invert, Proto.act, Function.comp_def, BaseMap.applyCube_cubeMap] <;> rfl

theorem Shape.spec?_act {c : FCurve d} (hs : c.Shape) (b : BaseMap d) (p i : ℕ) (hi : i < c.genus) :
    (act b c).spec? p i = (c.spec? p (b.applyCnum c.genus i)).map fun s => s.conjugateBy b.cubeMap := by
  unfold spec?
  rw [getElem?_act_patterns]
  cases hp : c.patterns[p]? with
  | none => rfl
  | some pat =>
    have hl := hs.specs_length pat (List.mem_of_getElem? hp)
    simp only [Option.map_some, Option.bind_some, List.getElem?_map]
    have : (if b.timeRev then pat.specs.reverse else pat.specs)[i]? = pat.specs[b.applyCnum c.genus i]? := by
      unfold BaseMap.applyCnum
      by_cases hb : b.timeRev = true
      · simp only [hb, if_true]; rw [List.getElem?_reverse (by omega), hl]
      · simp [hb]
    rw [this]
    cases h2 : pat.specs[b.applyCnum c.genus i]? with
    | none => rfl
    | some x => cases x <;> rfl

theorem Shape.act {c : FCurve d} (hs : c.Shape) (b : BaseMap d) : (FCurve.act b c).Shape where
  two_le_div := by simpa using hs.two_le_div
  proto_length := by
    intro q hq
    obtain ⟨p, hp⟩ := List.mem_iff_getElem?.1 hq
    rw [getElem?_act_patterns] at hp
    cases h : c.patterns[p]? with
    | none => simp [h] at hp
    | some pat =>
      rw [h] at hp
      simp only [Option.map_some, Option.some.injEq] at hp
      subst hp
      simpa using hs.proto_length pat (List.mem_of_getElem? h)
  specs_length := by
    intro q hq
    obtain ⟨p, hp⟩ := List.mem_iff_getElem?.1 hq
    rw [getElem?_act_patterns] at hp
    cases h : c.patterns[p]? with
    | none => simp [h] at hp
    | some pat =>
      rw [h] at hp
      simp only [Option.map_some, Option.some.injEq] at hp
      subst hp
      have := hs.specs_length pat (List.mem_of_getElem? h)
      by_cases hb : b.timeRev = true <;> simpa [hb] using this
  cube_range := by
    intro p i cube h
    by_cases hi : i < c.genus
    · rw [hs.cube?_act b p i hi] at h
      cases h2 : c.cube? p (b.applyCnum c.genus i) with
      | none => simp [h2] at h
      | some x =>
        rw [h2] at h
        simp only [Option.map_some, Option.some.injEq] at h
        subst h
        intro j
        simpa using BaseMap.applyCube_mem b (hs.cube_range _ _ _ h2) j
    · exfalso
      unfold cube? at h
      rw [getElem?_act_patterns] at h
      cases hp : c.patterns[p]? with
      | none => simp [hp] at h
      | some pat =>
        have := hs.proto_length pat (List.mem_of_getElem? hp)
        rw [hp] at h
        simp only [Option.map_some, Option.bind_some, Proto.cube?] at h
        rw [List.getElem?_eq_none (by simp; omega)] at h
        simp at h
  spec_range := by
    intro p i s h
    by_cases hi : i < c.genus
    · rw [hs.spec?_act b p i hi] at h
      cases h2 : c.spec? p (b.applyCnum c.genus i) with
      | none => simp [h2] at h
      | some x =>
        rw [h2] at h
        simp only [Option.map_some, Option.some.injEq] at h
        subst h
        simpa [Spec.conjugateBy] using hs.spec_range _ _ _ h2
    · exfalso
      unfold spec? at h
      rw [getElem?_act_patterns] at h
      cases hp : c.patterns[p]? with
      | none => simp [hp] at h
      | some pat =>
        have := hs.specs_length pat (List.mem_of_getElem? hp)
        rw [hp] at h
        simp only [Option.map_some, Option.bind_some] at h
        rw [List.getElem?_eq_none (by by_cases hb : b.timeRev = true <;> simp [hb] <;> omega)] at h
        simp at h

theorem Full.act {c : FCurve d} (hs : c.Full) (b : BaseMap d) : (FCurve.act b c).Full where
  toShape := hs.toShape.act b
  cube_def := by
    intro p hp i hi
    simp only [act_mult, act_genus] at hp hi
    rw [hs.toShape.cube?_act b p i hi]
    simpa using hs.cube_def p hp _ (BaseMap.applyCnum_lt b hi)
  spec_def := by
    intro p hp i hi
    simp only [act_mult, act_genus] at hp hi
    rw [hs.toShape.spec?_act b p i hi]
    simpa using hs.spec_def p hp _ (BaseMap.applyCnum_lt b hi)

/-- The mapped curve is realized by the mapped functions. -/
theorem Realizes.act {c : FCurve d} {f : ℕ → ℝ → Fin d → ℝ} (hs : c.Shape) (hf : c.Realizes f) (b : BaseMap d) :
    (FCurve.act b c).Realizes fun p t => b.applyX 1 (f p (b.applyT 1 t)) where
  mem_cube := by
    intro p hp t h0 h1
    have := applyT_mem01 b h0 h1
    exact fun i => b.applyX_mem (hf.mem_cube p (by simpa using hp) _ this.1 this.2) i
  eqn := by
    intro p i cube s hc hsp t h0 h1
    have hi : i < c.genus := by simpa using (hs.act b).cube?_lt_genus hc
    rw [hs.cube?_act b p i hi] at hc
    rw [hs.spec?_act b p i hi] at hsp
    obtain ⟨cube0, hc0, rfl⟩ := Option.map_eq_some_iff.1 hc
    obtain ⟨s0, hs0, rfl⟩ := Option.map_eq_some_iff.1 hsp
    have hN : (c.div : ℝ) ≠ 0 := by
      have := hs.two_le_div
      have : 0 < c.div := by omega
      positivity
    have ht := applyT_mem01 b h0 h1
    simp only [act_genus, act_div]
    rw [applyT_frac b hi, hf.eqn _ _ _ _ hc0 hs0 _ ht.1 ht.2]
    have key := BaseMap.applyX_cube (K := ℝ) b (c.div : ℤ) (by exact_mod_cast hN) cube0 (actFn s0 f (b.applyT 1 t))
    simp only [Int.cast_natCast] at key
    rw [key]
    have : actFn (s0.conjugateBy b.cubeMap) (fun p t => b.applyX 1 (f p (b.applyT 1 t))) t =
        b.applyX 1 (actFn s0 f (b.applyT 1 t)) := by
      unfold actFn Spec.conjugateBy BaseMap.conjugateBy
      simp only [BaseMap.applyX_mul, BaseMap.applyX_cubeMap]
      congr 2
      rw [← BaseMap.cubeMap_inv, BaseMap.applyX_cubeMap, BaseMap.applyX_inv_applyX]
      congr 1
      unfold BaseMap.applyT
      by_cases hb : b.timeRev = true <;> by_cases hs : s0.baseMap.timeRev = true <;> simp [hb, hs]
    rw [this]

end FCurve
end Peano
