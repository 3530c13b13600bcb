import Verif.Lemmas.Texts
import Verif.Lemmas.Check
import Verif.Lemmas.JunctionsB
import Verif.Props.ChainCode
import Verif.Props.RawBaseMaps

set_option autoImplicit false

/-
Lemmas about texts of patterns and curves.
-/
namespace Peano
variable {d : ℕ}

theorem pySplitComma_eq (s : List Char) : pySplitComma s = pySplitOn ',' s := by
  induction s with
  | nil => rfl
  | cons a s ih =>
    rw [pySplitComma, pySplitOn, ih]
    cases pySplitOn ',' s <;> rfl

theorem BaseMap.toTyped_toRaw (a : BaseMap d) : a.toRaw.toTyped d = some a := by
  unfold RawBaseMap.toTyped BaseMap.toRaw
  have : (List.ofFn fun i => ((a.coords i).1.val, (a.coords i).2)).mapM (fun e : ℕ × Bool => if h : e.1 < d then some ((⟨e.1, h⟩ : Fin d), e.2) else none) =
      some (List.ofFn a.coords) := by
    have e : (List.ofFn fun i => ((a.coords i).1.val, (a.coords i).2)) = (List.ofFn a.coords).map fun x => (x.1.val, x.2) := by
      rw [List.map_ofFn]; rfl
    rw [e, List.mapM_map]
    have h := mapM_eq_some_map (f := (fun e : ℕ × Bool => if h : e.1 < d then some ((⟨e.1, h⟩ : Fin d), e.2) else none) ∘ fun x : Fin d × Bool => (x.1.val, x.2))
      (g := id) (l := List.ofFn a.coords) (by intro x _; simp)
    simpa using h
  show Option.bind _ _ = _
  rw [this]
  exact BaseMap.mem_ofList.2 ⟨rfl, rfl⟩

theorem Spec.toTyped_toRaw (s : Spec d) : s.toRaw.toTyped d = some s := by
  show Option.bind (s.baseMap.toRaw.toTyped d) _ = _
  rw [BaseMap.toTyped_toRaw]
  rfl

/-- The text of a spec has no commas, bars and line ends. -/
theorem Spec.text_not (s : Spec d) (hd : d ≤ 6) {t : List Char} (ht : s.toRaw.str = some t) : ∀ c ∈ t, c ≠ ',' ∧ c ≠ '|' ∧ c ≠ '\n' := by
  have e : s.toRaw.str = some (decimal s.pnum ++ s.baseMap.text) := by
    simp only [RawSpec.str, Spec.toRaw, BaseMap.str_toRaw _ hd]; rfl
  rw [e] at ht
  cases ht
  intro c h
  rcases List.mem_append.1 h with h | h
  · have := (decimal_facts s.pnum).2.1 _ h
    refine ⟨?_, ?_, ?_⟩ <;> rintro rfl <;> revert this <;> decide
  · rcases List.mem_append.1 h with h | h
    · obtain ⟨k, rfl⟩ := List.mem_ofFn.1 h
      have hf : ∀ i : Fin 6, ∀ b : Bool, RawBaseMap.letter i b ≠ ',' ∧ RawBaseMap.letter i b ≠ '|' ∧ RawBaseMap.letter i b ≠ '\n' := by decide
      exact hf ⟨_, lt_of_lt_of_le (s.baseMap⁻¹.coords k).1.isLt hd⟩ _
    · split at h
      · rw [List.mem_singleton.1 h]; decide
      · cases h

/-- The text of a prototype has no bars and line ends. -/
theorem RawProto.str_not (cubes : List (List ℤ)) : ∀ c ∈ RawProto.str cubes, c ≠ '|' ∧ c ≠ '\n' := by
  intro c hc
  obtain ⟨w, hw, hc⟩ := List.mem_flatten.1 hc
  obtain ⟨e, -, rfl⟩ := List.mem_map.1 hw
  have hs : ∀ x ∈ RawProto.stepLetters e.1 e.2, x ≠ '|' ∧ x ≠ '\n' := by
    intro x hx
    obtain ⟨y, hy, hx⟩ := List.mem_filterMap.1 hx
    have hf : ∀ a ∈ basisLetters, (a ≠ '|' ∧ a ≠ '\n') ∧ pyUpper a ≠ '|' ∧ pyUpper a ≠ '\n' := by decide
    have := hf _ (List.of_mem_zip hy).2
    split at hx
    · cases hx; exact this.1
    · split at hx
      · cases hx; exact this.2
      · cases hx
  unfold RawProto.groupStr at hc
  split at hc
  · rename_i c' heq
    rw [List.mem_singleton.1 hc]
    exact hs _ (by rw [heq]; exact List.mem_singleton_self _)
  · rcases List.mem_append.1 hc with hc | hc
    · rcases List.mem_append.1 hc with hc | hc
      · rw [List.mem_singleton.1 hc]; decide
      · exact hs _ hc
    · rw [List.mem_singleton.1 hc]; decide

namespace FCurve
variable {c : FCurve d}

/-- A pattern of a full curve. -/
theorem Full.pattern_eq (h : c.Full) {p : ℕ} (hp : p < c.mult) : c.patterns[p]? = some
    ⟨((List.range c.genus).map (c.cubeD p)).map some, ((List.range c.genus).map (c.specD p)).map some⟩ := by
  obtain ⟨pat, hpat⟩ : ∃ pat, c.patterns[p]? = some pat := ⟨_, List.getElem?_eq_getElem hp⟩
  have hmem := List.mem_of_getElem? hpat
  have l1 := h.proto_length _ hmem
  have l2 := h.specs_length _ hmem
  rw [hpat]
  congr 1
  have e1 : pat.proto = ((List.range c.genus).map (c.cubeD p)).map some := by
    apply List.ext_getElem? 
    intro i
    by_cases hi : i < c.genus
    · have := h.cube_eq hp hi
      unfold cube? at this
      rw [hpat] at this
      simp only [Option.bind_some, Proto.cube?] at this
      rw [List.getElem?_eq_getElem (by omega : i < pat.proto.length)] at this ⊢
      simp only [Option.join_some] at this
      simp [hi, this]
    · rw [List.getElem?_eq_none (by omega), List.getElem?_eq_none (by simp; omega)]
  have e2 : pat.specs = ((List.range c.genus).map (c.specD p)).map some := by
    apply List.ext_getElem?
    intro i
    by_cases hi : i < c.genus
    · have := h.spec_eq hp hi
      unfold spec? at this
      rw [hpat] at this
      simp only [Option.bind_some] at this
      rw [List.getElem?_eq_getElem (by omega : i < pat.specs.length)] at this ⊢
      simp only [Option.join_some] at this
      simp [hi, this]
    · rw [List.getElem?_eq_none (by omega), List.getElem?_eq_none (by simp; omega)]
  cases pat
  simp only at e1 e2
  rw [e1, e2]

/-- Consecutive cubes of a checked curve are neighbours. -/
theorem Full.neighbour_cubes (h : c.Full) (hc : c.check = some true) {p i : ℕ} (hp : p < c.mult) (hi : i + 1 < c.genus) (j : Fin d) :
    |c.cubeD p (i + 1) j - c.cubeD p i j| ≤ 1 := by
  obtain ⟨f, hf⟩ := h.realizes_of_check hc
  have e1 := hf.eqnD h hp (by omega : i < c.genus) zero_le_one le_rfl
  have e2 := hf.eqnD h hp hi le_rfl zero_le_one
  have e0 : ((i : ℝ) + 1) / c.genus = (((i + 1 : ℕ) : ℝ) + 0) / c.genus := by push_cast; ring
  rw [e0, e2] at e1
  have e := congrFun e1 j
  have hN : (c.div : ℝ) ≠ 0 := by have := h.two_le_div; positivity
  have e' : (c.cubeD p (i + 1) j : ℝ) + actFn (c.specD p (i + 1)) f 0 j = (c.cubeD p i j : ℝ) + actFn (c.specD p i) f 1 j := by
    have := congrArg (· * (c.div : ℝ)) e
    simpa [hN] using this
  have hr : ∀ (s : Spec d) (t : ℝ), s.pnum < c.mult → 0 ≤ t → t ≤ 1 → 0 ≤ actFn s f t j ∧ actFn s f t j ≤ 1 := by
    intro s t hs h0 h1
    have ht : 0 ≤ s.baseMap.applyT 1 t ∧ s.baseMap.applyT 1 t ≤ 1 := by
      unfold BaseMap.applyT
      by_cases hrv : s.baseMap.timeRev = true
      · simp only [hrv, if_true]; constructor <;> linarith
      · simp only [hrv]; exact ⟨h0, h1⟩
    have hm := hf.mem_cube s.pnum hs _ ht.1 ht.2
    have hb := hm (s.baseMap.coords j).1
    unfold actFn BaseMap.applyX
    by_cases hbf : (s.baseMap.coords j).2 = true
    · simp only [hbf, if_true]; constructor <;> linarith [hb.1, hb.2]
    · simp only [hbf]; exact hb
  have r1 := hr _ 0 (h.specD_lt hp hi) le_rfl zero_le_one
  have r2 := hr _ 1 (h.specD_lt hp (by omega : i < c.genus)) zero_le_one le_rfl
  have : |((c.cubeD p (i + 1) j - c.cubeD p i j : ℤ) : ℝ)| ≤ 1 := by
    push_cast
    rw [abs_le]
    constructor <;> linarith [r1.1, r1.2, r2.1, r2.2]
  exact_mod_cast this

/-- The prototype of a pattern, as lists. -/
def rawProto (c : FCurve d) (p : ℕ) : RawProto := ⟨d, c.div, (List.range c.genus).map fun i => List.ofFn (c.cubeD p i)⟩

theorem Full.rawProto_full (h : c.Full) (hfill : c.FillsGrid) {p : ℕ} (hp : p < c.mult) : (c.rawProto p).Full := by
  refine ⟨?_, ?_⟩
  · refine List.Nodup.map_on ?_ List.nodup_range
    intro i hi k hk e
    rw [List.mem_range] at hi hk
    exact h.cubeD_inj hfill hp hi hk (List.ofFn_injective e)
  · intro l
    constructor
    · intro hl
      obtain ⟨i, hi, rfl⟩ := List.mem_map.1 hl
      rw [List.mem_range] at hi
      refine ⟨by simp [rawProto], ?_⟩
      intro x hx
      obtain ⟨j, rfl⟩ := List.mem_ofFn.1 hx
      exact h.cubeD_range hp hi j
    · rintro ⟨h1, h2⟩
      have hlen : l.length = d := h1
      obtain ⟨i, hi, e⟩ := hfill p hp (fun j : Fin d => l[j.val]'(by omega)) fun j => h2 _ (List.getElem_mem _)
      refine List.mem_map.2 ⟨i, List.mem_range.2 hi, ?_⟩
      rw [h.cube_eq hp hi] at e
      rw [Option.some.inj e]
      apply List.ext_getElem
      · simp [hlen]
      · intro k k1 k2
        simp

theorem Full.rawProto_adjacent (h : c.Full) (hc : c.check = some true) {p : ℕ} (hp : p < c.mult) : (c.rawProto p).Adjacent := by
  intro i a b ha hb j
  unfold rawProto at ha hb
  simp only [List.getElem?_map, Option.map_eq_some_iff, List.getElem?_range] at ha hb
  obtain ⟨i1, hi1, rfl⟩ := ha
  obtain ⟨i2, hi2, rfl⟩ := hb
  obtain ⟨k1, rfl⟩ := List.getElem?_eq_some_iff.1 hi1
  obtain ⟨k2, rfl⟩ := List.getElem?_eq_some_iff.1 hi2
  simp only [List.getElem_range, List.length_range] at *
  by_cases hj : j < d
  · have := h.neighbour_cubes hc hp (by simpa using k2) ⟨j, hj⟩
    simpa [List.getD_eq_getElem?_getD, hj] using this
  · simp [List.getD_eq_getElem?_getD, hj]

theorem rawProto_toTyped (c : FCurve d) (p : ℕ) : (c.rawProto p).toTyped d = some (((List.range c.genus).map (c.cubeD p)).map some) := by
  unfold RawProto.toTyped rawProto
  have h := mapM_eq_some_map (f := (fun cube : List ℤ => if cube.length = d then some (some fun j : Fin d => cube.getD j 0) else none) ∘ fun i => List.ofFn (c.cubeD p i))
    (g := fun i => some (c.cubeD p i)) (l := List.range c.genus) (by
      intro i _
      simp only [Function.comp_apply, List.length_ofFn, if_true]
      congr 2
      funext j
      simp)
  simp only [List.mapM_map]
  rw [h, List.map_map]
  rfl

/-- Text of a pattern of a full curve and what is read back. -/
theorem Full.pattern_text (h : c.Full) (hfill : c.FillsGrid) (hc : c.check = some true) (hd1 : 1 ≤ d) (hd6 : d ≤ 6) (hm : c.mult ≤ 10) {p : ℕ}
    (hp : p < c.mult) : ∃ pat chain specs, c.patterns[p]? = some pat ∧ pat.text = some (chain ++ " | ".toList ++ specs) ∧
      (∀ c ∈ chain, c ≠ '|' ∧ c ≠ '\n') ∧ (∀ c ∈ specs, c ≠ '\n') ∧ parsePattern d chain (pySplitComma specs) = some (c.rawProto p, pat) := by
  have hs : ∀ i, ∃ t, i < c.genus → (c.specD p i).toRaw.str = some t ∧ RawSpec.parse t = some (c.specD p i).toRaw := by
    intro i
    by_cases hi : i < c.genus
    · obtain ⟨t, h1, h2⟩ := Spec.C09_parse_str_partial (c.specD p i) hd1 hd6 (by have := h.specD_lt hp hi; omega)
      exact ⟨t, fun _ => ⟨h1, h2⟩⟩
    · exact ⟨[], fun h => absurd h hi⟩
  choose t ht using hs
  have hg := h.genus_pos
  have htexts : ((List.range c.genus).map t) ≠ [] := by
    intro e
    have := congrArg List.length e
    simp at this
    omega
  refine ⟨_, RawProto.str (c.rawProto p).cubes, pyJoin [','] ((List.range c.genus).map t), h.pattern_eq hp, ?_, RawProto.str_not _, ?_, ?_⟩
  · have e1 : ((((List.range c.genus).map (c.cubeD p)).map some).mapM fun cube? : Option (Cube d) => cube?.map fun cube => List.ofFn cube) =
        some ((List.range c.genus).map fun i => List.ofFn (c.cubeD p i)) := by
      rw [List.mapM_map, List.mapM_map]
      exact mapM_eq_some_map (by intro i _; rfl)
    have e2 : (((List.range c.genus).map (c.specD p)).map some).mapM specText = some ((List.range c.genus).map t) := by
      rw [List.mapM_map, List.mapM_map]
      exact mapM_eq_some_map (by intro i hi; exact (ht i (List.mem_range.1 hi)).1)
    unfold Pattern.text
    show Option.bind _ _ = _
    simp only
    rw [e1, Option.bind_some]
    show Option.bind _ _ = _
    rw [e2]
    rfl
  · intro x hx
    have := pyJoin_chars (P := fun c => c ≠ '\n') (sep := [',']) (ts := (List.range c.genus).map t) (by decide) (by
      intro w hw x hx
      obtain ⟨i, hi, rfl⟩ := List.mem_map.1 hw
      exact (Spec.text_not _ hd6 (ht i (List.mem_range.1 hi)).1 x hx).2.2)
    exact this x hx
  · have e3 : ((List.range c.genus).map t).mapM (fun t => do
        let s ← RawSpec.parse t
        let s ← s.toTyped d
        return some s) = some (((List.range c.genus).map (c.specD p)).map some) := by
      rw [List.mapM_map, List.map_map]
      refine mapM_eq_some_map ?_
      intro i hi
      show Option.bind (RawSpec.parse (t i)) _ = _
      rw [(ht i (List.mem_range.1 hi)).2, Option.bind_some]
      show Option.bind (RawSpec.toTyped d _) _ = _
      rw [Spec.toTyped_toRaw]
      rfl
    unfold parsePattern
    show Option.bind _ _ = _
    rw [RawProto.C36_roundtrip (c.rawProto p) hd1 hd6 (by have := h.two_le_div; show (2 : ℤ) ≤ (c.div : ℤ); exact_mod_cast this) (h.rawProto_full hfill hp)
      (h.rawProto_adjacent hc hp), Option.bind_some]
    show Option.bind _ _ = _
    rw [rawProto_toTyped, Option.bind_some, pySplitComma_eq, pySplitOn_join htexts]
    · show Option.bind _ _ = _
      rw [e3]
      rfl
    · intro x hx
      obtain ⟨i, hi, rfl⟩ := List.mem_map.1 hx
      exact fun h => (Spec.text_not _ hd6 (ht i (List.mem_range.1 hi)).1 _ h).1 rfl

end FCurve
end Peano
