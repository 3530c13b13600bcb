import Verif.Lemmas.Limit

/- Entrances and exits. -/
namespace Peano
variable {d : ℕ}

/-- Number of the first or the last fraction. -/
def endIdx (G : ℕ) (last : Bool) : ℕ := if last then G - 1 else 0

/-- Endpoint of `s * curve` when `g false p`, `g true p` are the endpoints of pattern `p`. -/
noncomputable def endPt (g : Bool → ℕ → Fin d → ℝ) (last : Bool) (s : Spec d) : Fin d → ℝ :=
  s.baseMap.applyX 1 (g (xor last s.baseMap.timeRev) s.pnum)

theorem applyCnum_endIdx (b : BaseMap d) {G : ℕ} (hG : 0 < G) (last : Bool) :
    b.applyCnum G (endIdx G last) = endIdx G (xor last b.timeRev) := by
  unfold BaseMap.applyCnum endIdx
  by_cases h : b.timeRev = true <;> cases last <;> simp [h]

theorem endIdx_lt {G : ℕ} (hG : 0 < G) (last : Bool) : endIdx G last < G := by
  unfold endIdx; split <;> omega

theorem endPt_rmul (g : Bool → ℕ → Fin d → ℝ) (last : Bool) (b : BaseMap d) (s : Spec d) :
    endPt g last (Spec.rmulBaseMap b s) = b.applyX 1 (endPt g (xor last b.timeRev) s) := by
  simp [endPt, Spec.rmulBaseMap]

namespace FCurve
variable {c : FCurve d}

/-- The end points satisfy the self-similarity equations of the first and the last fraction. -/
def EndEqs (c : FCurve d) (g : Bool → ℕ → Fin d → ℝ) : Prop :=
  ∀ last p cube s, c.cube? p (endIdx c.genus last) = some cube → c.spec? p (endIdx c.genus last) = some s →
    g last p = fun j => (cube j + endPt g last s j) / c.div

theorem Realizes.endEqs {f : ℕ → ℝ → Fin d → ℝ} (hs : c.Shape) (hf : c.Realizes f) :
    c.EndEqs fun last p => f p (if last then 1 else 0) := by
  intro last p cube s hc hsp
  have := hf.eqn p _ cube s hc hsp (if last then 1 else 0) (by split <;> norm_num) (by split <;> norm_num)
  have hG : (c.genus : ℝ) ≠ 0 := by
    have := hs.genus_pos
    positivity
  have ht : (((endIdx c.genus last : ℕ) : ℝ) + (if last then 1 else 0)) / c.genus = if last then 1 else 0 := by
    cases last
    · simp [endIdx]
    · simp only [endIdx, if_true]
      rw [Nat.cast_sub hs.genus_pos]
      field_simp
      push_cast
      ring
  rw [ht] at this
  simp only [this]
  funext j
  congr 2
  unfold endPt actFn BaseMap.applyT
  cases last <;> by_cases h : s.baseMap.timeRev = true <;> simp [h]

/-- One step of the loop of `_get_cube_limit`. -/
def limitStep (c : FCurve d) (cnum : ℕ) (cur : Spec d) : Option (Cube d × Spec d) := do
  let pattern ← c.patterns[cur.pnum]?
  let cube ← (pattern.proto.act c.div cur.baseMap).cube? cnum
  let next ← c.composeSpecs cur cnum
  return (cube, next)

theorem cubeLimitLoop_eq (c : FCurve d) (cnum fuel : ℕ) (seen : List (Spec d)) (cubes : List (Cube d)) (cur : Spec d) :
    c.cubeLimitLoop cnum fuel seen cubes cur = walkLoop (c.limitStep cnum) fuel seen cubes cur := by
  induction fuel generalizing seen cubes cur with
  | zero => rfl
  | succ fuel ih =>
    unfold cubeLimitLoop walkLoop limitStep
    by_cases h : cur ∈ seen
    · simp [h]
    · simp only [h, if_false, ih]
      cases c.patterns[cur.pnum]? with
      | none => rfl
      | some pat =>
        simp only [Option.bind_eq_bind, Option.bind_some]
        cases (pat.proto.act c.div cur.baseMap).cube? cnum with
        | none => rfl
        | some x =>
          simp only [Option.bind_some]
          cases c.composeSpecs cur cnum <;> rfl

theorem limitStep_some (hs : c.Shape) {cnum : ℕ} (hcn : cnum < c.genus) {cur s' : Spec d} {cube : Cube d}
    (h : c.limitStep cnum cur = some (cube, s')) :
    ∃ cube0 last, c.cube? cur.pnum (cur.baseMap.applyCnum c.genus cnum) = some cube0 ∧
      c.spec? cur.pnum (cur.baseMap.applyCnum c.genus cnum) = some last ∧ cube = cur.baseMap.applyCube c.div cube0 ∧
      s' = Spec.rmulBaseMap cur.baseMap last := by
  unfold limitStep composeSpecs at h
  cases hp : c.patterns[cur.pnum]? with
  | none => simp [hp] at h
  | some pat =>
    simp only [hp, Option.bind_eq_bind, Option.bind_some, hs.actCube hp _ hcn] at h
    cases hc : c.cube? cur.pnum (cur.baseMap.applyCnum c.genus cnum) with
    | none => simp [hc] at h
    | some x =>
      cases hsp : c.spec? cur.pnum (cur.baseMap.applyCnum c.genus cnum) with
      | none => simp [hc, hsp] at h
      | some l =>
        simp only [hc, hsp, Option.map_some, Option.bind_some, Option.pure_def, Option.some.injEq, Prod.mk.injEq] at h
        exact ⟨x, l, rfl, rfl, h.1.symm, h.2.symm⟩

theorem limitStep_of (hs : c.Shape) {cnum : ℕ} (hcn : cnum < c.genus) {cur last : Spec d} {cube0 : Cube d}
    (h1 : c.cube? cur.pnum (cur.baseMap.applyCnum c.genus cnum) = some cube0)
    (h2 : c.spec? cur.pnum (cur.baseMap.applyCnum c.genus cnum) = some last) :
    c.limitStep cnum cur = some (cur.baseMap.applyCube c.div cube0, Spec.rmulBaseMap cur.baseMap last) := by
  obtain ⟨pat, hp⟩ := getElem?_of_lt (cube?_lt h1)
  unfold limitStep composeSpecs
  simp only [hp, Option.bind_eq_bind, Option.bind_some, hs.actCube hp _ hcn, h1, h2, Option.map_some, Option.pure_def]

/-- The end points of mapped patterns satisfy the corresponding equations. -/
theorem EndEqs.step (hs : c.Shape) {g : Bool → ℕ → Fin d → ℝ} (hg : c.EndEqs g) {last : Bool} {cur s' : Spec d} {cube : Cube d}
    (h : c.limitStep (endIdx c.genus last) cur = some (cube, s')) :
    endPt g last cur = fun j => ((cube j : ℝ) + endPt g last s' j) / c.div := by
  obtain ⟨cube0, l, h1, h2, rfl, rfl⟩ := limitStep_some hs (endIdx_lt hs.genus_pos last) h
  rw [applyCnum_endIdx _ hs.genus_pos] at h1 h2
  have hN : (c.div : ℝ) ≠ 0 := by
    have := hs.two_le_div
    have : 0 < c.div := by omega
    positivity
  rw [endPt_rmul]
  conv_lhs => unfold endPt
  rw [hg _ _ _ _ h1 h2]
  have key := BaseMap.applyX_cube (K := ℝ) cur.baseMap (c.div : ℤ) (by exact_mod_cast hN) cube0
    (endPt g (xor last cur.baseMap.timeRev) l)
  simpa using key

/-- `get_entrance`/`get_exit` return the end point determined by the equations. -/
theorem getCubeLimit_spec (hs : c.GatesDefined) {g : Bool → ℕ → Fin d → ℝ} (hg : c.EndEqs g) {p : ℕ} (hp : p < c.mult) (last : Bool) :
    ∃ q : Point d, c.getCubeLimit p (endIdx c.genus last) = some q ∧ ∀ j, (q j : ℝ) = g last p j := by
  have hS := hs.toShape
  have hG := hS.genus_pos
  have hstep : ∀ s ∈ allSpecs d c.mult, ∃ a s', c.limitStep (endIdx c.genus last) s = some (a, s') ∧ s' ∈ allSpecs d c.mult := by
    intro s hsm
    rw [mem_allSpecs] at hsm
    have hdef : ∀ b : Bool, (c.cube? s.pnum (endIdx c.genus b)).isSome ∧ (c.spec? s.pnum (endIdx c.genus b)).isSome := by
      intro b
      cases b
      · exact ⟨(hs.cube_def _ hsm).1, (hs.spec_def _ hsm).1⟩
      · exact ⟨(hs.cube_def _ hsm).2, (hs.spec_def _ hsm).2⟩
    obtain ⟨hc, hsp⟩ := hdef (xor last s.baseMap.timeRev)
    obtain ⟨cube0, hc⟩ := Option.isSome_iff_exists.1 hc
    obtain ⟨l, hsp⟩ := Option.isSome_iff_exists.1 hsp
    have hl := hS.spec_range _ _ _ hsp
    rw [← applyCnum_endIdx _ hG] at hc hsp
    exact ⟨_, _, limitStep_of hS (endIdx_lt hG last) hc hsp, by rw [mem_allSpecs]; exact hl⟩
  obtain ⟨r, hr⟩ := walkLoop_isSome hstep c.fuel [] [] ⟨BaseMap.idMap d, p⟩ (by rw [mem_allSpecs]; exact hp) (by simp) (by simp)
    (by rw [length_allSpecs]; unfold fuel; simp)
  obtain ⟨y, h1, h2, h3⟩ := walkLoop_spec (E := endPt g last)
    (F := fun (c' : Cube d) (y : Fin d → ℝ) j => ((c' j : ℝ) + y j) / c.div)
    (fun s a s' h => hg.step hS h) _ _ _ _ ⟨BaseMap.idMap d, p⟩ _ hr rfl rfl (by simp)
  obtain ⟨q, hq1, hq2⟩ := getLimitPoint_spec (c := c) hS.two_le_div h3 h1 h2
  refine ⟨q, ?_, ?_⟩
  · unfold getCubeLimit
    rw [cubeLimitLoop_eq, hr]
    exact hq1
  · intro j
    rw [hq2]
    have : (BaseMap.idMap d).timeRev = false := rfl
    simp only [endPt, this, Bool.xor_false]
    show (1 : BaseMap d).applyX 1 (g last p) j = g last p j
    simp

end FCurve
end Peano
