import Verif.Lemmas.Check
import Verif.Lemmas.DeepSpec
import Verif.Lemmas.Allowed
import Verif.Lemmas.Valid
import Verif.Model.Zoo

set_option autoImplicit false

/-
Properties C09 (action laws) - C14, C17.
-/
namespace Peano
variable {d : ℕ}

namespace Spec

/-- C09. Specs act on curves, of any kind: `(S1*S2)*curve = S1*(S2*curve)`. -/
theorem C09_act_mul (s t : Spec d) (c : FCurve d) : FCurve.actSpec (s.mul t) c = FCurve.actSpec s (FCurve.actSpec t c) := by
  show { FCurve.act (s.baseMap * t.baseMap) c with pnum := s.pnum } = { FCurve.act s.baseMap { FCurve.act t.baseMap c with pnum := t.pnum } with pnum := s.pnum }
  rw [FCurve.act_with_pnum _ s.baseMap, FCurve.act_mul]

/-- C09. `(bm*S)*curve = bm*(S*curve)`. -/
theorem C09_act_rmul (b : BaseMap d) (s : Spec d) (c : FCurve d) :
    FCurve.actSpec (rmulBaseMap b s) c = FCurve.act b (FCurve.actSpec s c) := by
  show { FCurve.act (b * s.baseMap) c with pnum := s.pnum } = FCurve.act b { FCurve.act s.baseMap c with pnum := s.pnum }
  rw [FCurve.act_with_pnum _ b, FCurve.act_mul]

/-- C09. `(S*bm)*curve = S*(bm*curve)`. -/
theorem C09_act_mul_baseMap (s : Spec d) (b : BaseMap d) (c : FCurve d) :
    FCurve.actSpec (s.mulBaseMap b) c = FCurve.actSpec s (FCurve.act b c) := by
  unfold FCurve.actSpec mulBaseMap
  rw [← FCurve.act_mul]

/-- C09. The product of specs is associative and keeps the pattern number of its leftmost factor. -/
theorem C09_mul_assoc (s t u : Spec d) : (s.mul t).mul u = s.mul (t.mul u) ∧ (s.mul t).pnum = s.pnum := by
  simp [Spec.mul, mul_assoc]

/-- C09. The curve `S*curve` is the image of component `S.pnum` of the curve under the isometry and time reversal of `S`. -/
theorem C09_act_meaning (s : Spec d) (c : FCurve d) (hs : c.Shape) (f : ℕ → ℝ → Fin d → ℝ) (hf : c.Realizes f) :
    ∃ g, (FCurve.actSpec s c).Realizes g ∧ ∀ t, g (FCurve.actSpec s c).pnum t = s.baseMap.applyX 1 (f s.pnum (s.baseMap.applyT 1 t)) := by
  have h := hf.act hs s.baseMap
  refine ⟨_, ⟨h.mem_cube, h.eqn⟩, fun t => rfl⟩

example : FCurve.actSpec (Spec.mul ⟨BaseMap.invert 1, 1⟩ ⟨1, 0⟩) Zoo.betaOmega ≠ Zoo.betaOmega := by decide +kernel

end Spec

namespace FCurve

/-- C10. The unit acts trivially, products act as compositions, double time reversal is trivial (full, fuzzy and path-fuzzy curves). -/
theorem C10_action (c : FCurve d) (a b : BaseMap d) :
    act (BaseMap.idMap d) c = c ∧ act (a * b) c = act a (act b c) ∧ c.invert.invert = c ∧
      act (BaseMap.idMap d).invert c = c.invert := by
  refine ⟨act_one c, act_mul c a b, invert_invert c, ?_⟩
  unfold act
  have : (BaseMap.idMap d).invert.cubeMap = 1 := rfl
  rw [this, applyCubeMap_one]; rfl

/-- C10. A sequence of base maps with unit product changes nothing. -/
theorem C10_unit_product (c : FCurve d) (bms : List (BaseMap d)) (h : bms.prod = 1) :
    bms.foldr act c = c := by
  have key : ∀ bms : List (BaseMap d), bms.foldr act c = act bms.prod c := by
    intro bms
    induction bms with
    | nil => simp [act_one]
    | cons b bms ih => rw [List.foldr_cons, ih, List.prod_cons, act_mul]
  rw [key, h, act_one]

/-- C10. The mapped curve is the image of the curve: if the maps `f_p` satisfy the equations of the curve, then the maps
`t ↦ B (f_p (T t))` satisfy the equations of `B * curve`, and conversely. -/
theorem C10_act_meaning (c : FCurve d) (hs : c.Shape) (b : BaseMap d) (f : ℕ → ℝ → Fin d → ℝ) :
    c.Realizes f ↔ (act b c).Realizes fun p t => b.applyX 1 (f p (b.applyT 1 t)) := by
  refine ⟨fun h => h.act hs b, fun h => ?_⟩
  have h2 := h.act (hs.act b) b⁻¹
  rw [← act_mul] at h2
  simp only [inv_mul_cancel, act_one] at h2
  have : (fun p t => b⁻¹.applyX 1 (b.applyX 1 (f p (b.applyT 1 (b⁻¹.applyT 1 t))))) = f := by
    funext p t
    simp
  rwa [this] at h2

/-- C10. The specs allowed in a fraction of the mapped curve are those of the corresponding fraction of the curve, conjugated by the
isometry (in particular for path-fuzzy curves).  The length conditions hold for every path-fuzzy curve made from paths. -/
theorem C10_allowed_specs (c : FCurve d) (hs : c.Shape)
    (hk : ∀ x, c.kind = .path x → (∀ l ∈ x.patternLinks, l.length = c.genus) ∧ ∀ l ∈ x.patternReprs, l.length = c.genus)
    (b : BaseMap d) (p i : ℕ) (hi : i < c.genus) :
    (act b c).genAllowedSpecs p i =
      (c.genAllowedSpecs p (if b.timeRev then c.genus - 1 - i else i)).map (List.map fun s => ⟨b.cubeMap * s.baseMap * b.cubeMap⁻¹, s.pnum⟩) :=
  genAllowedSpecs_act hs hk b hi

example : Zoo.hilbert.Shape := (full_of_fullB (by decide +kernel)).toShape
example : act (BaseMap.invert 1) Zoo.hilbert ≠ Zoo.hilbert := by decide +kernel

/-- C11. For `C = spec*curve`, `C.specs[cnum]*C` is `(composed spec)*curve`. -/
theorem C11_compose (c : FCurve d) (hs : c.Shape) (s X : Spec d) (cnum : ℕ) (hi : cnum < c.genus)
    (hX : (actSpec s c).spec? s.pnum cnum = some X) :
    ∃ Y, c.composeSpecs s cnum = some Y ∧ actSpec X (actSpec s c) = actSpec Y c :=
  actSpec_compose hs s hi hX

/-- C11. For every nested sequence of cube numbers `get_deep_spec` returns a spec `X`, and the curve on that time fraction (number `m`
among the `G^k` fractions of level `k`, where the cube numbers are the base-`G` digits of `m`, most significant first) is the
curve `X*curve` scaled to a cube of level `k`. -/
theorem C11_deep_spec (c : FCurve d) (h : c.Full) (f : ℕ → ℝ → Fin d → ℝ) (hf : c.Realizes f) (p : ℕ) (hp : p < c.mult)
    (cnums : List ℕ) (hc : ∀ i ∈ cnums, i < c.genus) :
    ∃ X, c.getDeepSpec p cnums = some X ∧ ∃ corner : Cube d, (∀ j, 0 ≤ corner j ∧ corner j < (c.div : ℤ) ^ cnums.length) ∧
      ∀ t : ℝ, 0 ≤ t → t ≤ 1 →
        f p (((Nat.ofDigits c.genus cnums.reverse : ℕ) + t) / (c.genus : ℝ) ^ cnums.length) =
          fun j => (corner j + actFn X f t j) / (c.div : ℝ) ^ cnums.length := by
  obtain ⟨X, h1, _, corner, h2, h3⟩ := deep_aux h hf cnums ⟨BaseMap.idMap d, p⟩ hp hc
  refine ⟨X, h1, corner, h2, ?_⟩
  intro t h0 ht
  rw [← h3 t h0 ht, actFn_id]

example : Zoo.betaOmega.getDeepSpec 1 [3, 2, 0] =
    some ⟨⟨![(1, false), (0, false)], true, by decide⟩, 0⟩ := by decide +kernel

/-- C12. `check()` of a fully specified curve always gives an answer, and it succeeds exactly when some maps
`f_p : [0,1] → [0,1]^d` satisfy the equations of the curve. -/
theorem C12_check_iff (c : FCurve d) (h : c.Full) : (∃ b, c.check = some b) ∧ (c.check = some true ↔ ∃ f, c.Realizes f) := by
  refine ⟨?_, fun hc => h.realizes_of_check hc, fun ⟨f, hf⟩ => h.check_of_realizes hf⟩
  obtain ⟨f, hf1, hf2⟩ := h.exists_halfOpen
  by_cases hr : ∃ g, c.EndEqs g
  · obtain ⟨g, hg⟩ := hr
    obtain ⟨b, hb, _⟩ := h.check_spec hg
    exact ⟨b, hb⟩
  · exact absurd h.exists_endEqs hr

/-- C12. The maps are unique. -/
theorem C12_unique (c : FCurve d) (h : c.Full) (f g : ℕ → ℝ → Fin d → ℝ) (hf : c.Realizes f) (hg : c.Realizes g) (p : ℕ)
    (hp : p < c.mult) : Set.EqOn (f p) (g p) (Set.Icc 0 1) := fun t ht => hf.unique h hg hp ht.1 ht.2

/-- C12. The maps are continuous. -/
theorem C12_continuous (c : FCurve d) (h : c.Full) (f : ℕ → ℝ → Fin d → ℝ) (hf : c.Realizes f) (p : ℕ) (hp : p < c.mult) :
    ContinuousOn (f p) (Set.Icc 0 1) := hf.continuousOn h hp

/-- a curve that passes and one that does not -/
example : Zoo.betaOmega.Full ∧ Zoo.betaOmega.check = some true := ⟨full_of_fullB (by decide +kernel), by decide +kernel⟩
example : (Zoo.mk 2 [("jiJ", "ij,ij,ij,ij")]).Full ∧ (Zoo.mk 2 [("jiJ", "ij,ij,ij,ij")]).check = some false :=
  ⟨full_of_fullB (by decide +kernel), by decide +kernel⟩

/-- C13. A curve that passes `check()` and whose prototypes visit all cubes fills the cube. -/
theorem C13_surjective (c : FCurve d) (h : c.Full) (hfill : c.FillsGrid) (hc : c.check = some true) :
    (∃ f, c.Realizes f) ∧ ∀ f, c.Realizes f → ∀ p < c.mult, f p '' Set.Icc 0 1 = unitCube d := by
  refine ⟨h.realizes_of_check hc, ?_⟩
  intro f hf p hp
  apply Set.Subset.antisymm
  · rintro _ ⟨t, ht, rfl⟩
    exact hf.mem_cube p hp t ht.1 ht.2
  · intro x hx
    obtain ⟨t, h0, h1, e⟩ := hf.surjective h hfill hp hx
    exact ⟨t, ⟨h0, h1⟩, e⟩

example : Zoo.betaOmega.FillsGrid := fills_of_fillsB (full_of_fullB (by decide +kernel)) (by decide +kernel)

/-- C14. `get_entrance` and `get_exit` return `f_p(0)` and `f_p(1)` exactly (only the first and the last entries of patterns need be
defined; termination is part of the statement: the bounded loop of the model does not run out). -/
theorem C14_entrance_exit (c : FCurve d) (h : c.GatesDefined) (f : ℕ → ℝ → Fin d → ℝ) (hf : c.Realizes f) (p : ℕ) (hp : p < c.mult) :
    (∃ x, c.getEntrance p = some x ∧ (fun j => (x j : ℝ)) = f p 0) ∧ (∃ y, c.getExit p = some y ∧ (fun j => (y j : ℝ)) = f p 1) := by
  have hg := hf.endEqs h.toShape
  obtain ⟨x, hx1, hx2⟩ := getCubeLimit_spec h hg hp false
  obtain ⟨y, hy1, hy2⟩ := getCubeLimit_spec h hg hp true
  exact ⟨⟨x, hx1, funext fun j => by simpa using hx2 j⟩, ⟨y, hy1, funext fun j => by simpa using hy2 j⟩⟩

example : Zoo.betaOmega.getEntrance 1 = some ![0, 1 / 3] ∧ Zoo.betaOmega.getExit 1 = some ![2 / 3, 0] := by decide +kernel
example : Zoo.betaOmega.GatesDefined := (full_of_fullB (by decide +kernel)).gates

/-- C17, violated: `==` on curves is always true, whatever the curves; `!=` is always false.  (The statement of C17 does not hold.) -/
theorem C17_eq_always_true (a b : FCurve d) : a.pyEq b = true ∧ a.pyNe b = false := ⟨rfl, rfl⟩

/-- C17, a concrete violation: two different curves that compare equal. -/
theorem C17_counterexample : ∃ a b : FCurve 2, a.patterns ≠ b.patterns ∧ a.pyEq b = true :=
  ⟨Zoo.hilbert, Zoo.peano, by decide +kernel, rfl⟩

/-- C17, the direction that holds: curves with the same patterns and selected pattern compare equal. -/
theorem C17_eq_partial (a b : FCurve d) (_ : a.patterns = b.patterns ∧ a.pnum = b.pnum) : a.pyEq b = true := rfl

end FCurve
end Peano
