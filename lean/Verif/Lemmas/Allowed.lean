import Verif.Lemmas.CurvesAct

/- Allowed specs of mapped curves. -/
namespace Peano
variable {d : ℕ}
namespace FCurve

theorem lookup_map_snd {α β γ : Type} [BEq α] (f : β → γ) (l : List (α × β)) (a : α) :
    (l.map fun e => (e.1, f e.2)).lookup a = (l.lookup a).map f := by
  induction l with
  | nil => rfl
  | cons e l ih =>
    obtain ⟨k, v⟩ := e
    simp only [List.map_cons, List.lookup_cons]
    cases a == k <;> simp [ih]

/-- index into a possibly reversed list -/
theorem getElem?_rev {α : Type} (l : List α) (b : BaseMap d) {i : ℕ} (hi : i < l.length) :
    (if b.timeRev then l.reverse else l)[i]? = l[b.applyCnum l.length i]? := by
  unfold BaseMap.applyCnum
  by_cases hb : b.timeRev = true
  · simp only [hb, if_true]; rw [List.getElem?_reverse hi]
  · simp [hb]

/-- Additional data of a path-fuzzy curve in `act b c`. -/
def PathData.act (b : BaseMap d) (x : PathData d) : PathData d :=
  PathData.applyCubeMap b.cubeMap (if b.timeRev then PathData.invert x else x)

theorem act_kind (b : BaseMap d) (c : FCurve d) :
    (FCurve.act b c).kind = match c.kind with
      | .path x => .path (PathData.act b x)
      | k => k := by
  unfold FCurve.act PathData.act applyCubeMap invert
  by_cases hb : b.timeRev = true <;> cases hk : c.kind <;> simp [hb, hk]

variable {c : FCurve d}

theorem getElem?_act_specs (hs : c.Shape) (b : BaseMap d) {p i : ℕ} (hi : i < c.genus) :
    ((FCurve.act b c).patterns[p]?).bind (fun q => q.specs[i]?) =
      ((c.patterns[p]?).bind fun q => q.specs[b.applyCnum c.genus i]?).map (Option.map fun s => s.conjugateBy b.cubeMap) := by
  rw [getElem?_act_patterns]
  cases hp : c.patterns[p]? with
  | none => rfl
  | some pat =>
    have hl := hs.specs_length pat (List.mem_of_getElem? hp)
    simp only [Option.map_some, Option.bind_some, List.getElem?_map]
    rw [getElem?_rev _ _ (by omega), hl]

theorem genAllowedSpecs_act (hs : c.Shape) (hk : ∀ x, c.kind = .path x → (∀ l ∈ x.patternLinks, l.length = c.genus) ∧
    ∀ l ∈ x.patternReprs, l.length = c.genus) (b : BaseMap d) {p i : ℕ} (hi : i < c.genus) :
    (FCurve.act b c).genAllowedSpecs p i =
      (c.genAllowedSpecs p (b.applyCnum c.genus i)).map (List.map fun s => s.conjugateBy b.cubeMap) := by
  unfold genAllowedSpecs
  rw [act_kind]
  cases hkind : c.kind with
  | fuzzy => rfl
  | curve =>
    simp only
    rw [hs.spec?_act b p i hi]
    cases c.spec? p (b.applyCnum c.genus i) <;> rfl
  | path x =>
    obtain ⟨hl1, hl2⟩ := hk x hkind
    simp only
    have h1 := getElem?_act_specs hs b (p := p) hi
    cases hp : c.patterns[p]? with
    | none =>
      have : (FCurve.act b c).patterns[p]? = none := by rw [getElem?_act_patterns, hp]; rfl
      simp [this]
    | some pat =>
      have hp' := getElem?_act_patterns c b p
      rw [hp] at hp'
      simp only [Option.map_some] at hp'
      rw [hp, hp'] at h1
      simp only [Option.bind_some] at h1
      simp only [hp', Option.bind_eq_bind, Option.bind_some, h1]
      cases hsp : pat.specs[b.applyCnum c.genus i]? with
      | none => rfl
      | some o =>
        cases o with
        | some s => rfl
        | none =>
          simp only [Option.map_some, Option.map_none, Option.bind_some]
          -- links
          have hlinks : ((PathData.act b x).patternLinks[p]?).bind (fun l => l[i]?) = (x.patternLinks[p]?).bind fun l => l[b.applyCnum c.genus i]? := by
            have e : (PathData.act b x).patternLinks = x.patternLinks.map fun l => if b.timeRev then l.reverse else l := by
              unfold PathData.act PathData.applyCubeMap PathData.invert
              by_cases hb : b.timeRev = true <;> simp [hb]
            rw [e, List.getElem?_map]
            cases hl : x.patternLinks[p]? with
            | none => rfl
            | some l =>
              have := hl1 l (List.mem_of_getElem? hl)
              simp only [Option.map_some, Option.bind_some]
              rw [getElem?_rev _ _ (by omega), this]
          have hreprs : ((PathData.act b x).patternReprs[p]?).bind (fun l => l[i]?) =
              ((x.patternReprs[p]?).bind fun l => l[b.applyCnum c.genus i]?).map fun r => b.cubeMap * (if b.timeRev then r.invert else r) := by
            have e : (PathData.act b x).patternReprs = x.patternReprs.map fun l =>
                (if b.timeRev then l.reverse else l).map fun r => b.cubeMap * (if b.timeRev then r.invert else r) := by
              unfold PathData.act PathData.applyCubeMap PathData.invert
              by_cases hb : b.timeRev = true <;> simp [hb]
            rw [e, List.getElem?_map]
            cases hl : x.patternReprs[p]? with
            | none => rfl
            | some l =>
              have := hl2 l (List.mem_of_getElem? hl)
              simp only [Option.map_some, Option.bind_some, List.getElem?_map]
              rw [getElem?_rev _ _ (by omega), this]
          have hsym : (PathData.act b x).linksSymmetries = x.linksSymmetries := by
            unfold PathData.act PathData.applyCubeMap PathData.invert
            by_cases hb : b.timeRev = true <;> simp [hb]
          have hstd : ∀ link, (PathData.act b x).linksStd.lookup link = (x.linksStd.lookup link).map (List.map fun q =>
              (q.1, (if b.timeRev then q.2.invert else q.2) * b.cubeMap⁻¹)) := by
            intro link
            rw [← lookup_map_snd]
            congr 1
            unfold PathData.act PathData.applyCubeMap PathData.invert
            by_cases hb : b.timeRev = true <;> simp [hb]
          cases ha : (x.patternLinks[p]?).bind fun l => l[b.applyCnum c.genus i]? with
          | none =>
            rw [ha] at hlinks
            have e1 : ∀ {α : Type} (k : Link (Point d) → Option α),
                (((PathData.act b x).patternLinks[p]?).bind fun a => (a[i]?).bind k) = none := by
              intro α k
              rw [← Option.bind_assoc, hlinks]; rfl
            have e2 : ∀ {α : Type} (k : Link (Point d) → Option α),
                ((x.patternLinks[p]?).bind fun a => (a[b.applyCnum c.genus i]?).bind k) = none := by
              intro α k
              rw [← Option.bind_assoc, ha]; rfl
            rw [e1, e2]; rfl
          | some link =>
            rw [ha] at hlinks
            rw [← Option.bind_assoc, ← Option.bind_assoc, hlinks, ha]
            simp only [Option.bind_some]
            rw [← Option.bind_assoc, ← Option.bind_assoc, hreprs]
            cases (x.patternReprs[p]?).bind fun l => l[b.applyCnum c.genus i]? with
            | none => rfl
            | some r =>
              simp only [Option.map_some, Option.bind_some, hsym, hstd]
              cases x.linksSymmetries.lookup link with
              | none => rfl
              | some syms =>
                cases x.linksStd.lookup link with
                | none => rfl
                | some std =>
                  simp only [Option.map_some, Option.bind_some, Option.pure_def, Option.some.injEq, List.flatMap_map, List.map_flatMap,
                    List.map_map]
                  congr 1
                  funext q
                  apply List.map_congr_left
                  intro sy _
                  simp only [Spec.conjugateBy, Function.comp, Spec.mk.injEq, and_true, BaseMap.conjugateBy]
                  by_cases hb : b.timeRev = true
                  · simp only [hb, if_true, mul_assoc, BaseMap.invert_mul, BaseMap.mul_invert, BaseMap.invert_invert]
                  · simp [hb, mul_assoc]

end FCurve
end Peano
