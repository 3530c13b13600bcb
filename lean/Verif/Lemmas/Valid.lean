import Verif.Spec.Curves
import Verif.Lemmas.Itertools

/- Deciding well-formedness of concrete curves. -/
namespace Peano
variable {d : ℕ}
namespace FCurve

/-- A test for `Full`. -/
def fullB (c : FCurve d) : Bool :=
  decide (2 ≤ c.div) && c.patterns.all fun p =>
    decide (p.proto.length = c.genus) && decide (p.specs.length = c.genus) &&
    (p.proto.all fun x => match x with
      | some cube => decide (∀ j, 0 ≤ cube j ∧ cube j < (c.div : ℤ))
      | none => false) &&
    (p.specs.all fun x => match x with
      | some s => decide (s.pnum < c.mult)
      | none => false)

/-- A test for `FillsGrid`. -/
def fillsB (c : FCurve d) : Bool :=
  c.patterns.all fun p => (Itertools.productRepeat (List.range c.div) d).all fun l =>
    decide (some (fun j : Fin d => ((l.getD j 0 : ℕ) : ℤ)) ∈ p.proto)

theorem full_of_fullB {c : FCurve d} (h : c.fullB = true) : c.Full := by
  simp only [fullB, Bool.and_eq_true, decide_eq_true_eq, List.all_eq_true] at h
  obtain ⟨h1, h2⟩ := h
  refine { two_le_div := h1, proto_length := fun p hp => (h2 p hp).1.1.1, specs_length := fun p hp => (h2 p hp).1.1.2,
           cube_range := ?_, spec_range := ?_, cube_def := ?_, spec_def := ?_ }
  · intro p i cube hc
    unfold cube? Proto.cube? at hc
    cases hp : c.patterns[p]? with
    | none => simp [hp] at hc
    | some pat =>
      rw [hp] at hc
      simp only [Option.bind_some] at hc
      cases hx : pat.proto[i]? with
      | none => simp [hx] at hc
      | some x =>
        rw [hx] at hc
        simp only [Option.join_some] at hc
        subst hc
        have := (h2 pat (List.mem_of_getElem? hp)).1.2 _ (List.mem_of_getElem? hx)
        simpa using this
  · intro p i s hc
    unfold spec? at hc
    cases hp : c.patterns[p]? with
    | none => simp [hp] at hc
    | some pat =>
      rw [hp] at hc
      simp only [Option.bind_some] at hc
      cases hx : pat.specs[i]? with
      | none => simp [hx] at hc
      | some x =>
        rw [hx] at hc
        simp only [Option.join_some] at hc
        subst hc
        have := (h2 pat (List.mem_of_getElem? hp)).2 _ (List.mem_of_getElem? hx)
        simpa using this
  · intro p hp i hi
    have hpat : c.patterns[p]? = some c.patterns[p] := List.getElem?_eq_getElem hp
    have hm := List.mem_of_getElem? hpat
    have hl := (h2 _ hm).1.1.1
    have hx : (c.patterns[p]).proto[i]? = some ((c.patterns[p]).proto[i]'(by omega)) := List.getElem?_eq_getElem (by omega)
    have := (h2 _ hm).1.2 _ (List.mem_of_getElem? hx)
    unfold cube? Proto.cube?
    rw [hpat]
    simp only [Option.bind_some, hx]
    cases hz : (c.patterns[p]).proto[i]'(by omega) with
    | none => rw [hz] at this; simp at this
    | some _ => rfl
  · intro p hp i hi
    have hpat : c.patterns[p]? = some c.patterns[p] := List.getElem?_eq_getElem hp
    have hm := List.mem_of_getElem? hpat
    have hl := (h2 _ hm).1.1.2
    have hx : (c.patterns[p]).specs[i]? = some ((c.patterns[p]).specs[i]'(by omega)) := List.getElem?_eq_getElem (by omega)
    have := (h2 _ hm).2 _ (List.mem_of_getElem? hx)
    unfold spec?
    rw [hpat]
    simp only [Option.bind_some, hx]
    cases hz : (c.patterns[p]).specs[i]'(by omega) with
    | none => rw [hz] at this; simp at this
    | some _ => rfl

theorem fills_of_fillsB {c : FCurve d} (hf : c.Full) (h : c.fillsB = true) : c.FillsGrid := by
  simp only [fillsB, List.all_eq_true, decide_eq_true_eq] at h
  intro p hp cube hcube
  have hpat : c.patterns[p]? = some c.patterns[p] := List.getElem?_eq_getElem hp
  have hm := List.mem_of_getElem? hpat
  have := h _ hm (List.ofFn fun j => (cube j).toNat) (by
    rw [Itertools.mem_productRepeat]
    refine ⟨by simp, ?_⟩
    intro x hx
    obtain ⟨j, rfl⟩ := (List.mem_ofFn' _ _).1 hx
    have := hcube j
    rw [List.mem_range]
    show (cube j).toNat < c.div
    omega)
  have e : (fun j : Fin d => (((List.ofFn fun j => (cube j).toNat).getD j 0 : ℕ) : ℤ)) = cube := by
    funext j
    have := hcube j
    simp [List.getD_eq_getElem?_getD, this.1]
  rw [e] at this
  obtain ⟨i, hi⟩ := List.mem_iff_getElem?.1 this
  have hl := hf.proto_length _ hm
  refine ⟨i, ?_, ?_⟩
  · rw [← hl]; exact (List.getElem?_eq_some_iff.1 hi).1
  · unfold cube? Proto.cube?
    rw [hpat]
    simp [hi]

end FCurve
end Peano
