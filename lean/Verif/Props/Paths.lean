import Verif.Lemmas.Paths

set_option autoImplicit false

/-!
C37: action of base maps on pointed paths.
-/
namespace Peano
namespace Path
variable {d : ℕ}

/-- C37. `bm * path` does not raise, is again a path, and its global link is `bm * path.link`. -/
theorem C37_act_link (p : Path (Point d) d) (h : p.WF) (b : BaseMap d) :
    ∃ q, act b p = some q ∧ q.WF ∧ q.link = Link.act b p.link :=
  ⟨img b p, act_eq h b, img_wf h b, rfl⟩

/-- C37. The cubes of `bm * path` are the images of the cubes, the links are the images of the links, in the opposite order iff `bm`
reverses time. -/
theorem C37_act_fractions (p q : Path (Point d) d) (h : p.WF) (b : BaseMap d) (hq : act b p = some q) :
    q.div = p.div ∧ q.links.length = p.links.length ∧ q.proto.length = p.proto.length ∧
    ∀ i < p.links.length, ∃ c l, p.proto[i]? = some (some c) ∧ p.links[i]? = some l ∧
      let i' := if b.timeRev then p.links.length - 1 - i else i
      q.proto[i']? = some (some (b.applyCube p.div c)) ∧ q.links[i']? = some (Link.act b l) := by
  obtain ⟨cs, hcs, hne, hlen⟩ := h.data
  rw [act_eq h b] at hq
  simp only [Option.some.injEq] at hq
  subst hq
  have hn := h.length
  refine ⟨rfl, ?_, ?_, ?_⟩
  · simp only [List.length_map]; split <;> simp
  · simp only [Proto.act, List.length_map]; split <;> simp
  · intro i hi
    have hi' : i < cs.length := by omega
    refine ⟨cs[i], p.links[i], by simp [hcs], by simp, ?_⟩
    by_cases ht : b.timeRev = true
    · have e : p.links.length - 1 - (p.links.length - 1 - i) = i := by omega
      have e' : cs.length - 1 - (p.links.length - 1 - i) = i := by omega
      simp only [ht, if_true, Proto.act, hcs, List.getElem?_map]
      rw [List.getElem?_reverse (by rw [List.length_map]; omega), List.getElem?_reverse (by omega), e, List.length_map, e',
        List.getElem?_map, List.getElem?_eq_getElem hi', List.getElem?_eq_getElem hi]
      exact ⟨rfl, rfl⟩
    · simp only [ht, Proto.act, hcs, List.getElem?_map, Bool.false_eq_true, if_false]
      rw [List.getElem?_eq_getElem hi', List.getElem?_eq_getElem hi]
      exact ⟨rfl, rfl⟩

/-- C37. Continuity is decided correctly (`is_continuous` does not raise and says whether consecutive fractions are joined) … -/
theorem C37_is_continuous (p : Path (Point d) d) (h : p.WF) :
    (p.isContinuous = some true ∨ p.isContinuous = some false) ∧ (p.isContinuous = some true ↔ p.Joined) := by
  obtain ⟨b, hb, hb'⟩ := isContinuous_iff h
  rw [hb]
  refine ⟨by cases b <;> simp, ?_⟩
  rw [← hb', Option.some.injEq]

/-- C37. … and base maps preserve it. -/
theorem C37_act_continuous (p q : Path (Point d) d) (h : p.WF) (b : BaseMap d) (hq : act b p = some q) :
    q.isContinuous = p.isContinuous := by
  rw [act_eq h b] at hq
  have hq' : img b p = q := Option.some.inj hq
  subst hq'
  obtain ⟨x, hx, hx'⟩ := isContinuous_iff h
  obtain ⟨y, hy, hy'⟩ := isContinuous_iff (img_wf h b)
  rw [hx, hy, Option.some.injEq]
  rw [Bool.eq_iff_iff, hx', hy', img_joined_iff h]

/-- C37. `(A*B)*path = A*(B*path)`. -/
theorem C37_act_mul (p : Path (Point d) d) (h : p.WF) (a b : BaseMap d) : act (a * b) p = (act b p).bind (act a) := by
  rw [act_eq h, act_eq h, Option.bind_some]
  exact ((act_eq (img_wf h b) a).trans (congrArg some (img_mul a b p).symm)).symm

/-- C37. The identity map does nothing. -/
theorem C37_act_id (p : Path (Point d) d) (h : p.WF) : act (BaseMap.idMap d) p = some p := by
  rw [act_eq h]
  exact congrArg some (img_one p)

/-- C37. `~~path = path`; `~path` has the cubes and the reversed links in the opposite order and the reversed global link. -/
theorem C37_invert (p : Path (Point d) d) (h : p.WF) :
    ∃ q, p.invert = some q ∧ q.invert = some p ∧ q.proto = p.proto.reverse ∧ q.links = p.links.reverse.map Link.invert ∧
      q.link = p.link.invert := by
  have hi : ∀ l : Link (Point d), Link.act (BaseMap.idMap d).invert l = l.invert := by
    intro l
    rw [Link.act_def, BaseMap.idMap_def]
    simp [Link.invert, Point.act]
  refine ⟨img (BaseMap.idMap d).invert p, act_eq h _, ?_, ?_, ?_, ?_⟩
  · refine (act_eq (img_wf h _) _).trans (congrArg some ?_)
    have e : (BaseMap.idMap d).invert * (BaseMap.idMap d).invert = 1 := by
      rw [BaseMap.idMap_def, BaseMap.invert_mul, BaseMap.mul_invert]
      simp
    have := img_mul (BaseMap.idMap d).invert (BaseMap.idMap d).invert p
    rw [e, img_one] at this
    exact this.symm
  · have : (BaseMap.idMap d).invert.applyCube (p.div : ℤ) = id := by
      funext c
      rw [BaseMap.applyCube_invert, BaseMap.idMap_def]
      simp
    simp only [img, Proto.act, this]
    rw [BaseMap.invert_timeRev, BaseMap.idMap_def]
    simp
  · simp only [img, BaseMap.invert_timeRev, BaseMap.idMap_def, BaseMap.one_timeRev, Bool.not_false, if_true]
    exact List.map_congr_left fun l _ => hi l
  · exact hi _

/-- The two-dimensional Hilbert path: gates (0,0) → (1,0) in the appropriate position of each fraction. -/
def hilbertPath : Path (Point 2) 2 where
  div := 2
  proto := [some ![0, 0], some ![0, 1], some ![1, 1], some ![1, 0]]
  links := [⟨![0, 0], ![0, 1]⟩, ⟨![0, 0], ![1, 0]⟩, ⟨![0, 0], ![1, 0]⟩, ⟨![1, 1], ![1, 0]⟩]
  link := ⟨![0, 0], ![1, 0]⟩

/-- The hypotheses of C37 are met by the Hilbert path, which is continuous. -/
example : hilbertPath.WF ∧ hilbertPath.isContinuous = some true := by
  refine ⟨⟨by decide, rfl, ?_⟩, by decide +kernel⟩
  unfold make hilbertPath
  simp only [List.head?, List.getLast?, List.getLast, Option.bind_eq_bind, Option.bind_some, Option.pure_def]
  decide +kernel

end Path
end Peano
