import Verif.Lemmas.Faces
import Verif.Lemmas.ListM
import Verif.Lemmas.Valid
import Verif.Lemmas.Check
import Verif.Model.Zoo

set_option autoImplicit false

/-
Property C15.
-/
namespace Peano
variable {d : ℕ}

namespace FCurve

/-- C15. `get_face_moment(face, pnum, last=False)` always returns, and returns the least time `t ∈ [0,1]` at which `f_p(t)` lies on the
face; with `find_point` it returns the same time together with the curve point `f_p(t)`, which lies on the face. -/
theorem C15_first_moment (c : FCurve d) (hd : d ≠ 0) (h : c.Full) (hfill : c.FillsGrid) (f : ℕ → ℝ → Fin d → ℝ) (hf : c.Realizes f) (face : Face d) (p : ℕ)
    (hp : p < c.mult) :
    ∃ (q : ℚ) (x : Point d), c.getFaceMoment face p false = some q ∧ c.getFacePoint face p false = some ⟨x, q⟩ ∧
      IsLeast {t : ℝ | 0 ≤ t ∧ t ≤ 1 ∧ OnFace face (f p t)} (q : ℝ) ∧ (fun j => (x j : ℝ)) = f p q ∧ OnFace face fun j => (x j : ℝ) := by
  obtain ⟨q, x, h1, h2, h3, h4⟩ := faceLoop_spec h hfill hf hd face false hp
  have h3 : IsLeast {t : ℝ | 0 ≤ t ∧ t ≤ 1 ∧ OnFace face (f p t)} (q : ℝ) := h3
  refine ⟨q, x, h1, h2, h3, h4, ?_⟩
  rw [h4]; exact h3.1.2.2

/-- C15. With `last=True` it is the greatest such time. -/
theorem C15_last_moment (c : FCurve d) (hd : d ≠ 0) (h : c.Full) (hfill : c.FillsGrid) (f : ℕ → ℝ → Fin d → ℝ) (hf : c.Realizes f) (face : Face d) (p : ℕ)
    (hp : p < c.mult) :
    ∃ (q : ℚ) (x : Point d), c.getFaceMoment face p true = some q ∧ c.getFacePoint face p true = some ⟨x, q⟩ ∧
      IsGreatest {t : ℝ | 0 ≤ t ∧ t ≤ 1 ∧ OnFace face (f p t)} (q : ℝ) ∧ (fun j => (x j : ℝ)) = f p q ∧ OnFace face fun j => (x j : ℝ) := by
  obtain ⟨q, x, h1, h2, h3, h4⟩ := faceLoop_spec h hfill hf hd face true hp
  have h3 : IsGreatest {t : ℝ | 0 ≤ t ∧ t ≤ 1 ∧ OnFace face (f p t)} (q : ℝ) := h3
  refine ⟨q, x, h1, h2, h3, h4, ?_⟩
  rw [h4]; exact h3.1.2.2

/-- C15. `get_vertex_moments` has every vertex exactly once as a key; its value is the only time at which the curve is at that
vertex. -/
theorem C15_vertex_moments (c : FCurve d) (hd : d ≠ 0) (h : c.Full) (hfill : c.FillsGrid) (f : ℕ → ℝ → Fin d → ℝ) (hf : c.Realizes f) (p : ℕ)
    (hp : p < c.mult) :
    ∃ res, c.getVertexMoments p = some res ∧ (res.map Prod.fst).Nodup ∧ (∀ v : Fin d → Bool, ∃ q, (v, q) ∈ res) ∧
      ∀ v q, (v, q) ∈ res → ∀ t : ℝ, (0 ≤ t ∧ t ≤ 1 ∧ f p t = fun j => if v j then 1 else 0) ↔ t = q := by
  have hmom : ∀ v : Fin d → Bool, ∃ q, c.getFaceMoment (fun j => some (v j)) p false = some q ∧
      IsLeast {t : ℝ | 0 ≤ t ∧ t ≤ 1 ∧ OnFace (fun j => some (v j)) (f p t)} (q : ℝ) := by
    intro v
    obtain ⟨q, _, h1, _, h3, _⟩ := C15_first_moment c hd h hfill f hf (fun j => some (v j)) p hp
    exact ⟨q, h1, h3⟩
  choose q hq1 hq2 using hmom
  have hon : ∀ (v : Fin d → Bool) (x : Fin d → ℝ), OnFace (fun j => some (v j)) x ↔ x = fun j => if v j then 1 else 0 := by
    intro v x
    constructor
    · intro ho; funext j; exact ho j (v j) rfl
    · rintro rfl j b hb
      simp only [Option.some.injEq] at hb
      simp [hb]
  have hset : ∀ v : Fin d → Bool, ∀ t : ℝ, t ∈ touchTimes f (fun j => some (v j)) ⟨BaseMap.idMap d, p⟩ ↔
      0 ≤ t ∧ t ≤ 1 ∧ f p t = fun j => if v j then 1 else 0 := by
    intro v t
    rw [← hon]
    unfold touchTimes
    rw [Set.mem_setOf_eq, actFn_id]
  refine ⟨(Itertools.productRepeat [false, true] d).map fun l => ((fun j => l.getD j false : Fin d → Bool), q fun j => l.getD j false), ?_, ?_, ?_, ?_⟩
  · unfold getVertexMoments
    apply mapM_eq_some_map
    intro l _
    simp [hq1]
  · rw [List.map_map]
    apply List.Nodup.map_on _ (Itertools.nodup_productRepeat (by decide) d)
    intro a ha b hb e
    rw [Itertools.mem_productRepeat] at ha hb
    have e' : (fun j : Fin d => a.getD j false) = fun j : Fin d => b.getD j false := e
    apply List.ext_getElem (by omega)
    intro i h1 h2
    have := congrFun e' ⟨i, by omega⟩
    simpa [h1, h2] using this
  · intro v
    refine ⟨q v, ?_⟩
    rw [List.mem_map]
    have hv : (fun j : Fin d => (List.ofFn v).getD j false) = v := by
      funext j
      simp [List.getD]
    exact ⟨List.ofFn v, by rw [Itertools.mem_productRepeat]; simp, by simp only [hv]⟩
  · intro v r hr t
    rw [List.mem_map] at hr
    obtain ⟨l, _, e⟩ := hr
    simp only [Prod.mk.injEq] at e
    obtain ⟨e1, e2⟩ := e
    rw [e1] at e2
    subst e2
    have hmem := (hq2 v).1
    rw [Set.mem_setOf_eq, hon, ← hset] at hmem
    rw [← hset]
    constructor
    · intro ht
      exact vertex_time_unique h hfill hf hd v hp ht hmem
    · rintro rfl; exact hmem

/-- The hypotheses of C15 hold for Tokarev's curve. -/
example : Zoo.tokarev.Full ∧ Zoo.tokarev.FillsGrid ∧ ∃ f, Zoo.tokarev.Realizes f := by
  have hf : Zoo.tokarev.Full := full_of_fullB (by decide +kernel)
  exact ⟨hf, fills_of_fillsB hf (by decide +kernel), hf.realizes_of_check (by decide +kernel)⟩

/-- Non-trivial values (they agree with the table in zoo.py:240). -/
example : Zoo.haverkortF.getVertexMoments 0 = some [(![false, false, false], 1 / 28), (![false, false, true], 13 / 28),
    (![false, true, false], 6 / 28), (![false, true, true], 8 / 28), (![true, false, false], 27 / 28), (![true, false, true], 15 / 28),
    (![true, true, false], 22 / 28), (![true, true, true], 20 / 28)] := by decide +kernel

end FCurve
end Peano
