import Verif.Lemmas.Search
import Verif.Props.Curves

set_option autoImplicit false

/-
Patterns whose entrance or exit is inside the cube: only such patterns use them, so they can be thrown away.
-/
namespace Peano
variable {d : ℕ}
namespace FCurve
variable {c : FCurve d} {f : ℕ → ℝ → Fin d → ℝ}

/-- The point is strictly inside the unit cube. -/
def Inner (x : Fin d → ℝ) : Prop := ∀ j, 0 < x j ∧ x j < 1

theorem inner_applyX {a : BaseMap d} {x : Fin d → ℝ} (h : Inner x) : Inner (a.applyX 1 x) := by
  intro j
  obtain ⟨h1, h2⟩ := h (a.coords j).1
  unfold BaseMap.applyX
  split
  · constructor <;> linarith
  · exact ⟨h1, h2⟩

/-- One of the ends of the pattern is strictly inside the cube. -/
def Internal (f : ℕ → ℝ → Fin d → ℝ) (p : ℕ) : Prop := Inner (f p 0) ∨ Inner (f p 1)

/-- The internal end of a fraction is the end of the whole pattern. -/
theorem Realizes.frac_end (h : c.Full) (hfill : c.FillsGrid) (hf : c.Realizes f) {p i : ℕ} (hp : p < c.mult) (hi : i < c.genus) :
    (Inner (actFn (c.specD p i) f 0) → i = 0 ∧ Inner (f p 0)) ∧ (Inner (actFn (c.specD p i) f 1) → i + 1 = c.genus ∧ Inner (f p 1)) := by
  have hN : (0 : ℝ) < c.div := by exact_mod_cast h.div_pos
  have hG : (0 : ℝ) < c.genus := by exact_mod_cast h.genus_pos
  have eq : ∀ k < c.genus, ∀ t : ℝ, 0 ≤ t → t ≤ 1 → f p ((k + t) / c.genus) = fun j => (c.cubeD p k j + actFn (c.specD p k) f t j) / c.div :=
    fun k hk t h0 h1 => hf.eqn p k _ _ (h.cube_eq hp hk) (h.spec_eq hp hk) t h0 h1
  have inn : ∀ k < c.genus, ∀ t : ℝ, 0 ≤ t → t ≤ 1 → Inner (actFn (c.specD p k) f t) → Inner (f p ((k + t) / c.genus)) := by
    intro k hk t h0 h1 hin j
    rw [eq k hk t h0 h1]
    obtain ⟨a1, a2⟩ := hin j
    obtain ⟨b1, b2⟩ := h.cubeD_range hp hk j
    have b1' : (0 : ℝ) ≤ c.cubeD p k j := by exact_mod_cast b1
    have b2' : (c.cubeD p k j : ℝ) + 1 ≤ c.div := by exact_mod_cast b2
    refine ⟨div_pos (by linarith) hN, ?_⟩
    rw [div_lt_one hN]; linarith
  have ne : ∀ k l, k < c.genus → l < c.genus → k ≠ l → ∀ s t : ℝ, 0 ≤ s → s ≤ 1 → 0 ≤ t → t ≤ 1 → (k + s) / c.genus = (l + t) / c.genus →
      ¬ Inner (actFn (c.specD p k) f s) := by
    intro k l hk hl hkl s t s0 s1 t0 t1 e hin
    apply hkl
    apply h.cubeD_inj hfill hp hk hl
    funext j
    have e1 := eq k hk s s0 s1
    rw [e, eq l hl t t0 t1] at e1
    have e2 := congrFun e1 j
    rw [div_left_inj' hN.ne'] at e2
    obtain ⟨a1, a2⟩ := hin j
    obtain ⟨b1, b2⟩ := hf.actFn_mem (h.spec_range p l _ (h.spec_eq hp hl)) t0 t1 j
    have l1 : (c.cubeD p k j : ℝ) < c.cubeD p l j + 1 := by linarith
    have l2 : (c.cubeD p l j : ℝ) < c.cubeD p k j + 1 := by linarith
    have l1' : c.cubeD p k j < c.cubeD p l j + 1 := by exact_mod_cast l1
    have l2' : c.cubeD p l j < c.cubeD p k j + 1 := by exact_mod_cast l2
    omega
  constructor
  · intro hin
    have hi0 : i = 0 := by
      by_contra hne
      refine ne i (i - 1) hi (by omega) (by omega) 0 1 le_rfl zero_le_one zero_le_one le_rfl ?_ hin
      rw [Nat.cast_sub (by omega)]; push_cast; ring
    subst hi0
    refine ⟨rfl, ?_⟩
    have := inn 0 hi 0 le_rfl zero_le_one hin
    simpa using this
  · intro hin
    have hi1 : i + 1 = c.genus := by
      by_contra hne
      refine ne i (i + 1) hi (by omega) (by omega) 1 0 zero_le_one le_rfl le_rfl zero_le_one ?_ hin
      push_cast; ring
    refine ⟨hi1, ?_⟩
    have := inn i hi 1 zero_le_one le_rfl hin
    have e : ((i : ℝ) + 1) / c.genus = 1 := by rw [← hi1]; push_cast; exact div_self (by positivity)
    rwa [e] at this

/-- A fraction with an internal pattern: one of the ends of the fraction is inside its cube. -/
theorem actFn_inner {s : Spec d} (hs : Internal f s.pnum) : Inner (actFn s f 0) ∨ Inner (actFn s f 1) := by
  unfold actFn BaseMap.applyT
  by_cases ht : s.baseMap.timeRev = true
  · simp only [ht, if_true, sub_zero, sub_self]
    exact hs.symm.imp inner_applyX inner_applyX
  · simp only [ht]
    exact hs.imp inner_applyX inner_applyX

/-- Only internal patterns use internal patterns, -/
theorem Realizes.internal_user (h : c.Full) (hfill : c.FillsGrid) (hf : c.Realizes f) {p i : ℕ} (hp : p < c.mult) (hi : i < c.genus)
    (hs : Internal f (c.specD p i).pnum) : Internal f p ∧ (i = 0 ∨ i + 1 = c.genus) := by
  obtain ⟨h1, h2⟩ := hf.frac_end h hfill hp hi
  rcases actFn_inner hs with hh | hh
  · exact ⟨.inl (h1 hh).2, .inl (h1 hh).1⟩
  · exact ⟨.inr (h2 hh).2, .inr (h2 hh).1⟩

/-- The curve where the pattern number `p` is the pattern number `g p` of the given curve. -/
def reindex (c : FCurve d) (g : ℕ → ℕ) : FCurve d :=
  { c with patterns := (List.range c.mult).map fun p => c.patterns.getD (g p) ⟨[], []⟩ }

theorem reindex_mult (c : FCurve d) (g : ℕ → ℕ) : (c.reindex g).mult = c.mult := by simp [reindex, mult]

theorem reindex_genus (c : FCurve d) (g : ℕ → ℕ) : (c.reindex g).genus = c.genus := rfl

theorem reindex_pattern {g : ℕ → ℕ} (hg : ∀ p < c.mult, g p < c.mult) {p : ℕ} (hp : p < c.mult) : (c.reindex g).patterns[p]? = c.patterns[g p]? := by
  have := hg p hp
  simp only [reindex, List.getElem?_map, List.getElem?_range hp, Option.map_some, List.getD_eq_getElem?_getD]
  rw [List.getElem?_eq_getElem (show g p < c.patterns.length from this)]
  rfl

theorem reindex_none (c : FCurve d) (g : ℕ → ℕ) {p : ℕ} (hp : ¬ p < c.mult) : (c.reindex g).patterns[p]? = none := by
  rw [List.getElem?_eq_none]
  have := reindex_mult c g
  unfold mult at this hp
  omega

theorem reindex_cube {g : ℕ → ℕ} (hg : ∀ p < c.mult, g p < c.mult) {p : ℕ} (hp : p < c.mult) (i : ℕ) : (c.reindex g).cube? p i = c.cube? (g p) i := by
  unfold cube?; rw [reindex_pattern hg hp]

theorem reindex_spec {g : ℕ → ℕ} (hg : ∀ p < c.mult, g p < c.mult) {p : ℕ} (hp : p < c.mult) (i : ℕ) : (c.reindex g).spec? p i = c.spec? (g p) i := by
  unfold spec?; rw [reindex_pattern hg hp]

theorem lt_of_cube {p i : ℕ} {x : Cube d} (h : c.cube? p i = some x) : p < c.mult := by
  by_contra hp
  unfold cube? at h
  rw [List.getElem?_eq_none (by unfold mult at hp; omega)] at h
  simp at h

theorem lt_of_spec {p i : ℕ} {x : Spec d} (h : c.spec? p i = some x) : p < c.mult := by
  by_contra hp
  unfold spec? at h
  rw [List.getElem?_eq_none (by unfold mult at hp; omega)] at h
  simp at h

theorem Full.reindex (h : c.Full) {g : ℕ → ℕ} (hg : ∀ p < c.mult, g p < c.mult) : (c.reindex g).Full := by
  have hpat : ∀ q ∈ (c.reindex g).patterns, q ∈ c.patterns := by
    intro q hq
    obtain ⟨p, hp, hpq⟩ := List.getElem_of_mem hq
    have hp' : p < c.mult := by rw [← reindex_mult c g]; exact hp
    have e := reindex_pattern hg hp'
    rw [List.getElem?_eq_getElem hp, hpq] at e
    exact List.mem_of_getElem? e.symm
  refine ⟨⟨h.two_le_div, fun q hq => h.proto_length q (hpat q hq), fun q hq => h.specs_length q (hpat q hq), ?_, ?_⟩, ?_, ?_⟩
  · intro p i x hx
    have hp := lt_of_cube hx
    rw [reindex_mult] at hp
    rw [reindex_cube hg hp] at hx
    exact h.cube_range _ _ _ hx
  · intro p i s hs
    have hp := lt_of_spec hs
    rw [reindex_mult] at hp
    rw [reindex_spec hg hp] at hs
    rw [reindex_mult]
    exact h.spec_range _ _ _ hs
  · intro p hp i hi
    rw [reindex_mult] at hp
    rw [reindex_cube hg hp]
    exact h.cube_def _ (hg p hp) i hi
  · intro p hp i hi
    rw [reindex_mult] at hp
    rw [reindex_spec hg hp]
    exact h.spec_def _ (hg p hp) i hi

/-- The patterns that are not internal use each other; so they can replace the internal ones. -/
theorem IsCandidate.without_internal (hd : 2 ≤ d) {N m : ℕ} {mc : Option ℤ} (h : c.IsCandidate N m mc) (hm : 0 < m) :
    ∃ g : ℕ → ℕ, (∀ p < c.mult, g p < c.mult) ∧ (c.reindex g).IsCandidate N m mc ∧ (c.reindex g).BoundaryGates ∧
      ∀ f, c.Realizes f → (c.reindex g).Realizes fun p => f (g p) := by
  classical
  have hfull := h.full
  obtain ⟨f, hf⟩ := hfull.realizes_of_check h.checked
  have h0 : 0 < c.mult := by rw [h.mult_eq]; exact hm
  have hG : 4 ≤ c.genus := by
    calc 4 = 2 ^ 2 := rfl
      _ ≤ 2 ^ d := Nat.pow_le_pow_right (by norm_num) hd
      _ ≤ c.div ^ d := Nat.pow_le_pow_left hfull.two_le_div d
  have hq : (c.specD 0 1).pnum < c.mult := hfull.spec_range 0 1 _ (hfull.spec_eq h0 (by omega))
  have hqi : ¬ Internal f (c.specD 0 1).pnum := by
    intro hin
    obtain ⟨_, h1 | h1⟩ := hf.internal_user hfull h.fills h0 (by omega) hin <;> omega
  let g : ℕ → ℕ := fun p => if Internal f p then (c.specD 0 1).pnum else p
  have hg : ∀ p < c.mult, g p < c.mult := by
    intro p hp
    simp only [g]; split <;> assumption
  have hgi : ∀ p, ¬ Internal f (g p) := by
    intro p
    by_cases hp : Internal f p
    · simp only [g, hp, if_true]; exact hqi
    · have e : g p = p := if_neg hp
      rw [e]; exact hp
  have hfull' := hfull.reindex hg
  have hreal : ∀ f', c.Realizes f' → (c.reindex g).Realizes fun p => f' (g p) := by
    intro f' hf'
    refine ⟨fun p hp => hf'.mem_cube _ (hg p (by rwa [reindex_mult] at hp)), ?_⟩
    intro p i x s hx hs t t0 t1
    have hp := lt_of_cube hx
    rw [reindex_mult] at hp
    rw [reindex_cube hg hp] at hx
    rw [reindex_spec hg hp] at hs
    have hgp := hg p hp
    have e := hf'.eqn (g p) i x s hx hs t t0 t1
    rw [reindex_genus, e]
    have hi : i < c.genus := by
      by_contra hi
      unfold spec? at hs
      rw [List.getElem?_eq_getElem (show g p < c.patterns.length from hgp)] at hs
      simp only [Option.bind_some] at hs
      rw [List.getElem?_eq_none (by rw [hfull.specs_length _ (List.getElem_mem _)]; omega)] at hs
      simp at hs
    have hsp : g s.pnum = s.pnum := by
      have : ¬ Internal f s.pnum := by
        intro hin
        have es : c.specD (g p) i = s := by
          have := hfull.spec_eq hgp hi
          rw [hs] at this
          exact (Option.some.inj this).symm
        exact hgi p (hf.internal_user hfull h.fills hgp hi (by rw [es]; exact hin)).1
      simp only [g, this, if_false]
    unfold actFn
    simp only [hsp]
    rfl
  refine ⟨g, hg, ⟨hfull', ?_, hfull'.check_of_realizes (hreal f hf), h.div_eq, by rw [reindex_mult]; exact h.mult_eq, ?_⟩, ?_, hreal⟩
  · intro p hp x hx
    rw [reindex_mult] at hp
    obtain ⟨i, hi, e⟩ := h.fills (g p) (hg p hp) x hx
    exact ⟨i, hi, by rw [reindex_cube hg hp]; exact e⟩
  · intro k hk p i x y hx hy
    have hp := lt_of_cube hx
    rw [reindex_mult] at hp
    rw [reindex_cube hg hp] at hx hy
    exact h.steps k hk _ _ _ _ hx hy
  · intro p hp
    obtain ⟨⟨x, hx1, hx2⟩, y, hy1, hy2⟩ := C14_entrance_exit _ hfull'.gates _ (hreal f hf) p hp
    rw [reindex_mult] at hp
    have key : ∀ (x : Point d) (t : ℝ), 0 ≤ t → t ≤ 1 → (fun j => (x j : ℝ)) = f (g p) t → ¬ Inner (f (g p) t) → x.OnBoundary := by
      intro x t t0 t1 e hn
      have hmem := hf.mem_cube (g p) (hg p hp) t t0 t1
      have hb : ∀ j, 0 ≤ x j ∧ x j ≤ 1 := by
        intro j
        have := hmem j
        rw [← e] at this
        dsimp only at this
        exact_mod_cast this
      refine ⟨hb, ?_⟩
      by_contra hno
      push Not at hno
      apply hn
      rw [← e]
      intro j
      have l1 : 0 < x j := lt_of_le_of_ne (hb j).1 (Ne.symm (hno j).1)
      have l2 : x j < 1 := lt_of_le_of_ne (hb j).2 (hno j).2
      dsimp only
      exact ⟨by exact_mod_cast l1, by exact_mod_cast l2⟩
    have hn := hgi p
    unfold Internal at hn
    push Not at hn
    exact ⟨x, y, hx1, hy1, key x 0 le_rfl zero_le_one hx2 hn.1, key y 1 zero_le_one le_rfl hy2 hn.2⟩

end FCurve
end Peano
