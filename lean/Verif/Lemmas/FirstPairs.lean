import Verif.Lemmas.Pairs
import Verif.Lemmas.Attained

set_option autoImplicit false

/- First-order pairs. -/
namespace Peano
variable {d : ℕ} {r : Ratio} {f : ℕ → ℝ → Fin d → ℝ}
namespace FCurve
variable {c c' e : FCurve d}

namespace Estimable
variable (hE : c.Estimable)
include hE

theorem ready (hd : d ≠ 0) : ∃ T, Sat.Ready c T := by
  obtain ⟨T, h1, h2, h3, h4⟩ := getJunctionTemplates_spec hE.sized hE.allowedDefined hE.nonempty (hE.two_le_genus hd)
    fun e he => ⟨(hE.possible e he).1, (hE.possible e he).2.1⟩
  exact ⟨T, hE.allowedDefined, h1, h2, h3, h4, fun e he => ⟨(hE.possible e he).1, (hE.possible e he).2.1⟩⟩

theorem self (hk : c.kind = .curve) : Possible c c := by
  refine ⟨hk, rfl, rfl, rfl, ?_, ?_⟩
  · intro p pat pat' h1 h2
    rw [h1] at h2
    cases h2
    exact ⟨rfl, hE.specs_length pat (List.mem_of_getElem? h1)⟩
  · intro p hp i hi
    obtain ⟨l, h1, h2, h3⟩ := hE.allowed p hp i hi
    have h4 := h1
    unfold genAllowedSpecs at h4
    simp only [hk, Option.map_eq_some_iff] at h4
    obtain ⟨s, h5, rfl⟩ := h4
    exact ⟨[s], s, h1, List.mem_singleton_self s, h5⟩

theorem eq_self (hk : c.kind = .curve) (he : Possible c e) : e = c := by
  refine he.ext (hE.self hk) fun p hp i hi => ?_
  obtain ⟨l, s, h1, h2, h3⟩ := (hE.self hk).allowed p hp i hi
  rw [h3]
  exact hE.agrees he p i s h3

/-- Junctions known to the estimator. -/
theorem junctions (hd : d ≠ 0) : ∃ l, Dilation.regularJunctions c = some l ∧
    (∀ j ∈ l, j.deltaT = 1 ∧ j.spec1.pnum < c.mult ∧ j.spec2.pnum < c.mult ∧ ∃ e, Possible c e ∧ e.HasJunction j) ∧
    ∀ e, Possible c e → ∀ j, e.HasJunction j → j ∈ c.genAutoJunctions ∨ j ∈ l := by
  by_cases hk : c.kind = .curve
  · obtain ⟨hf, hc, _⟩ := hE.possible c (hE.self hk)
    obtain ⟨l, h1, h2, _⟩ := hf.regJ hk hc
    refine ⟨l.map Prod.fst, ?_, ?_, ?_⟩
    · unfold Dilation.regularJunctions
      simp only [hk, h1, Option.map_some]
    · intro j hj
      obtain ⟨a, b, c1, _⟩ := h2 j hj
      exact ⟨a, b, c1, c, hE.self hk, Or.inr ⟨l, h1, hj⟩⟩
    · intro e he j hj
      rw [hE.eq_self hk he] at hj
      rcases hj with hj | ⟨l', hl', hj⟩
      · exact Or.inl hj
      · rw [h1] at hl'
        cases hl'
        exact Or.inr hj
  · obtain ⟨T, hR⟩ := hE.ready hd
    have hreg : Dilation.regularJunctions c = some (T.map Prod.fst) := by
      unfold Dilation.regularJunctions genRegularJunctionsFuzzy
      cases hkk : c.kind with
      | curve => exact absurd hkk hk
      | fuzzy => simp only [hR.templates, Option.map_some]
      | path x => simp only [hR.templates, Option.map_some]
    refine ⟨_, hreg, ?_, ?_⟩
    · intro j hj
      obtain ⟨⟨j', ts⟩, hm, rfl⟩ := List.mem_map.1 hj
      obtain ⟨h1, h2⟩ := hR.active j' ts hm
      obtain ⟨t, ht⟩ := List.exists_mem_of_ne_nil _ h1
      obtain ⟨e, he, ha⟩ := h2 t ht
      have hj : e.HasJunction j' := (hR.hasJunction_key he hm).2 ⟨t, ht, ha⟩
      obtain ⟨hf, hc, _⟩ := hE.possible e he
      obtain ⟨p1, p2, _⟩ := hf.hasJunction he.kind hc hj
      rw [he.mult] at p1 p2
      exact ⟨hR.key_deltaT hm, p1, p2, e, he, hj⟩
    · intro e he j hj
      rcases (hR.hasJunction_iff he j).1 hj with h | ⟨ts, h, _⟩
      · exact Or.inl h
      · exact Or.inr (List.mem_map.2 ⟨_, h, rfl⟩)

theorem candidate_of_has (hd : d ≠ 0) (he : Possible c e) {j : Junction d} (hj : e.HasJunction j) : c.Candidate j := by
  obtain ⟨l, h1, _, h3⟩ := hE.junctions hd
  exact (h3 e he j hj).imp id fun h => ⟨l, h1, h⟩

theorem candidate_has (hd : d ≠ 0) {j : Junction d} (hj : c.Candidate j) : ∃ e, Possible c e ∧ e.HasJunction j := by
  obtain ⟨l, h1, h2, h3⟩ := hE.junctions hd
  rcases hj with hj | ⟨l', h, hj⟩
  · obtain ⟨e, he⟩ := hE.exists_possible
    refine ⟨e, he, Or.inl ?_⟩
    unfold genAutoJunctions at hj ⊢
    rw [he.mult]
    exact hj
  · rw [h1] at h
    cases h
    exact (h2 j hj).2.2.2

theorem candidate_pnum (hd : d ≠ 0) {j : Junction d} (hj : c.Candidate j) : j.spec1.pnum < c.mult ∧ j.spec2.pnum < c.mult := by
  obtain ⟨e, he, h⟩ := hE.candidate_has hd hj
  obtain ⟨hf, hc, _⟩ := hE.possible e he
  obtain ⟨p1, p2, _⟩ := hf.hasJunction he.kind hc h
  rw [he.mult] at p1 p2
  exact ⟨p1, p2⟩

end Estimable

/-- First-order fractions of a junction that are not adjacent in time, by their numbers in the patterns. -/
def FirstPair (c : FCurve d) (x : Junction d × ℕ × ℕ) : Prop :=
  c.Candidate x.1 ∧ x.2.1 < c.genus ∧ x.2.2 < c.genus ∧
    x.1.spec1.baseMap.applyCnum c.genus x.2.1 + 2 ≤ x.1.deltaT * c.genus + x.1.spec2.baseMap.applyCnum c.genus x.2.2

theorem applyCnum_last {b : BaseMap d} {G i : ℕ} (hi : i < G) : b.applyCnum G i = G - 1 ↔ i = if b.timeRev then 0 else G - 1 := by
  unfold BaseMap.applyCnum
  by_cases h : b.timeRev = true <;> simp only [h, if_true, if_false, Bool.false_eq_true] <;> omega

theorem applyCnum_first {b : BaseMap d} {G i : ℕ} (hi : i < G) : b.applyCnum G i = 0 ↔ i = if b.timeRev then G - 1 else 0 := by
  unfold BaseMap.applyCnum
  by_cases h : b.timeRev = true <;> simp only [h, if_true, if_false, Bool.false_eq_true] <;> omega

theorem Estimable.pairData (hE : c.Estimable) (hd : d ≠ 0) : ∃ data, Dilation.pairData c = some data ∧ ∀ x, x ∈ data ↔ c.FirstPair x := by
  obtain ⟨l, h1, h2, _⟩ := hE.junctions hd
  refine ⟨_, by unfold Dilation.pairData; rw [h1]; rfl, ?_⟩
  rintro ⟨j, i1, i2⟩
  rw [List.mem_append, List.mem_flatMap, List.mem_flatMap]
  constructor
  · rintro (⟨a, ha, hx⟩ | ⟨a, ha, hx⟩)
    · unfold Dilation.autoPairs at hx
      simp only [List.mem_flatMap, List.mem_range, List.mem_map, Prod.mk.injEq, List.mem_range'_1] at hx
      obtain ⟨k1, hk1, k2, hk2, rfl, rfl, rfl⟩ := hx
      refine ⟨Or.inl ha, hk1, by show k2 < _; omega, ?_⟩
      have hT := Sat.auto_deltaT ha
      unfold genAutoJunctions at ha
      obtain ⟨p, _, rfl⟩ := List.mem_map.1 ha
      show k1 + 2 ≤ 0 * c.genus + k2
      omega
    · unfold Dilation.regularPairs at hx
      simp only [List.mem_flatMap, List.mem_range, List.mem_filterMap] at hx
      obtain ⟨k1, hk1, k2, hk2, hx⟩ := hx
      by_cases hne : (k1, k2) ≠ (if a.spec1.baseMap.timeRev then 0 else c.genus - 1, if a.spec2.baseMap.timeRev then c.genus - 1 else 0)
      · rw [if_pos hne] at hx
        simp only [Option.some.injEq, Prod.mk.injEq] at hx
        obtain ⟨rfl, rfl, rfl⟩ := hx
        refine ⟨Or.inr ⟨l, h1, ha⟩, hk1, hk2, ?_⟩
        show a.spec1.baseMap.applyCnum c.genus k1 + 2 ≤ a.deltaT * c.genus + a.spec2.baseMap.applyCnum c.genus k2
        rw [(h2 a ha).1, one_mul]
        have g1 := BaseMap.applyCnum_lt a.spec1.baseMap hk1
        have g2 := BaseMap.applyCnum_lt a.spec2.baseMap hk2
        by_contra hcon
        have e1 : a.spec1.baseMap.applyCnum c.genus k1 = c.genus - 1 := by omega
        have e2 : a.spec2.baseMap.applyCnum c.genus k2 = 0 := by omega
        rw [applyCnum_last hk1] at e1
        rw [applyCnum_first hk2] at e2
        exact hne (by rw [e1, e2])
      · rw [if_neg hne] at hx
        cases hx
  · rintro ⟨ha | ⟨l', hl', ha⟩, hk1, hk2, hfar⟩
    · left
      refine ⟨j, ha, ?_⟩
      have hT := Sat.auto_deltaT ha
      unfold genAutoJunctions at ha
      obtain ⟨p, _, hp⟩ := List.mem_map.1 ha
      unfold Dilation.autoPairs
      simp only [List.mem_flatMap, List.mem_range, List.mem_map, Prod.mk.injEq, List.mem_range'_1]
      rw [← hp] at hfar
      have hfar : i1 + 2 ≤ 0 * c.genus + i2 := hfar
      simp only at hk1 hk2
      exact ⟨i1, hk1, i2, by omega, by simp⟩
    · right
      rw [h1] at hl'
      cases hl'
      refine ⟨j, ha, ?_⟩
      unfold Dilation.regularPairs
      simp only [List.mem_flatMap, List.mem_range, List.mem_filterMap]
      refine ⟨i1, hk1, i2, hk2, ?_⟩
      rw [if_pos]
      simp only at hfar hk1 hk2
      rw [(h2 j ha).1, one_mul] at hfar
      intro heq
      simp only [Prod.mk.injEq] at heq
      have g1 := (applyCnum_last (b := j.spec1.baseMap) hk1).2 heq.1
      have g2 := (applyCnum_first (b := j.spec2.baseMap) hk2).2 heq.2
      have := hE.genus_pos
      omega

theorem Estimable.firstPiece (hE : c.Estimable) {p i : ℕ} (hp : p < c.mult) (hi : i < c.genus) :
    ∃ pos, PiecePair.firstPos c p i = some pos ∧ pos.cnums = [i] ∧ PieceOK c p pos := by
  obtain ⟨x, hx⟩ := hE.cube_def hp hi
  refine ⟨⟨c.div, [i], [x]⟩, by unfold PiecePair.firstPos; rw [hx]; rfl, rfl, hp, rfl, by simp, ⟨_, rfl⟩, ?_⟩
  intro e he
  refine ⟨he.div.symm, by simpa [he.genus] using hi, ?_⟩
  have hf := (hE.possible e he).1
  have hx' : e.cube? p i = some x := by rw [he.cube?]; exact hx
  have hc : e.cubeD p i = x := by unfold cubeD; rw [hx']; rfl
  show [x] = [e.curCube ⟨BaseMap.idMap d, p⟩ i]
  have h1 : BaseMap.applyCnum (BaseMap.idMap d) e.genus i = i := rfl
  have h2 : e.curCube ⟨BaseMap.idMap d, p⟩ i = BaseMap.applyCube (BaseMap.idMap d) e.div (e.cubeD p i) := rfl
  rw [h2, hc]
  congr 1

theorem cellNo_first {s : Spec d} {pos : PiecePos d} {i : ℕ} (h : pos.cnums = [i]) : c.cellNo s pos = s.baseMap.applyCnum c.genus i ∧ pos.depth = 1 := by
  have hdep : pos.depth = 1 := by unfold PiecePos.depth; rw [h]; rfl
  refine ⟨?_, hdep⟩
  unfold cellNo
  rw [hdep, h, pow_one]
  congr 1
  simpa using getIntTime_eq_ofDigits d c.div [i]

theorem Estimable.firstPair (hE : c.Estimable) (hd : d ≠ 0) {x : Junction d × ℕ × ℕ} (hx : c.FirstPair x) :
    ∃ p, PiecePair.initFirstOrder c x.1 x.2.1 x.2.2 = some p ∧ PairOK c p ∧ p.curve = c ∧ p.junc = x.1 ∧ p.pos1.cnums = [x.2.1] ∧ p.pos2.cnums = [x.2.2] := by
  obtain ⟨hj, h1, h2, hfar⟩ := hx
  obtain ⟨p1, p2⟩ := hE.candidate_pnum hd hj
  obtain ⟨pos1, a1, a2, a3⟩ := hE.firstPiece p1 h1
  obtain ⟨pos2, b1, b2, b3⟩ := hE.firstPiece p2 h2
  refine ⟨⟨c, x.1, pos1, pos2⟩, by unfold PiecePair.initFirstOrder; rw [a1, b1]; rfl, ⟨hE.refl, hj, a3, b3, ?_, ?_⟩, rfl, rfl, a2, b2⟩
  · left
    show pos1.depth = pos2.depth
    unfold PiecePos.depth
    rw [a2, b2]
    rfl
  · show ((c.cellNo x.1.spec1 pos1 + 1 : ℕ) : ℝ) / (c.genus : ℝ) ^ pos1.depth + 1 / c.genus ≤ x.1.deltaT + (c.cellNo x.1.spec2 pos2 : ℝ) / (c.genus : ℝ) ^ pos2.depth
    obtain ⟨e1, e2⟩ := cellNo_first (c := c) (s := x.1.spec1) a2
    obtain ⟨e3, e4⟩ := cellNo_first (c := c) (s := x.1.spec2) b2
    have hG : (0 : ℝ) < c.genus := by exact_mod_cast hE.genus_pos
    rw [e1, e2, e3, e4, pow_one]
    have hfar' : (x.1.spec1.baseMap.applyCnum c.genus x.2.1 : ℝ) + 2 ≤ x.1.deltaT * c.genus + x.1.spec2.baseMap.applyCnum c.genus x.2.2 := by exact_mod_cast hfar
    have h3 : (x.1.deltaT : ℝ) + (x.1.spec2.baseMap.applyCnum c.genus x.2.2 : ℝ) / c.genus =
        (x.1.deltaT * c.genus + x.1.spec2.baseMap.applyCnum c.genus x.2.2) / c.genus := by field_simp
    rw [h3, ← add_div]
    apply div_le_div_of_nonneg_right _ hG.le
    push_cast
    linarith

/-- Each ratio of a possible curve is a ratio of points of a first-order pair. -/
theorem Estimable.firstCover (hE : c.Estimable) (hd : d ≠ 0) (hr : r.Ok d) (he : Possible c e) (hf : e.Realizes f) {x : ℝ} (hx : x ∈ e.ratios r f) :
    ∃ y, c.FirstPair y ∧ e.HasJunction y.1 ∧ ∀ p : PiecePair d, p.junc = y.1 → p.pos1.cnums = [y.2.1] → p.pos2.cnums = [y.2.2] →
      ∃ u v : ℝ, c.InLo p.junc.spec1 p.pos1 u ∧ c.InHi p.junc.spec2 p.pos2 v ∧ x = p.junc.ratio r f u v := by
  have hfull := (hE.possible e he).1
  obtain ⟨j, i1, i2, hj, hF, u, v, u0, u1, v0, v1, rfl⟩ := hfull.cover hd hr he.kind hf hx
  obtain ⟨g1, g2, g3⟩ := hF
  rw [he.genus] at g1 g2 g3 ⊢
  refine ⟨(j, j.spec1.baseMap.applyCnum c.genus i1, j.spec2.baseMap.applyCnum c.genus i2),
    ⟨hE.candidate_of_has hd he hj, BaseMap.applyCnum_lt _ g1, BaseMap.applyCnum_lt _ g2, ?_⟩, hj, ?_⟩
  · show j.spec1.baseMap.applyCnum c.genus (j.spec1.baseMap.applyCnum c.genus i1) + 2 ≤
      j.deltaT * c.genus + j.spec2.baseMap.applyCnum c.genus (j.spec2.baseMap.applyCnum c.genus i2)
    rw [BaseMap.applyCnum_applyCnum _ g1, BaseMap.applyCnum_applyCnum _ g2]
    exact g3
  · rintro p hp h1 h2
    obtain ⟨e1, e2⟩ := cellNo_first (c := c) (s := p.junc.spec1) h1
    obtain ⟨e3, e4⟩ := cellNo_first (c := c) (s := p.junc.spec2) h2
    rw [hp] at e1 e3
    simp only at e1 e3
    rw [BaseMap.applyCnum_applyCnum _ g1] at e1
    rw [BaseMap.applyCnum_applyCnum _ g2] at e3
    rw [hp]
    exact ⟨_, _, ⟨u, u0, u1, by rw [e1, e2, pow_one]⟩, ⟨v, v0, v1, by rw [e3, e4, pow_one]⟩, rfl⟩

/-- Pairs reached by the estimators. -/
theorem Estimable.reached (hE : c.Estimable) (hd : d ≠ 0) {p : PiecePair d} (h : p.Reached c) : PairOK c p := by
  induction h with
  | first h1 h2 h3 =>
    obtain ⟨data, g1, g2⟩ := hE.pairData hd
    rw [h1] at g1
    cases g1
    obtain ⟨p, g3, g4, _⟩ := hE.firstPair hd ((g2 _).1 h2)
    rw [h3] at g3
    cases g3
    exact g4
  | divide _ h2 h3 ih =>
    obtain ⟨subs, g1, g2⟩ := ih.divide
    rw [h2] at g1
    cases g1
    exact (g2.ok _ h3).1

theorem PairOK.dt_pos {p : PiecePair d} (h : PairOK c p) {u v : ℝ} (hu : c.InCl p.junc.spec1 p.pos1 u) (hv : c.InCl p.junc.spec2 p.pos2 v) :
    0 < (p.junc.deltaT : ℝ) + v - u := by
  have hG : 0 < c.genus := by rw [← h.sub.genus]; exact h.sub.estimable.genus_pos
  have hGr : (0 : ℝ) < c.genus := by exact_mod_cast hG
  have hgap := h.gap
  obtain ⟨x, x0, x1, rfl⟩ := hu
  obtain ⟨y, y0, y1, rfl⟩ := hv
  have a1 : ((c.cellNo p.junc.spec1 p.pos1 : ℝ) + x) / (c.genus : ℝ) ^ p.pos1.depth ≤ ((c.cellNo p.junc.spec1 p.pos1 + 1 : ℕ) : ℝ) / (c.genus : ℝ) ^ p.pos1.depth := by
    push_cast
    gcongr
  have a2 : (c.cellNo p.junc.spec2 p.pos2 : ℝ) / (c.genus : ℝ) ^ p.pos2.depth ≤ ((c.cellNo p.junc.spec2 p.pos2 : ℝ) + y) / (c.genus : ℝ) ^ p.pos2.depth := by
    gcongr
    linarith
  have a3 : (0 : ℝ) < 1 / c.genus := by positivity
  linarith

/-- Ratios of points of the pieces are ratios of points of the curve. -/
theorem PairOK.ratio_mem {p : PiecePair d} (h : PairOK c p) (hr : r.Ok d) (he : Possible p.curve e) (hf : e.Realizes f) (hj : e.HasJunction p.junc) {u v : ℝ}
    (hu : c.InCl p.junc.spec1 p.pos1 u) (hv : c.InCl p.junc.spec2 p.pos2 v) : p.junc.ratio r f u v ∈ e.ratios r f := by
  have hfull := (h.sub.estimable.possible e he).1
  have hG : 0 < c.genus := by rw [← h.sub.genus]; exact h.sub.estimable.genus_pos
  have hGr : (0 : ℝ) < c.genus := by exact_mod_cast hG
  have hgap := h.gap
  have hpos := h.dt_pos hu hv
  have hn1 := cellNo_lt (s := p.junc.spec1) h.cnums1
  have hn2 := cellNo_lt (s := p.junc.spec2) h.cnums2
  obtain ⟨x, x0, x1, rfl⟩ := hu
  obtain ⟨y, y0, y1, rfl⟩ := hv
  have hn1' : (c.cellNo p.junc.spec1 p.pos1 : ℝ) + 1 ≤ (c.genus : ℝ) ^ p.pos1.depth := by exact_mod_cast hn1
  have hn2' : (c.cellNo p.junc.spec2 p.pos2 : ℝ) + 1 ≤ (c.genus : ℝ) ^ p.pos2.depth := by exact_mod_cast hn2
  have hp1 : (0 : ℝ) < (c.genus : ℝ) ^ p.pos1.depth := by positivity
  have hp2 : (0 : ℝ) < (c.genus : ℝ) ^ p.pos2.depth := by positivity
  refine hfull.ratio_mem hr he.kind hf hj ⟨by positivity, ?_⟩ ⟨by positivity, ?_⟩ hpos
  · rw [div_le_one hp1]; linarith
  · rw [div_le_one hp2]; linarith

theorem getIntCube_eq_foldl (div : ℕ) (l : List (Cube d)) (j : Fin d) : getIntCube div l j = l.foldl (fun a cube => a * (div : ℤ) + cube j) 0 := by
  induction l using List.reverseRecOn with
  | nil => rfl
  | append_singleton l x ih => rw [getIntCube_append_singleton, List.foldl_append, ih]; rfl

theorem PosFor.corner {q : ℕ} {pos : PiecePos d} (h : e.PosFor q pos) (hfull : e.Full) (hf : e.Realizes f) (hq : q < e.mult) :
    ∀ t ∈ pos.Times, ∀ j, (pos.corner j : ℝ) ≤ f q t j * (e.div : ℝ) ^ pos.cnums.length ∧ f q t j * (e.div : ℝ) ^ pos.cnums.length ≤ pos.corner j + 1 := by
  intro t ht j
  have hG : 0 < e.genus := hfull.genus_pos
  have h1 := (inCl_iff_times (c := e) (s := ⟨BaseMap.idMap d, q⟩) hG h.div h.cnums t).2 (by simpa [BaseMap.applyT, BaseMap.idMap] using ht)
  obtain ⟨x, x0, x1, rfl⟩ := h1
  have hc := PosFor.cell hfull hf (s := ⟨BaseMap.idMap d, q⟩) hq h
  have he := congrFun (hc.eqn x x0 x1) j
  rw [actFn_id] at he
  have hN : (0 : ℝ) < (e.div : ℝ) ^ pos.cnums.length := by
    have := hfull.two_le_div
    have : (0 : ℝ) < e.div := by exact_mod_cast (by omega : 0 < e.div)
    positivity
  have hco : pos.corner j = BaseMap.applyCube (BaseMap.idMap d) ((e.div ^ pos.depth : ℕ) : ℤ) (getIntCube e.div pos.cubes) j := by
    unfold PiecePos.corner
    rw [h.div, ← getIntCube_eq_foldl]
    simp [BaseMap.applyCube, BaseMap.idMap]
  have hm := hf.actFn_mem hc.pnum x0 x1 j
  have he' : f q ((e.cellNo ⟨BaseMap.idMap d, q⟩ pos + x) / (e.genus : ℝ) ^ pos.depth) j = _ := he
  rw [he', hco]
  have hdep : pos.depth = pos.cnums.length := rfl
  rw [hdep] at *
  rw [div_mul_cancel₀ _ hN.ne']
  constructor <;> linarith [hm.1, hm.2]

end FCurve
end Peano
