import Verif.Lemmas.Estimable

set_option autoImplicit false

/- Pairs of pieces: invariants, division, bounds. -/
namespace Peano
variable {d : ℕ} {r : Ratio} {f : ℕ → ℝ → Fin d → ℝ}
open FCurve (CurvePoint)

theorem getIntTime_eq_ofDigits (dim div : ℕ) (l : List ℕ) : getIntTime dim div l = Nat.ofDigits (div ^ dim) l.reverse := by
  induction l with
  | nil => rfl
  | cons a l ih => rw [getIntTime_cons, ofDigits_snoc, ih, add_comm]
where
  ofDigits_snoc (G i : ℕ) (l : List ℕ) : Nat.ofDigits G (i :: l).reverse = i * G ^ l.length + Nat.ofDigits G l.reverse := by
    rw [List.reverse_cons, Nat.ofDigits_append, Nat.ofDigits_singleton, List.length_reverse]; ring

/-- The pieces form deeper levels. -/
def PiecePair.level (p : PiecePair d) : ℕ := p.pos1.depth + p.pos2.depth

namespace FCurve
variable {c c' e : FCurve d}

/-- Times of the fraction in the cell of the piece. -/
def InCl (c : FCurve d) (s : Spec d) (pos : PiecePos d) (u : ℝ) : Prop := ∃ x : ℝ, 0 ≤ x ∧ x ≤ 1 ∧ u = (c.cellNo s pos + x) / (c.genus : ℝ) ^ pos.depth
/-- Without the last moment. -/
def InLo (c : FCurve d) (s : Spec d) (pos : PiecePos d) (u : ℝ) : Prop := ∃ x : ℝ, 0 ≤ x ∧ x < 1 ∧ u = (c.cellNo s pos + x) / (c.genus : ℝ) ^ pos.depth
/-- Without the first moment. -/
def InHi (c : FCurve d) (s : Spec d) (pos : PiecePos d) (u : ℝ) : Prop := ∃ x : ℝ, 0 < x ∧ x ≤ 1 ∧ u = (c.cellNo s pos + x) / (c.genus : ℝ) ^ pos.depth

theorem cellNo_congr (h : c'.div = c.div) (s : Spec d) (pos : PiecePos d) : c'.cellNo s pos = c.cellNo s pos := by
  unfold cellNo FCurve.genus; rw [h]

theorem genus_congr (h : c'.div = c.div) : c'.genus = c.genus := by unfold FCurve.genus; rw [h]

theorem InCl_congr (h : c'.div = c.div) (s : Spec d) (pos : PiecePos d) (u : ℝ) : c'.InCl s pos u ↔ c.InCl s pos u := by
  unfold InCl; rw [cellNo_congr h, genus_congr h]

theorem cellNo_lt {s : Spec d} {pos : PiecePos d} (hlt : ∀ i ∈ pos.cnums, i < c.genus) : c.cellNo s pos < c.genus ^ pos.depth := by
  unfold cellNo
  apply BaseMap.applyCnum_lt
  exact getIntTime_lt d c.div pos.cnums hlt

theorem cellNo_child {s : Spec d} {pos pos' : PiecePos d} {i : ℕ} (hlt : ∀ i ∈ pos.cnums, i < c.genus) (hi : i < c.genus) (h : pos'.cnums = pos.cnums ++ [i]) :
    c.cellNo s pos' = c.cellNo s pos * c.genus + s.baseMap.applyCnum c.genus i ∧ pos'.depth = pos.depth + 1 := by
  have hdep : pos'.depth = pos.depth + 1 := by unfold PiecePos.depth; rw [h]; simp
  refine ⟨?_, hdep⟩
  unfold cellNo
  rw [hdep, h, getIntTime_append_singleton]
  have hT : getIntTime d c.div pos.cnums < c.genus ^ pos.depth := getIntTime_lt d c.div pos.cnums hlt
  unfold BaseMap.applyCnum
  rw [show c.div ^ d = c.genus from rfl, pow_succ]
  by_cases ht : s.baseMap.timeRev = true
  · simp only [ht, if_true]
    obtain ⟨a, ha⟩ := Nat.exists_eq_add_of_lt hT
    obtain ⟨b, hb⟩ := Nat.exists_eq_add_of_lt hi
    rw [ha]
    have e1 : getIntTime d c.div pos.cnums + a + 1 - 1 - getIntTime d c.div pos.cnums = a := by omega
    have e2 : c.genus - 1 - i = b := by omega
    rw [e1, e2]
    have e3 : (getIntTime d c.div pos.cnums + a + 1) * c.genus = getIntTime d c.div pos.cnums * c.genus + a * c.genus + c.genus := by ring
    rw [e3]
    omega
  · simp only [ht]
    simp

theorem cell_split {G k : ℕ} (hG : 0 < G) (n i : ℕ) (x : ℝ) : ((n : ℝ) + (i + x) / G) / (G : ℝ) ^ k = ((n * G + i : ℕ) + x) / (G : ℝ) ^ (k + 1) := by
  have : (0 : ℝ) < G := by exact_mod_cast hG
  push_cast
  rw [pow_succ]
  field_simp
  ring

section child
variable {s : Spec d} {pos : PiecePos d}

theorem InLo.child (hG : 0 < c.genus) (hlt : ∀ i ∈ pos.cnums, i < c.genus) {u : ℝ} (h : c.InLo s pos u) :
    ∃ i < c.genus, ∀ pos', pos'.cnums = pos.cnums ++ [i] → c.InLo s pos' u := by
  obtain ⟨x, x0, x1, rfl⟩ := h
  obtain ⟨i, hi, y, y0, y1, rfl⟩ := floor_cell hG x0 x1
  refine ⟨s.baseMap.applyCnum c.genus i, BaseMap.applyCnum_lt _ hi, ?_⟩
  intro pos' hpos
  obtain ⟨e1, e2⟩ := cellNo_child (s := s) hlt (BaseMap.applyCnum_lt _ hi) hpos
  rw [BaseMap.applyCnum_applyCnum _ hi] at e1
  exact ⟨y, y0, y1, by rw [e1, e2, cell_split hG]⟩

theorem InHi.child (hG : 0 < c.genus) (hlt : ∀ i ∈ pos.cnums, i < c.genus) {u : ℝ} (h : c.InHi s pos u) :
    ∃ i < c.genus, ∀ pos', pos'.cnums = pos.cnums ++ [i] → c.InHi s pos' u := by
  obtain ⟨x, x0, x1, rfl⟩ := h
  obtain ⟨i, hi, y, y0, y1, rfl⟩ := ceil_cell hG x0 x1
  refine ⟨s.baseMap.applyCnum c.genus i, BaseMap.applyCnum_lt _ hi, ?_⟩
  intro pos' hpos
  obtain ⟨e1, e2⟩ := cellNo_child (s := s) hlt (BaseMap.applyCnum_lt _ hi) hpos
  rw [BaseMap.applyCnum_applyCnum _ hi] at e1
  exact ⟨y, y0, y1, by rw [e1, e2, cell_split hG]⟩

theorem InLo.cl {u : ℝ} (h : c.InLo s pos u) : c.InCl s pos u := by
  obtain ⟨x, x0, x1, rfl⟩ := h; exact ⟨x, x0, x1.le, rfl⟩

theorem InHi.cl {u : ℝ} (h : c.InHi s pos u) : c.InCl s pos u := by
  obtain ⟨x, x0, x1, rfl⟩ := h; exact ⟨x, x0.le, x1, rfl⟩

theorem InCl.child (hG : 0 < c.genus) (hlt : ∀ i ∈ pos.cnums, i < c.genus) {u : ℝ} (h : c.InCl s pos u) :
    ∃ i < c.genus, ∀ pos', pos'.cnums = pos.cnums ++ [i] → c.InCl s pos' u := by
  obtain ⟨x, x0, x1, rfl⟩ := h
  rcases x0.eq_or_lt with rfl | x0
  · obtain ⟨i, hi, h⟩ := InLo.child hG hlt (show c.InLo s pos _ from ⟨0, le_rfl, zero_lt_one, rfl⟩)
    exact ⟨i, hi, fun pos' hp => (h pos' hp).cl⟩
  · obtain ⟨i, hi, h⟩ := InHi.child hG hlt (show c.InHi s pos _ from ⟨x, x0, x1, rfl⟩)
    exact ⟨i, hi, fun pos' hp => (h pos' hp).cl⟩

theorem InCl.parent (hG : 0 < c.genus) (hlt : ∀ i ∈ pos.cnums, i < c.genus) {i : ℕ} (hi : i < c.genus) {pos' : PiecePos d} (hpos : pos'.cnums = pos.cnums ++ [i])
    {u : ℝ} (h : c.InCl s pos' u) : c.InCl s pos u := by
  obtain ⟨x, x0, x1, rfl⟩ := h
  obtain ⟨e1, e2⟩ := cellNo_child (s := s) hlt hi hpos
  have hGr : (0 : ℝ) < c.genus := by exact_mod_cast hG
  have hi' := BaseMap.applyCnum_lt s.baseMap hi
  have hi'' : (s.baseMap.applyCnum c.genus i : ℝ) + 1 ≤ c.genus := by exact_mod_cast hi'
  refine ⟨(s.baseMap.applyCnum c.genus i + x) / c.genus, by positivity, ?_, ?_⟩
  · rw [div_le_one hGr]; linarith
  · rw [cell_split hG, e1, e2]

theorem inCl_iff_times (hG : 0 < c.genus) (hdiv : pos.div = c.div) (hlt : ∀ i ∈ pos.cnums, i < c.genus) (u : ℝ) :
    c.InCl s pos u ↔ s.baseMap.applyT 1 u ∈ pos.Times := by
  have hGr : (0 : ℝ) < (c.genus : ℝ) ^ pos.depth := by positivity
  have hT : getIntTime d c.div pos.cnums < c.genus ^ pos.depth := getIntTime_lt d c.div pos.cnums hlt
  have hGk : ((c.genus ^ pos.depth : ℕ) : ℝ) = (c.genus : ℝ) ^ pos.depth := by push_cast; rfl
  have hpt : ∀ t : ℝ, t ∈ pos.Times ↔ ∃ y : ℝ, 0 ≤ y ∧ y ≤ 1 ∧ t = (getIntTime d c.div pos.cnums + y) / (c.genus : ℝ) ^ pos.depth := by
    intro t
    have e : ((pos.div : ℝ) ^ d) ^ pos.cnums.length = (c.genus : ℝ) ^ pos.depth := by rw [hdiv, ← c.genus_cast]; rfl
    unfold PiecePos.Times
    rw [Set.mem_setOf_eq, e, hdiv, ← getIntTime_eq_ofDigits]
    constructor
    · rintro ⟨h1, h2⟩
      refine ⟨t * (c.genus : ℝ) ^ pos.depth - getIntTime d c.div pos.cnums, by linarith, by linarith, ?_⟩
      field_simp
      ring
    · rintro ⟨y, y0, y1, rfl⟩
      rw [div_mul_cancel₀ _ hGr.ne']
      constructor <;> linarith
  rw [hpt]
  unfold InCl cellNo
  constructor
  · rintro ⟨x, x0, x1, rfl⟩
    have hm := applyT_mem01 s.baseMap x0 x1
    refine ⟨_, hm.1, hm.2, ?_⟩
    have := applyT_frac s.baseMap (BaseMap.applyCnum_lt s.baseMap hT) x
    rw [hGk, BaseMap.applyCnum_applyCnum _ hT] at this
    exact this
  · rintro ⟨y, y0, y1, hy⟩
    have hm := applyT_mem01 s.baseMap y0 y1
    refine ⟨_, hm.1, hm.2, ?_⟩
    have := applyT_frac s.baseMap hT y
    rw [hGk, ← hy, BaseMap.applyT_applyT] at this
    exact this

end child

/-- Junctions known to the estimator. -/
def Candidate (c : FCurve d) (j : Junction d) : Prop := j ∈ c.genAutoJunctions ∨ ∃ l, Dilation.regularJunctions c = some l ∧ j ∈ l

/-- Pairs the estimators work with. -/
structure PairOK (c : FCurve d) (p : PiecePair d) : Prop where
  sub : SubCurve c p.curve
  junc : c.Candidate p.junc
  piece1 : PieceOK p.curve p.junc.spec1.pnum p.pos1
  piece2 : PieceOK p.curve p.junc.spec2.pnum p.pos2
  balanced : p.pos1.depth = p.pos2.depth ∨ p.pos1.depth = p.pos2.depth + 1
  gap : ((c.cellNo p.junc.spec1 p.pos1 + 1 : ℕ) : ℝ) / (c.genus : ℝ) ^ p.pos1.depth + 1 / c.genus ≤
    p.junc.deltaT + (c.cellNo p.junc.spec2 p.pos2 : ℝ) / (c.genus : ℝ) ^ p.pos2.depth

theorem PairOK.cnums1 {p : PiecePair d} (h : PairOK c p) : ∀ i ∈ p.pos1.cnums, i < c.genus := by
  rw [← h.sub.genus]; exact h.piece1.cnums_lt h.sub.estimable

theorem PairOK.cnums2 {p : PiecePair d} (h : PairOK c p) : ∀ i ∈ p.pos2.cnums, i < c.genus := by
  rw [← h.sub.genus]; exact h.piece2.cnums_lt h.sub.estimable

/-- Result of the division of a pair. -/
structure PairDivided (c : FCurve d) (p : PiecePair d) (subs : List (PiecePair d)) : Prop where
  ok : ∀ p' ∈ subs, PairOK c p' ∧ p'.junc = p.junc ∧ SubCurve p.curve p'.curve ∧ p'.level = p.level + 1 ∧
    (∀ u, c.InCl p'.junc.spec1 p'.pos1 u → c.InCl p.junc.spec1 p.pos1 u) ∧ (∀ v, c.InCl p'.junc.spec2 p'.pos2 v → c.InCl p.junc.spec2 p.pos2 v)
  half : ∀ e, Possible p.curve e → ∀ u v, c.InLo p.junc.spec1 p.pos1 u → c.InHi p.junc.spec2 p.pos2 v →
    ∃ p' ∈ subs, Possible p'.curve e ∧ c.InLo p'.junc.spec1 p'.pos1 u ∧ c.InHi p'.junc.spec2 p'.pos2 v
  closed : ∀ e, Possible p.curve e → ∀ u v, c.InCl p.junc.spec1 p.pos1 u → c.InCl p.junc.spec2 p.pos2 v →
    ∃ p' ∈ subs, Possible p'.curve e ∧ c.InCl p'.junc.spec1 p'.pos1 u ∧ c.InCl p'.junc.spec2 p'.pos2 v

theorem PairOK.divide {p : PiecePair d} (h : PairOK c p) : ∃ subs, p.divideBalanced = some subs ∧ PairDivided c p subs := by
  have hE := h.sub.estimable
  have hgen := h.sub.genus
  have hG : 0 < c.genus := by rw [← hgen]; exact hE.genus_pos
  have hGr : (0 : ℝ) < c.genus := by exact_mod_cast hG
  unfold PiecePair.divideBalanced
  by_cases hdep : p.pos1.depth > p.pos2.depth
  · rw [if_pos hdep]
    obtain ⟨subs, h1, h2⟩ := h.piece2.divide hE
    refine ⟨subs.map fun sub => ⟨sub.curve, p.junc, p.pos1, sub.pos⟩, by unfold PiecePair.piece2; rw [h1]; rfl, ?_, ?_, ?_⟩
    · intro p' hp'
      rw [List.mem_map] at hp'
      obtain ⟨sub, hsub, rfl⟩ := hp'
      obtain ⟨g1, g2, g3, i, hi, g4⟩ := h2.ok sub hsub
      rw [hgen] at hi
      obtain ⟨e1, e2⟩ := cellNo_child (s := p.junc.spec2) h.cnums2 hi g4
      refine ⟨⟨h.sub.trans g2, h.junc, h.piece1.sub g2, g3, ?_, ?_⟩, rfl, g2, ?_, fun u hu => hu, fun v hv => InCl.parent hG h.cnums2 hi g4 hv⟩
      · show p.pos1.depth = sub.pos.depth ∨ _
        left
        rw [e2]
        have := h.balanced
        omega
      · refine le_trans h.gap ?_
        show _ ≤ (p.junc.deltaT : ℝ) + (c.cellNo p.junc.spec2 sub.pos : ℝ) / (c.genus : ℝ) ^ sub.pos.depth
        rw [e1, e2, pow_succ]
        push_cast
        have : (c.cellNo p.junc.spec2 p.pos2 : ℝ) / (c.genus : ℝ) ^ p.pos2.depth = (c.cellNo p.junc.spec2 p.pos2 * c.genus : ℝ) / ((c.genus : ℝ) ^ p.pos2.depth * c.genus) := by
          field_simp
        rw [this]
        gcongr
        have : (0 : ℝ) ≤ p.junc.spec2.baseMap.applyCnum c.genus i := by positivity
        linarith
      · show p.pos1.depth + sub.pos.depth = _
        rw [e2]; rfl
    · intro e he u v hu hv
      obtain ⟨i, hi, hch⟩ := hv.child hG h.cnums2
      obtain ⟨sub, s1, s2, s3⟩ := h2.cover e he i (by rw [hgen]; exact hi)
      exact ⟨_, List.mem_map.2 ⟨sub, s1, rfl⟩, s2, hu, hch _ s3⟩
    · intro e he u v hu hv
      obtain ⟨i, hi, hch⟩ := hv.child hG h.cnums2
      obtain ⟨sub, s1, s2, s3⟩ := h2.cover e he i (by rw [hgen]; exact hi)
      exact ⟨_, List.mem_map.2 ⟨sub, s1, rfl⟩, s2, hu, hch _ s3⟩
  · rw [if_neg hdep]
    obtain ⟨subs, h1, h2⟩ := h.piece1.divide hE
    refine ⟨subs.map fun sub => ⟨sub.curve, p.junc, sub.pos, p.pos2⟩, by unfold PiecePair.piece1; rw [h1]; rfl, ?_, ?_, ?_⟩
    · intro p' hp'
      rw [List.mem_map] at hp'
      obtain ⟨sub, hsub, rfl⟩ := hp'
      obtain ⟨g1, g2, g3, i, hi, g4⟩ := h2.ok sub hsub
      rw [hgen] at hi
      obtain ⟨e1, e2⟩ := cellNo_child (s := p.junc.spec1) h.cnums1 hi g4
      refine ⟨⟨h.sub.trans g2, h.junc, g3, h.piece2.sub g2, ?_, ?_⟩, rfl, g2, ?_, fun u hu => InCl.parent hG h.cnums1 hi g4 hu, fun v hv => hv⟩
      · show sub.pos.depth = p.pos2.depth ∨ sub.pos.depth = p.pos2.depth + 1
        right
        rw [e2]
        have := h.balanced
        omega
      · refine le_trans ?_ h.gap
        show ((c.cellNo p.junc.spec1 sub.pos + 1 : ℕ) : ℝ) / (c.genus : ℝ) ^ sub.pos.depth + _ ≤ _
        rw [e1, e2, pow_succ]
        push_cast
        have : ((c.cellNo p.junc.spec1 p.pos1 : ℝ) + 1) / (c.genus : ℝ) ^ p.pos1.depth =
            ((c.cellNo p.junc.spec1 p.pos1 + 1) * c.genus : ℝ) / ((c.genus : ℝ) ^ p.pos1.depth * c.genus) := by
          field_simp
        rw [this]
        gcongr
        have hi' := BaseMap.applyCnum_lt p.junc.spec1.baseMap hi
        have hi'' : (p.junc.spec1.baseMap.applyCnum c.genus i : ℝ) + 1 ≤ c.genus := by exact_mod_cast hi'
        linarith
      · show sub.pos.depth + p.pos2.depth = p.pos1.depth + p.pos2.depth + 1
        rw [e2]; ring
    · intro e he u v hu hv
      obtain ⟨i, hi, hch⟩ := hu.child hG h.cnums1
      obtain ⟨sub, s1, s2, s3⟩ := h2.cover e he i (by rw [hgen]; exact hi)
      exact ⟨_, List.mem_map.2 ⟨sub, s1, rfl⟩, s2, hch _ s3, hv⟩
    · intro e he u v hu hv
      obtain ⟨i, hi, hch⟩ := hu.child hG h.cnums1
      obtain ⟨sub, s1, s2, s3⟩ := h2.cover e he i (by rw [hgen]; exact hi)
      exact ⟨_, List.mem_map.2 ⟨sub, s1, rfl⟩, s2, hch _ s3, hv⟩

/-! ### Bounds -/

/-- The points of the stash lie on the graphs. -/
def StashOK (f : ℕ → ℝ → Fin d → ℝ) (mult : ℕ) : Dilation.Stash d → Prop
  | none => True
  | some pts => ∀ p < mult, ∃ l, pts[p]? = some l ∧ l ≠ [] ∧ ∀ pt ∈ l, PointOn f ⟨BaseMap.idMap d, p⟩ pt

/-- What is known about computed bounds, for a full curve `e` and its maps. -/
structure SoundBounds (c : FCurve d) (r : Ratio) (f : ℕ → ℝ → Fin d → ℝ) (p : PiecePair d) (b : PairBounds d) : Prop where
  lo : ∃ u v : ℝ, c.InCl p.junc.spec1 p.pos1 u ∧ c.InCl p.junc.spec2 p.pos2 v ∧ (b.lo : ℝ) ≤ p.junc.ratio r f u v
  up : ∀ u v : ℝ, c.InCl p.junc.spec1 p.pos1 u → c.InCl p.junc.spec2 p.pos2 v → p.junc.ratio r f u v ≤ b.up
  up_lt : ∀ u v : ℝ, c.InLo p.junc.spec1 p.pos1 u → c.InHi p.junc.spec2 p.pos2 v → p.junc.ratio r f u v < b.up
  argmax : ∀ a, b.argmax = some a → a.junc = p.junc ∧ a.pos1 = p.pos1 ∧ a.pos2 = p.pos2 ∧ a.OnGraph f ∧
    r.val (fun i => a.x1 i - a.x2 i) (a.t2 - a.t1) = b.lo ∧ a.t1 < a.t2

/-- Integer coordinates of a pair. -/
structure CoordsOK (c : FCurve d) (p : PiecePair d) (k : Dilation.Coords d) : Prop where
  coords : Dilation.coords p.junc p.pos1 p.pos2 = some k
  min_pos : 0 < k.minDt
  min_ge : (c.genus : ℤ) ^ p.pos1.depth ≤ k.minDt * c.genus
  max_le : k.maxDt ≤ k.minDt + c.genus + 1
  min_lt : k.minDt < k.maxDt
  dx_pos : ∀ i, 0 < k.maxDx i

theorem PairOK.geom {p : PiecePair d} (h : PairOK c p) (hr : r.Ok d) (he : Possible p.curve e) (hf : e.Realizes f) :
    ∃ k, CoordsOK c p k ∧ e.Geom f r p.junc p.pos1 p.pos2 k (c.cellNo p.junc.spec1 p.pos1) (c.cellNo p.junc.spec2 p.pos2)
      (e.posSpec p.junc.spec1 p.pos1) (e.posSpec p.junc.spec2 p.pos2) := by
  have hfull := (h.sub.estimable.possible e he).1
  have hdiv : e.div = c.div := he.div.trans h.sub.div
  have hgen := genus_congr hdiv
  have hmult : e.mult = p.curve.mult := he.mult
  obtain ⟨k, hk, hg⟩ := hfull.geom hr hf (j := p.junc) (by rw [hmult]; exact h.piece1.pnum) (by rw [hmult]; exact h.piece2.pnum)
    (h.piece1.posFor e he) (h.piece2.posFor e he) h.balanced
  rw [cellNo_congr hdiv, cellNo_congr hdiv] at hg
  refine ⟨k, ?_, hg⟩
  have hG : 0 < c.genus := by rw [← hgen]; exact hfull.genus_pos
  have hGr : (0 : ℝ) < c.genus := by exact_mod_cast hG
  have ht1 : (k.t1 : ℝ) = c.cellNo p.junc.spec1 p.pos1 := by exact_mod_cast hg.t1
  have hsc : (k.mt2 : ℝ) * (c.genus : ℝ) ^ p.pos2.depth = (c.genus : ℝ) ^ p.pos1.depth := by rw [← hgen]; exact_mod_cast hg.scale
  have ht2 : (k.t2 : ℝ) = c.cellNo p.junc.spec2 p.pos2 * k.mt2 + p.junc.deltaT * (c.genus : ℝ) ^ p.pos1.depth := by rw [← hgen]; exact_mod_cast hg.t2
  have hm2 : (0 : ℝ) < k.mt2 := by exact_mod_cast hg.mt2
  have hge : (c.genus : ℝ) ^ p.pos1.depth ≤ k.minDt * c.genus := by
    have hgap := h.gap
    have h1 : (0 : ℝ) < (c.genus : ℝ) ^ p.pos1.depth := by positivity
    have h2 : (0 : ℝ) < (c.genus : ℝ) ^ p.pos2.depth := by positivity
    rw [minDt_cast, ht1, ht2, ← hsc]
    rw [← hsc] at hgap
    have hmul := mul_le_mul_of_nonneg_right hgap (show (0 : ℝ) ≤ k.mt2 * (c.genus : ℝ) ^ p.pos2.depth * c.genus by positivity)
    have e1 : (((c.cellNo p.junc.spec1 p.pos1 + 1 : ℕ) : ℝ) / (k.mt2 * (c.genus : ℝ) ^ p.pos2.depth) + 1 / c.genus) * (k.mt2 * (c.genus : ℝ) ^ p.pos2.depth * c.genus) =
        (c.cellNo p.junc.spec1 p.pos1 + 1) * c.genus + k.mt2 * (c.genus : ℝ) ^ p.pos2.depth := by
      push_cast
      field_simp
    have e2 : ((p.junc.deltaT : ℝ) + (c.cellNo p.junc.spec2 p.pos2 : ℝ) / (c.genus : ℝ) ^ p.pos2.depth) * (k.mt2 * (c.genus : ℝ) ^ p.pos2.depth * c.genus) =
        (c.cellNo p.junc.spec2 p.pos2 * k.mt2 + p.junc.deltaT * (k.mt2 * (c.genus : ℝ) ^ p.pos2.depth)) * c.genus := by
      field_simp
      ring
    rw [e1, e2] at hmul
    linarith
  have hge' : (c.genus : ℤ) ^ p.pos1.depth ≤ k.minDt * c.genus := by exact_mod_cast hge
  have hmin : 0 < k.minDt := by
    have h1 : (0 : ℤ) < (c.genus : ℤ) ^ p.pos1.depth := by positivity
    have h2 : (0 : ℤ) < c.genus := by exact_mod_cast hG
    by_contra hcon
    push Not at hcon
    nlinarith
  have hmt2 : k.mt2 ≤ c.genus := by
    rcases h.balanced with hb | hb
    · have hs := hg.scale
      rw [hb, hgen] at hs
      have h1 : (0 : ℤ) < (c.genus : ℤ) ^ p.pos2.depth := by positivity
      have : k.mt2 = 1 := by
        have := mul_right_cancel₀ h1.ne' (hs.trans (one_mul _).symm)
        exact this
      rw [this]
      exact_mod_cast hG
    · have hs := hg.scale
      rw [hb, hgen, pow_succ] at hs
      have h1 : (0 : ℤ) < (c.genus : ℤ) ^ p.pos2.depth := by positivity
      have : k.mt2 = c.genus := by
        have := mul_right_cancel₀ h1.ne' (hs.trans (mul_comm _ _))
        exact this
      rw [this]
  refine ⟨hk, hmin, hge', ?_, ?_, hg.maxDx_pos⟩
  · unfold Dilation.Coords.maxDt Dilation.Coords.minDt
    linarith
  · have := hg.mt2
    unfold Dilation.Coords.maxDt Dilation.Coords.minDt
    linarith

theorem PairOK.bounds {p : PiecePair d} (h : PairOK c p) (hd : d ≠ 0) (hr : r.Ok d) (he : Possible p.curve e) (hf : e.Realizes f) {stash : Dilation.Stash d}
    (hst : StashOK f c.mult stash) (hfull : stash.isSome → p.curve.Full) :
    ∃ b k, Dilation.getBounds (m := Option) (Dilation.keyBounds r) stash p = some b ∧ CoordsOK c p k ∧ SoundBounds c r f p b ∧
      b.up = r.val (fun i => (k.maxDx i : ℚ)) k.minDt ∧ (stash = none → b.lo = r.val (fun i => (k.maxDx i : ℚ)) k.maxDt) ∧ (stash.isSome → b.argmax.isSome) ∧ NearMax r k b.lo := by
  obtain ⟨k, hk, hg⟩ := h.geom hr he hf
  obtain ⟨hfe, hce, hfill⟩ := h.sub.estimable.possible e he
  have hdiv : e.div = c.div := he.div.trans h.sub.div
  have hgen := genus_congr hdiv
  have hmult : e.mult = c.mult := he.mult.trans h.sub.mult
  -- the points
  obtain ⟨pts, hpts, hp1, hp2, hpe, hpn⟩ : ∃ pts, Dilation.rotatedPoints stash p = some pts ∧
      (∀ pt ∈ pts.1, PointOn f (e.walkSpec ⟨BaseMap.idMap d, p.junc.spec1.pnum⟩ p.pos1.cnums) pt) ∧
      (∀ pt ∈ pts.2, PointOn f (e.walkSpec ⟨BaseMap.idMap d, p.junc.spec2.pnum⟩ p.pos2.cnums) pt) ∧
      (stash = none → pts.1 = []) ∧ (stash.isSome → pts.1 ≠ [] ∧ pts.2 ≠ []) := by
    cases stash with
    | none => exact ⟨([], []), rfl, by simp, by simp, fun _ => rfl, by simp⟩
    | some l =>
      have hpf := hfull rfl
      have hmul : p.curve.mult = c.mult := h.sub.mult
      have hget : ∀ (q : ℕ) (pos : PiecePos d), PieceOK p.curve q pos → ∃ sp, p.curve.getDeepSpec q pos.cnums = some sp ∧
          sp = e.walkSpec ⟨BaseMap.idMap d, q⟩ pos.cnums ∧ sp.pnum < c.mult := by
        intro q pos hq
        have hl := hq.cnums_lt h.sub.estimable
        have h1 := hpf.getDeepSpec_eq hq.pnum pos.cnums hl
        obtain ⟨h2, h3⟩ := h.sub.estimable.deep_possible he hq.pnum hl h1
        exact ⟨_, h1, h2, by rw [← hmul]; exact h3⟩
      obtain ⟨sp1, a1, a2, a3⟩ := hget _ _ h.piece1
      obtain ⟨sp2, b1, b2, b3⟩ := hget _ _ h.piece2
      obtain ⟨l1, c1, c2, c3⟩ := hst _ a3
      obtain ⟨l2, d1, d2, d3⟩ := hst _ b3
      refine ⟨(l1.map fun pt => pt.act sp1.baseMap, l2.map fun pt => pt.act sp2.baseMap), ?_, ?_, ?_, by simp, ?_⟩
      · unfold Dilation.rotatedPoints CurvePiece.getLastSpec PiecePair.piece1 PiecePair.piece2
        simp only [a1, b1, Option.bind_eq_bind, Option.bind_some, c1, d1]
        rfl
      · intro pt hpt
        obtain ⟨pt0, hpt0, rfl⟩ := List.mem_map.1 hpt
        rw [← a2]
        have := (c3 pt0 hpt0).act sp1.baseMap
        have e1 : Spec.rmulBaseMap sp1.baseMap ⟨BaseMap.idMap d, sp1.pnum⟩ = sp1 := by
          show (⟨sp1.baseMap * 1, sp1.pnum⟩ : Spec d) = sp1
          rw [mul_one]
        rwa [e1] at this
      · intro pt hpt
        obtain ⟨pt0, hpt0, rfl⟩ := List.mem_map.1 hpt
        rw [← b2]
        have := (d3 pt0 hpt0).act sp2.baseMap
        have e1 : Spec.rmulBaseMap sp2.baseMap ⟨BaseMap.idMap d, sp2.pnum⟩ = sp2 := by
          show (⟨sp2.baseMap * 1, sp2.pnum⟩ : Spec d) = sp2
          rw [mul_one]
        rwa [e1] at this
      · intro _
        exact ⟨by simpa using c2, by simpa using d2⟩
  obtain ⟨b, g1, g2, g3, g4, g5, g6⟩ := Geom.posBounds hr hfe hfill hf hg hk.coords hk.min_pos hp1 hp2
  have hup : ∀ (v : Fin d → ℤ) (t : ℤ), ((r.val (fun i => (v i : ℚ)) (t : ℚ) : ℚ) : ℝ) = r.val (fun i => (v i : ℝ)) (t : ℝ) := by
    intro v t
    have := Ratio.val_cast (K := ℝ) r (fun i => (v i : ℚ)) (t : ℚ)
    push_cast at this
    exact this.symm
  refine ⟨b, k, ?_, hk, ⟨?_, ?_, ?_, g3.argmax⟩, g2, fun hs => (g4 (Or.inl (hpe hs))).1, fun hs => g5 (hpn hs).1 (hpn hs).2, g6⟩
  · unfold Dilation.getBounds
    show (Dilation.rotatedPoints stash p).bind _ = _
    rw [hpts]
    exact g1
  · obtain ⟨x, y, hx, hy, hxy⟩ := g3.lo
    rw [hgen] at hxy
    exact ⟨_, _, ⟨x, hx.1, hx.2, rfl⟩, ⟨y, hy.1, hy.2, rfl⟩, hxy⟩
  · rintro u v ⟨x, x0, x1, rfl⟩ ⟨y, y0, y1, rfl⟩
    rw [g2, hup, ← hgen]
    exact hg.ratio_le hf hk.min_pos ⟨x0, x1⟩ ⟨y0, y1⟩
  · rintro u v ⟨x, x0, x1, rfl⟩ ⟨y, y0, y1, rfl⟩
    rw [g2, hup, ← hgen]
    exact hg.ratio_lt hd hf hk.min_pos ⟨x0, x1⟩ ⟨y0.le, y1⟩

end FCurve
end Peano
