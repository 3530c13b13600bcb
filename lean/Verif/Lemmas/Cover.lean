import Verif.Lemmas.Config
import Verif.Spec.SAT

set_option autoImplicit false

/- Every pair of times is a pair of points of two non-adjacent fractions of a junction. -/
namespace Peano
variable {d : ℕ} {r : Ratio} {f : ℕ → ℝ → Fin d → ℝ}

theorem floor_cell {G : ℕ} (hG : 0 < G) {u : ℝ} (h0 : 0 ≤ u) (h1 : u < 1) : ∃ i < G, ∃ x : ℝ, 0 ≤ x ∧ x < 1 ∧ u = (i + x) / G := by
  have hGr : (0 : ℝ) < G := by exact_mod_cast hG
  have h0' : 0 ≤ u * G := by positivity
  refine ⟨⌊u * G⌋₊, ?_, u * G - ⌊u * G⌋₊, ?_, ?_, ?_⟩
  · rw [Nat.floor_lt h0']
    nlinarith
  · linarith [Nat.floor_le h0']
  · linarith [Nat.lt_floor_add_one (u * G)]
  · field_simp; ring

theorem ceil_cell {G : ℕ} (hG : 0 < G) {v : ℝ} (h0 : 0 < v) (h1 : v ≤ 1) : ∃ i < G, ∃ x : ℝ, 0 < x ∧ x ≤ 1 ∧ v = (i + x) / G := by
  obtain ⟨i, hi, x, hx0, hx1, hx⟩ := floor_cell hG (u := 1 - v) (by linarith) (by linarith)
  have hGr : (0 : ℝ) < G := by exact_mod_cast hG
  refine ⟨G - 1 - i, by omega, 1 - x, by linarith, by linarith, ?_⟩
  have : ((G - 1 - i : ℕ) : ℝ) = G - 1 - i := by
    rw [Nat.cast_sub (by omega), Nat.cast_sub (by omega)]; simp
  rw [this]
  have hv : v = 1 - (i + x) / G := by linarith
  rw [hv]
  field_simp
  ring

namespace FCurve
variable {c : FCurve d}

/-- What is needed of the regular junctions. -/
theorem Full.regJ (hk : c.kind = .curve) (h : c.Full) (hc : c.check = some true) :
    ∃ l, c.genRegularJunctions = some l ∧
      (∀ j ∈ l.map Prod.fst, j.deltaT = 1 ∧ j.spec1.pnum < c.mult ∧ j.spec2.pnum < c.mult ∧ ∃ k a, c.AdjacentAt k a ∧ a.Same j.pair) ∧
      (∀ p m, p < c.mult → m + 1 < c.genus → ∃ j ∈ l.map Prod.fst, (c.basePair p m).Same j.pair) ∧
      ∀ j ∈ l.map Prod.fst, ∃ dj ∈ l.map Prod.fst, (c.deriveP j.pair).Same dj.pair := by
  obtain ⟨l, h1, _, h3, _, h5⟩ := h.genRegularJunctions_spec hk hc
  refine ⟨l, h1, ?_, ?_, ?_⟩
  · intro j hj
    obtain ⟨x, hx, rfl⟩ := List.mem_map.1 hj
    obtain ⟨k, a, _, ha, hs⟩ := (h3 x hx).depth
    have hp := h.adjacent_pnum hk ha
    have hp' := Same_pnum hs hp.1 hp.2
    exact ⟨(h3 x hx).standard.2.2.1, hp'.1, hp'.2, k, a, ha, hs⟩
  · intro p m hp hm
    obtain ⟨x, hx, hs⟩ := h5 1 (c.basePair p m) ((h.adjacent_one hk _).2 ((h.neighbours_iff _).2 ⟨p, m, hp, hm, rfl⟩))
    exact ⟨x.1, List.mem_map_of_mem hx, hs⟩
  · intro j hj
    obtain ⟨x, hx, rfl⟩ := List.mem_map.1 hj
    obtain ⟨k, a, _, ha, hs⟩ := (h3 x hx).depth
    obtain ⟨y, hy, hs'⟩ := h5 (k + 1) _ (h.adjacent_derive hk ha)
    exact ⟨y.1, List.mem_map_of_mem hy, (deriveP_same h.toShape hs.symm).trans hs'⟩

theorem Full.hasJunction (hk : c.kind = .curve) (h : c.Full) (hc : c.check = some true) {j : Junction d} (hj : c.HasJunction j) :
    j.spec1.pnum < c.mult ∧ j.spec2.pnum < c.mult ∧ ((∃ p < c.mult, j = Junction.auto d p) ∨ (j.deltaT = 1 ∧ ∃ k a, c.AdjacentAt k a ∧ a.Same j.pair)) := by
  rcases hj with hj | ⟨l, hl, hj⟩
  · obtain ⟨p, hp, rfl⟩ := List.mem_map.1 hj
    have hp := List.mem_range.1 hp
    exact ⟨hp, hp, Or.inl ⟨p, hp, rfl⟩⟩
  · obtain ⟨l', h1, h2, _⟩ := h.regJ hk hc
    rw [hl] at h1
    cases h1
    obtain ⟨e1, e2, e3, e4⟩ := h2 j hj
    exact ⟨e2, e3, Or.inr ⟨e1, e4⟩⟩

theorem auto_ratio (p : ℕ) (u v : ℝ) : (Junction.auto d p).ratio r f u v = r.val (fun j => f p u j - f p v j) (v - u) := by
  unfold Junction.ratio
  simp [Junction.auto, actFn_id]

/-- Ratios of points of junctions are ratios of points of the curve. -/
theorem Full.ratio_mem (hr : r.Ok d) (hk : c.kind = .curve) (h : c.Full) (hf : c.Realizes f) {j : Junction d} (hj : c.HasJunction j) {u v : ℝ}
    (hu : 0 ≤ u ∧ u ≤ 1) (hv : 0 ≤ v ∧ v ≤ 1) (hpos : 0 < (j.deltaT : ℝ) + v - u) : j.ratio r f u v ∈ c.ratios r f := by
  have hc := h.check_of_realizes hf
  obtain ⟨h1, h2, hj | ⟨hT, k, a, ha, hs⟩⟩ := h.hasJunction hk hc hj
  · obtain ⟨p, hp, rfl⟩ := hj
    refine ⟨p, hp, u, v, hu.1, ?_, hv.2, auto_ratio p u v⟩
    have : ((Junction.auto d p).deltaT : ℝ) = 0 := by simp [Junction.auto]
    rw [this] at hpos
    linarith
  · rw [hT] at hpos
    push_cast at hpos
    rw [Junction.ratio_pair, hT]
    obtain ⟨u', v', huv, he⟩ := ratio_same hs.symm (1 : ℕ) r f u v
    rw [← he]
    have hu' : 0 ≤ u' ∧ u' ≤ 1 := by rcases huv with ⟨rfl, rfl⟩ | ⟨rfl, rfl⟩ <;> constructor <;> linarith
    have hv' : 0 ≤ v' ∧ v' ≤ 1 := by rcases huv with ⟨rfl, rfl⟩ | ⟨rfl, rfl⟩ <;> constructor <;> linarith
    have hpos' : 0 < 1 + v' - u' := by rcases huv with ⟨rfl, rfl⟩ | ⟨rfl, rfl⟩ <;> linarith
    clear hpos he hu hv huv
    obtain ⟨h0, c', e1, p, m, x1, x2, g1, g2, g3, g4, g5⟩ := ha
    obtain ⟨c'', e1', _, e3, _, _, e4, _⟩ := C16_subdivision c hk h (k - 1)
    rw [e1'] at e1
    cases e1
    have hf' := (C16_same_maps c c' hk h (k - 1) e1' f).2 hf
    have hm1 := e4.toShape.cube?_lt_genus g4
    have hN := e4.div_pos
    have hG : (0 : ℝ) < c'.genus := by exact_mod_cast e4.genus_pos
    refine ⟨p, e3 ▸ cube?_lt g3, (m + u') / c'.genus, ((m + 1 : ℕ) + v') / c'.genus, ?_, ?_, ?_, ?_⟩
    · have := hu'.1; positivity
    · rw [div_lt_div_iff_of_pos_right hG]; push_cast; linarith
    · rw [div_le_one hG]
      have : ((m + 1 : ℕ) : ℝ) + 1 ≤ c'.genus := by exact_mod_cast hm1
      linarith
    · rw [hf'.eqn p m x1 _ g3 g1 u' hu'.1 hu'.2, hf'.eqn p (m + 1) x2 _ g4 g2 v' hv'.1 hv'.2]
      unfold FracPair.ratio
      rw [g5]
      conv_rhs => rw [← Ratio.val_smul r hr hN]
      congr 1
      · funext i
        push_cast
        field_simp
        ring
      · rw [← c'.genus_cast]
        push_cast
        field_simp
        ring

/-- The pair of cells `i1`, `i2` of the junction is not adjacent. -/
def Far (c : FCurve d) (j : Junction d) (i1 i2 : ℕ) : Prop := i1 < c.genus ∧ i2 < c.genus ∧ i1 + 2 ≤ j.deltaT * c.genus + i2

/-- The value is the ratio of points of non-adjacent first-order fractions of a junction. -/
def CoveredBy (c : FCurve d) (r : Ratio) (f : ℕ → ℝ → Fin d → ℝ) (x : ℝ) : Prop :=
  ∃ j i1 i2, c.HasJunction j ∧ c.Far j i1 i2 ∧ ∃ u v : ℝ, 0 ≤ u ∧ u < 1 ∧ 0 < v ∧ v ≤ 1 ∧ x = j.ratio r f ((i1 + u) / c.genus) ((i2 + v) / c.genus)

theorem Full.cover_regular (hr : r.Ok d) (hk : c.kind = .curve) (h : c.Full) (hf : c.Realizes f) {l : List (Junction d × Option ℕ)}
    (hl : c.genRegularJunctions = some l) (n : ℕ) : ∀ j ∈ l.map Prod.fst, ∀ u v : ℝ, 0 ≤ u → u < 1 → 0 < v → v ≤ 1 →
      2 < (1 + v - u) * (c.genus : ℝ) ^ n → c.CoveredBy r f (j.ratio r f u v) := by
  obtain ⟨l', h1, h2, _, h4⟩ := h.regJ hk (h.check_of_realizes hf)
  rw [hl] at h1
  cases h1
  have hG := h.genus_pos
  have hGr : (0 : ℝ) < c.genus := by exact_mod_cast hG
  induction n with
  | zero => intro j hj u v u0 u1 v0 v1 hgap; exfalso; rw [pow_zero] at hgap; linarith
  | succ n ih =>
    intro j hj u v u0 u1 v0 v1 hgap
    obtain ⟨hT, p1, p2, _⟩ := h2 j hj
    obtain ⟨i1, hi1, x, x0, x1, hx⟩ := floor_cell hG u0 u1
    obtain ⟨i2, hi2, y, y0, y1, hy⟩ := ceil_cell hG v0 v1
    by_cases hadj : i1 = c.genus - 1 ∧ i2 = 0
    · obtain ⟨dj, hdj, hs⟩ := h4 j hj
      have e : j.ratio r f u v = (c.deriveP j.pair).ratio r f 1 x y := by
        rw [Junction.ratio_pair, hx, hy, ratio_sub hr h hf p1 p2 _ hi1 hi2 ⟨x0, x1.le⟩ ⟨y0.le, y1⟩, hT, hadj.1, hadj.2, Nat.cast_sub (by omega)]
        show (c.deriveP j.pair).ratio _ _ _ _ _ = _
        congr 1
        push_cast
        ring
      obtain ⟨x', y', hxy, he⟩ := ratio_same hs 1 r f x y
      have hdT := (h2 dj hdj).1
      have e' : j.ratio r f u v = dj.ratio r f x' y' := by
        rw [e, ← he, Junction.ratio_pair, hdT]; norm_num
      have hgap' : 1 + y' - x' = (1 + v - u) * c.genus := by
        have : 1 + y' - x' = 1 + y - x := by rcases hxy with ⟨rfl, rfl⟩ | ⟨rfl, rfl⟩ <;> ring
        rw [this, hx, hy, hadj.1, hadj.2, Nat.cast_sub (by omega)]
        push_cast
        field_simp
        ring
      rw [e']
      apply ih dj hdj
      · rcases hxy with ⟨rfl, rfl⟩ | ⟨rfl, rfl⟩ <;> linarith
      · rcases hxy with ⟨rfl, rfl⟩ | ⟨rfl, rfl⟩ <;> linarith
      · rcases hxy with ⟨rfl, rfl⟩ | ⟨rfl, rfl⟩ <;> linarith
      · rcases hxy with ⟨rfl, rfl⟩ | ⟨rfl, rfl⟩ <;> linarith
      · rw [hgap']
        calc (2 : ℝ) < _ := hgap
          _ = _ := by rw [pow_succ]; ring
    · refine ⟨j, i1, i2, Or.inr ⟨l, hl, hj⟩, ⟨hi1, hi2, ?_⟩, x, y, x0, x1, y0, y1, by rw [hx, hy]⟩
      rw [hT]
      rw [not_and_or] at hadj
      omega

theorem ratio_spec (r : Ratio) (f : ℕ → ℝ → Fin d → ℝ) (s : Spec d) (x y : ℝ) :
    r.val (fun j => actFn s f x j - actFn s f y j) (y - x) =
      if s.baseMap.timeRev then r.val (fun j => f s.pnum (1 - y) j - f s.pnum (1 - x) j) ((1 - x) - (1 - y))
      else r.val (fun j => f s.pnum x j - f s.pnum y j) (y - x) := by
  have e : (fun j => actFn s f x j - actFn s f y j) = s.baseMap.applyVec (f s.pnum (s.baseMap.applyT 1 x) - f s.pnum (s.baseMap.applyT 1 y)) := by
    rw [← BaseMap.applyX_sub s.baseMap 1]; rfl
  rw [e, Ratio.val_applyVec]
  by_cases ht : s.baseMap.timeRev = true
  · simp only [BaseMap.applyT, ht, if_true]
    rw [← Ratio.val_neg, neg_sub]
    rw [show (1 - x) - (1 - y) = y - x by ring]
    rfl
  · simp only [BaseMap.applyT, ht]
    rfl

theorem Full.cover_auto (hd : d ≠ 0) (hr : r.Ok d) (hk : c.kind = .curve) (h : c.Full) (hf : c.Realizes f) (n : ℕ) : ∀ p < c.mult, ∀ s t : ℝ, 0 ≤ s → s < t → t ≤ 1 →
    1 < (t - s) * (c.genus : ℝ) ^ n → c.CoveredBy r f (r.val (fun j => f p s j - f p t j) (t - s)) := by
  obtain ⟨l, hl, h2, h3, _⟩ := h.regJ hk (h.check_of_realizes hf)
  have hG := h.genus_pos
  have hGr : (0 : ℝ) < c.genus := by exact_mod_cast hG
  have hG1 : (1 : ℝ) < c.genus := by
    have : 1 < c.genus := by
      have := h.two_le_div
      unfold genus
      calc 1 < c.div := by omega
        _ ≤ c.div ^ d := Nat.le_self_pow hd _
    exact_mod_cast this
  have hN := h.div_pos
  induction n with
  | zero => intro p hp s t s0 hst t1 hgap; exfalso; rw [pow_zero] at hgap; linarith
  | succ n ih =>
    intro p hp s t s0 hst t1 hgap
    obtain ⟨i1, hi1, x, x0, x1, hx⟩ := floor_cell hG s0 (by linarith)
    obtain ⟨i2, hi2, y, y0, y1, hy⟩ := ceil_cell hG (by linarith) t1
    have hle : i1 ≤ i2 := by
      have h1 : (i1 : ℝ) < i2 + 1 := by
        rw [hx, hy, div_lt_div_iff_of_pos_right hGr] at hst
        linarith
      have : i1 < i2 + 1 := by exact_mod_cast h1
      omega
    have e1 := hf.eqn p i1 _ _ (h.cube_eq hp hi1) (h.spec_eq hp hi1) x x0 x1.le
    have e2 := hf.eqn p i2 _ _ (h.cube_eq hp hi2) (h.spec_eq hp hi2) y y0.le y1
    have key : r.val (fun j => f p s j - f p t j) (t - s) = r.val (fun j => (c.cubeD p i1 j + actFn (c.specD p i1) f x j) -
        (c.cubeD p i2 j + actFn (c.specD p i2) f y j)) (i2 + y - (i1 + x)) := by
      conv_lhs => rw [← Ratio.val_smul r hr hN]
      rw [hx, hy, e1, e2]
      congr 1
      · funext j; field_simp
      · rw [← c.genus_cast]; field_simp
    rcases Nat.lt_or_ge i2 (i1 + 2) with hlt | hge
    · rcases Nat.lt_or_ge i2 (i1 + 1) with hlt' | hge'
      · have : i2 = i1 := by omega
        subst this
        have key' : r.val (fun j => f p s j - f p t j) (t - s) = r.val (fun j => actFn (c.specD p i2) f x j - actFn (c.specD p i2) f y j) (y - x) := by
          rw [key]; congr 1
          · funext j; ring
          · ring
        have hxy : x < y := by
          rw [hx, hy, div_lt_div_iff_of_pos_right hGr] at hst
          linarith
        have hsp := h.specD_lt hp hi2
        have hgap' : 1 < (y - x) * (c.genus : ℝ) ^ n := by
          have : t - s = (y - x) / c.genus := by rw [hx, hy]; field_simp; ring
          rw [this, pow_succ] at hgap
          calc (1 : ℝ) < _ := hgap
            _ = _ := by field_simp
        rw [key', ratio_spec]
        split
        · exact ih _ hsp _ _ (by linarith) (by linarith) (by linarith) (by rw [show (1 - x) - (1 - y) = y - x by ring]; exact hgap')
        · exact ih _ hsp _ _ x0 hxy y1 hgap'
      · have : i2 = i1 + 1 := by omega
        subst this
        obtain ⟨j, hj, hs⟩ := h3 p i1 hp hi2
        have key' : r.val (fun j => f p s j - f p t j) (t - s) = (c.basePair p i1).ratio r f 1 x y := by
          rw [key]
          unfold FracPair.ratio basePair
          congr 1
          · funext j; push_cast; ring
          · push_cast; ring
        obtain ⟨x', y', hxy, he⟩ := ratio_same hs 1 r f x y
        have hdT := (h2 j hj).1
        have e' : r.val (fun j => f p s j - f p t j) (t - s) = j.ratio r f x' y' := by
          rw [key', ← he, Junction.ratio_pair, hdT]; norm_num
        rw [e']
        have hpos : 0 < 1 + y' - x' := by rcases hxy with ⟨rfl, rfl⟩ | ⟨rfl, rfl⟩ <;> linarith
        obtain ⟨m, hm⟩ := pow_unbounded_of_one_lt (2 / (1 + y' - x')) hG1
        apply h.cover_regular hr hk hf hl m j hj
        · rcases hxy with ⟨rfl, rfl⟩ | ⟨rfl, rfl⟩ <;> linarith
        · rcases hxy with ⟨rfl, rfl⟩ | ⟨rfl, rfl⟩ <;> linarith
        · rcases hxy with ⟨rfl, rfl⟩ | ⟨rfl, rfl⟩ <;> linarith
        · rcases hxy with ⟨rfl, rfl⟩ | ⟨rfl, rfl⟩ <;> linarith
        · rwa [div_lt_iff₀ hpos, mul_comm] at hm
    · refine ⟨Junction.auto d p, i1, i2, Or.inl (List.mem_map_of_mem (List.mem_range.2 hp)), ⟨hi1, hi2, ?_⟩, x, y, x0, x1, y0, y1, ?_⟩
      · simpa [Junction.auto] using hge
      · rw [auto_ratio, ← hx, ← hy]

/-- Every ratio of the curve is the ratio of points of non-adjacent first-order fractions of a junction. -/
theorem Full.cover (hd : d ≠ 0) (hr : r.Ok d) (hk : c.kind = .curve) (h : c.Full) (hf : c.Realizes f) {x : ℝ} (hx : x ∈ c.ratios r f) : c.CoveredBy r f x := by
  obtain ⟨p, hp, s, t, s0, hst, t1, rfl⟩ := hx
  have hG1 : (1 : ℝ) < c.genus := by
    have : 1 < c.genus := by
      have := h.two_le_div
      unfold genus
      calc 1 < c.div := by omega
        _ ≤ c.div ^ d := Nat.le_self_pow hd _
    exact_mod_cast this
  have hpos : 0 < t - s := by linarith
  obtain ⟨m, hm⟩ := pow_unbounded_of_one_lt (1 / (t - s)) hG1
  apply h.cover_auto hd hr hk hf m p hp s t s0 hst t1
  rwa [div_lt_iff₀ hpos, mul_comm] at hm

end FCurve
end Peano
