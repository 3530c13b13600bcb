import Verif.Lemmas.RegularB
import Mathlib.Data.Multiset.DershowitzManna
import Mathlib.Tactic.Linarith
import Mathlib.Tactic.Positivity

set_option autoImplicit false

/- Termination of the loops over pairs. -/
namespace Peano
variable {d : ℕ} {r : Ratio} {f : ℕ → ℝ → Fin d → ℝ} {c e : FCurve d}
open FCurve (PairOK SubCurve Possible SoundBounds CoordsOK)

/-- Replacing an item by items of the next level and dropping others. -/
theorem dm_of_perm {α : Type} {w : α} {J act J' I I' : List α} {lvl : α → ℕ} {K : ℕ} (hw : lvl w < K) (hact : ∀ x ∈ act, lvl x = lvl w + 1)
    (hJ : J'.Sublist J) (hI : I.Perm (w :: J)) (hI' : I'.Perm (act ++ J')) :
    Multiset.IsDershowitzMannaLT ((I' : Multiset α).map fun x => K - lvl x) ((I : Multiset α).map fun x => K - lvl x) := by
  obtain ⟨R, hR⟩ := Multiset.le_iff_exists_add.1 (Multiset.coe_le.2 hJ.subperm)
  refine ⟨(J' : Multiset α).map fun x => K - lvl x, (act : Multiset α).map fun x => K - lvl x, (w ::ₘ R).map fun x => K - lvl x, by simp, ?_, ?_, ?_⟩
  · rw [Multiset.coe_eq_coe.2 hI', ← Multiset.coe_add, Multiset.map_add, add_comm]
  · rw [Multiset.coe_eq_coe.2 hI, ← Multiset.cons_coe, hR, ← Multiset.map_add, Multiset.add_cons]
  · intro y hy
    obtain ⟨x, hx, rfl⟩ := Multiset.mem_map.1 hy
    refine ⟨K - lvl w, Multiset.mem_map.2 ⟨w, Multiset.mem_cons_self _ _, rfl⟩, ?_⟩
    have := hact x (Multiset.mem_coe.1 hx)
    omega

/-- Denominators for close times. -/
theorem Ratio.den_close (r : Ratio) {s t q tol : ℚ} (hs : 0 < s) (hst : s ≤ t) (hq : 0 ≤ q) (hq1 : q ≤ 1) (ht : t ≤ s * (1 + q)) (htol : 1 + 3 * q ≤ tol) :
    r.den t ≤ r.den s * tol := by
  have h1 : t ≤ s * tol := ht.trans (by nlinarith)
  cases r
  · exact h1
  · exact h1
  · show t ^ 2 ≤ s ^ 2 * tol
    have h2 : t ^ 2 ≤ (s * (1 + q)) ^ 2 := pow_le_pow_left₀ (hs.le.trans hst) ht 2
    have h3 : (1 + q) ^ 2 ≤ tol := by nlinarith
    have h4 : (s * (1 + q)) ^ 2 = s ^ 2 * (1 + q) ^ 2 := by ring
    rw [h4] at h2
    exact h2.trans (mul_le_mul_of_nonneg_left h3 (sq_nonneg s))
  · exact h1

theorem exists_depth {G : ℕ} (hG : 2 ≤ G) (x : ℚ) : ∃ n : ℕ, ∀ k ≥ n, ∀ t : ℤ, (G : ℤ) ^ k ≤ t * G → x ≤ t := by
  obtain ⟨m, hm⟩ := exists_nat_gt (x * G)
  refine ⟨m, ?_⟩
  intro k hk t ht
  have hG0 : (0 : ℚ) < G := by exact_mod_cast (by omega : 0 < G)
  have h1 : m < G ^ k := lt_of_lt_of_le (Nat.lt_pow_self (by omega)) (Nat.pow_le_pow_right (by omega) hk)
  have h2 : (m : ℚ) < (G : ℚ) ^ k := by exact_mod_cast h1
  have h3 : (G : ℚ) ^ k ≤ t * G := by exact_mod_cast ht
  have h4 : x * G ≤ t * G := by linarith
  exact le_of_mul_le_mul_right h4 hG0

theorem Ratio.le_den (r : Ratio) {t : ℚ} (h : 1 ≤ t) : t ≤ r.den t := by
  cases r
  · exact le_rfl
  · exact le_rfl
  · show t ≤ t ^ 2
    nlinarith
  · exact le_rfl

theorem pow_close {a b ε : ℚ} {n m : ℕ} (ha : 0 ≤ a) (hε : 0 ≤ ε) (hε1 : ε ≤ 1) (hab : a * (1 - ε) ≤ b) (hn : n ≤ m) : a ^ n * (1 - m * ε) ≤ b ^ n := by
  have h1 : (a * (1 - ε)) ^ n ≤ b ^ n := pow_le_pow_left₀ (mul_nonneg ha (by linarith)) hab n
  have h2 : 1 - (n : ℚ) * ε ≤ (1 - ε) ^ n := by
    have := one_add_mul_le_pow (a := -ε) (by linarith) n
    have e : (1 - ε) = 1 + -ε := by ring
    rw [e]
    linarith
  have h3 : (1 - (m : ℚ) * ε) ≤ (1 - ε) ^ n := by
    have : (n : ℚ) ≤ m := by exact_mod_cast hn
    nlinarith
  rw [mul_pow] at h1
  exact (mul_le_mul_of_nonneg_left h3 (pow_nonneg ha n)).trans h1

theorem Ratio.num_close (r : Ratio) {v w : Fin d → ℚ} {c : ℚ} (hc : 0 ≤ c) (hd : (1 : ℚ) ≤ d) (hM : 0 < maxAbs v) (hε : 2 * c * d / maxAbs v ≤ 1)
    (hw : ∀ i, |v i| - c ≤ |w i|) : r.num v * (1 - d * (2 * c * d / maxAbs v)) ≤ r.num w := by
  set M := maxAbs v with hMdef
  set ε := 2 * c * d / M with hεdef
  have hε0 : 0 ≤ ε := by positivity
  have hcM : 2 * c * d = ε * M := by rw [hεdef]; field_simp
  have h1 : maxAbs v * (1 - ε) ≤ maxAbs w := by
    have : maxAbs v ≤ maxAbs w + c := by
      rw [maxAbs_le (by have := maxAbs_nonneg w; linarith)]
      intro i
      linarith [hw i, abs_le_maxAbs w i]
    rw [← hMdef] at this ⊢
    nlinarith
  have hex : ∃ i, |v i| = M := by
    by_contra hno
    push Not at hno
    have hne : (Finset.univ : Finset (Fin d)).Nonempty := by
      have : 0 < d := by exact_mod_cast lt_of_lt_of_le one_pos hd
      exact ⟨⟨0, this⟩, Finset.mem_univ _⟩
    obtain ⟨i, _, hi⟩ := Finset.exists_max_image Finset.univ (fun i => |v i|) hne
    have : maxAbs v ≤ |v i| := (maxAbs_le (abs_nonneg _)).2 fun j => hi j (Finset.mem_univ _)
    exact hno i (le_antisymm (abs_le_maxAbs v i) this)
  obtain ⟨i0, hi0⟩ := hex
  have h2 : sumAbs v * (1 - ε) ≤ sumAbs w := by
    rw [sumAbs_eq, sumAbs_eq]
    have hs : ∑ i, |v i| - d * c ≤ ∑ i, |w i| := by
      have : ∑ i : Fin d, (|v i| - c) ≤ ∑ i, |w i| := Finset.sum_le_sum fun i _ => hw i
      rw [Finset.sum_sub_distrib] at this
      simpa using this
    have hge : M ≤ ∑ i, |v i| := by
      rw [← hi0]
      exact Finset.single_le_sum (fun i _ => abs_nonneg (v i)) (Finset.mem_univ i0)
    nlinarith
  have h3 : sumSq v * (1 - ε) ≤ sumSq w := by
    rw [sumSq_eq, sumSq_eq]
    have hs : ∑ i, v i ^ 2 - 2 * c * d * M ≤ ∑ i, w i ^ 2 := by
      have : ∑ i : Fin d, (v i ^ 2 - 2 * c * M) ≤ ∑ i, w i ^ 2 := by
        refine Finset.sum_le_sum fun i _ => ?_
        have a1 := abs_le_maxAbs v i
        rw [← hMdef] at a1
        rw [← sq_abs (v i), ← sq_abs (w i)]
        have a2 := hw i
        have a3 := abs_nonneg (v i)
        have a4 := abs_nonneg (w i)
        rcases le_total c |v i| with h | h
        · nlinarith
        · nlinarith
      rw [Finset.sum_sub_distrib] at this
      simp only [Finset.sum_const, Finset.card_univ, Fintype.card_fin, nsmul_eq_mul] at this
      linarith
    have hge : M ^ 2 ≤ ∑ i, v i ^ 2 := by
      rw [← hi0, sq_abs]
      exact Finset.single_le_sum (f := fun i => v i ^ 2) (fun i _ => sq_nonneg (v i)) (Finset.mem_univ i0)
    rw [hcM] at hs
    nlinarith
  cases r
  · exact pow_close (maxAbs_nonneg v) hε0 hε h1 le_rfl
  · exact pow_close (sumAbs_nonneg v) hε0 hε h2 le_rfl
  · exact pow_close (sumSq_nonneg v) hε0 hε h3 le_rfl
  · exact pow_close (sumSq_nonneg v) hε0 hε h3 (Nat.div_le_self d 2)

/-- Values at close points, if the time is long and the value is not small. -/
theorem Ratio.val_close (r : Ratio) (hd : d ≠ 0) {tol c0 D0 : ℚ} (htol : 1 < tol) (hc0 : 0 < c0) (hD0 : 0 < D0) :
    ∃ X : ℚ, ∀ (v w : Fin d → ℚ) (tmin tmax dt : ℚ), (∀ i, 0 ≤ v i) → (∀ i, v i - c0 ≤ |w i|) → 1 ≤ tmin → X ≤ tmin → 0 < dt → dt ≤ tmax →
      r.den tmax ≤ r.den tmin * ((1 + tol) / 2) → D0 < r.val v tmin → r.val v tmin ≤ r.val w dt * tol := by
  have hd0 : (1 : ℚ) ≤ d := by exact_mod_cast Nat.pos_of_ne_zero hd
  have htol0 : 0 < tol := by linarith
  obtain ⟨η, hη, hη0⟩ : ∃ η : ℚ, η = (tol - 1) / (2 * tol) ∧ 0 < η := ⟨_, rfl, div_pos (by linarith) (by linarith)⟩
  obtain ⟨R, hR1, hR2, hRp⟩ : ∃ R : ℚ, 2 * c0 * d ^ 2 ≤ R * η ∧ 2 * c0 * d ≤ R ∧ 0 < R := by
    refine ⟨2 * c0 * d ^ 2 / η + 2 * c0 * d, ?_, ?_, by positivity⟩
    · rw [add_mul, div_mul_cancel₀ _ hη0.ne']
      have : 0 ≤ 2 * c0 * d * η := by positivity
      linarith
    · have : 0 ≤ 2 * c0 * d ^ 2 / η := by positivity
      linarith
  refine ⟨r.num (fun _ : Fin d => R) / D0, ?_⟩
  intro v w tmin tmax dt hv hw h1 hX hdt hdtm hden hval
  have hmin : 0 < tmin := by linarith
  have hd1 := r.den_pos hmin
  have hd2 := r.den_pos hdt
  have hnum0 := r.num_nonneg v
  have hM : R < maxAbs v := by
    by_contra hle
    have hle := not_lt.1 hle
    have hnum : r.num v ≤ r.num (fun _ : Fin d => R) := by
      apply r.num_mono
      intro i
      rw [abs_of_pos hRp]
      exact (abs_le_maxAbs _ i).trans hle
    apply not_le.2 hval
    unfold Ratio.val
    rw [div_le_iff₀ hd1]
    rw [div_le_iff₀ hD0] at hX
    have h3 : D0 * tmin ≤ D0 * r.den tmin := mul_le_mul_of_nonneg_left (r.le_den h1) hD0.le
    linarith [mul_comm tmin D0]
  have hMp : 0 < maxAbs v := hRp.trans hM
  have hclose := r.num_close (v := v) (w := w) (c := c0) hc0.le hd0 hMp (by
    rw [div_le_one hMp]
    linarith) (by
    intro i
    rw [abs_of_nonneg (hv i)]
    exact hw i)
  have hη1 : (d : ℚ) * (2 * c0 * d / maxAbs v) ≤ η := by
    rw [← mul_div_assoc, div_le_iff₀ hMp]
    have : R * η ≤ maxAbs v * η := mul_le_mul_of_nonneg_right hM.le hη0.le
    have e : (d : ℚ) * (2 * c0 * d) = 2 * c0 * d ^ 2 := by ring
    rw [e, mul_comm η]
    linarith
  have hnw : r.num v * (1 - η) ≤ r.num w := by
    refine le_trans (mul_le_mul_of_nonneg_left ?_ hnum0) hclose
    linarith
  have hdt' : r.den dt ≤ r.den tmax := by
    rcases hdtm.lt_or_eq with h1 | h1
    · exact (r.den_strictMono hdt.le h1).le
    · rw [h1]
  unfold Ratio.val
  rw [div_mul_eq_mul_div, div_le_div_iff₀ hd1 hd2]
  have ht : (1 + tol) / 2 = (1 - η) * tol := by
    rw [hη]; field_simp; ring
  calc r.num v * r.den dt ≤ r.num v * (r.den tmin * ((1 + tol) / 2)) := mul_le_mul_of_nonneg_left (hdt'.trans hden) hnum0
    _ = r.num v * (1 - η) * (tol * r.den tmin) := by rw [ht]; ring
    _ ≤ r.num w * (tol * r.den tmin) := mul_le_mul_of_nonneg_right hnw (by positivity)
    _ = r.num w * tol * r.den tmin := by ring

namespace Dilation

theorem level_le {p : PiecePair d} (h : PairOK c p) : p.level ≤ 2 * p.pos1.depth := by
  have := h.balanced
  unfold PiecePair.level
  omega

/-- Deep pairs have a relatively small range of time differences. -/
theorem exists_level (r : Ratio) (hG : 2 ≤ c.genus) {tol : ℚ} (htol : 1 < tol) :
    ∃ K : ℕ, ∀ p k, PairOK c p → CoordsOK c p k → K ≤ p.level → r.den (k.maxDt : ℚ) ≤ r.den (k.minDt : ℚ) * tol := by
  have hG1 : (0 : ℚ) < c.genus + 1 := by positivity
  obtain ⟨n, hn⟩ := exists_depth hG (max (c.genus + 1) (3 * (c.genus + 1) / (tol - 1)))
  refine ⟨2 * n, ?_⟩
  intro p k hp hk hl
  have := level_le hp
  have hx := hn p.pos1.depth (by omega) k.minDt hk.min_ge
  have hmin : (0 : ℚ) < k.minDt := by exact_mod_cast hk.min_pos
  have h1 : ((c.genus : ℚ) + 1) ≤ k.minDt := (le_max_left _ _).trans hx
  have h2 : 3 * ((c.genus : ℚ) + 1) / (tol - 1) ≤ k.minDt := (le_max_right _ _).trans hx
  have ht : 0 < tol - 1 := by linarith
  rw [div_le_iff₀ ht] at h2
  have hmax : (k.maxDt : ℚ) ≤ k.minDt + c.genus + 1 := by exact_mod_cast hk.max_le
  have hlt : (k.minDt : ℚ) ≤ k.maxDt := by exact_mod_cast hk.min_lt.le
  refine r.den_close (q := (c.genus + 1) / k.minDt) hmin hlt (by positivity) ((div_le_one hmin).2 h1) ?_ ?_
  · rw [mul_add, mul_one, mul_div_cancel₀ _ hmin.ne']
    linarith
  · have : 3 * (((c.genus : ℚ) + 1) / k.minDt) ≤ tol - 1 := by
      rw [← mul_div_assoc, div_le_iff₀ hmin]
      linarith
    linarith

variable {Q : HeapQ (HNode (BoundedPair d)) HNode.lt} {D : ℝ} {stash : Stash d}

theorem coords_mx2 {j : Junction d} {pos1 pos2 : PiecePos d} {k : Coords d} (h : coords j pos1 pos2 = some k) : k.mx2 = 1 ∨ k.mx2 = pos1.div := by
  unfold coords at h
  simp only [Option.bind_eq_bind] at h
  unfold commonScale at h
  split_ifs at h
  · simp only [Option.bind_some, Option.pure_def, Option.some.injEq] at h
    exact Or.inl (by rw [← h])
  · simp only [Option.bind_some, Option.pure_def, Option.some.injEq] at h
    exact Or.inr (by rw [← h])
  · simp at h

namespace RegCtx

theorem noStash (h : RegCtx c e f r D stash) : RegCtx c e f r D none := { h with stashOk := trivial, full := by simp }

theorem dilation_pos (h : RegCtx c e f r D stash) : 0 < D := by
  obtain ⟨y, hy, _, _⟩ := h.est.firstCover h.dim h.ratio h.poss h.real h.great.1
  obtain ⟨p, _, hp, _⟩ := h.est.firstPair h.dim hy
  obtain ⟨b, k, hb, hk, _, _, hlo, _⟩ := hp.bounds h.dim h.ratio (h.possible hp) h.real (stash := none) trivial (by simp)
  have hx : ItemOK c r none ⟨b.lo, b.up, p, b.argmax⟩ := ⟨hp, hb⟩
  refine lt_of_lt_of_le ?_ (h.noStash.lo_le hx)
  have : (0 : ℚ) < r.val (fun i => (k.maxDx i : ℚ)) k.maxDt := by
    apply r.val_pos
    · refine ⟨⟨0, Nat.pos_of_ne_zero h.dim⟩, ?_⟩
      have := hk.dx_pos ⟨0, Nat.pos_of_ne_zero h.dim⟩
      exact_mod_cast this.ne'
    · exact_mod_cast hk.min_pos.trans hk.min_lt
  show (0 : ℝ) < b.lo
  rw [hlo rfl]
  exact_mod_cast this

/-- The bounds of deep items are close, if the upper bound is above the dilation. -/
theorem close (h : RegCtx c e f r D stash) {tol : ℚ} (htol : 1 < tol) :
    ∃ K : ℕ, ∀ x, ItemOK c r stash x → K ≤ x.pair.level → D < x.up → x.up ≤ x.lo * tol := by
  obtain ⟨D0, hD0, hD1⟩ := exists_rat_btwn h.dilation_pos
  have hD0 : 0 < D0 := by exact_mod_cast hD0
  obtain ⟨K, hK⟩ := exists_level (c := c) r (h.est.two_le_genus h.dim) (tol := (1 + tol) / 2) (by linarith)
  have hc0p : (0 : ℚ) < 1 + c.div := by positivity
  obtain ⟨X, hX⟩ := r.val_close (d := d) h.dim htol hc0p hD0
  obtain ⟨n, hn⟩ := exists_depth (h.est.two_le_genus h.dim) X
  refine ⟨max K (2 * n), ?_⟩
  intro x hx hl hup
  obtain ⟨b, k, hb, hk, _, hbup, _, _, dx, dt, n1, n2, n3, n4⟩ := hx.pair.bounds h.dim h.ratio (h.possible hx.pair) h.real h.stashOk (h.pairFull hx.pair)
  have e := hx.bounds
  rw [show getBounds (m := Option) (pureB r) stash x.pair = some b from hb] at e
  have e1 : x.lo = b.lo := by rw [Option.some.inj e]
  have e2 : x.up = b.up := by rw [Option.some.inj e]
  have hlev := level_le hx.pair
  have hmx : (k.mx2 : ℚ) ≤ c.div := by
    rcases coords_mx2 hk.coords with h1 | h1
    · rw [h1]
      have := h.est.two_le_div
      exact_mod_cast (by omega : (1 : ℕ) ≤ c.div)
    · rw [h1, hx.pair.piece1.div, hx.pair.sub.div]
      simp
  rw [e1, e2, hbup, n4]
  refine hX _ _ k.minDt k.maxDt dt (fun i => ?_) (fun i => ?_) (by exact_mod_cast hk.min_pos)
    (hn x.pair.pos1.depth (by have := (le_max_right K (2 * n)).trans hl; omega) k.minDt hk.min_ge) n2 n3
    (hK x.pair k hx.pair hk ((le_max_left _ _).trans hl)) ?_
  · exact_mod_cast (hk.dx_pos i).le
  · linarith [n1 i]
  · rw [← hbup, ← e2]
    have : (D0 : ℝ) < x.up := hD1.trans hup
    exact_mod_cast this

end RegCtx

/-- The loop ends if deep items satisfy a condition to stop. -/
theorem RegCtx.terminates (h : RegCtx c e f r D stash) (p : RegularParams) (tol : Option ℚ) {K : ℕ}
    (hK : ∀ st n, RegInv Q c f r D stash st → (∀ w, st.tree.top = some w → K ≤ w.pair.level) → regularStop p tol n st = true) (st : RegularState d) :
    ∀ n, RegInv Q c f r D stash st → ∃ fuel0, ∀ fuel ≥ fuel0, ∃ lo up a, regularLoop (m := Option) Q (pureB r) p tol stash fuel n st = some (.ok lo up a) := by
  have wf := Multiset.wellFounded_isDershowitzMannaLT (α := ℕ)
  generalize hM : ((st.tree.items : Multiset (BoundedPair d)).map fun x => K - x.pair.level) = M
  induction M using wf.induction generalizing st with
  | h M ih =>
    intro n hI
    by_cases hs : regularStop p tol (n + 1) st = true
    · refine ⟨1, ?_⟩
      intro fuel hf
      obtain ⟨k, rfl⟩ := Nat.exists_eq_add_of_le hf
      refine ⟨st.lo, st.up, st.argmax, ?_⟩
      rw [add_comm 1 k]
      unfold regularLoop
      rw [if_pos hs]
      rfl
    · obtain ⟨st', h1, h2, w, J, xs, act, J', subs, s1, s2, s3, s4, s5, s6, s7, s8, s9, _⟩ := h.step hI
      have hlw : w.pair.level < K := by
        by_contra hlt
        apply hs
        apply hK st (n + 1) hI
        intro w' hw'
        rw [s1] at hw'
        cases hw'
        exact not_lt.1 hlt
      have hlt := dm_of_perm (lvl := fun x : BoundedPair d => x.pair.level) hlw (by
        intro x hx
        have hm : x.pair ∈ subs := by rw [← s5]; exact List.mem_map_of_mem (s7 x hx)
        exact (s4.ok x.pair hm).2.2.2.1) s8 s2 s9
      rw [hM] at hlt
      obtain ⟨fuel0, hf⟩ := ih _ hlt st' rfl (n + 1) h2
      refine ⟨fuel0 + 1, ?_⟩
      intro fuel hfu
      obtain ⟨k, rfl⟩ := Nat.exists_eq_add_of_le hfu
      obtain ⟨lo, up, a, hr⟩ := hf (fuel0 + k) (Nat.le_add_right _ _)
      refine ⟨lo, up, a, ?_⟩
      rw [show fuel0 + 1 + k = (fuel0 + k) + 1 by omega]
      unfold regularLoop
      rw [if_neg hs]
      show Option.bind _ _ = _
      rw [h1]
      exact hr

/-- The loop ends if the number of iterations is limited. -/
theorem RegCtx.terminates_max (h : RegCtx c e f r D stash) (p : RegularParams) (tol : Option ℚ) {N : ℤ} (hN : p.maxIter = some N) (fuel : ℕ) :
    ∀ (n : ℕ) st, RegInv Q c f r D stash st → N < fuel + n → 0 < fuel → ∃ lo up a, regularLoop (m := Option) Q (pureB r) p tol stash fuel n st = some (.ok lo up a) := by
  induction fuel with
  | zero => intro n st _ _ h0; exact absurd h0 (lt_irrefl _)
  | succ fuel ih =>
    intro n st hI hlt _
    by_cases hs : regularStop p tol (n + 1) st = true
    · refine ⟨st.lo, st.up, st.argmax, ?_⟩
      unfold regularLoop
      rw [if_pos hs]
      rfl
    · obtain ⟨st', h1, h2, _⟩ := h.step hI
      have hn : ¬ ((n + 1 : ℕ) : ℤ) > N := by
        intro hgt
        apply hs
        unfold regularStop
        rw [hN]
        simp only [Option.any_some, decide_eq_true hgt, Bool.or_true, Bool.true_or]
      obtain ⟨lo, up, a, hr⟩ := ih (n + 1) st' h2 (by push_cast at hlt ⊢; omega) (by push_cast at hlt hn; omega)
      refine ⟨lo, up, a, ?_⟩
      unfold regularLoop
      rw [if_neg hs]
      show Option.bind _ _ = _
      rw [h1]
      exact hr

end Dilation
end Peano
