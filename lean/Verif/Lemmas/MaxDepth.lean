import Verif.Lemmas.RegularB

set_option autoImplicit false

/- The rule `max_depth` of the estimator for regular curves. -/
namespace Peano
variable {d : ℕ} {r : Ratio} {f : ℕ → ℝ → Fin d → ℝ} {c e : FCurve d}
open FCurve (PairOK SubCurve Possible SoundBounds)

/-- Pairs obtained by divisions. -/
inductive PiecePair.Desc : PiecePair d → PiecePair d → Prop
  | refl (p : PiecePair d) : Desc p p
  | step {p q s : PiecePair d} {subs : List (PiecePair d)} : p.divideBalanced = some subs → q ∈ subs → Desc q s → Desc p s

namespace Dilation
variable {Q : HeapQ (HNode (BoundedPair d)) HNode.lt} {D : ℝ} {stash : Stash d}

theorem desc_snoc {p q s : PiecePair d} {subs : List (PiecePair d)} (h : PiecePair.Desc p q) (hs : q.divideBalanced = some subs) (hm : s ∈ subs) : PiecePair.Desc p s := by
  induction h with
  | refl p => exact .step hs hm (.refl _)
  | step h1 h2 _ ih => exact .step h1 h2 (ih hs)

theorem desc_facts {p q : PiecePair d} (h : PiecePair.Desc p q) (hp : PairOK c p) : PairOK c q ∧ p.level ≤ q.level ∧
    (∀ u, c.InCl q.junc.spec1 q.pos1 u → c.InCl p.junc.spec1 p.pos1 u) ∧ (∀ v, c.InCl q.junc.spec2 q.pos2 v → c.InCl p.junc.spec2 p.pos2 v) ∧ q.junc = p.junc := by
  induction h with
  | refl p => exact ⟨hp, le_rfl, fun _ h => h, fun _ h => h, rfl⟩
  | step h1 h2 _ ih =>
    obtain ⟨subs, g1, g2⟩ := hp.divide
    rw [h1] at g1
    cases g1
    obtain ⟨k1, k2, k3, k4, k5, k6⟩ := g2.ok _ h2
    obtain ⟨i1, i2, i3, i4, i5⟩ := ih k1
    exact ⟨i1, by omega, fun u hu => k5 u (i3 u hu), fun v hv => k6 v (i4 v hv), i5.trans k2⟩

theorem depth_eq {p : PiecePair d} (h : PairOK c p) : p.depth = p.level / 2 := by
  have := h.balanced
  unfold PiecePair.depth PiecePair.level
  omega

theorem reached_desc (hE : c.Estimable) (hd : d ≠ 0) {p : PiecePair d} (h : p.Reached c) :
    ∃ y p0, c.FirstPair y ∧ PiecePair.initFirstOrder c y.1 y.2.1 y.2.2 = some p0 ∧ PiecePair.Desc p0 p := by
  induction h with
  | first h1 h2 h3 =>
    obtain ⟨data, g1, g2⟩ := hE.pairData hd
    rw [h1] at g1
    cases g1
    exact ⟨_, _, (g2 _).1 h2, h3, .refl _⟩
  | divide _ h2 h3 ih =>
    obtain ⟨y, p0, a1, a2, a3⟩ := ih
    exact ⟨y, p0, a1, a2, desc_snoc a3 h2 h3⟩

/-- The pair has a lower bound that is not above the current one, or comes from an active item. -/
def Covered (r : Ratio) (stash : Stash d) (st : RegularState d) (p : PiecePair d) : Prop :=
  (∀ b, getBounds (m := Option) (pureB r) stash p = some b → b.lo ≤ st.lo) ∨ ∃ x ∈ st.tree.items, PiecePair.Desc x.pair p

namespace RegCtx
variable (h : RegCtx c e f r D stash)
include h

theorem desc_lo_le {x : BoundedPair d} (hx : ItemOK c r stash x) {p : PiecePair d} (hd : PiecePair.Desc x.pair p) {b : PairBounds d}
    (hb : getBounds (m := Option) (pureB r) stash p = some b) : b.lo ≤ x.up := by
  obtain ⟨hp, _, h1, h2, h3⟩ := desc_facts hd hx.pair
  have hy : ItemOK c r stash ⟨b.lo, b.up, p, b.argmax⟩ := ⟨hp, hb⟩
  obtain ⟨u, v, hu, hv, huv⟩ := (h.sound hy).lo
  have hup := (h.sound hx).up u v (h1 u hu) (h2 v hv)
  have huv : (b.lo : ℝ) ≤ p.junc.ratio r f u v := huv
  rw [h3] at huv
  have : (b.lo : ℝ) ≤ x.up := huv.trans hup
  exact_mod_cast this

theorem covered_init {st : RegularState d} (hst : regularInit (m := Option) Q (pureB r) c stash = some st) {p : PiecePair d} (hp : p.Reached c) :
    Covered r stash st p := by
  obtain ⟨st0, h1, _, xs, h2, h3, h4⟩ := h.init (Q := Q)
  rw [hst] at h1
  cases h1
  obtain ⟨y, p0, a1, a2, a3⟩ := reached_desc h.est h.dim hp
  obtain ⟨x, hx, _, _, _, hxp⟩ := h2 y a1
  rw [a2] at hxp
  cases hxp
  rcases (h4 x hx).2 with hm | hle
  · exact Or.inr ⟨x, hm, a3⟩
  · exact Or.inl fun b hb => (h.desc_lo_le (h3 x hx).1 a3 hb).trans hle

theorem covered_step {st st' : RegularState d} (hI : RegInv Q c f r D stash st) (hs : RegStep c r stash st st') {p : PiecePair d} (hp : Covered r stash st p) : Covered r stash st' p := by
  obtain ⟨w, J, xs, act, J', subs, s1, s2, s3, s4, s5, s6, s7, s8, s9, s10, s11, s12⟩ := hs
  rcases hp with hp | ⟨x, hx, hd⟩
  · exact Or.inl fun b hb => (hp b hb).trans s12
  · have hxok := hI.items x hx
    have hdrop : ∀ y, y ∈ xs ∨ y ∈ J → ItemOK c r stash y → PiecePair.Desc y.pair p → Covered r stash st' p := by
      intro y hy hyo hyd
      rcases s10 y hy with hm | hle
      · exact Or.inr ⟨y, hm, hyd⟩
      · exact Or.inl fun b hb => (h.desc_lo_le hyo hyd hb).trans hle
    rcases List.mem_cons.1 (s2.mem_iff.1 hx) with rfl | hxJ
    · cases hd with
      | refl _ =>
        left
        intro b hb
        rw [hxok.bounds] at hb
        obtain ⟨P, _, _, p3, p4, _⟩ := hI.max
        have : b.lo = x.lo := by rw [← Option.some.inj hb]
        rw [this]
        exact (p4 x (p3 x hx)).trans s12
      | step g1 g2 g3 =>
        rw [s3] at g1
        cases g1
        rw [← s5] at g2
        obtain ⟨y, hy, rfl⟩ := List.mem_map.1 g2
        exact hdrop y (Or.inl hy) (s6 y hy) g3
    · exact hdrop x (Or.inr hxJ) hxok hd

theorem loop_covered (p : RegularParams) (tol : Option ℚ) (fuel : ℕ) : ∀ (n : ℕ) (st : RegularState d), RegInv Q c f r D stash st →
    ∀ lo up a, regularLoop (m := Option) Q (pureB r) p tol stash fuel n st = some (.ok lo up a) →
      ∃ st' n', RegInv Q c f r D stash st' ∧ st'.lo = lo ∧ regularStop p tol n' st' = true ∧ ∀ q, Covered r stash st q → Covered r stash st' q := by
  induction fuel with
  | zero => intro n st hI lo up a hres; cases hres
  | succ fuel ih =>
    intro n st hI lo up a hres
    unfold regularLoop at hres
    by_cases hs : regularStop p tol (n + 1) st = true
    · rw [if_pos hs] at hres
      cases hres
      exact ⟨st, n + 1, hI, rfl, hs, fun _ h => h⟩
    · rw [if_neg hs] at hres
      obtain ⟨st', h1, h2, h3⟩ := h.step hI
      have hres : Option.bind (regularStep (m := Option) Q (pureB r) stash st) _ = _ := hres
      rw [h1] at hres
      obtain ⟨st2, n', k1, k2, k3, k4⟩ := ih (n + 1) st' h2 lo up a hres
      exact ⟨st2, n', k1, k2, k3, fun q hq => k4 q (h.covered_step hI h3 hq)⟩

end RegCtx
end Dilation
end Peano
