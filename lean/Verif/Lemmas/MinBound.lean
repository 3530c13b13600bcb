import Verif.Lemmas.MinEnum
import Verif.Props.Curves
import Verif.Lemmas.JunctionsB
import Verif.Spec.Search

set_option autoImplicit false

/-
Bounds for all curves with given gates: the enumeration of paths is complete, so the certificates for all paths cover all curves.
-/
namespace Peano
namespace MinCert
variable {d : ℕ} {c : FCurve d} {f : ℕ → ℝ → Fin d → ℝ}

/-! ### tables -/

/-- All lists of the given length. -/
def lists {α : Type} (l : List α) : ℕ → List (List α)
  | 0 => [[]]
  | n + 1 => l.flatMap fun a => (lists l n).map fun x => a :: x

theorem mem_lists {α : Type} {l : List α} : ∀ {n : ℕ} {x : List α}, x ∈ lists l n ↔ x.length = n ∧ ∀ a ∈ x, a ∈ l
  | 0, x => by
    simp only [lists, List.mem_singleton]
    constructor
    · rintro rfl; simp
    · rintro ⟨h, _⟩; exact List.length_eq_zero_iff.1 h
  | n + 1, x => by
    simp only [lists, List.mem_flatMap, List.mem_map]
    constructor
    · rintro ⟨a, ha, y, hy, rfl⟩
      obtain ⟨h1, h2⟩ := mem_lists.1 hy
      refine ⟨by simp [h1], fun b hb => ?_⟩
      rcases List.mem_cons.1 hb with rfl | hb
      · exact ha
      · exact h2 b hb
    · rintro ⟨h1, h2⟩
      cases x with
      | nil => simp at h1
      | cons a y => exact ⟨a, h2 a (by simp), y, mem_lists.2 ⟨by simpa using h1, fun b hb => h2 b (by simp [hb])⟩, rfl⟩

/-- All specs. -/
def allSp (d m : ℕ) : List Sp :=
  ((lists ((List.range d).flatMap fun k => [(k, false), (k, true)]) d).filter fun co => (co.map Prod.fst).Nodup).flatMap fun co =>
    (List.range m).flatMap fun q => [⟨co, false, q⟩, ⟨co, true, q⟩]

theorem toSp_mem (s : Spec d) {m : ℕ} (hs : s.pnum < m) : toSp s ∈ allSp d m := by
  simp only [allSp, List.mem_flatMap, List.mem_filter, List.mem_range]
  refine ⟨(toSp s).co, ⟨mem_lists.2 ⟨by simp [toSp], ?_⟩, ?_⟩, s.pnum, hs, ?_⟩
  · intro a ha
    simp only [toSp, List.mem_ofFn] at ha
    obtain ⟨j, rfl⟩ := ha
    rw [List.mem_flatMap]
    refine ⟨_, List.mem_range.2 (s.baseMap.coords j).1.2, ?_⟩
    cases (s.baseMap.coords j).2 <;> simp
  · simp only [toSp, List.map_ofFn, decide_eq_true_eq]
    rw [List.nodup_ofFn]
    intro i j h
    exact s.baseMap.inj (Fin.ext h)
  · simp only [toSp]
    cases s.baseMap.timeRev <;> simp

/-- The number of the cube. -/
def idxL (W : ℕ) : List ℕ → ℕ
  | [] => 0
  | a :: l => (a + 1) * W ^ l.length + idxL W l

/-- The number of the vector with coordinates `x_j - 1`, up to a constant. -/
def offL (W : ℕ) : List ℕ → ℕ
  | [] => 0
  | a :: l => a * W ^ l.length + offL W l

theorem idxL_lt {W : ℕ} : ∀ {l : List ℕ}, (∀ a ∈ l, a + 1 < W) → idxL W l < W ^ l.length
  | [], _ => by simp [idxL]
  | a :: l, h => by
    have h1 := idxL_lt (l := l) fun b hb => h b (by simp [hb])
    have h2 : a + 2 ≤ W := h a (by simp)
    have h3 := Nat.mul_le_mul_right (W ^ l.length) h2
    rw [idxL, List.length_cons, pow_succ']
    nlinarith

theorem cellOf_idxL {W : ℕ} : ∀ {l : List ℕ}, (∀ a ∈ l, a + 1 < W) → cellOf W l.length (idxL W l) = l
  | [], _ => rfl
  | a :: l, h => by
    have h1 := idxL_lt (l := l) fun b hb => h b (by simp [hb])
    have h2 : 0 < W ^ l.length := by omega
    rw [List.length_cons, cellOf, idxL, Nat.add_comm, Nat.add_mul_div_right _ _ h2, Nat.div_eq_of_lt h1, Nat.add_mul_mod_self_right, Nat.mod_eq_of_lt h1,
      cellOf_idxL fun b hb => h b (by simp [hb])]
    simp

theorem idxL_step (W : ℕ) : ∀ {n : ℕ} {x y v : Fin n → ℕ}, (∀ j, y j + 1 = x j + v j) →
    idxL W (List.ofFn y) + offL W (List.ofFn fun _ : Fin n => 1) = idxL W (List.ofFn x) + offL W (List.ofFn v)
  | 0, _, _, _, _ => by simp [idxL, offL]
  | n + 1, x, y, v, h => by
    have ih := idxL_step W (x := fun j => x j.succ) (y := fun j => y j.succ) (v := fun j => v j.succ) fun j => h j.succ
    simp only [List.ofFn_succ, idxL, offL, List.length_ofFn]
    have h0 := h 0
    have : (y 0 + 1) * W ^ n = (x 0 + v 0) * W ^ n := by rw [h0]
    nlinarith

/-- The gates of the image. -/
def imageL (S : ℕ) (g : List ℕ × List ℕ) (e : Sp) : List ℕ × List ℕ :=
  bif e.rev then (actL e.co S g.2, actL e.co S g.1) else (actL e.co S g.1, actL e.co S g.2)

/-- Data for curves with given gates: `gates` are the gates of patterns in the cube with side `S`. -/
structure Tab where
  E : Env
  gates : List (List ℕ × List ℕ)
  en : List Enum

def sumL : List ℕ → ℕ
  | [] => 0
  | a :: l => (bif Nat.beq a 1 then 0 else 1) + sumL l

/-- The tables for the paths of the pattern `p` are right. -/
def Tab.PathsOk (T : Tab) (d N cd p : ℕ) (X : Enum) : Prop :=
  (X.L = T.E.L ∧ X.B = T.E.B ∧ X.ones = offL T.E.W (List.ofFn fun _ : Fin d => 1) ∧
    X.U = (lists (List.range N) d).foldr (fun x u => u ||| 2 ^ idxL T.E.W x) 0) ∧
  (∀ v ∈ lists (List.range 3) d, 1 ≤ sumL v ∧ sumL v ≤ cd →
    (∃ o ∈ X.offs, offL T.E.W v = X.ones + o ∨ X.ones = offL T.E.W v + o) ∧
    ∀ a ∈ List.range T.E.L, ∀ b ∈ List.range T.E.L, (∀ j ∈ List.range d, (T.E.links.getD a ([], [])).2.getD j 0 + T.E.S =
      (T.E.links.getD b ([], [])).1.getD j 0 + T.E.S * v.getD j 0) → (offL T.E.W v, b) ∈ X.trans.getD a []) ∧
  (∀ x ∈ lists (List.range N) d, ∀ a ∈ List.range T.E.L,
    ((∀ j ∈ List.range d, (T.gates.getD p ([], [])).1.getD j 0 * N = x.getD j 0 * T.E.S + (T.E.links.getD a ([], [])).1.getD j 0) →
      (idxL T.E.W x, a) ∈ X.starts) ∧
    ((∀ j ∈ List.range d, (T.gates.getD p ([], [])).2.getD j 0 * N = x.getD j 0 * T.E.S + (T.E.links.getD a ([], [])).2.getD j 0) →
      (idxL T.E.W x, a) ∈ X.finals ∧ X.F.testBit (idxL T.E.W x) = true))

instance (T : Tab) (d N cd p : ℕ) (X : Enum) : Decidable (T.PathsOk d N cd p X) := by
  unfold Tab.PathsOk
  infer_instance

/-- The tables are right. -/
def Tab.Ok (T : Tab) (d N m cd : ℕ) : Prop :=
  (T.E.N = N ∧ T.E.G = N ^ d ∧ T.E.m = m ∧ 0 < T.E.S ∧ T.E.W = N + 1 ∧ T.E.L = T.E.links.length ∧ T.E.W ^ d * T.E.L ≤ T.E.B) ∧
  (∀ l ∈ T.E.links, l.1.length = d ∧ l.2.length = d) ∧
  (T.gates.length = m ∧ ∀ g ∈ T.gates, (∀ a ∈ g.1, a ≤ T.E.S) ∧ ∀ a ∈ g.2, a ≤ T.E.S) ∧
  (∀ e ∈ allSp d m, imageL T.E.S (T.gates.getD e.q ([], [])) e ∈ T.E.links ∧
    e ∈ T.E.doms.getD (T.E.links.idxOf (imageL T.E.S (T.gates.getD e.q ([], [])) e)) []) ∧
  ∀ p ∈ List.range m, T.PathsOk d N cd p (T.en.getD p default)

instance (T : Tab) (d N m cd : ℕ) : Decidable (T.Ok d N m cd) := by
  unfold Tab.Ok
  infer_instance

/-! ### the numbers of a curve -/

/-- The curve has these gates. -/
structure Tab.Gates (T : Tab) (c : FCurve d) (f : ℕ → ℝ → Fin d → ℝ) : Prop where
  entr : ∀ p < c.mult, ∀ j : Fin d, f p 0 j = ((T.gates.getD p ([], [])).1.getD j 0 : ℕ) / T.E.S
  exit : ∀ p < c.mult, ∀ j : Fin d, f p 1 j = ((T.gates.getD p ([], [])).2.getD j 0 : ℕ) / T.E.S

def Tab.image (T : Tab) (c : FCurve d) (p i : ℕ) : List ℕ × List ℕ :=
  imageL T.E.S (T.gates.getD (c.specD p i).pnum ([], [])) (toSp (c.specD p i))

def Tab.lk (T : Tab) (c : FCurve d) (p i : ℕ) : ℕ := T.E.links.idxOf (T.image c p i)

def Tab.cellIdx (T : Tab) (c : FCurve d) (p i : ℕ) : ℕ := idxL T.E.W (List.ofFn fun j => (c.cubeD p i j).toNat)

theorem getD_le {l : List ℕ} {S : ℕ} (h : ∀ a ∈ l, a ≤ S) (j : ℕ) : l.getD j 0 ≤ S := by
  rw [List.getD_eq_getElem?_getD]
  rcases hj : l[j]? with _ | a
  · simp
  · exact h a (List.mem_of_getElem? hj)

section
variable {T : Tab} {N m cd : ℕ}

theorem Tab.Ok.image_eq (hT : T.Ok d N m cd) (hG : T.Gates c f) (hm : c.mult = m) (h : c.Full) {p i : ℕ} (hp : p < c.mult) (hi : i < c.genus) (j : Fin d) :
    actFn (c.specD p i) f 0 j = ((T.image c p i).1.getD j 0 : ℕ) / T.E.S ∧ actFn (c.specD p i) f 1 j = ((T.image c p i).2.getD j 0 : ℕ) / T.E.S := by
  obtain ⟨⟨_, _, _, t4, _, _, _⟩, _, ⟨g1, g2⟩, _, _⟩ := hT
  have hq := h.specD_lt hp hi
  unfold Tab.image
  set s := c.specD p i with hs
  have hS : (0 : ℝ) < T.E.S := by exact_mod_cast t4
  have hg : T.gates.getD s.pnum ([], []) ∈ T.gates := by
    rw [List.getD_eq_getElem _ _ (by omega)]
    exact List.getElem_mem _
  obtain ⟨g3, g4⟩ := g2 _ hg
  have e0 := hG.entr s.pnum hq
  have e1 := hG.exit s.pnum hq
  set g := T.gates.getD s.pnum ([], []) with hgdef
  have key : ∀ (x : List ℕ) (y : Fin d → ℝ), (∀ a ∈ x, a ≤ T.E.S) → (∀ j : Fin d, y j = (x.getD j 0 : ℕ) / T.E.S) →
      s.baseMap.applyX 1 y j = ((actL (toSp s).co T.E.S x).getD j 0 : ℕ) / T.E.S := by
    intro x y hx hy
    rw [actL_getD, BaseMap.applyX]
    split
    · rw [hy, Nat.cast_sub (getD_le hx _)]
      field_simp
    · rw [hy]
  unfold actFn imageL
  rw [real_applyT, real_applyT]
  have er : (toSp s).rev = s.baseMap.timeRev := rfl
  rw [er]
  cases hr : s.baseMap.timeRev
  · simp only [Bool.false_eq_true, if_false, cond_false]
    exact ⟨key _ _ g3 e0, key _ _ g4 e1⟩
  · simp only [if_true, cond_true, sub_zero, sub_self]
    exact ⟨key _ _ g4 e1, key _ _ g3 e0⟩

theorem Tab.Ok.image_mem (hT : T.Ok d N m cd) (hm : c.mult = m) (h : c.Full) {p i : ℕ} (hp : p < c.mult) (hi : i < c.genus) :
    T.image c p i ∈ T.E.links ∧ toSp (c.specD p i) ∈ T.E.doms.getD (T.lk c p i) [] :=
  hT.2.2.2.1 _ (toSp_mem _ (hm ▸ h.specD_lt hp hi))

theorem Tab.Ok.lk_lt (hT : T.Ok d N m cd) (hm : c.mult = m) (h : c.Full) {p i : ℕ} (hp : p < c.mult) (hi : i < c.genus) :
    T.lk c p i < T.E.L := by
  rw [hT.1.2.2.2.2.2.1]
  exact List.idxOf_lt_length_iff.2 (hT.image_mem hm h hp hi).1

theorem Tab.Ok.link_eq (hT : T.Ok d N m cd) (hm : c.mult = m) (h : c.Full) {p i : ℕ} (hp : p < c.mult) (hi : i < c.genus) :
    T.E.links.getD (T.lk c p i) ([], []) = T.image c p i := by
  have := List.idxOf_lt_length_iff.2 (hT.image_mem hm h hp hi).1
  rw [List.getD_eq_getElem _ _ (by exact this)]
  exact List.getElem_idxOf _

theorem natCube (h : c.Full) {p i : ℕ} (hp : p < c.mult) (hi : i < c.genus) (j : Fin d) :
    (((c.cubeD p i j).toNat : ℕ) : ℤ) = c.cubeD p i j ∧ (c.cubeD p i j).toNat < c.div := by
  have := h.cubeD_range hp hi j
  omega

theorem natCubeR (h : c.Full) {p i : ℕ} (hp : p < c.mult) (hi : i < c.genus) (j : Fin d) :
    (((c.cubeD p i j).toNat : ℕ) : ℝ) = (c.cubeD p i j : ℝ) := by
  have := (natCube h hp hi j).1
  exact_mod_cast this

theorem cube_mem_lists (h : c.Full) (hd : c.div = N) {p i : ℕ} (hp : p < c.mult) (hi : i < c.genus) :
    (List.ofFn fun j => (c.cubeD p i j).toNat) ∈ lists (List.range N) d := by
  refine mem_lists.2 ⟨by simp, fun a ha => ?_⟩
  obtain ⟨j, rfl⟩ := List.mem_ofFn.1 ha
  rw [List.mem_range, ← hd]
  exact (natCube h hp hi j).2

theorem Tab.Ok.cell_lt (hT : T.Ok d N m cd) (h : c.Full) (hd : c.div = N) {p i : ℕ} (hp : p < c.mult) (hi : i < c.genus) :
    ∀ a ∈ (List.ofFn fun j => (c.cubeD p i j).toNat), a + 1 < T.E.W := by
  intro a ha
  have := (mem_lists.1 (cube_mem_lists h hd hp hi)).2 a ha
  rw [hT.1.2.2.2.2.1]
  rw [List.mem_range] at this
  omega

theorem Tab.Ok.cellOf_eq (hT : T.Ok d N m cd) (h : c.Full) (hd : c.div = N) {p i : ℕ} (hp : p < c.mult) (hi : i < c.genus) :
    cellOf T.E.W d (T.cellIdx c p i) = List.ofFn fun j => (c.cubeD p i j).toNat := by
  have := cellOf_idxL (hT.cell_lt h hd hp hi)
  rwa [List.length_ofFn] at this

theorem Tab.Ok.code_lt (hT : T.Ok d N m cd) (h : c.Full) (hd : c.div = N) (hm : c.mult = m) {p i : ℕ} (hp : p < c.mult) (hi : i < c.genus) :
    T.cellIdx c p i * T.E.L + T.lk c p i < T.E.B := by
  have h1 := idxL_lt (hT.cell_lt h hd hp hi)
  rw [List.length_ofFn] at h1
  have h2 := hT.lk_lt hm h hp hi
  have h3 := hT.1.2.2.2.2.2.2
  have h4 : T.cellIdx c p i + 1 ≤ T.E.W ^ d := h1
  have := Nat.mul_le_mul_right T.E.L h4
  rw [Nat.add_mul] at this
  omega

theorem foldr_or_testBit {α : Type} (g : α → ℕ) (b : ℕ) : ∀ {l : List α}, (l.foldr (fun x u => u ||| 2 ^ g x) 0).testBit b = true ↔ ∃ x ∈ l, g x = b
  | [] => by simp
  | x :: l => by
    rw [List.foldr_cons, Nat.testBit_or, Bool.or_eq_true, foldr_or_testBit g b, Nat.testBit_two_pow, decide_eq_true_eq]
    simp only [List.mem_cons, exists_eq_or_imp]
    exact or_comm

/-- Consecutive fractions: the exit of the first is the entrance of the second. -/
theorem Tab.Ok.junction (hT : T.Ok d N m cd) (hG : T.Gates c f) (hm : c.mult = m) (hd : c.div = N) (h : c.Full) (hf : c.Realizes f) {p i : ℕ} (hp : p < c.mult)
    (hi : i + 1 < c.genus) (j : Fin d) :
    (c.cubeD p i j).toNat * T.E.S + (T.image c p i).2.getD j 0 = (c.cubeD p (i + 1) j).toNat * T.E.S + (T.image c p (i + 1)).1.getD j 0 := by
  have hi' : i < c.genus := by omega
  have hS : (0 : ℝ) < T.E.S := by exact_mod_cast hT.1.2.2.2.1
  have hN := h.toShape.div_pos
  have e1 := congrFun (hf.eqn p i _ _ (h.cube_eq hp hi') (h.spec_eq hp hi') 1 (by norm_num) (by norm_num)) j
  have e2 := congrFun (hf.eqn p (i + 1) _ _ (h.cube_eq hp hi) (h.spec_eq hp hi) 0 (by norm_num) (by norm_num)) j
  have e3 : (((i : ℕ) : ℝ) + 1) / c.genus = (((i + 1 : ℕ) : ℝ) + 0) / c.genus := by push_cast; ring
  rw [e3, e2] at e1
  rw [div_left_inj' hN.ne', (hT.image_eq hG hm h hp hi' j).2, (hT.image_eq hG hm h hp hi j).1, ← natCubeR h hp hi' j, ← natCubeR h hp hi j] at e1
  field_simp at e1
  have : (((c.cubeD p (i + 1) j).toNat * T.E.S + (T.image c p (i + 1)).1.getD j 0 : ℕ) : ℝ) =
      (((c.cubeD p i j).toNat * T.E.S + (T.image c p i).2.getD j 0 : ℕ) : ℝ) := by
    push_cast
    linarith
  exact_mod_cast this.symm

theorem Tab.Ok.image_le (hT : T.Ok d N m cd) (hm : c.mult = m) (h : c.Full) {p i : ℕ} (hp : p < c.mult) (hi : i < c.genus) (j : Fin d) :
    (T.image c p i).1.getD j 0 ≤ T.E.S ∧ (T.image c p i).2.getD j 0 ≤ T.E.S := by
  obtain ⟨_, _, ⟨g1, g2⟩, _, _⟩ := hT
  have hq := h.specD_lt hp hi
  unfold Tab.image
  set s := c.specD p i with hs
  have hg : T.gates.getD s.pnum ([], []) ∈ T.gates := by
    rw [List.getD_eq_getElem _ _ (by omega)]
    exact List.getElem_mem _
  obtain ⟨g3, g4⟩ := g2 _ hg
  have key : ∀ x : List ℕ, (∀ a ∈ x, a ≤ T.E.S) → (actL (toSp s).co T.E.S x).getD j 0 ≤ T.E.S := by
    intro x hx
    rw [actL_getD]
    split
    · omega
    · exact getD_le hx _
  unfold imageL
  cases (toSp s).rev
  · exact ⟨key _ g3, key _ g4⟩
  · exact ⟨key _ g4, key _ g3⟩

theorem sumL_ofFn : ∀ {n : ℕ} {v : Fin n → ℕ} {x y : Fin n → ℤ}, (∀ j, y j + 1 = x j + v j) → (∀ j, v j ≤ 2) → (sumL (List.ofFn v) : ℤ) = ∑ j, |y j - x j|
  | 0, _, _, _, _, _ => by simp [sumL]
  | n + 1, v, x, y, h, hv => by
    rw [List.ofFn_succ, sumL, Fin.sum_univ_succ, ← sumL_ofFn (v := fun j => v j.succ) (x := fun j => x j.succ) (y := fun j => y j.succ) (fun j => h j.succ) fun j => hv j.succ]
    have h0 := h 0
    have h1 := hv 0
    push_cast
    congr 1
    have e : y 0 - x 0 = v 0 - 1 := by omega
    rw [e]
    interval_cases v 0 <;> simp [Nat.beq]

theorem sumL_le : ∀ l : List ℕ, sumL l ≤ l.length
  | [] => le_rfl
  | a :: l => by
    have := sumL_le l
    rw [sumL, List.length_cons]
    cases Nat.beq a 1 <;> simp only [cond_true, cond_false] <;> omega

/-- The steps of the curve are not too long. -/
def ShortSteps (c : FCurve d) (cd : ℕ) : Prop :=
  (∀ p < c.mult, ∀ i, i + 1 < c.genus → ∑ j, |c.cubeD p (i + 1) j - c.cubeD p i j| ≤ (cd : ℤ)) ∨ d ≤ cd

theorem Tab.Ok.isPath (hT : T.Ok d N m cd) (hG : T.Gates c f) (hm : c.mult = m) (hd : c.div = N) (h : c.Full) (hfill : c.FillsGrid) (hst : ShortSteps c cd)
    (hf : c.Realizes f) {p : ℕ} (hp : p < c.mult) : (T.en.getD p default).IsPath c.genus (T.cellIdx c p) (T.lk c p) := by
  obtain ⟨⟨x1, x2, x3, x4⟩, hv, hx⟩ := hT.2.2.2.2 p (List.mem_range.2 (by omega))
  set X := T.en.getD p default with hX
  have hS : (0 : ℝ) < T.E.S := by exact_mod_cast hT.1.2.2.2.1
  have hS' : 0 < T.E.S := hT.1.2.2.2.1
  have hN := h.toShape.div_pos
  have hGpos := h.toShape.genus_pos
  have hinj : ∀ i < c.genus, ∀ j < c.genus, T.cellIdx c p i = T.cellIdx c p j → i = j := by
    intro i hi j hj e
    have e1 := hT.cellOf_eq h hd hp hi
    rw [e, hT.cellOf_eq h hd hp hj, List.ofFn_inj] at e1
    refine h.cubeD_inj hfill hp hi hj ?_
    funext k
    have := congrFun e1 k
    rw [← (natCube h hp hi k).1, ← (natCube h hp hj k).1, this]
  -- the vector of the step
  have step : ∀ i, i + 1 < c.genus → ∃ v : Fin d → ℕ, (List.ofFn v ∈ lists (List.range 3) d) ∧ (1 ≤ sumL (List.ofFn v) ∧ sumL (List.ofFn v) ≤ cd) ∧
      T.cellIdx c p (i + 1) + X.ones = T.cellIdx c p i + offL T.E.W (List.ofFn v) ∧
      ∀ j ∈ List.range d, (T.E.links.getD (T.lk c p i) ([], [])).2.getD j 0 + T.E.S =
        (T.E.links.getD (T.lk c p (i + 1)) ([], [])).1.getD j 0 + T.E.S * (List.ofFn v).getD j 0 := by
    intro i hi
    have hi' : i < c.genus := by omega
    have hj : ∀ j : Fin d, (c.cubeD p i j).toNat ≤ (c.cubeD p (i + 1) j).toNat + 1 ∧ (c.cubeD p (i + 1) j).toNat ≤ (c.cubeD p i j).toNat + 1 := by
      intro j
      have e := hT.junction hG hm hd h hf hp hi j
      have l1 := (hT.image_le hm h hp hi' j).2
      have l2 := (hT.image_le hm h hp hi j).1
      constructor
      · by_contra hlt
        have : ((c.cubeD p (i + 1) j).toNat + 2) * T.E.S ≤ (c.cubeD p i j).toNat * T.E.S := Nat.mul_le_mul_right _ (by omega)
        rw [Nat.add_mul] at this
        omega
      · by_contra hlt
        have : ((c.cubeD p i j).toNat + 2) * T.E.S ≤ (c.cubeD p (i + 1) j).toNat * T.E.S := Nat.mul_le_mul_right _ (by omega)
        rw [Nat.add_mul] at this
        omega
    let v : Fin d → ℕ := fun j => (c.cubeD p (i + 1) j).toNat + 1 - (c.cubeD p i j).toNat
    have hv1 : ∀ j, (c.cubeD p (i + 1) j).toNat + 1 = (c.cubeD p i j).toNat + v j := by
      intro j
      have := hj j
      simp only [v]
      omega
    have hv2 : ∀ j, v j ≤ 2 := by
      intro j
      have := hj j
      simp only [v]
      omega
    have hsum := sumL_ofFn (v := v) (x := c.cubeD p i) (y := c.cubeD p (i + 1)) (by
      intro j
      rw [← (natCube h hp hi' j).1, ← (natCube h hp hi j).1]
      exact_mod_cast hv1 j) hv2
    refine ⟨v, mem_lists.2 ⟨by simp, ?_⟩, ⟨?_, ?_⟩, ?_, ?_⟩
    · intro a ha
      obtain ⟨j, rfl⟩ := List.mem_ofFn.1 ha
      rw [List.mem_range]
      have := hv2 j
      omega
    · by_contra h0
      have h0' : sumL (List.ofFn v) = 0 := by omega
      rw [h0'] at hsum
      have e : c.cubeD p i = c.cubeD p (i + 1) := by
        funext j
        have := (Finset.sum_eq_zero_iff_of_nonneg (s := Finset.univ) (f := fun j => |c.cubeD p (i + 1) j - c.cubeD p i j|) fun j _ => abs_nonneg _).1
          (by exact_mod_cast hsum.symm) j (Finset.mem_univ _)
        have := abs_eq_zero.1 this
        omega
      have := h.cubeD_inj hfill hp hi' hi e
      omega
    · rcases hst with hst | hst
      · have := hst p hp i hi
        rw [← hsum] at this
        exact_mod_cast this
      · have := sumL_le (List.ofFn v)
        rw [List.length_ofFn] at this
        omega
    · rw [x3]
      exact idxL_step T.E.W hv1
    · intro j hj'
      have hjd := List.mem_range.1 hj'
      rw [hT.link_eq hm h hp hi', hT.link_eq hm h hp hi, List.getD_eq_getElem (List.ofFn v) _ (by simpa using hjd), List.getElem_ofFn]
      have e := hT.junction hG hm hd h hf hp hi ⟨j, hjd⟩
      have e2 := hv1 ⟨j, hjd⟩
      have e3 : ((c.cubeD p (i + 1) ⟨j, hjd⟩).toNat + 1) * T.E.S = ((c.cubeD p i ⟨j, hjd⟩).toNat + v ⟨j, hjd⟩) * T.E.S := by rw [e2]
      rw [Nat.add_mul, Nat.add_mul, Nat.mul_comm (v _)] at e3
      simp only at e
      omega
  refine ⟨hGpos, hinj, ?_, ?_, ?_, ?_, ?_, ?_⟩
  · intro b
    rw [x4, foldr_or_testBit]
    constructor
    · rintro ⟨x, hx, rfl⟩
      obtain ⟨l1, l2⟩ := mem_lists.1 hx
      obtain ⟨i, hi, hc⟩ := hfill p hp (fun j => ((x.getD j 0 : ℕ) : ℤ)) (fun j => by
        have : x.getD j 0 ∈ x := by
          rw [List.getD_eq_getElem _ _ (by omega)]
          exact List.getElem_mem _
        have := l2 _ this
        rw [List.mem_range] at this
        rw [hd]
        omega)
      refine ⟨i, hi, ?_⟩
      unfold Tab.cellIdx
      congr 1
      have e : c.cubeD p i = fun j : Fin d => ((x.getD j 0 : ℕ) : ℤ) := by
        unfold FCurve.cubeD
        rw [hc]
        rfl
      rw [e]
      simp only [Int.toNat_natCast]
      apply List.ext_getElem
      · simp [l1]
      · intro k k1 k2
        rw [List.getElem_ofFn, List.getD_eq_getElem _ _ k2]
    · rintro ⟨i, hi, rfl⟩
      exact ⟨_, cube_mem_lists h hd hp hi, rfl⟩
  · intro i hi
    obtain ⟨v, v1, v2, v3, v4⟩ := step i hi
    refine ⟨_, (hv _ v1 v2).2 _ (List.mem_range.2 (hT.lk_lt hm h hp (by omega))) _ (List.mem_range.2 (hT.lk_lt hm h hp hi)) v4, ?_⟩
    omega
  · intro i hi
    obtain ⟨v, v1, v2, v3, v4⟩ := step i hi
    obtain ⟨o, o1, o2⟩ := (hv _ v1 v2).1
    refine ⟨o, o1, ?_⟩
    omega
  · refine (hx _ (cube_mem_lists h hd hp hGpos) _ (List.mem_range.2 (hT.lk_lt hm h hp hGpos))).1 fun j hj => ?_
    have hjd := List.mem_range.1 hj
    rw [hT.link_eq hm h hp hGpos, List.getD_eq_getElem (List.ofFn _) _ (by simpa using hjd), List.getElem_ofFn]
    have e1 := congrFun (hf.eqn p 0 _ _ (h.cube_eq hp hGpos) (h.spec_eq hp hGpos) 0 (by norm_num) (by norm_num)) ⟨j, hjd⟩
    rw [show (((0 : ℕ) : ℝ) + 0) / c.genus = 0 by simp, hG.entr p hp] at e1
    dsimp only at e1
    rw [(hT.image_eq hG hm h hp hGpos ⟨j, hjd⟩).1, ← natCubeR h hp hGpos] at e1
    rw [hd] at e1 hN
    field_simp at e1
    rw [Nat.mul_comm _ T.E.S]
    exact_mod_cast e1
  all_goals
    have hlast : c.genus - 1 < c.genus := by omega
    have key := (hx _ (cube_mem_lists h hd hp hlast) _ (List.mem_range.2 (hT.lk_lt hm h hp hlast))).2 fun j hj => by
      have hjd := List.mem_range.1 hj
      rw [hT.link_eq hm h hp hlast, List.getD_eq_getElem (List.ofFn _) _ (by simpa using hjd), List.getElem_ofFn]
      have e1 := congrFun (hf.eqn p _ _ _ (h.cube_eq hp hlast) (h.spec_eq hp hlast) 1 (by norm_num) (by norm_num)) ⟨j, hjd⟩
      have hG' : (c.genus : ℝ) ≠ 0 := by positivity
      rw [show (((c.genus - 1 : ℕ) : ℝ) + 1) / c.genus = 1 by rw [Nat.cast_sub hGpos]; field_simp; ring, hG.exit p hp] at e1
      dsimp only at e1
      rw [(hT.image_eq hG hm h hp hlast ⟨j, hjd⟩).2, ← natCubeR h hp hlast] at e1
      rw [hd] at e1 hN
      field_simp at e1
      rw [Nat.mul_comm _ T.E.S]
      exact_mod_cast e1
  · exact key.1
  · exact key.2

/-- The numbers of the paths of the curve. -/
def Tab.pathsOf (T : Tab) (c : FCurve d) : List ℕ := (List.range c.mult).map fun p => pack T.E.B T.E.L (T.cellIdx c p) (T.lk c p) c.genus

theorem Tab.Ok.pathsOf_mem (hT : T.Ok d N m cd) (hG : T.Gates c f) (hm : c.mult = m) (hd : c.div = N) (h : c.Full) (hfill : c.FillsGrid) (hst : ShortSteps c cd)
    (hf : c.Realizes f) {p : ℕ} (hp : p < c.mult) : (T.pathsOf c).getD p 0 ∈ (T.en.getD p default).all (N ^ d) := by
  have h1 := (hT.isPath hG hm hd h hfill hst hf hp).mem_all
  have hX := (hT.2.2.2.2 p (List.mem_range.2 (by omega))).1
  rw [hX.1, hX.2.1] at h1
  have hg : c.genus = N ^ d := by unfold FCurve.genus; rw [hd]
  rw [Tab.pathsOf, List.getD_eq_getElem (List.map _ _) _ (by simpa using hp), List.getElem_map, List.getElem_range]
  rwa [hg] at h1 ⊢

theorem Tab.Ok.fits (hT : T.Ok d N m cd) (hG : T.Gates c f) (hm : c.mult = m) (hd : c.div = N) (h : c.Full) : T.E.Fits c f (T.pathsOf c) := by
  obtain ⟨t1, t2, t3, t4, t5, t6, t7⟩ := hT.1
  have hg : c.genus = N ^ d := by unfold FCurve.genus; rw [hd]
  have hGG : T.E.G = c.genus := by rw [t2, hg]
  have hGpos := h.toShape.genus_pos
  have hk : ∀ k < T.E.m * T.E.G, k / T.E.G < c.mult ∧ k % T.E.G < c.genus := by
    intro k hk
    rw [t3, ← hm, hGG] at hk
    rw [hGG]
    exact ⟨Nat.div_lt_of_lt_mul (by rwa [Nat.mul_comm]), Nat.mod_lt _ hGpos⟩
  have code : ∀ k < T.E.m * T.E.G, T.E.code (T.pathsOf c) k = T.cellIdx c (k / T.E.G) (k % T.E.G) * T.E.L + T.lk c (k / T.E.G) (k % T.E.G) := by
    intro k hk'
    obtain ⟨k1, k2⟩ := hk k hk'
    have hB : 0 < T.E.B := lt_of_le_of_lt (Nat.zero_le _) (hT.code_lt h hd hm k1 k2)
    unfold Env.code Tab.pathsOf
    rw [List.getD_eq_getElem _ _ (by simpa using k1), List.getElem_map, List.getElem_range]
    have := pack_div (cell := T.cellIdx c (k / T.E.G)) (lk := T.lk c (k / T.E.G)) (L := T.E.L) hB (n := c.genus) (i := k % T.E.G)
      (fun i hi => hT.code_lt h hd hm k1 hi) k2
    rw [hGG] at this ⊢
    exact this
  have cdiv : ∀ k < T.E.m * T.E.G, T.E.code (T.pathsOf c) k / T.E.L = T.cellIdx c (k / T.E.G) (k % T.E.G) := by
    intro k hk'
    obtain ⟨k1, k2⟩ := hk k hk'
    have h1 := hT.lk_lt hm h k1 k2
    rw [code k hk', Nat.add_comm, Nat.add_mul_div_right _ _ (by omega), Nat.div_eq_of_lt h1, Nat.zero_add]
  have cmod : ∀ k < T.E.m * T.E.G, T.E.code (T.pathsOf c) k % T.E.L = T.lk c (k / T.E.G) (k % T.E.G) := by
    intro k hk'
    obtain ⟨k1, k2⟩ := hk k hk'
    have h1 := hT.lk_lt hm h k1 k2
    rw [code k hk', Nat.add_comm, Nat.add_mul_mod_self_right, Nat.mod_eq_of_lt h1]
  have hlink : ∀ k < T.E.m * T.E.G, T.E.link (T.pathsOf c) k = T.image c (k / T.E.G) (k % T.E.G) := by
    intro k hk'
    obtain ⟨k1, k2⟩ := hk k hk'
    rw [Env.link, cmod k hk', hT.link_eq hm h k1 k2]
  refine ⟨by rw [t1, hd], hGG, by rw [t3, hm], t4, ?_, ?_, ?_, ?_, ?_⟩ <;> intro k hk' <;> obtain ⟨k1, k2⟩ := hk k hk'
  · rw [Env.cell, cdiv k hk', hT.cellOf_eq h hd k1 k2]
  · rw [hlink k hk']
    exact hT.2.1 _ (hT.image_mem hm h k1 k2).1
  · intro j
    rw [hlink k hk']
    exact (hT.image_eq hG hm h k1 k2 j).1
  · intro j
    rw [hlink k hk']
    exact (hT.image_eq hG hm h k1 k2 j).2
  · rw [cmod k hk']
    exact (hT.image_mem hm h k1 k2).2

/-- The table is for the tuple of gates. -/
def Tab.For (T : Tab) (S : GateTuple d) : Prop :=
  ∀ p ∈ List.range S.length, ∀ l ∈ S[p]?, ∀ j : Fin d, l.entrance j * (T.E.S : ℚ) = ((T.gates.getD p ([], [])).1.getD j 0 : ℕ) ∧
    l.exit j * (T.E.S : ℚ) = ((T.gates.getD p ([], [])).2.getD j 0 : ℕ)

theorem Tab.For.gates {S : GateTuple d} (hF : T.For S) (hS : 0 < T.E.S) (h : c.Full) (hf : c.Realizes f) (hg : c.HasGates S) : T.Gates c f := by
  have hS' : (0 : ℝ) < T.E.S := by exact_mod_cast hS
  have key : ∀ p < c.mult, ∀ j : Fin d, f p 0 j * T.E.S = ((T.gates.getD p ([], [])).1.getD j 0 : ℕ) ∧
      f p 1 j * T.E.S = ((T.gates.getD p ([], [])).2.getD j 0 : ℕ) := by
    intro p hp j
    have hl : p < S.length := by rw [hg.1]; exact hp
    have e := List.getElem?_eq_getElem hl
    obtain ⟨g1, g2⟩ := hg.2 p _ e
    obtain ⟨⟨x, x1, x2⟩, ⟨y, y1, y2⟩⟩ := FCurve.C14_entrance_exit c h.gates f hf p hp
    rw [g1, Option.some.injEq] at x1
    rw [g2, Option.some.injEq] at y1
    obtain ⟨k1, k2⟩ := hF p (List.mem_range.2 hl) _ (by rw [e]; rfl) j
    rw [← x2, ← y2, ← x1, ← y1]
    dsimp only
    exact ⟨by exact_mod_cast k1, by exact_mod_cast k2⟩
  exact ⟨fun p hp j => by rw [eq_div_iff hS'.ne']; exact (key p hp j).1, fun p hp j => by rw [eq_div_iff hS'.ne']; exact (key p hp j).2⟩

theorem shortSteps {mc : Option ℤ} (hc : c.IsCandidate N m mc) (hcd : mc = some (cd : ℤ) ∨ d ≤ cd) : ShortSteps c cd := by
  refine hcd.imp (fun e p hp i hi => ?_) id
  exact hc.steps _ e p i _ _ (hc.full.cube_eq hp (by omega)) (hc.full.cube_eq hp hi)

/-- Every tuple of paths has a certificate: it is refuted, except for the listed curves. -/
def Tab.RefutedBut (T : Tab) (allow : List (List ℕ × List Sp)) (r : Ratio) (d vn vd G : ℕ) : Prop :=
  ∀ ps : List ℕ, ps.length = T.E.m → (∀ p < T.E.m, ps.getD p 0 ∈ (T.en.getD p default).all G) →
    ∃ ts st, run r d vn vd T.E allow ts st = true ∧ (⟨ps, []⟩ : St) ∈ st

/-- Every tuple of paths is refuted by a certificate. -/
def Tab.Refuted (T : Tab) (r : Ratio) (d vn vd G : ℕ) : Prop := T.RefutedBut [] r d vn vd G

instance (T : Tab) (S : GateTuple d) : Decidable (T.For S) := by
  unfold Tab.For
  infer_instance

/-- All candidates with these gates have big dilations, except for the listed curves. -/
theorem Tab.Ok.boundBut {S : GateTuple d} {mc : Option ℤ} {r : Ratio} {vn vd : ℕ} {D : ℝ} {allow : List (List ℕ × List Sp)} (hT : T.Ok d N m cd) (hF : T.For S)
    (hr : r.Ok d) (hvd : 0 < vd) (hR : T.RefutedBut allow r d vn vd (N ^ d)) (hc : c.IsCandidate N m mc) (hcd : mc = some (cd : ℤ) ∨ d ≤ cd)
    (hg : c.HasGates S) (hD : c.IsDilation r D) : (vn : ℝ) / vd ≤ D ∨ ∃ f ps, T.E.Fits c f ps ∧ Listed T.E c allow ps := by
  obtain ⟨f, hf, hD⟩ := hD
  have hG := hF.gates hT.1.2.2.2.1 hc.full hf hg
  have hm : T.E.m = c.mult := by rw [hT.1.2.2.1, hc.mult_eq]
  obtain ⟨ts, st, h1, h2⟩ := hR (T.pathsOf c) (by simp [Tab.pathsOf, hm]) (by
    intro p hp
    exact hT.pathsOf_mem hG hc.mult_eq hc.div_eq hc.full hc.fills (shortSteps hc hcd) hf (hm ▸ hp))
  have hfit := hT.fits hG hc.mult_eq hc.div_eq hc.full
  rcases run_sound hr hvd hc.full hf h1 _ h2 hfit (by intro x hx; simp at hx) with ⟨x, hx, hv⟩ | hl
  · exact .inl (hv.trans (hD.1 hx))
  · exact .inr ⟨f, _, hfit, hl⟩

/-- All candidates with these gates have big dilations. -/
theorem Tab.Ok.bound {S : GateTuple d} {mc : Option ℤ} {r : Ratio} {vn vd : ℕ} {D : ℝ} (hT : T.Ok d N m cd) (hF : T.For S) (hr : r.Ok d) (hvd : 0 < vd)
    (hR : T.Refuted r d vn vd (N ^ d)) (hc : c.IsCandidate N m mc) (hcd : mc = some (cd : ℤ) ∨ d ≤ cd) (hg : c.HasGates S) (hD : c.IsDilation r D) :
    (vn : ℝ) / vd ≤ D := by
  rcases hT.boundBut hF hr hvd hR hc hcd hg hD with h | ⟨_, _, _, a, ha, _⟩
  · exact h
  · simp at ha

/-- One pattern: the list of paths is split into parts, with a certificate for each. -/
theorem Tab.refuted_one {r : Ratio} {vn vd G : ℕ} {allow : List (List ℕ × List Sp)} (hm : T.E.m = 1) {L : List ℕ}
    (hL : ∀ P ∈ (T.en.getD 0 default).all G, P ∈ L)
    (h : ∀ P ∈ L, ∃ ts st, run r d vn vd T.E allow ts st = true ∧ (⟨[P], []⟩ : St) ∈ st) : T.RefutedBut allow r d vn vd G := by
  intro ps hl hp
  rw [hm] at hl hp
  obtain ⟨P, rfl⟩ := List.length_eq_one_iff.1 hl
  exact h P (hL P (hp 0 (by omega)))

/-- A part of the certificate. -/
theorem part {r : Ratio} {vn vd : ℕ} {E : Env} {allow : List (List ℕ × List Sp)} {ts L : List ℕ}
    (h : run r d vn vd E allow ts (L.map fun P => ⟨[P], []⟩) = true) :
    ∀ P ∈ L, ∃ ts st, run r d vn vd E allow ts st = true ∧ (⟨[P], []⟩ : St) ∈ st :=
  fun _ hP => ⟨ts, _, h, List.mem_map_of_mem (f := fun P => (⟨[P], []⟩ : St)) hP⟩

theorem parts {p : ℕ → Prop} {L M : List ℕ} (h1 : ∀ P ∈ L, p P) (h2 : ∀ P ∈ M, p P) : ∀ P ∈ L ++ M, p P := by
  intro P hP
  rcases List.mem_append.1 hP with h | h
  · exact h1 P h
  · exact h2 P h

/-- The listed data are the data of the curve. -/
def Agrees (E : Env) (a : List ℕ × List Sp) (e : FCurve d) : Prop :=
  ∀ k ∈ List.range (E.m * E.G), (E.cell d a.1 k = List.ofFn fun j => (e.cubeD (k / E.G) (k % E.G) j).toNat) ∧
    a.2[k]? = some (toSp (e.specD (k / E.G) (k % E.G)))

theorem toSp_inj {s t : Spec d} (h : toSp s = toSp t) : s = t := by
  obtain ⟨⟨c, r, hc⟩, p⟩ := s
  obtain ⟨⟨c', r', hc'⟩, p'⟩ := t
  simp only [toSp, Sp.mk.injEq, List.ofFn_inj] at h
  obtain ⟨h1, rfl, rfl⟩ := h
  have : c = c' := by
    funext j
    have := congrFun h1 j
    rw [Prod.mk.injEq] at this
    exact Prod.ext (Fin.ext this.1) this.2
  subst this
  rfl

/-- A listed curve has the cubes and the specs of the other curve. -/
theorem Agrees.eq {E : Env} {a : List ℕ × List Sp} {e : FCurve d} (ha : Agrees E a e) (hc : c.Full) (he : e.Full) (hm : e.mult = c.mult) (hd : e.div = c.div)
    {ps : List ℕ} (hF : E.Fits c f ps) (h1 : ps = a.1) (h2 : ∀ k < E.m * E.G, a.2[k]? = some (toSp (c.specD (k / E.G) (k % E.G)))) :
    ∀ p < c.mult, ∀ i < c.genus, c.cube? p i = e.cube? p i ∧ c.spec? p i = e.spec? p i := by
  intro p hp i hi
  have hg : e.genus = c.genus := by unfold FCurve.genus; rw [hd]
  have hk : p * E.G + i < E.m * E.G := by
    rw [hF.m_eq, hF.G_eq]
    calc p * c.genus + i < p * c.genus + c.genus := by omega
      _ = (p + 1) * c.genus := by ring
      _ ≤ _ := Nat.mul_le_mul_right _ hp
  have hGp : 0 < E.G := by rw [hF.G_eq]; omega
  have e1 : (p * E.G + i) / E.G = p := by
    rw [Nat.add_comm, Nat.add_mul_div_right _ _ hGp, Nat.div_eq_of_lt (by rw [hF.G_eq]; exact hi), Nat.zero_add]
  have e2 : (p * E.G + i) % E.G = i := by
    rw [Nat.add_comm, Nat.add_mul_mod_self_right, Nat.mod_eq_of_lt (by rw [hF.G_eq]; exact hi)]
  obtain ⟨k1, k2⟩ := ha _ (List.mem_range.2 hk)
  have k3 := h2 _ hk
  have k4 := hF.cell _ hk
  rw [h1, k1] at k4
  rw [k2, Option.some.injEq] at k3
  have k5 := toSp_inj k3
  rw [e1, e2] at k4 k5
  rw [hc.cube_eq hp hi, hc.spec_eq hp hi, he.cube_eq (by omega) (by omega), he.spec_eq (by omega) (by omega), k5]
  refine ⟨?_, rfl⟩
  congr 1
  rw [List.ofFn_inj] at k4
  funext j
  have := congrFun k4 j
  rw [← (natCube hc hp hi j).1, ← (natCube he (by omega) (by omega) j).1, this]

instance (E : Env) (a : List ℕ × List Sp) (e : FCurve d) : Decidable (Agrees E a e) := by
  unfold Agrees
  infer_instance

end

end MinCert
end Peano
