import Verif.Lemmas.GatesFinal
import Verif.Spec.Search
import Mathlib.Algebra.Order.Ring.GeomSum
import Mathlib.Algebra.Ring.GeomSum
import Mathlib.Tactic.IntervalCases
import Mathlib.Tactic.Linarith

set_option autoImplicit false

/-
Gates of curves with one pattern: they are on the boundary; in the plane they are of three kinds.
-/
namespace Peano
variable {d : ℕ}

/-- Consecutive cubes `q 0, …, q (G - 1)` of a path and the points `p 0, …, p G` where it passes from one to another. -/
structure IsRun (N G : ℕ) (g : Link (Point d)) (q : ℕ → Cube d) (p : ℕ → Point d) : Prop where
  range : ∀ i < G, ∀ j, 0 ≤ q i j ∧ q i j < (N : ℤ)
  inj : ∀ i < G, ∀ k < G, q i = q k → i = k
  surj : ∀ c : Cube d, (∀ j, 0 ≤ c j ∧ c j < (N : ℤ)) → ∃ i < G, q i = c
  start : ∀ j, p 0 j = N * g.entrance j
  finish : ∀ j, p G j = N * g.exit j
  step : ∀ i < G, ∃ b : BaseMap d, (∀ j, p i j - q i j = (Link.act b g).entrance j) ∧ ∀ j, p (i + 1) j - q i j = (Link.act b g).exit j
  unit : ∀ j, (0 ≤ g.entrance j ∧ g.entrance j ≤ 1) ∧ (0 ≤ g.exit j ∧ g.exit j ≤ 1)

theorem Generated.isRun {N : ℕ} (hN : 0 < N) {g : Link (Point d)} {path : Path (Point d) d} (h : Generated N [g] none g path)
    (hu : ∀ j, (0 ≤ g.entrance j ∧ g.entrance j ≤ 1) ∧ (0 ≤ g.exit j ∧ g.exit j ≤ 1)) : ∃ G q p, IsRun N G g q p := by
  have hmade := h.wf.made
  have hlen := h.wf.length
  have hcub : ∀ i < path.proto.length, ∃ c, path.proto[i]? = some (some c) := by
    intro i hi
    rw [List.getElem?_eq_getElem hi]
    cases e : path.proto[i] with
    | none => exact absurd e (h.wf.cubes _ (List.getElem_mem hi))
    | some c => exact ⟨c, rfl⟩
  have hlin : ∀ i < path.proto.length, ∃ l, path.links[i]? = some l := fun i hi =>
    ⟨_, List.getElem?_eq_getElem (by omega)⟩
  have hqd : ∀ i, ∃ c : Cube d, i < path.proto.length → path.proto[i]? = some (some c) := by
    intro i
    by_cases hi : i < path.proto.length
    · obtain ⟨c, hc⟩ := hcub i hi
      exact ⟨c, fun _ => hc⟩
    · exact ⟨fun _ => 0, fun h => absurd h hi⟩
  have hld : ∀ i, ∃ l : Link (Point d), i < path.proto.length → path.links[i]? = some l := by
    intro i
    by_cases hi : i < path.proto.length
    · obtain ⟨c, hc⟩ := hlin i hi
      exact ⟨c, fun _ => hc⟩
    · exact ⟨g, fun h => absurd h hi⟩
  choose q hq using hqd
  choose l hl using hld
  have hpos : 0 < path.proto.length := by
    have : some (fun _ => 0 : Cube d) ∈ path.proto := (h.all _).2 fun j => ⟨le_refl _, by exact_mod_cast hN⟩
    exact List.length_pos_of_mem this
  have hends : (∀ j, (l 0).entrance j + q 0 j = N * g.entrance j) ∧
      ∀ j, (l (path.proto.length - 1)).exit j + q (path.proto.length - 1) j = N * g.exit j := by
    have e1 : path.links.head? = some (l 0) := by rw [List.head?_eq_getElem?]; exact hl 0 hpos
    have e2 : path.links.getLast? = some (l (path.proto.length - 1)) := by
      rw [List.getLast?_eq_getElem?, hlen]; exact hl _ (by omega)
    have e3 : path.proto.head? = some (some (q 0)) := by rw [List.head?_eq_getElem?]; exact hq 0 hpos
    have e4 : path.proto.getLast? = some (some (q (path.proto.length - 1))) := by
      rw [List.getLast?_eq_getElem?]; exact hq _ (by omega)
    rw [Path.make, e1, e2, e3, e4, h.div_eq] at hmade
    simp only [Option.bind_eq_bind, Option.bind_some, Option.bind_eq_some_iff] at hmade
    obtain ⟨a, ha, b, hb, hab⟩ := hmade
    have := congrArg Path.link (Option.some.inj hab)
    rw [h.link_eq] at this
    have hN' : (N : ℚ) ≠ 0 := by exact_mod_cast hN.ne'
    simp only [SubsetOps.mapToCube, Point.mapToCube, hN.ne', if_false, Option.some.injEq] at ha hb
    rw [← this, ← ha, ← hb]
    constructor <;> intro j <;> simp only [Point.scale, Point.shift] <;> field_simp
  refine ⟨path.proto.length, q, fun i => if i = path.proto.length then fun j => (l (i - 1)).exit j + q (i - 1) j else fun j => (l i).entrance j + q i j,
    ?_, ?_, ?_, ?_, ?_, ?_, hu⟩
  · intro i hi
    exact (h.all _).1 (List.mem_of_getElem? (hq i hi))
  · intro i hi k hk e
    have h1 := hq i hi
    have h2 := hq k hk
    rw [← e] at h2
    exact (List.Nodup.getElem_inj_iff h.once (hi := hi) (hj := hk)).1
      (by rw [List.getElem?_eq_getElem hi] at h1; rw [List.getElem?_eq_getElem hk] at h2; rw [Option.some.inj h1, Option.some.inj h2])
  · intro c hc
    obtain ⟨i, hi⟩ := List.mem_iff_getElem?.1 ((h.all c).2 hc)
    have hlt : i < path.proto.length := (List.getElem?_eq_some_iff.1 hi).1
    rw [hq i hlt] at hi
    exact ⟨i, hlt, by simpa using hi⟩
  · intro j
    rw [if_neg (by omega)]
    exact hends.1 j
  · intro j
    rw [if_pos rfl]
    exact hends.2 j
  · intro i hi
    obtain ⟨b, m, hm, hb⟩ := imageOf_iff_act.1 (h.links_image _ (List.mem_of_getElem? (hl i hi)))
    rw [List.mem_singleton.1 hm] at hb
    refine ⟨b, ?_, ?_⟩ <;> intro j
    · rw [if_neg (by omega), ← hb]
      ring
    · rw [← hb]
      by_cases he : i + 1 = path.proto.length
      · rw [if_pos he]
        simp
      · rw [if_neg he]
        have := h.joined i _ _ _ _ (hq i hi) (hq (i + 1) (by omega)) (hl i hi) (hl (i + 1) (by omega)) j
        linarith

/-- The number is an integer. -/
def IsI (x : ℚ) : Prop := ∃ a : ℤ, x = a

theorem IsI.sub_int {x : ℚ} {n : ℤ} : IsI (x - n) ↔ IsI x :=
  ⟨fun ⟨a, h⟩ => ⟨a + n, by push_cast; linarith⟩, fun ⟨a, h⟩ => ⟨a - n, by push_cast; linarith⟩⟩

theorem IsI.one_sub {x : ℚ} : IsI (1 - x) ↔ IsI x :=
  ⟨fun ⟨a, h⟩ => ⟨1 - a, by push_cast; linarith⟩, fun ⟨a, h⟩ => ⟨1 - a, by push_cast; linarith⟩⟩

theorem IsI.nat_mul {x : ℚ} (n : ℕ) (h : IsI x) : IsI (n * x) := by
  obtain ⟨a, rfl⟩ := h
  exact ⟨n * a, by push_cast; ring⟩

theorem IsI.iff_unit {x : ℚ} (h : 0 ≤ x ∧ x ≤ 1) : IsI x ↔ x = 0 ∨ x = 1 := by
  constructor
  · rintro ⟨a, rfl⟩
    have h0 : 0 ≤ a := by exact_mod_cast h.1
    have h1 : a ≤ 1 := by exact_mod_cast h.2
    have : a = 0 ∨ a = 1 := by omega
    rcases this with rfl | rfl <;> simp
  · rintro (rfl | rfl)
    · exact ⟨0, by simp⟩
    · exact ⟨1, by simp⟩

theorem isI_applyX (b : BaseMap d) (x : Point d) (j : Fin d) : IsI (b.applyX 1 x j) ↔ IsI (x (b.coords j).1) := by
  unfold BaseMap.applyX
  by_cases h : (b.coords j).2 = true
  · rw [if_pos h, IsI.one_sub]
  · rw [if_neg h]

theorem unit_applyX (b : BaseMap d) {x : Point d} (h : ∀ j, 0 ≤ x j ∧ x j ≤ 1) (j : Fin d) : 0 ≤ b.applyX 1 x j ∧ b.applyX 1 x j ≤ 1 := by
  unfold BaseMap.applyX
  have := h (b.coords j).1
  split <;> constructor <;> linarith

/-- Cells with a common point whose coordinate is not an integer have the same coordinate. -/
theorem cells_coord_eq {a b : ℤ} {x : ℚ} (h : ¬ IsI x) (ha : 0 ≤ x - a ∧ x - a ≤ 1) (hb : 0 ≤ x - b ∧ x - b ≤ 1) : a = b := by
  have ha0 : x ≠ a := fun e => h ⟨a, e⟩
  have ha1 : x ≠ a + 1 := fun e => h ⟨a + 1, by push_cast; exact e⟩
  have hb0 : x ≠ b := fun e => h ⟨b, e⟩
  have hb1 : x ≠ b + 1 := fun e => h ⟨b + 1, by push_cast; exact e⟩
  have h1 : (a : ℚ) < x := lt_of_le_of_ne (by linarith) (Ne.symm ha0)
  have h2 : x < b + 1 := lt_of_le_of_ne (by linarith) hb1
  have h3 : (b : ℚ) < x := lt_of_le_of_ne (by linarith) (Ne.symm hb0)
  have h4 : x < a + 1 := lt_of_le_of_ne (by linarith) ha1
  have h5 : (a : ℚ) < b + 1 := by linarith
  have h6 : (b : ℚ) < a + 1 := by linarith
  have h7 : a < b + 1 := by exact_mod_cast h5
  have h8 : b < a + 1 := by exact_mod_cast h6
  omega

namespace IsRun
variable {N G : ℕ} {g : Link (Point d)} {q : ℕ → Cube d} {p : ℕ → Point d}

/-- The points are in the closed cubes. -/
theorem mem (h : IsRun N G g q p) {i : ℕ} (hi : i < G) (j : Fin d) :
    (0 ≤ p i j - q i j ∧ p i j - q i j ≤ 1) ∧ (0 ≤ p (i + 1) j - q i j ∧ p (i + 1) j - q i j ≤ 1) := by
  obtain ⟨b, h1, h2⟩ := h.step i hi
  rw [h1, h2, Link.act_def]
  have e := unit_applyX b (fun j => (h.unit j).1) j
  have x := unit_applyX b (fun j => (h.unit j).2) j
  by_cases hb : b.timeRev = true
  · rw [if_pos hb]; exact ⟨x, e⟩
  · rw [if_neg hb]; exact ⟨e, x⟩

/-- A point between different cubes has an integer coordinate. -/
theorem exists_int (h : IsRun N G g q p) {i : ℕ} (hi : i + 1 < G) : ∃ j, IsI (p (i + 1) j) := by
  by_contra hc
  push Not at hc
  have : q i = q (i + 1) := funext fun j => cells_coord_eq (hc j) (h.mem (by omega) j).2 (h.mem hi j).1
  have := h.inj i (by omega) (i + 1) hi this
  omega

/-- The gates are on the boundary. -/
theorem boundary (h : IsRun N G g q p) (hG : 3 ≤ G) : g.entrance.OnBoundary ∧ g.exit.OnBoundary := by
  obtain ⟨j1, hj1⟩ := h.exists_int (i := 0) (by omega)
  obtain ⟨j2, hj2⟩ := h.exists_int (i := 1) (by omega)
  obtain ⟨b, h1, h2⟩ := h.step 1 (by omega)
  have k1 := (IsI.sub_int (n := q 1 j1)).2 hj1
  have k2 := (IsI.sub_int (n := q 1 j2)).2 hj2
  rw [h1, Link.act_def] at k1
  rw [h2, Link.act_def] at k2
  have key : (∃ j, IsI (g.entrance j)) ∧ ∃ j, IsI (g.exit j) := by
    by_cases hb : b.timeRev = true
    · rw [if_pos hb] at k1 k2
      exact ⟨⟨_, (isI_applyX b _ _).1 k2⟩, ⟨_, (isI_applyX b _ _).1 k1⟩⟩
    · rw [if_neg hb] at k1 k2
      exact ⟨⟨_, (isI_applyX b _ _).1 k1⟩, ⟨_, (isI_applyX b _ _).1 k2⟩⟩
  obtain ⟨⟨a, ha⟩, ⟨c, hc⟩⟩ := key
  exact ⟨⟨fun j => (h.unit j).1, a, (IsI.iff_unit (h.unit a).1).1 ha⟩, ⟨fun j => (h.unit j).2, c, (IsI.iff_unit (h.unit c).2).1 hc⟩⟩

/-- In dimension at least two there are at least three cubes. -/
theorem three_le {k k' : Fin d} (hk : k ≠ k') (hN : 2 ≤ N) (h : IsRun N G g q p) : 3 ≤ G := by
  obtain ⟨i0, a0, b0⟩ := h.surj (fun _ => 0) (fun _ => ⟨le_refl _, by exact_mod_cast (by omega : 0 < N)⟩)
  obtain ⟨i1, a1, b1⟩ := h.surj (fun j => if j = k then 1 else 0) (fun j => by split <;> constructor <;> omega)
  obtain ⟨i2, a2, b2⟩ := h.surj (fun j => if j = k' then 1 else 0) (fun j => by split <;> constructor <;> omega)
  have n1 : i0 ≠ i1 := by
    rintro rfl
    have := congrFun (b0.symm.trans b1) k
    simp at this
  have n2 : i0 ≠ i2 := by
    rintro rfl
    have := congrFun (b0.symm.trans b2) k'
    simp at this
  have n3 : i1 ≠ i2 := by
    rintro rfl
    have := congrFun (b1.symm.trans b2) k
    simp [hk] at this
  omega

end IsRun

/-! ### The plane -/

theorem fin2 {k k' : Fin 2} (h : k ≠ k') (j : Fin 2) : j = k ∨ j = k' := by omega

/-- The point is on a line `x_k = n`, but not in a node of the grid. -/
def OnLine (k k' : Fin 2) (x : Point 2) : Prop := IsI (x k) ∧ ¬ IsI (x k')

theorem OnLine.sub {k k' : Fin 2} {x : Point 2} {c : Cube 2} {y : Point 2} (hy : ∀ j, x j - c j = y j) : OnLine k k' y ↔ OnLine k k' x := by
  unfold OnLine
  rw [← hy, ← hy, IsI.sub_int, IsI.sub_int]

theorem coords2 (b : BaseMap 2) {k k' : Fin 2} (h : k ≠ k') :
    ((b.coords k).1 = k ∧ (b.coords k').1 = k') ∨ ((b.coords k).1 = k' ∧ (b.coords k').1 = k) := by
  have : (b.coords k).1 ≠ (b.coords k').1 := fun e => h (b.inj e)
  rcases fin2 h (b.coords k).1 with e | e <;> rcases fin2 h (b.coords k').1 with e' | e' <;> simp_all

theorem onLine_applyX (b : BaseMap 2) {k k' : Fin 2} (h : k ≠ k') :
    (∀ x, OnLine k k' (b.applyX 1 x) ↔ OnLine k k' x) ∧ (∀ x, OnLine k' k (b.applyX 1 x) ↔ OnLine k' k x) ∨
    (∀ x, OnLine k k' (b.applyX 1 x) ↔ OnLine k' k x) ∧ (∀ x, OnLine k' k (b.applyX 1 x) ↔ OnLine k k' x) := by
  unfold OnLine
  rcases coords2 b h with ⟨e1, e2⟩ | ⟨e1, e2⟩
  · left
    constructor <;> intro x <;> rw [isI_applyX, isI_applyX, e1, e2]
  · right
    constructor <;> intro x <;> rw [isI_applyX, isI_applyX, e1, e2]

namespace IsRun
variable {N G : ℕ} {g : Link (Point 2)} {q : ℕ → Cube 2} {p : ℕ → Point 2}

/-- What happens in a cube if the entrance and the exit are on lines. -/
theorem lines (h : IsRun N G g q p) {k k' m m' : Fin 2} (hk : k ≠ k') (he : OnLine k k' g.entrance) (hx : OnLine m m' g.exit) (hm : m = k ∧ m' = k' ∨ m = k' ∧ m' = k)
    {i : ℕ} (hi : i < G) :
    if m = k then (OnLine k k' (p i) ∧ OnLine k k' (p (i + 1))) ∨ (OnLine k' k (p i) ∧ OnLine k' k (p (i + 1)))
    else (OnLine k k' (p i) ∧ OnLine k' k (p (i + 1))) ∨ (OnLine k' k (p i) ∧ OnLine k k' (p (i + 1))) := by
  obtain ⟨b, h1, h2⟩ := h.step i hi
  rw [← OnLine.sub h1, ← OnLine.sub h2, ← OnLine.sub h1, ← OnLine.sub h2, Link.act_def]
  rcases hm with ⟨rfl, rfl⟩ | ⟨rfl, rfl⟩
  · rw [if_pos rfl]
    rcases onLine_applyX b hk with ⟨e1, e2⟩ | ⟨e1, e2⟩ <;> by_cases hb : b.timeRev = true <;> simp only [hb, if_true, Bool.false_eq_true, if_false, Point.act, e1, e2] <;> tauto
  · rw [if_neg hk.symm]
    rcases onLine_applyX b hk with ⟨e1, e2⟩ | ⟨e1, e2⟩ <;> by_cases hb : b.timeRev = true <;> simp only [hb, if_true, Bool.false_eq_true, if_false, Point.act, e1, e2] <;> tauto

/-- Both gates on parallel lines: the path stays in one row. -/
theorem parallel_false (hN : 2 ≤ N) (h : IsRun N G g q p) {k k' : Fin 2} (hk : k ≠ k') (he : OnLine k k' g.entrance) (hx : OnLine k k' g.exit) : False := by
  have hst : ∀ i < G, (OnLine k k' (p i) ∧ OnLine k k' (p (i + 1))) ∨ (OnLine k' k (p i) ∧ OnLine k' k (p (i + 1))) := by
    intro i hi
    have := h.lines hk he hx (Or.inl ⟨rfl, rfl⟩) hi
    rwa [if_pos rfl] at this
  have h0 : IsI (p 0 k) := by rw [h.start]; exact he.1.nat_mul N
  have hall : ∀ i < G, OnLine k k' (p i) ∧ OnLine k k' (p (i + 1)) := by
    intro i
    induction i with
    | zero =>
      intro hi
      rcases hst 0 hi with h1 | h1
      · exact h1
      · exact absurd h0 h1.1.2
    | succ i ih =>
      intro hi
      rcases hst (i + 1) hi with h1 | h1
      · exact h1
      · exact absurd (ih (by omega)).2.1 h1.1.2
  have hrow : ∀ i < G, q i k' = q 0 k' := by
    intro i
    induction i with
    | zero => intro _; rfl
    | succ i ih =>
      intro hi
      rw [← ih (by omega)]
      exact cells_coord_eq (hall (i + 1) hi).1.2 (h.mem hi k').1 (h.mem (by omega) k').2
  obtain ⟨i0, a0, b0⟩ := h.surj (fun _ => 0) (fun _ => ⟨le_refl _, by exact_mod_cast (by omega : 0 < N)⟩)
  obtain ⟨i1, a1, b1⟩ := h.surj (fun _ => 1) (fun _ => ⟨by norm_num, by exact_mod_cast (by omega : 1 < N)⟩)
  have e0 := hrow i0 a0
  have e1 := hrow i1 a1
  rw [b0] at e0
  rw [b1] at e1
  rw [← e1] at e0
  simp at e0

theorem card_eq (h : IsRun N G g q p) (F : ℕ × ℕ → ℤ) :
    ∑ i ∈ Finset.range G, F ((q i 0).toNat, (q i 1).toNat) = ∑ c ∈ Finset.range N ×ˢ Finset.range N, F c := by
  refine Finset.sum_bij (fun i _ => ((q i 0).toNat, (q i 1).toNat)) ?_ ?_ ?_ ?_
  · intro i hi
    have hi := Finset.mem_range.1 hi
    have h0 := h.range i hi 0
    have h1 := h.range i hi 1
    simp only [Finset.mem_product, Finset.mem_range]
    omega
  · intro i hi k hk e
    have hi := Finset.mem_range.1 hi
    have hk := Finset.mem_range.1 hk
    have h0 := h.range i hi 0
    have h1 := h.range i hi 1
    have h2 := h.range k hk 0
    have h3 := h.range k hk 1
    rw [Prod.mk.injEq] at e
    refine h.inj i hi k hk (funext fun j => ?_)
    fin_cases j <;> simp <;> omega
  · rintro ⟨x, y⟩ hc
    simp only [Finset.mem_product, Finset.mem_range] at hc
    obtain ⟨i, hi, e⟩ := h.surj ![(x : ℤ), (y : ℤ)] (fun j => by fin_cases j <;> simp <;> omega)
    exact ⟨i, Finset.mem_range.2 hi, by simp [e]⟩
  · intro i _; rfl

theorem genus_eq (h : IsRun N G g q p) : G = N * N := by
  have := h.card_eq (fun _ => 1)
  simp only [Finset.sum_const, Finset.card_range, Finset.card_product, nsmul_eq_mul, mul_one] at this
  exact_mod_cast this

theorem blocks_sum {s : ℕ → ℤ} (k : ℕ) (h : ∀ i, i + 2 < 4 * k + 1 → s (i + 2) = - s i) : ∑ i ∈ Finset.range (4 * k + 1), s i = s (4 * k) := by
  induction k with
  | zero => simp
  | succ k ih =>
    rw [show 4 * (k + 1) + 1 = 4 * k + 1 + 1 + 1 + 1 + 1 by ring, Finset.sum_range_succ, Finset.sum_range_succ, Finset.sum_range_succ, Finset.sum_range_succ,
      ih fun i hi => h i (by omega)]
    have h1 := h (4 * k) (by omega)
    have h2 := h (4 * k + 1) (by omega)
    rw [show 4 * (k + 1) = 4 * k + 1 + 1 + 1 + 1 by ring]
    rw [show 4 * k + 2 = 4 * k + 1 + 1 by ring] at h1
    rw [show 4 * k + 1 + 2 = 4 * k + 1 + 1 + 1 by ring] at h2
    linarith

/-- Gates on perpendicular lines: the path turns in every cube. -/
theorem perpendicular_false (hN : 2 ≤ N) (h : IsRun N G g q p) {k k' : Fin 2} (hk : k ≠ k') (he : OnLine k k' g.entrance) (hx : OnLine k' k g.exit) : False := by
  have hst : ∀ i < G, (OnLine k k' (p i) ∧ OnLine k' k (p (i + 1))) ∨ (OnLine k' k (p i) ∧ OnLine k k' (p (i + 1))) := by
    intro i hi
    have := h.lines hk he hx (Or.inr ⟨rfl, rfl⟩) hi
    rwa [if_neg hk.symm] at this
  have hG := h.genus_eq
  have h0 : IsI (p 0 k) := by rw [h.start]; exact he.1.nat_mul N
  have h1 : IsI (p G k') := by rw [h.finish]; exact hx.1.nat_mul N
  have hall : ∀ i < G, if i % 2 = 0 then OnLine k k' (p i) ∧ OnLine k' k (p (i + 1)) else OnLine k' k (p i) ∧ OnLine k k' (p (i + 1)) := by
    intro i
    induction i with
    | zero =>
      intro hi
      rw [if_pos rfl]
      rcases hst 0 hi with h1 | h1
      · exact h1
      · exact absurd h0 h1.1.2
    | succ i ih =>
      intro hi
      have ih := ih (by omega)
      by_cases hpar : i % 2 = 0
      · rw [if_pos hpar] at ih
        rw [if_neg (by omega)]
        rcases hst (i + 1) hi with h1 | h1
        · exact absurd ih.2.1 h1.1.2
        · exact h1
      · rw [if_neg hpar] at ih
        rw [if_pos (by omega)]
        rcases hst (i + 1) hi with h1 | h1
        · exact h1
        · exact absurd ih.2.1 h1.1.2
  have hpos : 4 ≤ G := by rw [hG]; nlinarith
  have hodd : G % 2 = 1 := by
    by_contra hc
    have := hall (G - 1) (by omega)
    rw [if_neg (by omega), show G - 1 + 1 = G by omega] at this
    exact this.2.2 h1
  have hNodd : N % 2 = 1 := by
    by_contra hc
    have : N % 2 = 0 := by omega
    rw [hG, Nat.mul_mod, this] at hodd
    simp at hodd
  have hmod : ∃ m, G = 4 * m + 1 := by
    obtain ⟨a, ha⟩ : ∃ a, N = 2 * a + 1 := ⟨N / 2, by omega⟩
    exact ⟨a * a + a, by rw [hG, ha]; ring⟩
  obtain ⟨m, hm⟩ := hmod
  -- the colour of the column (or of the row)
  have hs := h.card_eq (fun c => (-1) ^ c.1)
  rw [Finset.sum_product] at hs
  simp only [Finset.sum_const, Finset.card_range, nsmul_eq_mul] at hs
  rw [← Finset.mul_sum, neg_one_geom_sum, if_neg (by rw [Nat.even_iff]; omega)] at hs
  have hsame : ∀ i, i + 1 < G → OnLine 1 0 (p (i + 1)) → ((-1 : ℤ)) ^ (q (i + 1) 0).toNat = (-1) ^ (q i 0).toNat := by
    intro i hi hl
    rw [cells_coord_eq hl.2 (h.mem hi 0).1 (h.mem (by omega) 0).2]
  have hdiff : ∀ i, i + 1 < G → OnLine 0 1 (p (i + 1)) → ((-1 : ℤ)) ^ (q (i + 1) 0).toNat = - (-1) ^ (q i 0).toNat := by
    intro i hi hl
    have e1 := cells_coord_eq hl.2 (h.mem hi 1).1 (h.mem (by omega) 1).2
    have e0 : q (i + 1) 0 ≠ q i 0 := by
      intro e
      have : q (i + 1) = q i := funext fun j => by fin_cases j <;> simp [e, e1]
      have := h.inj _ hi _ (by omega) this
      omega
    obtain ⟨a, ha⟩ := hl.1
    have m1 := (h.mem hi 0).1
    have m2 := (h.mem (by omega : i < G) 0).2
    rw [ha] at m1 m2
    have c1 : 0 ≤ a - q (i + 1) 0 := by exact_mod_cast m1.1
    have c2 : a - q (i + 1) 0 ≤ 1 := by exact_mod_cast m1.2
    have c3 : 0 ≤ a - q i 0 := by exact_mod_cast m2.1
    have c4 : a - q i 0 ≤ 1 := by exact_mod_cast m2.2
    have r1 := h.range (i + 1) hi 0
    have r2 := h.range i (by omega) 0
    have : (q (i + 1) 0).toNat = (q i 0).toNat + 1 ∨ (q i 0).toNat = (q (i + 1) 0).toNat + 1 := by omega
    rcases this with e | e
    · rw [e, pow_succ]; ring
    · rw [e, pow_succ]; ring
  have htwo : ∀ i, i + 2 < 4 * m + 1 → ((-1 : ℤ)) ^ (q (i + 2) 0).toNat = - (-1) ^ (q i 0).toNat := by
    intro i hi
    have hi2 : i + 1 + 1 < G := by omega
    have hstep := hst (i + 1) (by omega)
    have hkk : (k = 0 ∧ k' = 1) ∨ (k = 1 ∧ k' = 0) := by omega
    have hstep : (OnLine 0 1 (p (i + 1)) ∧ OnLine 1 0 (p (i + 1 + 1))) ∨ (OnLine 1 0 (p (i + 1)) ∧ OnLine 0 1 (p (i + 1 + 1))) := by
      rcases hkk with ⟨rfl, rfl⟩ | ⟨rfl, rfl⟩ <;> tauto
    rcases hstep with ⟨t1, t2⟩ | ⟨t1, t2⟩
    · rw [show i + 2 = i + 1 + 1 by ring, hsame _ hi2 t2, hdiff _ (by omega) t1]
    · rw [show i + 2 = i + 1 + 1 by ring, hdiff _ hi2 t2, hsame _ (by omega) t1]
  rw [hm, blocks_sum m htwo] at hs
  rcases neg_one_pow_eq_or ℤ (q (4 * m) 0).toNat with e | e <;> rw [e] at hs <;> simp at hs
  omega

/-- How the curve passes a cube if its entrance is `(0, 0)` and its exit is `(u, v)`: one of the points is the node `P`, another one is `Q`. -/
def Pass (u v : ℚ) (c : Cube 2) (P Q : Point 2) : Prop :=
  ∃ w0 w1 : ℤ, (w0 = 0 ∨ w0 = 1) ∧ (w1 = 0 ∨ w1 = 1) ∧ P 0 = (c 0 + w0 : ℤ) ∧ P 1 = (c 1 + w1 : ℤ) ∧
    ((Q 0 = P 0 + (1 - 2 * w0) * u ∧ Q 1 = P 1 + (1 - 2 * w1) * v) ∨ (Q 0 = P 0 + (1 - 2 * w0) * v ∧ Q 1 = P 1 + (1 - 2 * w1) * u))

theorem pass {u v : ℚ} (hg : g = ⟨![0, 0], ![u, v]⟩) (h : IsRun N G g q p) {i : ℕ} (hi : i < G) :
    Pass u v (q i) (p i) (p (i + 1)) ∨ Pass u v (q i) (p (i + 1)) (p i) := by
  obtain ⟨b, h1, h2⟩ := h.step i hi
  rw [hg, Link.act_def] at h1 h2
  have key : ∀ P Q : Point 2, (∀ j, P j - q i j = b.applyX 1 ![0, 0] j) → (∀ j, Q j - q i j = b.applyX 1 ![u, v] j) → Pass u v (q i) P Q := by
    intro P Q hP hQ
    have P0 := hP 0
    have P1 := hP 1
    have Q0 := hQ 0
    have Q1 := hQ 1
    unfold BaseMap.applyX at P0 P1 Q0 Q1
    rcases coords2 b (by decide : (0 : Fin 2) ≠ 1) with ⟨e1, e2⟩ | ⟨e1, e2⟩ <;> rw [e1] at P0 Q0 <;> rw [e2] at P1 Q1 <;>
      by_cases f0 : (b.coords 0).2 = true <;> by_cases f1 : (b.coords 1).2 = true <;>
      simp only [f0, f1, if_true, if_false, Bool.false_eq_true, Matrix.cons_val_zero, Matrix.cons_val_one] at P0 P1 Q0 Q1
    · exact ⟨1, 1, by simp, by simp, by push_cast; linarith, by push_cast; linarith, Or.inl ⟨by push_cast; linarith, by push_cast; linarith⟩⟩
    · exact ⟨1, 0, by simp, by simp, by push_cast; linarith, by push_cast; linarith, Or.inl ⟨by push_cast; linarith, by push_cast; linarith⟩⟩
    · exact ⟨0, 1, by simp, by simp, by push_cast; linarith, by push_cast; linarith, Or.inl ⟨by push_cast; linarith, by push_cast; linarith⟩⟩
    · exact ⟨0, 0, by simp, by simp, by push_cast; linarith, by push_cast; linarith, Or.inl ⟨by push_cast; linarith, by push_cast; linarith⟩⟩
    · exact ⟨1, 1, by simp, by simp, by push_cast; linarith, by push_cast; linarith, Or.inr ⟨by push_cast; linarith, by push_cast; linarith⟩⟩
    · exact ⟨1, 0, by simp, by simp, by push_cast; linarith, by push_cast; linarith, Or.inr ⟨by push_cast; linarith, by push_cast; linarith⟩⟩
    · exact ⟨0, 1, by simp, by simp, by push_cast; linarith, by push_cast; linarith, Or.inr ⟨by push_cast; linarith, by push_cast; linarith⟩⟩
    · exact ⟨0, 0, by simp, by simp, by push_cast; linarith, by push_cast; linarith, Or.inr ⟨by push_cast; linarith, by push_cast; linarith⟩⟩
  by_cases hb : b.timeRev = true
  · simp only [hb, if_true] at h1 h2
    exact Or.inr (key _ _ h2 h1)
  · simp only [hb, if_false, Bool.false_eq_true] at h1 h2
    exact Or.inl (key _ _ h1 h2)

/-- The cell that contains a corner of the square. -/
theorem corner_cell (h : IsRun N G g q p) {i : ℕ} (hi : i < G) {x : Point 2} (hx : ∀ j, 0 ≤ x j - q i j ∧ x j - q i j ≤ 1) (j : Fin 2) :
    (x j < 1 → q i j = 0) ∧ ((N : ℚ) - 1 < x j → q i j = N - 1) := by
  have hr := h.range i hi j
  obtain ⟨a1, a2⟩ := hx j
  constructor
  · intro hl
    have : (q i j : ℚ) < 1 := by linarith
    have : q i j < 1 := by exact_mod_cast this
    omega
  · intro hl
    have : (N : ℚ) - 2 < q i j := by linarith
    have : (N : ℤ) - 2 < q i j := by exact_mod_cast this
    omega

/-- A point in the only cell with the corner is not between cells. -/
theorem not_between (h : IsRun N G g q p) {i : ℕ} (hi : i + 1 < G) (hc : ∀ j, p (i + 1) j < 1 ∨ (N : ℚ) - 1 < p (i + 1) j) : False := by
  have : q i = q (i + 1) := by
    funext j
    have m1 := h.corner_cell (i := i) (by omega) (fun j => (h.mem (by omega) j).2) j
    have m2 := h.corner_cell hi (fun j => (h.mem hi j).1) j
    rcases hc j with e | e
    · rw [m1.1 e, m2.1 e]
    · rw [m1.2 e, m2.2 e]
  have := h.inj i (by omega) (i + 1) hi this
  omega

/-- The first point is a corner: the first cell is passed forward unless the exit is a node. -/
theorem start_zero {u v : ℚ} (hg : g = ⟨![0, 0], ![u, v]⟩) (h : IsRun N G g q p) : p 0 0 = 0 ∧ p 0 1 = 0 := by
  have h0 := h.start 0
  have h1 := h.start 1
  rw [hg] at h0 h1
  simpa using And.intro h0 h1

/-- The exit is in the entrance, or on an edge that contains it. -/
theorem same_edge_false {u v : ℚ} (h2 : 2 ≤ G) (h : IsRun N G ⟨![0, 0], ![u, v]⟩ q p) (hu : 0 ≤ u ∧ u < 1) (hv : 0 ≤ v ∧ v < 1) : False := by
  obtain ⟨s0, s1⟩ := h.start_zero rfl
  have hq0 : ∀ j, q 0 j = 0 := by
    intro j
    refine (h.corner_cell (i := 0) (by omega) (fun j => (h.mem (by omega) j).1) j).1 ?_
    fin_cases j <;> simp [s0, s1]
  have hp := h.pass rfl (i := 0) (by omega)
  refine h.not_between (i := 0) (by omega) ?_
  have hq00 := hq0 0
  have hq01 := hq0 1
  intro j
  left
  rcases hp with ⟨w0, w1, a0, a1, e0, e1, c⟩ | ⟨w0, w1, a0, a1, e0, e1, c⟩
  · rw [s0, hq00] at e0
    rw [s1, hq01] at e1
    have z0 : w0 = 0 := by have : (0 : ℤ) = 0 + w0 := by exact_mod_cast e0
                           omega
    have z1 : w1 = 0 := by have : (0 : ℤ) = 0 + w1 := by exact_mod_cast e1
                           omega
    subst z0 z1
    rcases c with ⟨c0, c1⟩ | ⟨c0, c1⟩ <;> fin_cases j <;> simp at c0 c1 ⊢ <;> linarith
  · rw [hq00] at e0
    rw [hq01] at e1
    rcases a0 with rfl | rfl <;> rcases a1 with rfl | rfl <;> rcases c with ⟨c0, c1⟩ | ⟨c0, c1⟩ <;> fin_cases j <;> simp at e0 e1 c0 c1 ⊢ <;> linarith

/-- The diagonal: all points are nodes with even sum of coordinates. -/
theorem diag_nodes (h : IsRun N G ⟨![0, 0], ![1, 1]⟩ q p) : ∀ i ≤ G, ∃ a b : ℤ, p i 0 = a ∧ p i 1 = b ∧ (a + b) % 2 = 0 := by
  intro i
  induction i with
  | zero =>
    intro _
    obtain ⟨s0, s1⟩ := h.start_zero rfl
    exact ⟨0, 0, by simp [s0], by simp [s1], rfl⟩
  | succ i ih =>
    intro hi
    obtain ⟨a, b, ha, hb, hab⟩ := ih (by omega)
    have hp := h.pass rfl (i := i) (by omega)
    have key : ∃ s t : ℤ, (s = 1 ∨ s = -1) ∧ (t = 1 ∨ t = -1) ∧ p (i + 1) 0 = a + s ∧ p (i + 1) 1 = b + t := by
      rcases hp with ⟨w0, w1, a0, a1, e0, e1, c⟩ | ⟨w0, w1, a0, a1, e0, e1, c⟩
      · refine ⟨1 - 2 * w0, 1 - 2 * w1, by omega, by omega, ?_, ?_⟩ <;> push_cast <;> rcases c with ⟨c0, c1⟩ | ⟨c0, c1⟩ <;> linarith
      · refine ⟨-(1 - 2 * w0), -(1 - 2 * w1), by omega, by omega, ?_, ?_⟩ <;> push_cast <;> rcases c with ⟨c0, c1⟩ | ⟨c0, c1⟩ <;> linarith
    obtain ⟨s, t, hs, ht, e0, e1⟩ := key
    exact ⟨a + s, b + t, by rw [e0]; push_cast; rfl, by rw [e1]; push_cast; rfl, by omega⟩

theorem diag_odd (hN : 2 ≤ N) (h : IsRun N G ⟨![0, 0], ![1, 1]⟩ q p) : N % 2 = 1 := by
  by_contra hpar
  have hn := h.diag_nodes
  obtain ⟨m, hm, hq⟩ := h.surj ![0, (N : ℤ) - 1] (fun j => by fin_cases j <;> simp <;> omega)
  have q0 : q m 0 = 0 := by rw [hq]; rfl
  have q1 : q m 1 = N - 1 := by rw [hq]; rfl
  obtain ⟨a, b, ha, hb, hab⟩ := hn m (by omega)
  obtain ⟨a', b', ha', hb', hab'⟩ := hn (m + 1) (by omega)
  have m0 := h.mem hm 0
  have m1 := h.mem hm 1
  rw [ha, ha', q0] at m0
  rw [hb, hb', q1] at m1
  have c1 : 0 ≤ a - 0 := by exact_mod_cast m0.1.1
  have c2 : a - 0 ≤ 1 := by exact_mod_cast m0.1.2
  have c3 : 0 ≤ a' - 0 := by exact_mod_cast m0.2.1
  have c4 : a' - 0 ≤ 1 := by exact_mod_cast m0.2.2
  have d1 : 0 ≤ b - ((N : ℤ) - 1) := by exact_mod_cast m1.1.1
  have d2 : b - ((N : ℤ) - 1) ≤ 1 := by exact_mod_cast m1.1.2
  have d3 : 0 ≤ b' - ((N : ℤ) - 1) := by exact_mod_cast m1.2.1
  have d4 : b' - ((N : ℤ) - 1) ≤ 1 := by exact_mod_cast m1.2.2
  have hdiff : a' ≠ a := by
    intro e
    have hp := h.pass rfl hm
    rcases hp with ⟨w0, w1, a0, a1, e0, e1, c⟩ | ⟨w0, w1, a0, a1, e0, e1, c⟩ <;> rcases c with ⟨c0, c1⟩ | ⟨c0, c1⟩ <;> rcases a0 with rfl | rfl <;>
      rw [ha, ha', e] at c0 <;> norm_num at c0
  -- the corner `(0, N)` is one of the points
  have hj : ∃ j, 0 < j ∧ j ≤ G ∧ p j 0 = 0 ∧ p j 1 = N := by
    by_cases e : a = 0
    · refine ⟨m, ?_, by omega, by rw [ha, e]; simp, ?_⟩
      · rcases Nat.eq_zero_or_pos m with rfl | h0
        · have := h.start_zero rfl
          rw [hb] at this
          have : b = 0 := by exact_mod_cast this.2
          omega
        · exact h0
      · have : b = N := by omega
        rw [hb, this]; simp
    · refine ⟨m + 1, by omega, by omega, ?_, ?_⟩
      · have : a' = 0 := by omega
        rw [ha', this]; simp
      · have : b' = N := by omega
        rw [hb', this]; simp
  obtain ⟨j, j1, j2, j3, j4⟩ := hj
  by_cases e : j = G
  · have := h.finish 0
    rw [← e, j3] at this
    have : (N : ℚ) = 0 := by simpa using this.symm
    have : N = 0 := by exact_mod_cast this
    omega
  · refine h.not_between (i := j - 1) (by omega) ?_
    rw [show j - 1 + 1 = j by omega]
    intro k
    fin_cases k
    · left; simp [j3]
    · right; simp [j4]

theorem not_int {v : ℚ} (hv : 0 < v ∧ v < 1) {w : ℤ} (hw : w = 0 ∨ w = 1) {a b : ℤ} (h : (a : ℚ) = b + (1 - 2 * w) * v) : False := by
  rcases hw with rfl | rfl
  · have h1 : (0 : ℚ) < (a - b : ℤ) := by push_cast at h ⊢; linarith
    have h2 : ((a - b : ℤ) : ℚ) < 1 := by push_cast at h ⊢; linarith
    have h1 : 0 < a - b := by exact_mod_cast h1
    have h2 : a - b < 1 := by exact_mod_cast h2
    omega
  · have h1 : ((a - b : ℤ) : ℚ) < 0 := by push_cast at h ⊢; linarith
    have h2 : (-1 : ℚ) < (a - b : ℤ) := by push_cast at h ⊢; linarith
    have h1 : a - b < 0 := by exact_mod_cast h1
    have h2 : -1 < a - b := by exact_mod_cast h2
    omega

/-- A node cannot be the other point of the passage. -/
theorem pass_node_false {v : ℚ} (hv : 0 < v ∧ v < 1) {c : Cube 2} {P Q : Point 2} (h : Pass 1 v c P Q) {a b : ℤ} (ha : Q 0 = a) (hb : Q 1 = b) : False := by
  obtain ⟨w0, w1, a0, a1, e0, e1, ⟨c0, c1⟩ | ⟨c0, c1⟩⟩ := h
  · rw [hb, e1] at c1
    exact not_int hv a1 c1
  · rw [ha, e0] at c0
    exact not_int hv a0 c0

theorem two_v {v : ℚ} (hv : 0 < v ∧ v < 1) (hv2 : v ≠ 1 / 2) {w w' : ℤ} (hw : w = 0 ∨ w = 1) (hw' : w' = 0 ∨ w' = 1) {a b : ℤ}
    (h : a + (1 - 2 * w) * v = b + (1 - 2 * w') * v) : a = b := by
  rcases hw with rfl | rfl <;> rcases hw' with rfl | rfl
  · have : (a : ℚ) = b := by push_cast at h; linarith
    exact_mod_cast this
  · exfalso
    have h1 : (2 * v : ℚ) = (b - a : ℤ) := by push_cast at h ⊢; linarith
    have h2 : (0 : ℚ) < (b - a : ℤ) := by linarith
    have h3 : ((b - a : ℤ) : ℚ) < 2 := by linarith
    have h2 : 0 < b - a := by exact_mod_cast h2
    have h3 : b - a < 2 := by exact_mod_cast h3
    rw [show b - a = 1 by omega] at h1
    apply hv2
    push_cast at h1
    linarith
  · exfalso
    have h1 : (2 * v : ℚ) = (a - b : ℤ) := by push_cast at h ⊢; linarith
    have h2 : (0 : ℚ) < (a - b : ℤ) := by linarith
    have h3 : ((a - b : ℤ) : ℚ) < 2 := by linarith
    have h2 : 0 < a - b := by exact_mod_cast h2
    have h3 : a - b < 2 := by exact_mod_cast h3
    rw [show a - b = 1 by omega] at h1
    apply hv2
    push_cast at h1
    linarith
  · have : (a : ℚ) = b := by push_cast at h; linarith
    exact_mod_cast this

/-- The exit is inside an edge that does not contain the entrance and is not its middle: nodes on the path have even coordinates. -/
theorem median_even {v : ℚ} (hv : 0 < v ∧ v < 1) (hv2 : v ≠ 1 / 2) (h : IsRun N G ⟨![0, 0], ![1, v]⟩ q p) (k : ℕ) : 2 * k ≤ G →
    ∃ a b : ℤ, p (2 * k) 0 = a ∧ p (2 * k) 1 = b ∧ a % 2 = 0 ∧ b % 2 = 0 := by
  induction k with
  | zero =>
    intro _
    obtain ⟨s0, s1⟩ := h.start_zero rfl
    exact ⟨0, 0, by simp [s0], by simp [s1], rfl, rfl⟩
  | succ k ih =>
    intro hk
    obtain ⟨a, b, ha, hb, hea, heb⟩ := ih (by omega)
    rcases h.pass rfl (i := 2 * k) (by omega) with hp | hp
    · rcases h.pass rfl (i := 2 * k + 1) (by omega) with hp' | hp'
      · exfalso
        obtain ⟨w0, w1, a0, a1, e0, e1, _⟩ := hp'
        exact pass_node_false hv hp e0 e1
      · obtain ⟨w0, w1, a0, a1, e0, e1, c⟩ := hp
        obtain ⟨w0', w1', a0', a1', e0', e1', c'⟩ := hp'
        rw [show 2 * (k + 1) = 2 * k + 1 + 1 by ring]
        generalize hA : q (2 * k + 1) 0 + w0' = A at *
        generalize hB : q (2 * k + 1) 1 + w1' = B at *
        refine ⟨A, B, e0', e1', ?_⟩
        rw [ha, hb] at c
        rw [e0', e1'] at c'
        rcases c with ⟨c0, c1⟩ | ⟨c0, c1⟩ <;> rcases c' with ⟨c0', c1'⟩ | ⟨c0', c1'⟩
        · rw [c0] at c0'
          rw [c1] at c1'
          have := two_v hv hv2 a1 a1' c1'
          have : a + (1 - 2 * w0) = A + (1 - 2 * w0') := by
            have : (a : ℚ) + (1 - 2 * w0) = A + (1 - 2 * w0') := by linarith
            exact_mod_cast this
          omega
        · exfalso
          rw [c0] at c0'
          exact not_int hv a0' (a := a + (1 - 2 * w0)) (b := A) (by push_cast; linarith)
        · exfalso
          rw [c1] at c1'
          exact not_int hv a1' (a := b + (1 - 2 * w1)) (b := B) (by push_cast; linarith)
        · rw [c0] at c0'
          rw [c1] at c1'
          have := two_v hv hv2 a0 a0' c0'
          have : b + (1 - 2 * w1) = B + (1 - 2 * w1') := by
            have : (b : ℚ) + (1 - 2 * w1) = B + (1 - 2 * w1') := by linarith
            exact_mod_cast this
          omega
    · exact (pass_node_false hv hp ha hb).elim

/-- The passage of a cell: the node has even coordinates and an even number, or it is the next one. -/
theorem median_pass {v : ℚ} (hv : 0 < v ∧ v < 1) (hv2 : v ≠ 1 / 2) (h : IsRun N G ⟨![0, 0], ![1, v]⟩ q p) {m : ℕ} (hm : m < G) :
    (∃ a b : ℤ, p m 0 = a ∧ p m 1 = b ∧ a % 2 = 0 ∧ b % 2 = 0 ∧ Pass 1 v (q m) (p m) (p (m + 1))) ∨
    (∃ a b : ℤ, p (m + 1) 0 = a ∧ p (m + 1) 1 = b ∧ a % 2 = 0 ∧ b % 2 = 0 ∧ Pass 1 v (q m) (p (m + 1)) (p m)) := by
  by_cases hpar : m % 2 = 0
  · obtain ⟨a, b, ha, hb, hab⟩ := h.median_even hv hv2 (m / 2) (by omega)
    rw [show 2 * (m / 2) = m by omega] at ha hb
    left
    refine ⟨a, b, ha, hb, hab.1, hab.2, ?_⟩
    rcases h.pass rfl hm with hp | hp
    · exact hp
    · exact (pass_node_false hv hp ha hb).elim
  · obtain ⟨a, b, ha, hb, hab⟩ := h.median_even hv hv2 ((m + 1) / 2) (by omega)
    rw [show 2 * ((m + 1) / 2) = m + 1 by omega] at ha hb
    right
    refine ⟨a, b, ha, hb, hab.1, hab.2, ?_⟩
    rcases h.pass rfl hm with hp | hp
    · exact (pass_node_false hv hp ha hb).elim
    · exact hp

theorem median_false {v : ℚ} (hN : 2 ≤ N) (hv : 0 < v ∧ v < 1) (hv2 : v ≠ 1 / 2) (h : IsRun N G ⟨![0, 0], ![1, v]⟩ q p) : False := by
  have hG := h.genus_eq
  have f0 := h.finish 0
  have f1 := h.finish 1
  simp only [Matrix.cons_val_zero, Matrix.cons_val_one, mul_one] at f0 f1
  have hNq : (2 : ℚ) ≤ N := by exact_mod_cast hN
  by_cases hpar : N % 2 = 0
  · obtain ⟨m, hm, hq⟩ := h.surj ![(N : ℤ) - 1, 0] (fun j => by fin_cases j <;> simp <;> omega)
    have q0 : q m 0 = N - 1 := by rw [hq]; rfl
    have q1 : q m 1 = 0 := by rw [hq]; rfl
    have hj : ∃ j, 0 < j ∧ j ≤ G ∧ p j 0 = N ∧ p j 1 = 0 := by
      rcases h.median_pass hv hv2 hm with ⟨a, b, ha, hb, hea, heb, w0, w1, a0, a1, e0, e1, _⟩ | ⟨a, b, ha, hb, hea, heb, w0, w1, a0, a1, e0, e1, _⟩
      · rw [ha] at e0
        rw [hb] at e1
        have e0 : a = q m 0 + w0 := by exact_mod_cast e0
        have e1 : b = q m 1 + w1 := by exact_mod_cast e1
        have e0' : a = N := by omega
        have e1' : b = 0 := by omega
        refine ⟨m, ?_, by omega, by rw [ha, e0']; simp, by rw [hb, e1']; simp⟩
        rcases Nat.eq_zero_or_pos m with rfl | hp
        · have := (h.start_zero rfl).1
          rw [ha] at this
          have : a = 0 := by exact_mod_cast this
          omega
        · exact hp
      · rw [ha] at e0
        rw [hb] at e1
        have e0 : a = q m 0 + w0 := by exact_mod_cast e0
        have e1 : b = q m 1 + w1 := by exact_mod_cast e1
        have e0' : a = N := by omega
        have e1' : b = 0 := by omega
        exact ⟨m + 1, by omega, by omega, by rw [ha, e0']; simp, by rw [hb, e1']; simp⟩
    obtain ⟨j, j1, j2, j3, j4⟩ := hj
    by_cases e : j = G
    · rw [← e, j4] at f1
      have : 0 < (N : ℚ) * v := by nlinarith [hv.1]
      linarith
    · refine h.not_between (i := j - 1) (by omega) ?_
      rw [show j - 1 + 1 = j by omega]
      intro k
      fin_cases k
      · right; simp [j3]
      · left; simp [j4]
  · obtain ⟨m, hm, hq⟩ := h.surj ![(N : ℤ) - 1, (N : ℤ) - 1] (fun j => by fin_cases j <;> simp <;> omega)
    have q0 : q m 0 = N - 1 := by rw [hq]; rfl
    have q1 : q m 1 = N - 1 := by rw [hq]; rfl
    have key : ∀ P Q : Point 2, Pass 1 v (q m) P Q → ∀ a b : ℤ, P 0 = a → P 1 = b → a % 2 = 0 → b % 2 = 0 →
        (Q 0 = N ∧ Q 1 = N - 1 + v) ∨ (Q 0 = N - 1 + v ∧ Q 1 = N) := by
      rintro P Q ⟨w0, w1, a0, a1, e0, e1, c⟩ a b ha hb hea heb
      rw [ha] at e0 c
      rw [hb] at e1 c
      have e0 : a = q m 0 + w0 := by exact_mod_cast e0
      have e1 : b = q m 1 + w1 := by exact_mod_cast e1
      have z0 : w0 = 0 := by omega
      have z1 : w1 = 0 := by omega
      rw [e0, e1, q0, q1, z0, z1] at c
      push_cast at c
      rcases c with ⟨c0, c1⟩ | ⟨c0, c1⟩
      · left; constructor <;> linarith
      · right; constructor <;> linarith
    have big : ∀ i, (p i 0 = N ∧ p i 1 = N - 1 + v) ∨ (p i 0 = N - 1 + v ∧ p i 1 = N) → ∀ j : Fin 2, p i j < 1 ∨ (N : ℚ) - 1 < p i j := by
      intro i hi j
      right
      rcases hi with ⟨c0, c1⟩ | ⟨c0, c1⟩ <;> fin_cases j <;> simp <;> linarith [hv.1]
    rcases h.median_pass hv hv2 hm with ⟨a, b, ha, hb, hea, heb, hp⟩ | ⟨a, b, ha, hb, hea, heb, hp⟩
    · have hQ := key _ _ hp a b ha hb hea heb
      by_cases e : m + 1 = G
      · rw [e, f0, f1] at hQ
        rcases hQ with ⟨_, c⟩ | ⟨c, _⟩
        · nlinarith [hv.2]
        · linarith [hv.2]
      · exact h.not_between (i := m) (by omega) (big _ hQ)
    · have hQ := key _ _ hp a b ha hb hea heb
      rcases Nat.eq_zero_or_pos m with rfl | hpos
      · obtain ⟨s0, s1⟩ := h.start_zero rfl
        rw [s0, s1] at hQ
        rcases hQ with ⟨c, _⟩ | ⟨_, c⟩ <;> linarith
      · refine h.not_between (i := m - 1) (by omega) ?_
        rw [show m - 1 + 1 = m by omega]
        exact big _ hQ

end IsRun

/-! ### Gates up to symmetry -/

theorem unit_act (a : BaseMap d) {g : Link (Point d)} (hu : ∀ j, (0 ≤ g.entrance j ∧ g.entrance j ≤ 1) ∧ (0 ≤ g.exit j ∧ g.exit j ≤ 1)) (j : Fin d) :
    (0 ≤ (Link.act a g).entrance j ∧ (Link.act a g).entrance j ≤ 1) ∧ (0 ≤ (Link.act a g).exit j ∧ (Link.act a g).exit j ≤ 1) := by
  have e := unit_applyX a (fun j => (hu j).1) j
  have x := unit_applyX a (fun j => (hu j).2) j
  rw [Link.act_def]
  by_cases hb : a.timeRev = true
  · rw [if_pos hb]; exact ⟨x, e⟩
  · rw [if_neg hb]; exact ⟨e, x⟩

theorem Generated.self_img {N : ℕ} {g : Link (Point d)} {path : Path (Point d) d} (h : Generated N [g] none g path) (a : BaseMap d) :
    Generated N [Link.act a g] none (Link.act a g) (Path.img a path) := by
  have hi := h.img a
  refine { hi with links_image := ?_ }
  intro l hl
  obtain ⟨b, m, hm, rfl⟩ := imageOf_iff_act.1 (hi.links_image l hl)
  rw [List.mem_singleton.1 hm]
  refine imageOf_iff_act.2 ⟨b * a⁻¹, _, List.mem_singleton.2 rfl, ?_⟩
  rw [Link.act_mul, ← Link.act_mul a⁻¹, inv_mul_cancel, Link.act_one]

/-- The reflection that moves the node to the origin. -/
def toOrigin (x : Point 2) (rev : Bool) : BaseMap 2 := ⟨fun j => (j, decide (x j = 1)), rev, fun _ _ h => h⟩

theorem toOrigin_applyX {x : Point 2} (hx : ∀ j, x j = 0 ∨ x j = 1) (rev : Bool) : (toOrigin x rev).applyX 1 x = ![0, 0] := by
  funext j
  unfold BaseMap.applyX toOrigin
  rcases hx j with e | e <;> fin_cases j <;> simp_all

/-- The swap of coordinates. -/
def swap2 : BaseMap 2 := ⟨fun j => (1 - j, false), false, by decide⟩

theorem swap2_applyX (u v : ℚ) : swap2.applyX 1 ![u, v] = ![v, u] := by
  funext j
  fin_cases j <;> simp [BaseMap.applyX, swap2]

/-- The three kinds of gates; gates on the diagonal need an odd side. -/
def Kind3 (N : ℕ) (g : Link (Point 2)) : Prop :=
  ∃ a : BaseMap 2, Link.act a g = ⟨![0, 0], ![1, 0]⟩ ∨ Link.act a g = ⟨![0, 0], ![1, 1 / 2]⟩ ∨ (Link.act a g = ⟨![0, 0], ![1, 1]⟩ ∧ N % 2 = 1)

theorem kind3_one {N : ℕ} (hN : 2 ≤ N) {g : Link (Point 2)} (hu : ∀ j, (0 ≤ g.entrance j ∧ g.entrance j ≤ 1) ∧ (0 ≤ g.exit j ∧ g.exit j ≤ 1))
    {path : Path (Point 2) 2} (h : Generated N [g] none g path) (a : BaseMap 2) {v : ℚ} (ha : Link.act a g = ⟨![0, 0], ![1, v]⟩) : Kind3 N g := by
  have hua := unit_act a hu
  have hga := h.self_img a
  rw [ha] at hga hua
  obtain ⟨G, q, p, hr⟩ := hga.isRun (by omega) hua
  have hv : 0 ≤ v ∧ v ≤ 1 := by simpa using (hua 1).2
  by_cases h0 : v = 0
  · exact ⟨a, Or.inl (by rw [ha, h0])⟩
  by_cases h1 : v = 1
  · subst h1
    exact ⟨a, Or.inr (Or.inr ⟨ha, hr.diag_odd hN⟩)⟩
  by_cases h2 : v = 1 / 2
  · exact ⟨a, Or.inr (Or.inl (by rw [ha, h2]))⟩
  exact (hr.median_false hN ⟨lt_of_le_of_ne hv.1 (Ne.symm h0), lt_of_le_of_ne hv.2 h1⟩ h2).elim

theorem kind3_node {N : ℕ} (hN : 2 ≤ N) {g : Link (Point 2)} (hu : ∀ j, (0 ≤ g.entrance j ∧ g.entrance j ≤ 1) ∧ (0 ≤ g.exit j ∧ g.exit j ≤ 1))
    {path : Path (Point 2) 2} (h : Generated N [g] none g path) (a : BaseMap 2) {x : Point 2} (ha : Link.act a g = ⟨![0, 0], x⟩) : Kind3 N g := by
  have hua := unit_act a hu
  have hga := h.self_img a
  obtain ⟨u, v, rfl⟩ : ∃ u v, x = ![u, v] := ⟨x 0, x 1, by funext j; fin_cases j <;> rfl⟩
  rw [ha] at hga hua
  obtain ⟨G, q, p, hr⟩ := hga.isRun (by omega) hua
  have hu' : 0 ≤ u ∧ u ≤ 1 := by simpa using (hua 0).2
  have hv' : 0 ≤ v ∧ v ≤ 1 := by simpa using (hua 1).2
  have hG := hr.three_le (by decide : (0 : Fin 2) ≠ 1) hN
  by_cases h0 : u = 1
  · subst h0
    exact kind3_one hN hu h a ha
  by_cases h1 : v = 1
  · subst h1
    refine kind3_one hN hu h (swap2 * a) (v := u) ?_
    rw [Link.act_mul, ha, Link.act_def]
    simp only [swap2, Bool.false_eq_true, if_false, Point.act]
    exact congrArg₂ Link.mk (swap2_applyX 0 0) (swap2_applyX u 1)
  exact (hr.same_edge_false (by omega) ⟨hu'.1, lt_of_le_of_ne hu'.2 h0⟩ ⟨hv'.1, lt_of_le_of_ne hv'.2 h1⟩).elim

/-- The gates of a plane path with one kind of gates. -/
theorem Generated.kind3 {N : ℕ} (hN : 2 ≤ N) {g : Link (Point 2)} (hu : ∀ j, (0 ≤ g.entrance j ∧ g.entrance j ≤ 1) ∧ (0 ≤ g.exit j ∧ g.exit j ≤ 1))
    {path : Path (Point 2) 2} (h : Generated N [g] none g path) : Kind3 N g := by
  obtain ⟨G, q, p, hr⟩ := h.isRun (by omega) hu
  obtain ⟨⟨_, j1, b1⟩, ⟨_, j2, b2⟩⟩ := hr.boundary (hr.three_le (by decide : (0 : Fin 2) ≠ 1) hN)
  by_cases he : ∀ j, g.entrance j = 0 ∨ g.entrance j = 1
  · refine kind3_node hN hu h (toOrigin g.entrance false) (x := (toOrigin g.entrance false).applyX 1 g.exit) ?_
    rw [Link.act_def]
    simp only [toOrigin, Bool.false_eq_true, if_false, Point.act]
    exact congrArg₂ Link.mk (toOrigin_applyX he false) rfl
  by_cases hx : ∀ j, g.exit j = 0 ∨ g.exit j = 1
  · refine kind3_node hN hu h (toOrigin g.exit true) (x := (toOrigin g.exit true).applyX 1 g.entrance) ?_
    rw [Link.act_def]
    simp only [toOrigin, if_true, Point.act]
    exact congrArg₂ Link.mk (toOrigin_applyX hx true) rfl
  exfalso
  rw [not_forall] at he hx
  obtain ⟨k1, c1⟩ := he
  obtain ⟨k2, c2⟩ := hx
  have n1 : j1 ≠ k1 := by rintro rfl; exact c1 b1
  have n2 : j2 ≠ k2 := by rintro rfl; exact c2 b2
  have l1 : OnLine j1 k1 g.entrance := ⟨(IsI.iff_unit (hu j1).1).2 b1, fun hc => c1 ((IsI.iff_unit (hu k1).1).1 hc)⟩
  have l2 : OnLine j2 k2 g.exit := ⟨(IsI.iff_unit (hu j2).2).2 b2, fun hc => c2 ((IsI.iff_unit (hu k2).2).1 hc)⟩
  by_cases e : j2 = j1
  · have : k2 = k1 := by omega
    rw [e, this] at l2
    exact hr.parallel_false hN n1 l1 l2
  · have e1 : j2 = k1 := by omega
    have e2 : k2 = j1 := by omega
    rw [e1, e2] at l2
    exact hr.perpendicular_false hN n1 l1 l2

/-- The gates of a curve with one pattern. -/
theorem FCurve.IsCandidate.gate {N : ℕ} {mc : Option ℤ} {c : FCurve d} (h : c.IsCandidate N 1 mc) :
    ∃ (g : Link (Point d)) (path : Path (Point d) d), c.HasGates [g] ∧ Generated N [g] none g path ∧
      ∀ j, (0 ≤ g.entrance j ∧ g.entrance j ≤ 1) ∧ (0 ≤ g.exit j ∧ g.exit j ≤ 1) := by
  obtain ⟨Q, hQ1, hQ2, _⟩ := h.full.exists_rat_gates
  have h0 : 0 < c.mult := by rw [h.mult_eq]; omega
  obtain ⟨path, hp, _⟩ := h.full.hasPaths h.checked h.fills hQ1 h0
  rw [h.mult_eq, h.div_eq] at hp
  refine ⟨gateLink Q 0, path, ⟨by rw [h.mult_eq]; rfl, ?_⟩, hp, fun j => ⟨hQ2 false 0 h0 j, hQ2 true 0 h0 j⟩⟩
  intro p l hl
  cases p with
  | zero =>
    cases Option.some.inj hl
    exact hQ1 0 h0
  | succ p => simp at hl

end Peano
