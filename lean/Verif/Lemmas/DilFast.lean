import Verif.Lemmas.ZooDil
import Verif.Lemmas.DilRow

set_option autoImplicit false

/-
A faster check of the certificates of `DilCheck` for plane curves: everything is coded by natural numbers.
-/
namespace Peano
namespace DilFast
open DilCert

/-- A state with differences `X0 - Y0`, `X1 - Y1`, `T`. -/
structure Item where
  X0 : ℕ
  Y0 : ℕ
  X1 : ℕ
  Y1 : ℕ
  T : ℕ

/-- The states with the same specs, under the number that codes the specs. -/
structure Bin where
  k : ℕ
  l : List Item

noncomputable section

def swapf (c : ℕ) : ℕ := cond (Nat.beq (Nat.land c 6) 2) (Nat.xor c 6) (cond (Nat.beq (Nat.land c 6) 4) (Nat.xor c 6) c)
def mulC (a b : ℕ) : ℕ := Nat.xor a (cond (Nat.ble 8 a) (swapf b) b)
/-- The inverse of the isometry. -/
def invC (a : ℕ) : ℕ := (fun a => cond (Nat.ble 8 a) (swapf a) a) (Nat.sub a (Nat.land a 1))
def dist (x y : ℕ) : ℕ := cond (Nat.ble x y) (Nat.sub y x) (Nat.sub x y)
def sqr (x : ℕ) : ℕ := Nat.mul x x
def mx (x y : ℕ) : ℕ := cond (Nat.ble x y) y x
def keyOf (tr pa cb pb : ℕ) : ℕ := Nat.add (Nat.mul 2 (Nat.add (Nat.mul 16 (Nat.add (Nat.mul 8 pa) pb)) cb)) tr

/-- Sizes for the metric. -/
def size1 (k : DilCert.Kind) : ℕ → ℕ → ℕ := @DilCert.Kind.rec (fun _ => ℕ → ℕ → ℕ) (fun u v => sqr (Nat.succ (mx u v))) (fun u v => sqr (Nat.succ (Nat.succ (Nat.add u v))))
  (fun u v => Nat.add (sqr (Nat.succ u)) (sqr (Nat.succ v))) (fun _ _ _ _ => 0) k
def size2 (k : DilCert.Kind) : ℕ → ℕ → ℕ → ℕ → ℕ → ℕ → ℕ := @DilCert.Kind.rec (fun _ => ℕ → ℕ → ℕ → ℕ → ℕ → ℕ → ℕ)
  (fun a b _ _ r s => sqr (Nat.add (Nat.succ (mx a b)) (mx r s))) (fun a b _ _ r s => sqr (Nat.add (Nat.succ (Nat.succ (Nat.add a b))) (Nat.add r s)))
  (fun _ _ p q r s => Nat.add (Nat.add (sqr p) (sqr q)) (Nat.mul 2 (Nat.add r s))) (fun _ _ _ _ _ _ _ _ => 0) k
def size3 (k : DilCert.Kind) : ℕ → ℕ → ℕ := @DilCert.Kind.rec (fun _ => ℕ → ℕ → ℕ) (fun u v => sqr (Nat.succ (mx u v))) (fun u v => sqr (Nat.succ (Nat.succ (Nat.add u v))))
  (fun u v => Nat.add (sqr u) (sqr v)) (fun _ _ _ _ => 0) k

/-- The state `X0, …, T` is bounded by one of the states of the list. -/
def dom (s2 : ℕ → ℕ → ℕ → ℕ → ℕ → ℕ → ℕ) (s3 : ℕ → ℕ → ℕ) (vn vd X0 Y0 X1 Y1 T : ℕ) (l : List Item) : Bool :=
  @List.rec Item (fun _ => Bool) false (fun e _ ih => @Item.rec (fun _ => Bool) (fun E0 F0 E1 F1 U =>
    cond (cond (Nat.ble U T)
      ((fun a b => Nat.ble (Nat.mul (s2 a b (dist X0 Y0) (dist X1 Y1) (dist (Nat.add X0 F0) (Nat.add Y0 E0)) (dist (Nat.add X1 F1) (Nat.add Y1 E1))) vd)
        (Nat.add (Nat.mul (s3 a b) vd) (Nat.mul vn (Nat.sub T U)))) (dist E0 F0) (dist E1 F1)) false) true ih) e) l

/-- The bin with the number. -/
def find (f : List Item → Bool) (key : ℕ) (tab : List Bin) : Bool :=
  @List.rec Bin (fun _ => Bool) false (fun b _ ih => @Bin.rec (fun _ => Bool) (fun k l => cond (Nat.beq k key) (f l) ih) b) tab

/-- The vector after the isometry. -/
def vecC (g : ℕ) (k : ℕ → ℕ → ℕ → ℕ → Bool) (X0 Y0 X1 Y1 : ℕ) : Bool :=
  (fun h : ℕ → ℕ → ℕ → ℕ → Bool => cond (Nat.ble 8 g) (h X1 Y1 X0 Y0) (h X0 Y0 X1 Y1)) fun X0 Y0 X1 Y1 =>
    (fun h : ℕ → ℕ → Bool => cond (Nat.beq (Nat.land g 2) 0) (h X0 Y0) (h Y0 X0)) fun X0 Y0 =>
      cond (Nat.beq (Nat.land g 4) 0) (k X0 Y0 X1 Y1) (k X0 Y0 Y1 X1)

def resF (k : DilCert.Kind) (vn vd : ℕ) (tab : List Bin) (ca pa cb pb X0 Y0 X1 Y1 T : ℕ) : Bool :=
  cond (Nat.ble (Nat.mul (size1 k (dist X0 Y0) (dist X1 Y1)) vd) (Nat.mul vn (Nat.pred T))) true
    ((fun g => vecC g (fun X0 Y0 X1 Y1 => find (dom (size2 k) (size3 k) vn vd X0 Y0 X1 Y1 T) (keyOf (Nat.land ca 1) pa (mulC g cb) pb) tab) X0 Y0 X1 Y1) (invC ca))

def allI {α : Type} (f : α → ℕ → Bool) (l : List α) : ℕ → Bool :=
  @List.rec α (fun _ => ℕ → Bool) (fun _ => true) (fun a _ ih i => cond (f a i) (ih (Nat.succ i)) false) l

def flipC (N b x : ℕ) : ℕ := cond (Nat.beq b 0) x (Nat.sub (Nat.pred N) x)
def Row.act (N g : ℕ) (r : Row) : Row := @Row.rec (fun _ => Row) (fun x y c p =>
  (fun h : ℕ → ℕ → Row => cond (Nat.ble 8 g) (h y x) (h x y)) fun x y => Row.mk (flipC N (Nat.land g 2) x) (flipC N (Nat.land g 4) y) (mulC g c) p) r
/-- Fractions of a spec. -/
def rowsF (N : ℕ) (frow : List (List Row)) (g p : ℕ) : List Row :=
  (fun l : List Row => (cond (Nat.beq (Nat.land g 1) 0) l l.reverse).map (Row.act N g)) (frow.getD p [])

/-- All pairs of fractions. -/
def pairsF (k : DilCert.Kind) (N G vn vd : ℕ) (tab : List Bin) (ra rb : List Row) (X0 Y0 X1 Y1 T : ℕ) : Bool :=
  allI (fun a i => @Row.rec (fun _ => Bool) (fun x y ca pa => (fun Y0 Y1 => allI (fun b j => @Row.rec (fun _ => Bool) (fun x y cb pb =>
    resF k vn vd tab ca pa cb pb (Nat.add (Nat.mul N X0) x) Y0 (Nat.add (Nat.mul N X1) y) Y1 (Nat.sub (Nat.add (Nat.mul G T) j) i)) b) rb 0)
      (Nat.add (Nat.mul N Y0) x) (Nat.add (Nat.mul N Y1) y)) a) ra 0

def closedF (k : DilCert.Kind) (N G vn vd : ℕ) (frow : List (List Row)) (tab todo : List Bin) : Bool :=
  @List.rec Bin (fun _ => Bool) true (fun b _ ih => cond (@Bin.rec (fun _ => Bool) (fun key l =>
    (fun ra rb => @List.rec Item (fun _ => Bool) true (fun e _ ih => cond (@Item.rec (fun _ => Bool) (pairsF k N G vn vd tab ra rb) e) ih false) l)
      (rowsF N frow (Nat.mod key 2) (Nat.div key 256)) (rowsF N frow (Nat.mod (Nat.div key 2) 16) (Nat.mod (Nat.div key 32) 8))) b) ih false) todo

/-- Pairs of fractions of a pattern. -/
def autosF (k : DilCert.Kind) (vn vd : ℕ) (tab : List Bin) (frow : List (List Row)) : Bool :=
  frow.all fun l => @List.rec Row (fun _ => Bool) true (fun a t ih => cond (@Row.rec (fun _ => Bool) (fun Y0 Y1 ca pa => allI (fun b j => @Row.rec (fun _ => Bool) (fun X0 X1 cb pb =>
    resF k vn vd tab ca pa cb pb X0 Y0 X1 Y1 (Nat.succ j)) b) t 0) a) ih false) l

end

/-! ### soundness -/

theorem cond_or {a b : Bool} : cond a true b = true ↔ a = true ∨ b = true := by cases a <;> simp
theorem cond_and {a b : Bool} : cond a b false = true ↔ a = true ∧ b = true := by cases a <;> simp

theorem decB_mul : ∀ a < 16, ∀ b < 16, mulC a b < 16 ∧ decB (mulC a b) = decB a * decB b := by decide +kernel
theorem decB_inv : ∀ a < 16, invC a < 16 ∧ decB (invC a) = (decB a).cubeMap⁻¹ := by decide +kernel
theorem decB_rev : ∀ a < 16, Nat.land a 1 < 2 ∧ (decB a).timeRev = decide (Nat.land a 1 = 1) ∧ (Nat.beq (Nat.land a 1) 0 = !(decB a).timeRev) := by decide +kernel

theorem dist_eq (x y : ℕ) : ((x : ℤ) - y).natAbs = dist x y := by
  unfold dist
  cases e : Nat.ble x y <;> simp only [cond_true, cond_false, Nat.sub_eq]
  · rw [← Bool.not_eq_true, Nat.ble_eq] at e
    omega
  · rw [Nat.ble_eq] at e
    omega

theorem mx_eq (x y : ℕ) : mx x y = max x y := by
  unfold mx
  cases e : Nat.ble x y <;> simp only [cond_true, cond_false]
  · rw [← Bool.not_eq_true, Nat.ble_eq] at e
    omega
  · rw [Nat.ble_eq] at e
    omega

/-- The metrics whose lengths are rational (in the plane). -/
def Simple (k : DilCert.Kind) : Prop := k = .linf ∨ k = .l1 ∨ k = .plane

theorem okB_of {k : DilCert.Kind} (hk : Simple k) {vn vd X0 Y0 X1 Y1 T : ℕ}
    (h : Nat.ble (Nat.mul (size1 k (dist X0 Y0) (dist X1 Y1)) vd) (Nat.mul vn (Nat.pred T)) = true) :
    okB k 2 vn vd [(X0 : ℤ) - Y0, (X1 : ℤ) - Y1] T = true := by
  rw [Nat.ble_eq] at h
  rcases hk with rfl | rfl | rfl <;> simp only [size1, sqr, mx_eq, Nat.mul_eq, Nat.add_eq, Nat.pred_eq_sub_one, Nat.succ_eq_add_one] at h <;>
    simp only [okB, Nat.ble_eq, max1, sum1, sq1, dist_eq, Nat.pow_eq] <;> refine le_trans (le_of_eq ?_) h
  · rw [Nat.max_zero, Nat.add_max_add_right]
    ring
  · ring
  · ring

theorem domB_of {k : DilCert.Kind} (hk : Simple k) {vn vd X0 Y0 X1 Y1 T E0 F0 E1 F1 U al : ℕ} (hU : U ≤ T)
    (h : Nat.ble (Nat.mul (size2 k (dist E0 F0) (dist E1 F1) (dist X0 Y0) (dist X1 Y1) (dist (Nat.add X0 F0) (Nat.add Y0 E0)) (dist (Nat.add X1 F1) (Nat.add Y1 E1))) vd)
        (Nat.add (Nat.mul (size3 k (dist E0 F0) (dist E1 F1)) vd) (Nat.mul vn (Nat.sub T U))) = true) :
    domB k 2 vn vd [(E0 : ℤ) - F0, (E1 : ℤ) - F1] U al [(X0 : ℤ) - Y0, (X1 : ℤ) - Y1] T = true := by
  rw [Nat.ble_eq] at h
  have e : ∀ x y e f : ℕ, ((x : ℤ) - y - (e - f)).natAbs = dist (Nat.add x f) (Nat.add y e) := by
    intro x y e f
    rw [← dist_eq]
    simp only [Nat.add_eq]
    congr 1
    push_cast
    ring
  unfold domB
  rw [Bool.and_eq_true, Nat.ble_eq]
  refine ⟨hU, ?_⟩
  rcases hk with rfl | rfl | rfl <;> simp only [size2, size3, sqr, mx_eq] at h <;>
    simp only [Nat.ble_eq, max1, sum1, sq0, max0, sum0, sub0, e, dist_eq, Nat.pow_eq] <;> simp only [Nat.mul_eq, Nat.add_eq, Nat.sub_eq, Nat.succ_eq_add_one] at h ⊢ <;>
    refine le_trans (le_of_eq ?_) (h.trans (le_of_eq ?_))
  · rw [Nat.max_zero, Nat.max_zero, Nat.add_max_add_right]
    ring
  · rw [Nat.max_zero, Nat.add_max_add_right]
    ring
  · ring
  · ring
  · ring
  · ring

theorem vecC_of : ∀ {g : ℕ}, g < 16 → ∀ {k : ℕ → ℕ → ℕ → ℕ → Bool} {X0 Y0 X1 Y1 : ℕ}, vecC g k X0 Y0 X1 Y1 = true →
    ∃ A0 B0 A1 B1 : ℕ, k A0 B0 A1 B1 = true ∧ List.ofFn ((decB g).applyVec (vec [(X0 : ℤ) - Y0, (X1 : ℤ) - Y1])) = [(A0 : ℤ) - B0, (A1 : ℤ) - B1] := by
  intro g hg k X0 Y0 X1 Y1 h
  have e : ∀ f : Fin 2 → ℤ, List.ofFn f = [f 0, f 1] := fun f => by simp [List.ofFn_succ]
  rw [e]
  have e0 : vec [(X0 : ℤ) - Y0, (X1 : ℤ) - Y1] (0 : Fin 2) = X0 - Y0 := rfl
  have e1 : vec [(X0 : ℤ) - Y0, (X1 : ℤ) - Y1] (1 : Fin 2) = X1 - Y1 := rfl
  have key : ∀ {a b : ℤ} {A0 B0 A1 B1 : ℕ}, k A0 B0 A1 B1 = true → a = (A0 : ℤ) - B0 → b = (A1 : ℤ) - B1 →
      ∃ A0 B0 A1 B1 : ℕ, k A0 B0 A1 B1 = true ∧ [a, b] = [(A0 : ℤ) - B0, (A1 : ℤ) - B1] := by
    rintro a b A0 B0 A1 B1 h rfl rfl
    exact ⟨_, _, _, _, h, rfl⟩
  unfold vecC at h
  interval_cases g <;> exact key h (by simp [BaseMap.applyVec, decB, Nat.testBit, e0, e1]) (by simp [BaseMap.applyVec, decB, Nat.testBit, e0, e1])

/-- The state. -/
def entOf (k : ℕ) (e : Item) : Ent 2 :=
  ⟨decide (k % 2 = 1), k / 256, ⟨decB (k / 2 % 16), k / 32 % 8⟩, key (decide (k % 2 = 1)) (k / 256) ⟨decB (k / 2 % 16), k / 32 % 8⟩, [(e.X0 : ℤ) - e.Y0, (e.X1 : ℤ) - e.Y1], e.T, 0⟩

/-- The states of the table. -/
def coreOf (tab : List Bin) : List (Ent 2) := tab.flatMap fun b => b.l.map (entOf b.k)

theorem dom_of {s2 : ℕ → ℕ → ℕ → ℕ → ℕ → ℕ → ℕ} {s3 : ℕ → ℕ → ℕ} {vn vd X0 Y0 X1 Y1 T : ℕ} {l : List Item} (h : dom s2 s3 vn vd X0 Y0 X1 Y1 T l = true) :
    ∃ e ∈ l, e.T ≤ T ∧ Nat.ble (Nat.mul (s2 (dist e.X0 e.Y0) (dist e.X1 e.Y1) (dist X0 Y0) (dist X1 Y1) (dist (Nat.add X0 e.Y0) (Nat.add Y0 e.X0))
      (dist (Nat.add X1 e.Y1) (Nat.add Y1 e.X1))) vd) (Nat.add (Nat.mul (s3 (dist e.X0 e.Y0) (dist e.X1 e.Y1)) vd) (Nat.mul vn (Nat.sub T e.T))) = true := by
  induction l with
  | nil => cases h
  | cons e l ih =>
    obtain ⟨E0, F0, E1, F1, U⟩ := e
    change cond (cond (Nat.ble U T) _ false) true (dom s2 s3 vn vd X0 Y0 X1 Y1 T l) = true at h
    rw [cond_or, cond_and, Nat.ble_eq] at h
    rcases h with h | h
    · exact ⟨_, List.mem_cons_self, h.1, h.2⟩
    · obtain ⟨e, he, h⟩ := ih h
      exact ⟨e, List.mem_cons_of_mem _ he, h⟩

theorem find_of {f : List Item → Bool} {key : ℕ} {tab : List Bin} (h : find f key tab = true) : ∃ b ∈ tab, b.k = key ∧ f b.l = true := by
  induction tab with
  | nil => cases h
  | cons b tab ih =>
    obtain ⟨k, l⟩ := b
    change cond (Nat.beq k key) (f l) (find f key tab) = true at h
    cases e : Nat.beq k key <;> rw [e] at h
    · obtain ⟨b, hb, h⟩ := ih h
      exact ⟨b, List.mem_cons_of_mem _ hb, h⟩
    · exact ⟨_, List.mem_cons_self, Nat.eq_of_beq_eq_true e, h⟩

theorem resF_of {k : DilCert.Kind} (hk : Simple k) {vn vd : ℕ} {tab : List Bin} {ca pa cb pb X0 Y0 X1 Y1 T : ℕ} (hca : ca < 16) (hcb : cb < 16) (hpb : pb < 8)
    (h : resF k vn vd tab ca pa cb pb X0 Y0 X1 Y1 T = true) :
    resB k vn vd (coreOf tab) ⟨decB ca, pa⟩ ⟨decB cb, pb⟩ [(X0 : ℤ) - Y0, (X1 : ℤ) - Y1] T = true := by
  unfold resF at h
  rw [cond_or] at h
  unfold resB
  rw [Bool.or_eq_true]
  rcases h with h | h
  · exact .inl (okB_of hk h)
  · right
    obtain ⟨hg, eg⟩ := decB_inv ca hca
    obtain ⟨A0, B0, A1, B1, h1, h2⟩ := vecC_of hg h
    obtain ⟨b, hb, hk', h3⟩ := find_of h1
    obtain ⟨e, he, h4, h5⟩ := dom_of h3
    obtain ⟨hm, em⟩ := decB_mul _ hg cb hcb
    obtain ⟨r1, r2, _⟩ := decB_rev ca hca
    unfold keyOf at hk'
    simp only [Nat.add_eq, Nat.mul_eq] at hk'
    have k1 : b.k % 2 = Nat.land ca 1 := by omega
    have k2 : b.k / 256 = pa := by omega
    have k3 : b.k / 2 % 16 = mulC (invC ca) cb := by omega
    have k4 : b.k / 32 % 8 = pb := by omega
    simp only
    rw [← eg, h2]
    have hb' : Spec.rmulBaseMap (decB (invC ca)) ⟨decB cb, pb⟩ = ⟨decB (b.k / 2 % 16), b.k / 32 % 8⟩ := by
      rw [k3, k4, em]
      rfl
    rw [hb', List.any_eq_true]
    refine ⟨entOf b.k e, List.mem_flatMap.2 ⟨b, hb, List.mem_map_of_mem he⟩, ?_⟩
    have hr : (decB ca).timeRev = decide (b.k % 2 = 1) := by rw [r2, k1]
    simp only [entOf, hr, k2, Bool.and_eq_true, Nat.beq_eq, decide_eq_true_eq, and_true, true_and]
    exact domB_of hk h4 h5

theorem allI_of {α : Type} {f : α → ℕ → Bool} {l : List α} : ∀ {i : ℕ}, allI f l i = true → ∀ e ∈ l.zipIdx i, f e.1 e.2 = true := by
  induction l with
  | nil => intro i _ e he; simp at he
  | cons a l ih =>
    intro i h e he
    change cond (f a i) (allI f l (i + 1)) false = true at h
    rw [cond_and] at h
    rw [List.zipIdx_cons, List.mem_cons] at he
    rcases he with rfl | he
    · exact h.1
    · exact ih h.2 e he

/-- Numbers are in range. -/
def OkRows (N : ℕ) (frow : List (List Row)) : Prop := ∀ l ∈ frow, ∀ r ∈ l, r.x < N ∧ r.y < N ∧ r.c < 16 ∧ r.p < 8

instance (N : ℕ) (frow : List (List Row)) : Decidable (OkRows N frow) := by unfold OkRows; infer_instance

def prowOf (frow : List (List Row)) : List (List (List ℤ × Spec 2)) := frow.map fun l => l.map Row.dec

theorem flipC_bit : ∀ g < 16, (Nat.beq (Nat.land g 2) 0 = !g.testBit 1) ∧ (Nat.beq (Nat.land g 4) 0 = !g.testBit 2) ∧ (Nat.ble 8 g = g.testBit 3) := by decide +kernel

theorem flipC_of {N x b : ℕ} {t : Bool} (h : Nat.beq b 0 = !t) (hx : x < N) : ((flipC N b x : ℕ) : ℤ) = (if t = true then (N : ℤ) - x - 1 else x) ∧ flipC N b x < N := by
  unfold flipC
  rw [h]
  cases t
  · simp [hx]
  · simp only [Bool.not_true, cond_false, if_true, Nat.sub_eq, Nat.pred_eq_sub_one]
    constructor <;> omega

theorem act_dec {N g : ℕ} {r : Row} (hg : g < 16) (hr : r.x < N ∧ r.y < N ∧ r.c < 16 ∧ r.p < 8) :
    (List.ofFn ((decB g).applyCube N (vec r.dec.1)), Spec.rmulBaseMap (decB g) r.dec.2) = (Row.act N g r).dec ∧
      (Row.act N g r).c < 16 ∧ (Row.act N g r).p < 8 := by
  obtain ⟨x, y, c, p⟩ := r
  obtain ⟨hx, hy, hc, hp⟩ := hr
  obtain ⟨b1, b2, b3⟩ := flipC_bit g hg
  obtain ⟨m1, m2⟩ := decB_mul g hg c hc
  have e : ∀ f : Fin 2 → ℤ, List.ofFn f = [f 0, f 1] := fun f => by simp [List.ofFn_succ]
  have hact : Row.act N g ⟨x, y, c, p⟩ = cond (Nat.ble 8 g) ⟨flipC N (Nat.land g 2) y, flipC N (Nat.land g 4) x, mulC g c, p⟩
    ⟨flipC N (Nat.land g 2) x, flipC N (Nat.land g 4) y, mulC g c, p⟩ := rfl
  rw [hact, b3, e]
  unfold Row.dec Spec.rmulBaseMap
  simp only
  have e0 : vec [(x : ℤ), (y : ℤ)] (0 : Fin 2) = x := rfl
  have e1 : vec [(x : ℤ), (y : ℤ)] (1 : Fin 2) = y := rfl
  cases hb : g.testBit 3
  · rw [cond_false]
    refine ⟨?_, m1, hp⟩
    simp only [Prod.mk.injEq, List.cons.injEq, and_true, Spec.mk.injEq]
    refine ⟨⟨?_, ?_⟩, m2.symm⟩
    · rw [(flipC_of b1 hx).1]
      simp [BaseMap.applyCube, decB, hb, e0]
    · rw [(flipC_of b2 hy).1]
      simp [BaseMap.applyCube, decB, hb, e1]
  · rw [cond_true]
    refine ⟨?_, m1, hp⟩
    simp only [Prod.mk.injEq, List.cons.injEq, and_true, Spec.mk.injEq]
    refine ⟨⟨?_, ?_⟩, m2.symm⟩
    · rw [(flipC_of b1 hy).1]
      simp [BaseMap.applyCube, decB, hb, e1]
    · rw [(flipC_of b2 hx).1]
      simp [BaseMap.applyCube, decB, hb, e0]

theorem rowsF_of {N : ℕ} {frow : List (List Row)} (hrow : OkRows N frow) {g : ℕ} (hg : g < 16) (p : ℕ) :
    rows N (prowOf frow) ⟨decB g, p⟩ = (rowsF N frow g p).map Row.dec ∧ ∀ r ∈ rowsF N frow g p, r.c < 16 ∧ r.p < 8 := by
  have hl : ∀ r ∈ frow.getD p [], r.x < N ∧ r.y < N ∧ r.c < 16 ∧ r.p < 8 := by
    intro r hr
    rw [List.getD_eq_getElem?_getD] at hr
    cases e : frow[p]? with
    | none => rw [e] at hr; simp at hr
    | some l => rw [e] at hr; exact hrow l (List.mem_of_getElem? e) r hr
  have hget : (prowOf frow).getD p [] = (frow.getD p []).map Row.dec := by
    unfold prowOf
    rw [List.getD_eq_getElem?_getD, List.getD_eq_getElem?_getD, List.getElem?_map]
    cases frow[p]? <;> simp
  have hrows : rowsF N frow g p = (cond (!(decB g).timeRev) (frow.getD p []) (frow.getD p []).reverse).map (Row.act N g) := by
    rw [← (decB_rev g hg).2.2]
    rfl
  unfold rows
  simp only
  rw [hget, hrows]
  cases (decB g).timeRev
  · simp only [Bool.not_false, cond_true, Bool.false_eq_true, if_false, List.map_map]
    refine ⟨List.map_congr_left fun r hr => (act_dec hg (hl r hr)).1, ?_⟩
    intro r hr
    obtain ⟨r', hr', rfl⟩ := List.mem_map.1 hr
    exact (act_dec hg (hl r' hr')).2
  · simp only [Bool.not_true, cond_false, if_true, ← List.map_reverse, List.map_map]
    refine ⟨List.map_congr_left fun r hr => (act_dec hg (hl r (List.mem_reverse.1 hr))).1, ?_⟩
    intro r hr
    obtain ⟨r', hr', rfl⟩ := List.mem_map.1 hr
    exact (act_dec hg (hl r' (List.mem_reverse.1 hr'))).2

theorem pairsF_of {k : DilCert.Kind} (hk : Simple k) {N G vn vd : ℕ} {tab : List Bin} {ra rb : List Row} {X0 Y0 X1 Y1 T : ℕ}
    (ha : ∀ r ∈ ra, r.c < 16 ∧ r.p < 8) (hb : ∀ r ∈ rb, r.c < 16 ∧ r.p < 8) (h : pairsF k N G vn vd tab ra rb X0 Y0 X1 Y1 T = true) :
    ((ra.map Row.dec).zipIdx.all fun ei => (rb.map Row.dec).zipIdx.all fun ej =>
      resB k vn vd (coreOf tab) ei.1.2 ej.1.2 (childD N [(X0 : ℤ) - Y0, (X1 : ℤ) - Y1] ei.1.1 ej.1.1) (G * T + ej.2 - ei.2)) = true := by
  rw [List.all_eq_true]
  rintro ⟨ei, i⟩ hei
  rw [List.all_eq_true]
  rintro ⟨ej, j⟩ hej
  rw [List.zipIdx_map, List.mem_map] at hei hej
  obtain ⟨⟨a, i'⟩, h1, e1⟩ := hei
  obtain ⟨⟨b, j'⟩, h2, e2⟩ := hej
  simp only [Prod.map_apply, id_eq, Prod.mk.injEq] at e1 e2
  obtain ⟨rfl, rfl⟩ := e1
  obtain ⟨rfl, rfl⟩ := e2
  have h3 := allI_of h _ h1
  obtain ⟨hc1, hp1⟩ := ha a (by have := List.mem_zipIdx h1; rw [this.2.2]; exact List.getElem_mem _)
  obtain ⟨hc2, hp2⟩ := hb b (by have := List.mem_zipIdx h2; rw [this.2.2]; exact List.getElem_mem _)
  obtain ⟨x, y, ca, pa⟩ := a
  obtain ⟨x', y', cb, pb⟩ := b
  have h4 := allI_of h3 _ h2
  have h5 := resF_of hk hc1 hc2 hp2 h4
  simp only [Row.dec, childD]
  convert h5 using 2
  · simp only [Nat.add_eq, Nat.mul_eq, List.cons.injEq, and_true]
    push_cast
    constructor <;> ring
  · rfl

theorem closedF_of {k : DilCert.Kind} (hk : Simple k) {N G vn vd : ℕ} {frow : List (List Row)} (hrow : OkRows N frow) {tab todo : List Bin}
    (h : closedF k N G vn vd frow tab todo = true) : closedB k N G vn vd (prowOf frow) (coreOf tab) (coreOf todo) = true := by
  induction todo with
  | nil => rfl
  | cons b todo ih =>
    obtain ⟨key, l⟩ := b
    change cond (@List.rec Item (fun _ => Bool) true (fun e _ ih => cond (@Item.rec (fun _ => Bool) (pairsF k N G vn vd tab (rowsF N frow (key % 2) (key / 256))
      (rowsF N frow (key / 2 % 16) (key / 32 % 8))) e) ih false) l) (closedF k N G vn vd frow tab todo) false = true at h
    rw [cond_and] at h
    have ih := ih h.2
    replace h := h.1
    have hcore : coreOf (⟨key, l⟩ :: todo) = l.map (entOf key) ++ coreOf todo := rfl
    rw [hcore, closedB, List.all_append, Bool.and_eq_true]
    refine ⟨?_, ih⟩
    clear ih hcore
    induction l with
    | nil => rfl
    | cons e l ih =>
      obtain ⟨X0, Y0, X1, Y1, T⟩ := e
      change cond (pairsF k N G vn vd tab _ _ X0 Y0 X1 Y1 T) _ false = true at h
      rw [cond_and] at h
      rw [List.map_cons, List.all_cons, Bool.and_eq_true]
      refine ⟨?_, ih h.2⟩
      have h2 : key % 2 < 16 := by omega
      obtain ⟨ea, ha⟩ := rowsF_of hrow h2 (key / 256)
      obtain ⟨eb, hb⟩ := rowsF_of hrow (show key / 2 % 16 < 16 by omega) (key / 32 % 8)
      have hrev : revSpec 2 (decide (key % 2 = 1)) (key / 256) = ⟨decB (key % 2), key / 256⟩ := by
        have : key % 2 = 0 ∨ key % 2 = 1 := by omega
        unfold revSpec
        simp only [Spec.mk.injEq, and_true]
        rcases this with e | e <;> rw [e] <;> decide +kernel
      simp only [entOf]
      rw [hrev, ea, eb]
      exact pairsF_of hk ha hb h.1

theorem autosF_of {k : DilCert.Kind} (hk : Simple k) {N vn vd : ℕ} {frow : List (List Row)} (hrow : OkRows N frow) {tab : List Bin}
    (h : autosF k vn vd tab frow = true) : autosB k N vn vd (prowOf frow) (coreOf tab) = true := by
  unfold autosF at h
  unfold autosB prowOf
  rw [List.all_eq_true] at h
  rw [List.all_map, List.all_eq_true]
  intro l hl
  have h := h l hl
  have hl := hrow l hl
  simp only [Function.comp]
  rw [List.all_eq_true]
  rintro ⟨ei, i⟩ hei
  rw [List.all_eq_true]
  rintro ⟨ej, j⟩ hej
  rw [List.mem_zipIdx_iff_getElem?] at hei hej
  simp only [List.getElem?_map, Option.map_eq_some_iff] at hei hej
  obtain ⟨a, h1, rfl⟩ := hei
  obtain ⟨b, h2, rfl⟩ := hej
  rw [Bool.or_eq_true, Nat.ble_eq]
  by_cases hij : j ≤ i
  · exact .inl hij
  · right
    have key : ∀ {l : List Row} {i : ℕ} {a : Row}, @List.rec Row (fun _ => Bool) true (fun a t ih => cond (@Row.rec (fun _ => Bool) (fun Y0 Y1 ca pa => allI (fun b j => @Row.rec (fun _ => Bool) (fun X0 X1 cb pb =>
        resF k vn vd tab ca pa cb pb X0 Y0 X1 Y1 (Nat.succ j)) b) t 0) a) ih false) l = true → l[i]? = some a →
        allI (fun b j => resF k vn vd tab a.c a.p b.c b.p b.x a.x b.y a.y (Nat.succ j)) (l.drop (i + 1)) 0 = true := by
      intro l
      induction l with
      | nil => intro i a _ h; simp at h
      | cons c l ih =>
        intro i a h hi
        change cond (_) _ false = true at h
        rw [cond_and] at h
        cases i with
        | zero =>
          obtain rfl : c = a := by simpa using hi
          exact h.1
        | succ i =>
          rw [List.getElem?_cons_succ] at hi
          exact ih h.2 hi
    have h3 := allI_of (key h h1) (b, j - (i + 1)) (by
      rw [List.mem_zipIdx_iff_getElem?]
      simp only
      rw [List.getElem?_drop]
      rw [show i + 1 + (j - (i + 1)) = j by omega]
      exact h2)
    have m1 := hl a (List.mem_of_getElem? h1)
    have m2 := hl b (List.mem_of_getElem? h2)
    have h5 := resF_of hk m1.2.2.1 m2.2.2.1 m2.2.2.2 h3
    simp only [Row.dec]
    convert h5 using 2
    · simp [childD]
    · simp only [Nat.succ_eq_add_one]; omega

/-- All together. -/
theorem cert {m : Zoo.Metric} {c : FCurve 2} {k : DilCert.Kind} {N G vn vd : ℕ} {frow : List (List Row)} {tab : List Bin} {p : ℕ} {P Q : Pt} {lo up : ℚ} (hk : Simple k)
    (h1 : 0 < vd) (h2 : k.ratio = m.ratio) (h3 : Zoo.bnd k vn vd ≤ m.sq up) (h4 : c.div = N) (h5 : c.genus = G) (h6 : OkRows N frow) (h7 : Rows c (prowOf frow))
    (h8 : formB c.mult (coreOf tab) = true) (h9 : autosF k vn vd tab frow = true) (h10 : closedF k N G vn vd frow tab tab = true)
    (h11 : lowB m.ratio c p P Q (m.sq lo)) : Zoo.Cert m c lo up :=
  ⟨k, N, G, vn, vd, prowOf frow, coreOf tab, p, P, Q, by rcases hk with rfl | rfl | rfl <;> trivial, h1, h2, h3, h4, h5, h7, h8, autosF_of hk h6 h9,
    closedF_of hk h6 h10, h11⟩

end DilFast
end Peano
