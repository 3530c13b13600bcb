import Verif.Lemmas.DilCheck

set_option autoImplicit false

/-
Certificates that every curve with given prototypes and gates of fractions has two points with a big ratio: a tree of choices of specs, with a
pair of points of the curve at each leaf.
-/
namespace Peano
namespace MinCert
variable {d : ℕ} {c : FCurve d} {f : ℕ → ℝ → Fin d → ℝ}

/-! ### specs as lists -/

/-- A spec: pairs `(k_j, b_j)` of the base map, time reversal, number of the pattern. -/
structure Sp where
  co : List (ℕ × Bool)
  rev : Bool
  q : ℕ
deriving DecidableEq

def toSp (s : Spec d) : Sp := ⟨List.ofFn fun j => ((s.baseMap.coords j).1.val, (s.baseMap.coords j).2), s.baseMap.timeRev, s.pnum⟩

/-- The image of a point of the cube with side `M`. -/
def actL (co : List (ℕ × Bool)) (M : ℕ) (x : List ℕ) : List ℕ := co.map fun k => bif k.2 then M - x.getD k.1 0 else x.getD k.1 0

@[simp] theorem actL_length (co : List (ℕ × Bool)) (M : ℕ) (x : List ℕ) : (actL co M x).length = co.length := by simp [actL]

theorem actL_getD (s : Spec d) (M : ℕ) (x : List ℕ) (j : Fin d) :
    (actL (toSp s).co M x).getD j 0 = if (s.baseMap.coords j).2 then M - x.getD (s.baseMap.coords j).1 0 else x.getD (s.baseMap.coords j).1 0 := by
  simp only [actL, toSp, List.getD, List.getElem?_map]
  rw [List.getElem?_eq_getElem (by simp)]
  cases h : (s.baseMap.coords j).2 <;> simp [h]

/-! ### points -/

/-- A point of the curve: in the pattern `p`, at the time `t / T`, with coordinates `x / M`. -/
structure Val where
  p : ℕ
  t : ℕ
  T : ℕ
  x : List ℕ
  M : ℕ

/-- The curve is `ε`-close to the point. -/
structure Near (c : FCurve d) (f : ℕ → ℝ → Fin d → ℝ) (v : Val) (ε : ℝ) : Prop where
  p_lt : v.p < c.mult
  T_pos : 0 < v.T
  t_le : v.t ≤ v.T
  M_pos : 0 < v.M
  len : v.x.length = d
  x_le : ∀ j : Fin d, v.x.getD j 0 ≤ v.M
  close : ∀ j : Fin d, |f v.p (v.t / v.T) j - v.x.getD j 0 / v.M| ≤ ε

/-- The point of the fraction `i` (in the cube `y`, with the spec `e`) of the pattern `p`. -/
def upV (N G : ℕ) (e : Sp) (y : List ℕ) (p i : ℕ) (v : Val) : Val :=
  ⟨p, i * v.T + (bif e.rev then v.T - v.t else v.t), G * v.T, List.zipWith (fun y z => y * v.M + z) y (actL e.co v.M v.x), N * v.M⟩

theorem getD_zipWith {g : ℕ → ℕ → ℕ} {a b : List ℕ} {n j : ℕ} (ha : a.length = n) (hb : b.length = n) (hj : j < n) :
    (List.zipWith g a b).getD j 0 = g (a.getD j 0) (b.getD j 0) := by
  rw [List.getD_eq_getElem _ _ (by simp [ha, hb, hj]), List.getD_eq_getElem _ _ (by omega), List.getD_eq_getElem _ _ (by omega), List.getElem_zipWith]

theorem Near.up (h : c.Full) (hf : c.Realizes f) {v : Val} {ε : ℝ} (hv : Near c f v ε) {p i : ℕ} (hp : p < c.mult) (hi : i < c.genus)
    {y : List ℕ} (hy : y = List.ofFn fun j => (c.cubeD p i j).toNat) (hq : (c.specD p i).pnum = v.p) :
    Near c f (upV c.div c.genus (toSp (c.specD p i)) y p i v) (ε / c.div) := by
  obtain ⟨h1, h2, h3, h4, h5, h6, h7⟩ := hv
  have hG := h.toShape.genus_pos
  have hN : 0 < c.div := by have := h.two_le_div; omega
  have hT : (0 : ℝ) < v.T := by exact_mod_cast h2
  have hM : (0 : ℝ) < v.M := by exact_mod_cast h4
  have hN' : (0 : ℝ) < c.div := by exact_mod_cast hN
  have hG' : (0 : ℝ) < c.genus := by exact_mod_cast hG
  have htT : (v.t : ℝ) ≤ v.T := by exact_mod_cast h3
  have u0 : (0 : ℝ) ≤ v.t / v.T := by positivity
  have u1 : (v.t : ℝ) / v.T ≤ 1 := by rw [div_le_one hT]; exact htT
  set s := c.specD p i with hs
  have hyl : y.length = d := by rw [hy]; simp
  have hal : (actL (toSp s).co v.M v.x).length = d := by simp [toSp]
  have hcube : ∀ j : Fin d, 0 ≤ c.cubeD p i j ∧ c.cubeD p i j < (c.div : ℤ) := fun j => h.cube_range p i _ (h.cube_eq hp hi) j
  have hyj : ∀ j : Fin d, ((y.getD j 0 : ℕ) : ℤ) = c.cubeD p i j := by
    intro j
    rw [hy, List.getD_eq_getElem _ _ (by simp)]
    simp [hcube j]
  have hzj : ∀ j : Fin d, (actL (toSp s).co v.M v.x).getD j 0 ≤ v.M := by
    intro j
    rw [actL_getD]
    split
    · omega
    · exact h6 _
  have e1 : ((s.baseMap.applyT 1 ((v.t : ℝ) / v.T))) = ((bif s.baseMap.timeRev then v.T - v.t else v.t : ℕ) : ℝ) / v.T := by
    unfold BaseMap.applyT
    cases s.baseMap.timeRev
    · simp
    · simp only [if_true, cond_true, Nat.cast_sub h3]
      field_simp
  have w0 := applyT_mem01 s.baseMap u0 u1
  refine ⟨hp, Nat.mul_pos hG h2, ?_, Nat.mul_pos hN h4, ?_, ?_, ?_⟩
  · have : (bif (toSp s).rev then v.T - v.t else v.t) ≤ v.T := by cases (toSp s).rev <;> simp <;> omega
    simp only [upV]
    calc i * v.T + _ ≤ i * v.T + v.T := by omega
      _ = (i + 1) * v.T := by ring
      _ ≤ c.genus * v.T := Nat.mul_le_mul_right _ hi
  · simp only [upV, List.length_zipWith]
    omega
  · intro j
    simp only [upV]
    rw [getD_zipWith hyl hal j.2]
    have hlt : y.getD j 0 + 1 ≤ c.div := by have := hyj j; have := hcube j; omega
    have := Nat.mul_le_mul_right v.M hlt
    have := hzj j
    rw [Nat.add_mul] at *
    omega
  · intro j
    have key := hf.eqn p i _ _ (h.cube_eq hp hi) (h.spec_eq hp hi) (s.baseMap.applyT 1 ((v.t : ℝ) / v.T)) w0.1 w0.2
    have e2 : actFn s f (s.baseMap.applyT 1 ((v.t : ℝ) / v.T)) = s.baseMap.applyX 1 (f v.p (v.t / v.T)) := by
      unfold actFn
      rw [hq]
      congr 2
      unfold BaseMap.applyT
      split <;> simp
    have e3 : (((upV c.div c.genus (toSp s) y p i v).t : ℕ) : ℝ) / ((upV c.div c.genus (toSp s) y p i v).T : ℕ) =
        (i + s.baseMap.applyT 1 ((v.t : ℝ) / v.T)) / c.genus := by
      rw [e1]
      simp only [upV, toSp]
      push_cast
      field_simp
    rw [e3]
    change |f p ((i + s.baseMap.applyT 1 ((v.t : ℝ) / v.T)) / c.genus) j - _| ≤ _
    rw [key]
    simp only [upV]
    rw [← hs, e2, getD_zipWith hyl hal j.2, actL_getD]
    have e4 : ((y.getD j 0 : ℕ) : ℝ) = (c.cubeD p i j : ℝ) := by rw [← hyj j]; simp
    have h8 := h7 (s.baseMap.coords j).1
    have h9 := h6 (s.baseMap.coords j).1
    unfold BaseMap.applyX
    by_cases hb : (s.baseMap.coords j).2 = true
    · simp only [hb, if_true]
      push_cast [Nat.cast_sub h9]
      rw [e4]
      have : ((c.cubeD p i j : ℝ) + (1 - f v.p (v.t / v.T) (s.baseMap.coords j).1)) / c.div -
          (c.cubeD p i j * v.M + (v.M - (v.x.getD (s.baseMap.coords j).1 0 : ℕ))) / (c.div * v.M) =
          -((f v.p (v.t / v.T) (s.baseMap.coords j).1 - (v.x.getD (s.baseMap.coords j).1 0 : ℕ) / v.M) / c.div) := by
        field_simp
        ring
      rw [this, abs_neg, abs_div, abs_of_pos hN']
      exact div_le_div_of_nonneg_right h8 hN'.le
    · simp only [hb]
      push_cast
      rw [e4]
      have : ((c.cubeD p i j : ℝ) + f v.p (v.t / v.T) (s.baseMap.coords j).1) / c.div -
          (c.cubeD p i j * v.M + (v.x.getD (s.baseMap.coords j).1 0 : ℕ)) / (c.div * v.M) =
          (f v.p (v.t / v.T) (s.baseMap.coords j).1 - (v.x.getD (s.baseMap.coords j).1 0 : ℕ) / v.M) / c.div := by
        field_simp
        ring
      rw [this, abs_div, abs_of_pos hN']
      exact div_le_div_of_nonneg_right h8 hN'.le

/-! ### two points -/

def absd (a b : ℕ) : ℕ := (a - b) + (b - a)

def sumN : List ℕ → ℕ
  | [] => 0
  | x :: l => x + sumN l
def maxN : List ℕ → ℕ
  | [] => 0
  | x :: l => max x (maxN l)
def sqN : List ℕ → ℕ
  | [] => 0
  | x :: l => x * x + sqN l

/-- `Ratio.num` for absolute values of coordinates. -/
def numN (r : Ratio) (d : ℕ) (l : List ℕ) : ℕ := match r with
  | .linf => maxN l ^ d
  | .l1 => sumN l ^ d
  | .l2sq => sqN l ^ d
  | .l2 => sqN l ^ (d / 2)

/-- `Ratio.den`, the degree. -/
def denDeg (r : Ratio) : ℕ := match r with
  | .l2sq => 2
  | _ => 1

/-- The ratio for the points is defined and is at least `vn / vd`. -/
def farB (r : Ratio) (d vn vd : ℕ) (v w : Val) : Bool :=
  Nat.beq v.p w.p && Nat.blt (v.t * w.T) (w.t * v.T) &&
    Nat.ble (vn * (v.M * w.M) ^ r.deg d * (w.t * v.T - v.t * w.T) ^ denDeg r)
      (vd * numN r d (List.zipWith (fun a b => absd (a * w.M) (b * v.M)) v.x w.x) * (v.T * w.T) ^ denDeg r)

theorem absd_cast (a b : ℕ) : ((absd a b : ℕ) : ℝ) = |(a : ℝ) - b| := by
  unfold absd
  rcases le_total a b with h | h
  · rw [Nat.sub_eq_zero_of_le h, zero_add, Nat.cast_sub h, abs_sub_comm, abs_of_nonneg (sub_nonneg.2 (by exact_mod_cast h))]
  · rw [Nat.sub_eq_zero_of_le h, add_zero, Nat.cast_sub h, abs_of_nonneg (sub_nonneg.2 (by exact_mod_cast h))]

theorem numN_eq (r : Ratio) (u : Fin d → ℝ) (w : Fin d → ℕ) (h : ∀ j, |u j| = w j) : r.num u = (numN r d ((List.finRange d).map w) : ℕ) := by
  have h1 : ∀ l : List (Fin d), (l.map fun i => |u i|).foldr max 0 = (maxN (l.map w) : ℕ) := by
    intro l
    induction l with
    | nil => simp [maxN]
    | cons a l ih => rw [List.map_cons, List.foldr_cons, ih, List.map_cons, maxN, h, Nat.cast_max]
  have h2 : ∀ l : List (Fin d), (l.map fun i => |u i|).sum = (sumN (l.map w) : ℕ) := by
    intro l
    induction l with
    | nil => simp [sumN]
    | cons a l ih => rw [List.map_cons, List.sum_cons, ih, List.map_cons, sumN, h, Nat.cast_add]
  have h3 : ∀ l : List (Fin d), (l.map fun i => u i ^ 2).sum = (sqN (l.map w) : ℕ) := by
    intro l
    induction l with
    | nil => simp [sqN]
    | cons a l ih => rw [List.map_cons, List.sum_cons, ih, List.map_cons, sqN, ← sq_abs (u a), h, Nat.cast_add, Nat.cast_mul, pow_two]
  cases r <;> simp only [Ratio.num, numN, maxAbs, sumAbs, sumSq, h1, h2, h3, Nat.cast_pow]

theorem farB_sound {r : Ratio} (hr : r.Ok d) {vn vd : ℕ} (hvd : 0 < vd) {v w : Val} (hv : Near c f v 0) (hw : Near c f w 0)
    (hfar : farB r d vn vd v w = true) : ∃ x ∈ c.ratios r f, (vn : ℝ) / vd ≤ x := by
  simp only [farB, Bool.and_eq_true, Nat.ble_eq, Nat.beq_eq, Nat.blt_eq] at hfar
  obtain ⟨⟨hp, ht⟩, hfar⟩ := hfar
  have hT1 : (0 : ℝ) < v.T := by exact_mod_cast hv.T_pos
  have hT2 : (0 : ℝ) < w.T := by exact_mod_cast hw.T_pos
  have hM1 : (0 : ℝ) < v.M := by exact_mod_cast hv.M_pos
  have hM2 : (0 : ℝ) < w.M := by exact_mod_cast hw.M_pos
  have hvd' : (0 : ℝ) < vd := by exact_mod_cast hvd
  have ev : ∀ j : Fin d, f v.p (v.t / v.T) j = v.x.getD j 0 / v.M := fun j => by
    have := hv.close j
    rw [abs_nonpos_iff, sub_eq_zero] at this
    exact this
  have ew : ∀ j : Fin d, f v.p (w.t / w.T) j = w.x.getD j 0 / w.M := fun j => by
    have := hw.close j
    rw [abs_nonpos_iff, sub_eq_zero, ← hp] at this
    exact this
  have ht' : (v.t : ℝ) * w.T < w.t * v.T := by exact_mod_cast ht
  have hlt : (v.t : ℝ) / v.T < w.t / w.T := by rw [div_lt_div_iff₀ hT1 hT2]; exact ht'
  refine ⟨_, ⟨v.p, hv.p_lt, v.t / v.T, w.t / w.T, by positivity, hlt, ?_, rfl⟩, ?_⟩
  · rw [div_le_one hT2]; exact_mod_cast hw.t_le
  set u : Fin d → ℝ := fun j => (v.x.getD j 0 : ℝ) * w.M - w.x.getD j 0 * v.M with hu
  have e1 : (fun j => f v.p (v.t / v.T) j - f v.p (w.t / w.T) j) = fun j => (1 / ((v.M : ℝ) * w.M)) * u j := by
    funext j
    rw [ev, ew, hu]
    field_simp
  have e2 : (w.t : ℝ) / w.T - v.t / v.T = (w.t * v.T - v.t * w.T) / (v.T * w.T) := by field_simp
  have e3 : (List.zipWith (fun a b => absd (a * w.M) (b * v.M)) v.x w.x) =
      (List.finRange d).map fun j : Fin d => absd (v.x.getD j 0 * w.M) (w.x.getD j 0 * v.M) := by
    have l1 := hv.len
    have l2 := hw.len
    apply List.ext_getElem
    · simp [l1, l2]
    · intro i h1 h2
      simp only [List.length_zipWith] at h1
      simp only [List.getElem_zipWith, List.getElem_map, List.getElem_finRange, Fin.val_cast]
      rw [List.getD_eq_getElem _ _ (by omega), List.getD_eq_getElem _ _ (by omega)]
  rw [Ratio.val, e1, r.num_smul hr, numN_eq r u (fun j => absd (v.x.getD j 0 * w.M) (w.x.getD j 0 * v.M)) (by
    intro j; rw [absd_cast, hu]; push_cast; rfl), ← e3, abs_of_pos (by positivity), e2]
  rw [show (∀ t : ℝ, r.den t = t ^ denDeg r) from fun t => by cases r <;> simp [Ratio.den, denDeg]]
  have hdt : ((w.t * v.T - v.t * w.T : ℕ) : ℝ) = (w.t : ℝ) * v.T - v.t * w.T := by
    rw [Nat.cast_sub ht.le]; push_cast; rfl
  rw [← hdt]
  have hdp : (0 : ℝ) < (w.t * v.T - v.t * w.T : ℕ) := by exact_mod_cast Nat.sub_pos_of_lt ht
  have hfar' : (vn : ℝ) * (v.M * w.M) ^ r.deg d * ((w.t * v.T - v.t * w.T : ℕ) : ℝ) ^ denDeg r ≤
      vd * (numN r d (List.zipWith (fun a b => absd (a * w.M) (b * v.M)) v.x w.x) : ℕ) * (v.T * w.T) ^ denDeg r := by exact_mod_cast hfar
  generalize (numN r d (List.zipWith (fun a b => absd (a * w.M) (b * v.M)) v.x w.x) : ℕ) = n at hfar' ⊢
  generalize ((w.t * v.T - v.t * w.T : ℕ) : ℝ) = dt at hfar' hdp ⊢
  have e4 : (1 / ((v.M : ℝ) * w.M)) ^ r.deg d * n / (dt / (v.T * w.T)) ^ denDeg r =
      (n * (v.T * w.T) ^ denDeg r) / ((v.M * w.M) ^ r.deg d * dt ^ denDeg r) := by
    rw [div_pow, div_pow, one_pow]
    field_simp
  rw [e4, div_le_div_iff₀ hvd' (by positivity)]
  linarith

/-! ### what is known about a curve -/

/-- Sizes, the gates that fractions may have (in the cube with side `S`), and the specs with these gates. -/
structure Env where
  N : ℕ
  G : ℕ
  m : ℕ
  S : ℕ
  /-- base of numbers of cubes -/
  W : ℕ
  /-- base of numbers of paths -/
  B : ℕ
  /-- number of gates -/
  L : ℕ
  links : List (List ℕ × List ℕ)
  doms : List (List Sp)

/-- What is known: the number of the path of each pattern, and some specs (fractions are numbered `p * G + i`). -/
structure St where
  paths : List ℕ
  asg : List (ℕ × Sp)

/-- The cube by its number. -/
def cellOf (W : ℕ) : ℕ → ℕ → List ℕ
  | 0, _ => []
  | n + 1, a => (a / W ^ n - 1) :: cellOf W n (a % W ^ n)

namespace Env

/-- The number of the cube and the gates of the fraction. -/
def code (E : Env) (paths : List ℕ) (k : ℕ) : ℕ := paths.getD (k / E.G) 0 / E.B ^ (E.G - 1 - k % E.G) % E.B

def cell (d : ℕ) (E : Env) (paths : List ℕ) (k : ℕ) : List ℕ := cellOf E.W d (E.code paths k / E.L)

def link (E : Env) (paths : List ℕ) (k : ℕ) : List ℕ × List ℕ := E.links.getD (E.code paths k % E.L) ([], [])

end Env

def find (k : ℕ) : List (ℕ × Sp) → Option Sp
  | [] => none
  | x :: l => bif Nat.beq k x.1 then some x.2 else find k l

namespace Env

def up (d : ℕ) (E : Env) (s : St) (k : ℕ) (v : Val) : Option Val :=
  match find k s.asg with
  | none => none
  | some e => bif Nat.beq e.q v.p then some (upV E.N E.G e (E.cell d s.paths k) (k / E.G) (k % E.G) v) else none

def ups (d : ℕ) (E : Env) (s : St) : List ℕ → Val → Option Val
  | [], v => some v
  | k :: l, v => match E.up d s k v with
    | none => none
    | some w => ups d E s l w

/-- The entrance or the exit of the fraction. -/
def gate (d : ℕ) (E : Env) (paths : List ℕ) (k : ℕ) (last : Bool) : Val :=
  ⟨k / E.G, k % E.G + (bif last then 1 else 0), E.G,
    List.zipWith (fun y z => y * E.S + z) (E.cell d paths k) (bif last then (E.link paths k).2 else (E.link paths k).1), E.N * E.S⟩

/-- The vertex of the cube. -/
def bits : ℕ → ℕ → List ℕ
  | 0, _ => []
  | n + 1, b => (b % 2) :: bits n (b / 2)

/-- The last element. -/
def last : List ℕ → ℕ
  | [] => 0
  | [k] => k
  | _ :: k :: l => last (k :: l)

/-- The time of the vertex: the fractions `per` go round. -/
def vertex (d : ℕ) (E : Env) (s : St) (b : ℕ) (per : List ℕ) : Option Val :=
  let q := last per / E.G
  let x := bits d b
  match E.ups d s per ⟨q, 0, 1, x, 1⟩, E.ups d s per ⟨q, 1, 1, x, 1⟩ with
  | some v0, some v1 =>
    let T := bif Nat.blt v0.t v1.t then v0.T - 1 else v0.T + 1
    let v : Val := ⟨q, v0.t, T, x, 1⟩
    match E.ups d s per v with
    | none => none
    | some w => bif Nat.blt q E.m && Nat.ble v0.t T && Nat.blt 0 T && Nat.beq w.p q && Nat.beq (w.t * T) (v0.t * w.T) &&
        decide (w.x = x.map (· * w.M)) then some v else none
  | _, _ => none

/-- A point: fractions `pre`, the inner first; the point in the innermost is a gate (if `per` is empty) or a vertex. -/
def pt (d : ℕ) (E : Env) (s : St) (pre per : List ℕ) (b : ℕ) : Option Val :=
  match per with
  | [] => match pre with
    | [] => none
    | k :: l => bif Nat.blt k (E.m * E.G) then E.ups d s l (E.gate d s.paths k (Nat.beq b 1)) else none
  | k :: l => match E.vertex d s b (k :: l) with
    | none => none
    | some v => E.ups d s pre v

end Env

/-- A list of numbers less than 127 in a number. -/
def unpack : ℕ → ℕ → List ℕ × ℕ
  | 0, n => ([], n)
  | k + 1, n => bif Nat.beq (n % 128) 0 then ([], n / 128) else
    match unpack k (n / 128) with
    | (l, r) => ((n % 128 - 1) :: l, r)

/-- Two points, packed in a number, are far. -/
def badB (r : Ratio) (d vn vd : ℕ) (E : Env) (s : St) (n : ℕ) : Bool :=
  match unpack 64 n with
  | (pre1, n1) => match unpack 64 n1 with
    | (per1, n2) => match unpack 64 (n2 / 128) with
      | (pre2, n3) => match unpack 64 n3 with
        | (per2, n4) => match E.pt d s pre1 per1 (n2 % 128), E.pt d s pre2 per2 (n4 % 128) with
          | some v, some w => farB r d vn vd v w
          | _, _ => false

/-- All specs are known and are the given ones. -/
def sameB (E : Env) (s : St) (a : List ℕ × List Sp) : Bool :=
  decide (s.paths = a.1) && (List.range (E.m * E.G)).all fun k => match find k s.asg, a.2[k]? with
    | some e, some e' => decide (e = e')
    | _, _ => false

/-- The tree, node by node: a number `4 k` is the choice of the spec of the fraction `k`, `4 n + 1` are two points, `4 n + 2` is the curve number
`n` of the list. -/
def run (r : Ratio) (d vn vd : ℕ) (E : Env) (allow : List (List ℕ × List Sp)) : List ℕ → List St → Bool
  | [], [] => true
  | [], _ :: _ => false
  | _ :: _, [] => false
  | t :: ts, s :: st =>
    bif Nat.beq (t % 4) 0 then
      Nat.blt (t / 4) (E.m * E.G) && run r d vn vd E allow ts
        ((E.doms.getD (E.code s.paths (t / 4) % E.L) []).map (fun e => (⟨s.paths, (t / 4, e) :: s.asg⟩ : St)) ++ st)
    else bif Nat.beq (t % 4) 1 then badB r d vn vd E s (t / 4) && run r d vn vd E allow ts st
    else (match allow[t / 4]? with
      | none => false
      | some a => sameB E s a) && run r d vn vd E allow ts st

/-! ### soundness -/

/-- The numbers describe the curve. -/
structure Env.Fits (E : Env) (c : FCurve d) (f : ℕ → ℝ → Fin d → ℝ) (paths : List ℕ) : Prop where
  N_eq : E.N = c.div
  G_eq : E.G = c.genus
  m_eq : E.m = c.mult
  S_pos : 0 < E.S
  cell : ∀ k < E.m * E.G, E.cell d paths k = List.ofFn fun j => (c.cubeD (k / E.G) (k % E.G) j).toNat
  len : ∀ k < E.m * E.G, (E.link paths k).1.length = d ∧ (E.link paths k).2.length = d
  entr : ∀ k < E.m * E.G, ∀ j : Fin d, actFn (c.specD (k / E.G) (k % E.G)) f 0 j = ((E.link paths k).1.getD j 0 : ℕ) / E.S
  exit : ∀ k < E.m * E.G, ∀ j : Fin d, actFn (c.specD (k / E.G) (k % E.G)) f 1 j = ((E.link paths k).2.getD j 0 : ℕ) / E.S
  dom : ∀ k < E.m * E.G, toSp (c.specD (k / E.G) (k % E.G)) ∈ E.doms.getD (E.code paths k % E.L) []

/-- The known specs are the specs of the curve. -/
def St.Ok (E : Env) (c : FCurve d) (s : St) : Prop := ∀ x ∈ s.asg, x.1 < E.m * E.G ∧ x.2 = toSp (c.specD (x.1 / E.G) (x.1 % E.G))

theorem find_mem {k : ℕ} {e : Sp} : ∀ {l : List (ℕ × Sp)}, find k l = some e → (k, e) ∈ l
  | [], h => by simp [find] at h
  | x :: l, h => by
    rw [find] at h
    by_cases hk : Nat.beq k x.1 = true
    · rw [hk, cond_true, Option.some.injEq] at h
      rw [Nat.beq_eq] at hk
      rw [hk, ← h]
      exact List.mem_cons_self
    · rw [Bool.not_eq_true] at hk
      rw [hk, cond_false] at h
      exact List.mem_cons_of_mem _ (find_mem h)

section
variable {E : Env} {s : St}

theorem div_mod_lt (h : c.Full) (hE : E.Fits c f s.paths) {k : ℕ} (hk : k < E.m * E.G) : k / E.G < c.mult ∧ k % E.G < c.genus := by
  have hG : 0 < E.G := by rw [hE.G_eq]; exact h.toShape.genus_pos
  rw [← hE.m_eq, ← hE.G_eq]
  exact ⟨(Nat.div_lt_iff_lt_mul hG).2 hk, Nat.mod_lt _ hG⟩

theorem up_sound (h : c.Full) (hf : c.Realizes f) (hE : E.Fits c f s.paths) (hs : s.Ok E c) {k : ℕ} {v w : Val} (hu : E.up d s k v = some w)
    {ε : ℝ} (hv : Near c f v ε) : Near c f w (ε / c.div) := by
  unfold Env.up at hu
  cases hk : find k s.asg with
  | none => simp [hk] at hu
  | some e =>
    obtain ⟨h1, h2⟩ := hs _ (find_mem hk)
    simp only at h1 h2
    simp only [hk] at hu
    by_cases hq : Nat.beq e.q v.p = true
    · rw [hq, cond_true, Option.some.injEq] at hu
      rw [Nat.beq_eq] at hq
      obtain ⟨a1, a2⟩ := div_mod_lt h hE h1
      have := hv.up h hf a1 a2 (hE.cell k h1) (by rw [h2] at hq; exact hq)
      rw [← hu, h2, hE.N_eq, hE.G_eq]
      rw [hE.G_eq] at this
      exact this
    · rw [Bool.not_eq_true] at hq
      simp [hq] at hu

theorem ups_sound (h : c.Full) (hf : c.Realizes f) (hE : E.Fits c f s.paths) (hs : s.Ok E c) : ∀ {l : List ℕ} {v w : Val},
    E.ups d s l v = some w → ∀ {ε : ℝ}, Near c f v ε → Near c f w (ε / (c.div : ℝ) ^ l.length)
  | [], v, w, hu, ε, hv => by
    simp only [Env.ups, Option.some.injEq] at hu
    rw [← hu]
    simpa using hv
  | k :: l, v, w, hu, ε, hv => by
    rw [Env.ups] at hu
    cases hk : E.up d s k v with
    | none => simp [hk] at hu
    | some u =>
      simp only [hk] at hu
      have := ups_sound h hf hE hs hu (up_sound h hf hE hs hk hv)
      rwa [div_div, ← pow_succ', ← List.length_cons (a := k)] at this

theorem bits_length : ∀ (n b : ℕ), (Env.bits n b).length = n
  | 0, _ => rfl
  | n + 1, b => by rw [Env.bits, List.length_cons, bits_length]

theorem bits_le : ∀ {n b x : ℕ}, x ∈ Env.bits n b → x ≤ 1
  | 0, _, _, h => by simp [Env.bits] at h
  | n + 1, b, x, h => by
    rw [Env.bits, List.mem_cons] at h
    rcases h with rfl | h
    · omega
    · exact bits_le h

theorem vertex_sound (h : c.Full) (hf : c.Realizes f) (hE : E.Fits c f s.paths) (hs : s.Ok E c) {b : ℕ} {per : List ℕ} {v : Val} (hper : per ≠ [])
    (hu : E.vertex d s b per = some v) : Near c f v 0 := by
  unfold Env.vertex at hu
  simp only at hu
  cases h0 : E.ups d s per ⟨Env.last per / E.G, 0, 1, Env.bits d b, 1⟩ with
  | none => simp [h0] at hu
  | some v0 =>
  cases h1 : E.ups d s per ⟨Env.last per / E.G, 1, 1, Env.bits d b, 1⟩ with
  | none => simp [h0, h1] at hu
  | some v1 =>
  simp only [h0, h1] at hu
  generalize hT : (bif Nat.blt v0.t v1.t then v0.T - 1 else v0.T + 1) = T at hu
  cases h2 : E.ups d s per ⟨Env.last per / E.G, v0.t, T, Env.bits d b, 1⟩ with
  | none => simp [h2] at hu
  | some w =>
  simp only [h2] at hu
  by_cases hc : (Nat.blt (Env.last per / E.G) E.m && Nat.ble v0.t T && Nat.blt 0 T && Nat.beq w.p (Env.last per / E.G) && Nat.beq (w.t * T) (v0.t * w.T) &&
      decide (w.x = (Env.bits d b).map (· * w.M))) = true
  swap
  · rw [Bool.not_eq_true] at hc
    rw [hc] at hu
    simp at hu
  rw [hc, cond_true, Option.some.injEq] at hu
  simp only [Bool.and_eq_true, Nat.ble_eq, Nat.beq_eq, Nat.blt_eq, decide_eq_true_eq] at hc
  obtain ⟨⟨⟨⟨⟨c1, c2⟩, c3⟩, c4⟩, c5⟩, c6⟩ := hc
  rw [hu] at h2
  have ep : v.p = Env.last per / E.G := by rw [← hu]
  have et : v.t = v0.t := by rw [← hu]
  have eT : v.T = T := by rw [← hu]
  have ex : v.x = Env.bits d b := by rw [← hu]
  have eM : v.M = 1 := by rw [← hu]
  have xle : ∀ j : Fin d, v.x.getD j 0 ≤ v.M := by
    intro j
    rw [ex, eM, List.getD_eq_getElem _ _ (by rw [bits_length]; exact j.2)]
    exact bits_le (List.getElem_mem _)
  have hT' : (0 : ℝ) < T := by exact_mod_cast c3
  have hN : (2 : ℝ) ≤ c.div := by exact_mod_cast h.two_le_div
  have key : ∀ ε : ℝ, 0 ≤ ε → Near c f v ε → Near c f v (ε / 2) := by
    intro ε hε hv
    have hw := ups_sound h hf hE hs h2 hv
    refine ⟨hv.p_lt, hv.T_pos, hv.t_le, hv.M_pos, hv.len, hv.x_le, fun j => ?_⟩
    have hwT : (0 : ℝ) < w.T := by exact_mod_cast hw.T_pos
    have hwM : (0 : ℝ) < w.M := by exact_mod_cast hw.M_pos
    have e1 : (v.t : ℝ) / v.T = w.t / w.T := by
      rw [et, eT, div_eq_div_iff hT'.ne' hwT.ne']
      exact_mod_cast c5.symm
    have e2 : ((v.x.getD j 0 : ℕ) : ℝ) / v.M = (w.x.getD j 0 : ℕ) / w.M := by
      rw [ex, eM, c6, List.getD_eq_getElem ((Env.bits d b).map _) _ (by simp [bits_length]), List.getD_eq_getElem _ _ (by rw [bits_length]; exact j.2)]
      simp only [List.getElem_map]
      push_cast
      field_simp
    have := hw.close j
    rw [c4, ← ep] at this
    rw [e1, e2]
    refine this.trans (div_le_div_of_nonneg_left hε (by norm_num) ?_)
    have : 1 ≤ per.length := List.length_pos_iff.2 hper
    calc (2 : ℝ) ≤ c.div := hN
      _ = (c.div : ℝ) ^ 1 := (pow_one _).symm
      _ ≤ _ := pow_le_pow_right₀ (by linarith) this
  have hall : ∀ n : ℕ, Near c f v (1 / 2 ^ n) := by
    intro n
    induction n with
    | zero =>
      refine ⟨by rw [ep, ← hE.m_eq]; exact c1, by rw [eT]; exact c3, by rw [et, eT]; exact c2, by rw [eM]; omega, by rw [ex, bits_length], xle, fun j => ?_⟩
      have hm := hf.mem_cube v.p (by rw [ep, ← hE.m_eq]; exact c1) (v.t / v.T) (by positivity) (by
        rw [et, eT, div_le_one hT']; exact_mod_cast c2) j
      have hx : ((v.x.getD j 0 : ℕ) : ℝ) ≤ 1 := by have := xle j; rw [eM] at this; exact_mod_cast this
      have hx0 : (0 : ℝ) ≤ (v.x.getD j 0 : ℕ) := Nat.cast_nonneg _
      rw [eM, Nat.cast_one, div_one, pow_zero, div_one, abs_le]
      constructor <;> linarith [hm.1, hm.2]
    | succ n ih =>
      have := key _ (by positivity) ih
      rwa [div_div, ← pow_succ] at this
  refine ⟨(hall 0).p_lt, (hall 0).T_pos, (hall 0).t_le, (hall 0).M_pos, (hall 0).len, xle, fun j => ?_⟩
  refine le_of_forall_pos_le_add fun δ hδ => ?_
  obtain ⟨n, hn⟩ := exists_pow_lt_of_lt_one hδ (show (1 / 2 : ℝ) < 1 by norm_num)
  have := (hall n).close j
  rw [one_div_pow] at hn
  linarith

theorem gate_sound (h : c.Full) (hf : c.Realizes f) (hE : E.Fits c f s.paths) {k : ℕ} (hk : k < E.m * E.G) (last : Bool) :
    Near c f (E.gate d s.paths k last) 0 := by
  obtain ⟨a1, a2⟩ := div_mod_lt h hE hk
  have hN : 0 < c.div := by have := h.two_le_div; omega
  have hG := h.toShape.genus_pos
  have hS' : (0 : ℝ) < E.S := by exact_mod_cast hE.S_pos
  have hN' : (0 : ℝ) < c.div := by exact_mod_cast hN
  have hlen := hE.len k hk
  have hcl : (E.cell d s.paths k).length = d := by rw [hE.cell k hk]; simp
  have hcube : ∀ j : Fin d, 0 ≤ c.cubeD (k / E.G) (k % E.G) j ∧ c.cubeD (k / E.G) (k % E.G) j < (c.div : ℤ) :=
    fun j => h.cube_range _ _ _ (h.cube_eq a1 a2) j
  have hyj : ∀ j : Fin d, (((E.cell d s.paths k).getD j 0 : ℕ) : ℤ) = c.cubeD (k / E.G) (k % E.G) j := by
    intro j
    rw [hE.cell k hk, List.getD_eq_getElem _ _ (by simp)]
    simp [hcube j]
  have hll : (bif last then (E.link s.paths k).2 else (E.link s.paths k).1).length = d := by cases last <;> simp [hlen]
  set u : ℕ := bif last then 1 else 0 with hu
  have hz : ∀ j : Fin d, actFn (c.specD (k / E.G) (k % E.G)) f (u : ℝ) j =
      ((bif last then (E.link s.paths k).2 else (E.link s.paths k).1).getD j 0 : ℕ) / E.S := by
    intro j
    cases last
    · simpa [hu] using hE.entr k hk j
    · simpa [hu] using hE.exit k hk j
  have hu1 : u ≤ 1 := by cases last <;> simp [hu]
  have hu' : (u : ℝ) ≤ 1 := by exact_mod_cast hu1
  have hzS : ∀ j : Fin d, (bif last then (E.link s.paths k).2 else (E.link s.paths k).1).getD j 0 ≤ E.S := by
    intro j
    have := (hf.actFn_mem (h.specD_lt a1 a2) (Nat.cast_nonneg u) hu' j).2
    rw [hz j, div_le_one hS'] at this
    exact_mod_cast this
  refine ⟨a1, by simp only [Env.gate]; rw [hE.G_eq]; exact hG, ?_, by simp only [Env.gate]; rw [hE.N_eq]; exact Nat.mul_pos hN hE.S_pos, ?_, ?_, ?_⟩
  · simp only [Env.gate]
    rw [← hE.G_eq] at a2
    omega
  · simp only [Env.gate, List.length_zipWith]
    omega
  · intro j
    simp only [Env.gate]
    rw [getD_zipWith hcl hll j.2, hE.N_eq]
    have hlt : (E.cell d s.paths k).getD j 0 + 1 ≤ c.div := by have := hyj j; have := hcube j; omega
    have := Nat.mul_le_mul_right E.S hlt
    have := hzS j
    rw [Nat.add_mul] at *
    omega
  · intro j
    simp only [Env.gate]
    rw [getD_zipWith hcl hll j.2, ← hu]
    have key := hf.eqn (k / E.G) (k % E.G) _ _ (h.cube_eq a1 a2) (h.spec_eq a1 a2) (u : ℝ) (Nat.cast_nonneg u) hu'
    have e1 : (((k % E.G + u : ℕ) : ℝ) / (E.G : ℕ)) = (((k % E.G : ℕ) : ℝ) + (u : ℝ)) / (c.genus : ℝ) := by
      rw [hE.G_eq]; push_cast; rfl
    rw [e1, key]
    dsimp only
    rw [hz j]
    have e4 : (((E.cell d s.paths k).getD j 0 : ℕ) : ℝ) = (c.cubeD (k / E.G) (k % E.G) j : ℝ) := by rw [← hyj j]; simp
    rw [abs_nonpos_iff, sub_eq_zero, hE.N_eq]
    push_cast
    rw [e4]
    field_simp

theorem pt_sound (h : c.Full) (hf : c.Realizes f) (hE : E.Fits c f s.paths) (hs : s.Ok E c) {pre per : List ℕ} {b : ℕ} {v : Val}
    (hu : E.pt d s pre per b = some v) : Near c f v 0 := by
  cases per with
  | nil =>
    cases pre with
    | nil => simp [Env.pt] at hu
    | cons k l =>
      simp only [Env.pt] at hu
      by_cases hk : Nat.blt k (E.m * E.G) = true
      · rw [hk, cond_true] at hu
        rw [Nat.blt_eq] at hk
        simpa using ups_sound h hf hE hs hu (gate_sound h hf hE hk _)
      · rw [Bool.not_eq_true] at hk
        simp [hk] at hu
  | cons k l =>
    simp only [Env.pt] at hu
    cases hv : E.vertex d s b (k :: l) with
    | none => simp [hv] at hu
    | some w =>
      simp only [hv] at hu
      simpa using ups_sound h hf hE hs hu (vertex_sound h hf hE hs (by simp) hv)

theorem badB_sound {r : Ratio} (hr : r.Ok d) {vn vd : ℕ} (hvd : 0 < vd) (h : c.Full) (hf : c.Realizes f) (hE : E.Fits c f s.paths) (hs : s.Ok E c) {n : ℕ}
    (hb : badB r d vn vd E s n = true) : ∃ x ∈ c.ratios r f, (vn : ℝ) / vd ≤ x := by
  unfold badB at hb
  simp only at hb
  split at hb
  · rename_i v w h1 h2
    exact farB_sound hr hvd (pt_sound h hf hE hs h1) (pt_sound h hf hE hs h2) hb
  · cases hb

/-- The curve is in the list. -/
def Listed (E : Env) (c : FCurve d) (allow : List (List ℕ × List Sp)) (paths : List ℕ) : Prop :=
  ∃ a ∈ allow, paths = a.1 ∧ ∀ k < E.m * E.G, a.2[k]? = some (toSp (c.specD (k / E.G) (k % E.G)))

theorem sameB_sound (hs : s.Ok E c) {allow : List (List ℕ × List Sp)} {a : List ℕ × List Sp} (ha : a ∈ allow) (hb : sameB E s a = true) :
    Listed E c allow s.paths := by
  simp only [sameB, Bool.and_eq_true, decide_eq_true_eq] at hb
  refine ⟨a, ha, hb.1, fun k hk => ?_⟩
  have h1 := List.all_eq_true.1 hb.2 k (List.mem_range.2 hk)
  split at h1
  · rename_i e e' h2 h3
    rw [decide_eq_true_eq] at h1
    rw [h3, ← h1]
    exact congrArg some (hs _ (find_mem h2)).2
  · cases h1

theorem run_sound {r : Ratio} (hr : r.Ok d) {vn vd : ℕ} (hvd : 0 < vd) (h : c.Full) (hf : c.Realizes f) {allow : List (List ℕ × List Sp)} :
    ∀ {ts : List ℕ} {st : List St}, run r d vn vd E allow ts st = true → ∀ s ∈ st, E.Fits c f s.paths → s.Ok E c →
      (∃ x ∈ c.ratios r f, (vn : ℝ) / vd ≤ x) ∨ Listed E c allow s.paths
  | [], [], _ => by simp
  | [], _ :: _, hrun => by simp [run] at hrun
  | _ :: _, [], hrun => by simp [run] at hrun
  | t :: ts, s :: st, hrun => by
    rw [run] at hrun
    by_cases h0 : Nat.beq (t % 4) 0 = true
    · rw [h0, cond_true, Bool.and_eq_true, Nat.blt_eq] at hrun
      have ih := run_sound hr hvd h hf hrun.2
      intro s' hs' hE hok
      rw [List.mem_cons] at hs'
      rcases hs' with rfl | hs'
      · refine ih ⟨s'.paths, (t / 4, toSp (c.specD (t / 4 / E.G) (t / 4 % E.G))) :: s'.asg⟩ (List.mem_append_left _
          (List.mem_map_of_mem (f := fun e => (⟨s'.paths, (t / 4, e) :: s'.asg⟩ : St)) (hE.dom (t / 4) hrun.1))) hE ?_
        intro x hx
        rcases List.mem_cons.1 hx with rfl | hx
        · exact ⟨hrun.1, rfl⟩
        · exact hok x hx
      · exact ih _ (List.mem_append_right _ hs') hE hok
    rw [Bool.not_eq_true] at h0
    rw [h0, cond_false] at hrun
    by_cases h1 : Nat.beq (t % 4) 1 = true
    · rw [h1, cond_true, Bool.and_eq_true] at hrun
      have ih := run_sound hr hvd h hf hrun.2
      intro s' hs' hE hok
      rw [List.mem_cons] at hs'
      rcases hs' with rfl | hs'
      · exact .inl (badB_sound hr hvd h hf hE hok hrun.1)
      · exact ih _ hs' hE hok
    rw [Bool.not_eq_true] at h1
    rw [h1, cond_false, Bool.and_eq_true] at hrun
    have ih := run_sound hr hvd h hf hrun.2
    intro s' hs' hE hok
    rw [List.mem_cons] at hs'
    rcases hs' with rfl | hs'
    · cases ha : allow[t / 4]? with
      | none => simp [ha] at hrun
      | some a =>
        simp only [ha] at hrun
        exact .inr (sameB_sound hok (List.mem_of_getElem? ha) hrun.1)
    · exact ih _ hs' hE hok

end

end MinCert
end Peano
