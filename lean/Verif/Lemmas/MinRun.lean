import Verif.Lemmas.MinFast

set_option autoImplicit false

/-
A faster check of the trees of choices of specs.
-/
namespace Peano
namespace MinCert
namespace Run
open Fast (force force_eq getF getF_eq getL getL_eq)
noncomputable section

/-- A fraction, its spec, its cube. -/
abbrev Ent := ℕ × Sp × List ℕ

def findF (k : ℕ) (l : List Ent) (g : Sp → List ℕ → Bool) : Bool :=
  @List.rec Ent (fun _ => Bool) false (fun x _ ih => cond (Nat.beq k x.1) (g x.2.1 x.2.2) ih) l

/-- The image of a point in the cube. -/
def coF (M : ℕ) (x : List ℕ) (co : List (ℕ × Bool)) : List ℕ → (List ℕ → Bool) → Bool :=
  @List.rec (ℕ × Bool) (fun _ => List ℕ → (List ℕ → Bool) → Bool) (fun _ k => k [])
    (fun c _ ih y k => @List.rec ℕ (fun _ => Bool) (k [])
      (fun y0 y _ => force (Nat.add (Nat.mul y0 M) (cond c.2 (Nat.sub M (getF x c.1)) (getF x c.1))) fun w => ih y fun l => k (w :: l)) y) co

/-- The point in bigger fractions, and whether the time goes back. -/
def upsF (N G : ℕ) (asg : List Ent) (K : ℕ → ℕ → ℕ → List ℕ → ℕ → Bool → Bool) (l : List ℕ) : ℕ → ℕ → ℕ → List ℕ → ℕ → Bool → Bool :=
  @List.rec ℕ (fun _ => ℕ → ℕ → ℕ → List ℕ → ℕ → Bool → Bool) K
    (fun k _ ih p t T x M rv => findF k asg fun e y => cond (Nat.beq e.q p)
      (force (Nat.div k G) fun p' => force (Nat.add (Nat.mul (Nat.mod k G) T) (cond e.rev (Nat.sub T t) t)) fun t' => force (Nat.mul G T) fun T' =>
        coF M x e.co y fun x' => force (Nat.mul N M) fun M' => ih p' t' T' x' M' (cond e.rev (cond rv false true) rv)) false) l

def bitsF (d : ℕ) : ℕ → (List ℕ → Bool) → Bool :=
  @Nat.rec (fun _ => ℕ → (List ℕ → Bool) → Bool) (fun _ k => k []) (fun _ ih b k => force (Nat.mod b 2) fun c => ih (Nat.div b 2) fun l => k (c :: l)) d

def lastF (l : List ℕ) : ℕ → ℕ := @List.rec ℕ (fun _ => ℕ → ℕ) (fun a => a) (fun b _ ih _ => ih b) l

def mulEq (M : ℕ) (l : List ℕ) : List ℕ → Bool :=
  @List.rec ℕ (fun _ => List ℕ → Bool) (fun m => @List.rec ℕ (fun _ => Bool) true (fun _ _ _ => false) m)
    (fun a _ ih m => @List.rec ℕ (fun _ => Bool) false (fun b m _ => cond (Nat.beq b (Nat.mul a M)) (ih m) false) m) l

/-- The time of the vertex. -/
def vertexF (d N G m : ℕ) (asg : List Ent) (b k : ℕ) (per : List ℕ) (K : ℕ → ℕ → ℕ → List ℕ → ℕ → Bool) : Bool :=
  force (Nat.div (lastF per k) G) fun q => bitsF d b fun x =>
    upsF N G asg (fun p t0 R x' M' rv => force (cond rv (Nat.succ R) (Nat.pred R)) fun T =>
      cond (Nat.blt q m) (cond (Nat.ble t0 T) (cond (Nat.blt 0 T) (cond (Nat.beq p q) (cond (mulEq M' x x') (K q t0 T x 1) false) false) false) false) false)
      (k :: per) q 0 1 x 1 false

def cellF (W n : ℕ) : ℕ → (List ℕ → Bool) → Bool :=
  @Nat.rec (fun _ => ℕ → (List ℕ → Bool) → Bool) (fun _ k => k [])
    (fun n ih a k => force (Nat.pow W n) fun w => force (Nat.pred (Nat.div a w)) fun c => ih (Nat.mod a w) fun l => k (c :: l)) n

def codeF (E : Env) (paths : List ℕ) (k : ℕ) : ℕ :=
  Nat.mod (Nat.div (getF paths (Nat.div k E.G)) (Nat.pow E.B (Nat.sub (Nat.sub E.G 1) (Nat.mod k E.G)))) E.B

def zipF (S : ℕ) (y : List ℕ) : List ℕ → (List ℕ → Bool) → Bool :=
  @List.rec ℕ (fun _ => List ℕ → (List ℕ → Bool) → Bool) (fun _ k => k [])
    (fun a _ ih z k => @List.rec ℕ (fun _ => Bool) (k []) (fun b z _ => force (Nat.add (Nat.mul a S) b) fun w => ih z fun l => k (w :: l)) z) y

def gateF (d : ℕ) (E : Env) (paths : List ℕ) (k : ℕ) (last : Bool) (K : ℕ → ℕ → ℕ → List ℕ → ℕ → Bool) : Bool :=
  force (codeF E paths k) fun c => cellF E.W d (Nat.div c E.L) fun y =>
    (fun z : List ℕ × List ℕ => zipF E.S y (cond last z.2 z.1) fun x => force (Nat.div k E.G) fun p => force (Nat.add (Nat.mod k E.G) (cond last 1 0)) fun t =>
      force (Nat.mul E.N E.S) fun M => K p t E.G x M) (getL ([], []) E.links (Nat.mod c E.L))

def ptF (d : ℕ) (E : Env) (paths : List ℕ) (asg : List Ent) (pre per : List ℕ) (b : ℕ) (K : ℕ → ℕ → ℕ → List ℕ → ℕ → Bool) : Bool :=
  @List.rec ℕ (fun _ => Bool)
    (@List.rec ℕ (fun _ => Bool) false (fun k l _ => cond (Nat.blt k (Nat.mul E.m E.G))
      (gateF d E paths k (Nat.beq b 1) fun p t T x M => upsF E.N E.G asg (fun p t T x M _ => K p t T x M) l p t T x M false) false) pre)
    (fun k l _ => vertexF d E.N E.G E.m asg b k l fun p t T x M => upsF E.N E.G asg (fun p t T x M _ => K p t T x M) pre p t T x M false) per

def unpackF (n : ℕ) : ℕ → (List ℕ → ℕ → Bool) → Bool :=
  @Nat.rec (fun _ => ℕ → (List ℕ → ℕ → Bool) → Bool) (fun n k => k [] n)
    (fun _ ih n k => force (Nat.mod n 128) fun a => force (Nat.div n 128) fun r => cond (Nat.beq a 0) (k [] r) (force (Nat.pred a) fun a => ih r fun l => k (a :: l))) n

/-- Distances between coordinates. -/
def absF (M M' : ℕ) (x : List ℕ) : List ℕ → (List ℕ → Bool) → Bool :=
  @List.rec ℕ (fun _ => List ℕ → (List ℕ → Bool) → Bool) (fun _ k => k [])
    (fun a _ ih y k => @List.rec ℕ (fun _ => Bool) (k []) (fun b y _ => force (Nat.mul a M') fun a => force (Nat.mul b M) fun b =>
      force (Nat.add (Nat.sub a b) (Nat.sub b a)) fun w => ih y fun l => k (w :: l)) y) x

def sumF (l : List ℕ) : ℕ := @List.rec ℕ (fun _ => ℕ) 0 (fun a _ ih => Nat.add a ih) l
def sqF (l : List ℕ) : ℕ := @List.rec ℕ (fun _ => ℕ) 0 (fun a _ ih => Nat.add (Nat.mul a a) ih) l
def maxF (l : List ℕ) : ℕ → ℕ := @List.rec ℕ (fun _ => ℕ → ℕ) (fun m => m) (fun a _ ih m => ih (cond (Nat.ble a m) m a)) l

def numF (r : Ratio) (d : ℕ) (l : List ℕ) : ℕ :=
  @Ratio.rec (fun _ => ℕ) (Nat.pow (maxF l 0) d) (Nat.pow (sumF l) d) (Nat.pow (sqF l) d) (Nat.pow (sqF l) (Nat.div d 2)) r

def farF (r : Ratio) (d vn vd p t T : ℕ) (x : List ℕ) (M p' t' T' : ℕ) (x' : List ℕ) (M' : ℕ) : Bool :=
  cond (Nat.beq p p') (force (Nat.mul t T') fun a => force (Nat.mul t' T) fun b => cond (Nat.blt a b)
    (absF M M' x x' fun l => Nat.ble (Nat.mul (Nat.mul vn (Nat.pow (Nat.mul M M') (r.deg d))) (Nat.pow (Nat.sub b a) (denDeg r)))
      (Nat.mul (Nat.mul vd (numF r d l)) (Nat.pow (Nat.mul T T') (denDeg r)))) false) false

def badF (r : Ratio) (d vn vd : ℕ) (E : Env) (paths : List ℕ) (asg : List Ent) (n : ℕ) : Bool :=
  unpackF 64 n fun pre1 n => unpackF 64 n fun per1 n => unpackF 64 (Nat.div n 128) fun pre2 n' => unpackF 64 n' fun per2 n' =>
    ptF d E paths asg pre1 per1 (Nat.mod n 128) fun p t T x M => ptF d E paths asg pre2 per2 (Nat.mod n' 128) fun p' t' T' x' M' =>
      farF r d vn vd p t T x M p' t' T' x' M'

abbrev StF := List ℕ × List Ent

def pushF (s : StF) (k : ℕ) (y : List ℕ) (st : List StF) (D : List Sp) : List StF :=
  @List.rec Sp (fun _ => List StF) st (fun e _ ih => (s.1, (k, e, y) :: s.2) :: ih) D

/-- The tree, node by node. -/
def runF (r : Ratio) (d vn vd : ℕ) (E : Env) (ts : List ℕ) : List StF → Bool :=
  @List.rec ℕ (fun _ => List StF → Bool) (fun st => @List.rec StF (fun _ => Bool) true (fun _ _ _ => false) st)
    (fun t _ ih st => @List.rec StF (fun _ => Bool) false (fun s st _ => force (Nat.mod t 4) fun a => force (Nat.div t 4) fun k =>
      cond (Nat.beq a 0) (cond (Nat.blt k (Nat.mul E.m E.G)) (force (codeF E s.1 k) fun c => cellF E.W d (Nat.div c E.L) fun y =>
        ih (pushF s k y st (getL [] E.doms (Nat.mod c E.L)))) false)
      (cond (Nat.beq a 1) (cond (badF r d vn vd E s.1 s.2 k) (ih st) false) false)) st) ts

/-- The whole tree. -/
def runAll (r : Ratio) (d vn vd : ℕ) (E : Env) (ts : List ℕ) (ps : List (List ℕ)) : Bool :=
  cond (Nat.blt 0 E.G) (runF r d vn vd E ts (ps.map fun P => (P, []))) false

/-! ### soundness -/

theorem coF_eq (M : ℕ) (x : List ℕ) (co : List (ℕ × Bool)) : ∀ (y : List ℕ) (k : List ℕ → Bool),
    coF M x co y k = k (List.zipWith (fun y z => y * M + z) y (actL co M x)) := by
  induction co with
  | nil => intro y k; simp [coF, actL]
  | cons c co ih =>
    intro y k
    cases y with
    | nil => rfl
    | cons y0 y =>
      change force _ (fun w => coF M x co y fun l => k (w :: l)) = _
      rw [force_eq, ih, getF_eq]
      rfl

/-- Without the cubes. -/
def strip (l : List Ent) : List (ℕ × Sp) := l.map fun e => (e.1, e.2.1)

/-- The cubes are the cubes of the path. -/
def Good (d : ℕ) (E : Env) (s : StF) : Prop := ∀ e ∈ s.2, e.2.2 = E.cell d s.1 e.1

theorem findF_sound {d : ℕ} {E : Env} {paths : List ℕ} {k : ℕ} {g : Sp → List ℕ → Bool} : ∀ {l : List Ent}, Good d E (paths, l) → findF k l g = true →
    ∃ e, find k (strip l) = some e ∧ g e (E.cell d paths k) = true
  | [], _, h => by cases h
  | x :: l, hg, h => by
    change cond (Nat.beq k x.1) (g x.2.1 x.2.2) (findF k l g) = true at h
    cases hk : Nat.beq k x.1 with
    | true =>
      rw [hk, cond_true] at h
      have hx := hg x List.mem_cons_self
      rw [Nat.beq_eq] at hk
      refine ⟨x.2.1, ?_, ?_⟩
      · simp [strip, find, hk]
      · rw [hk]; dsimp only at hx; rw [← hx]; exact h
    | false =>
      rw [hk, cond_false] at h
      obtain ⟨e, h1, h2⟩ := findF_sound (paths := paths) (l := l) (fun y hy => hg y (List.mem_cons_of_mem x (show y ∈ l from hy))) h
      refine ⟨e, ?_, h2⟩
      simp only [strip, List.map_cons, find, hk, cond_false]
      exact h1

/-- The point in bigger fractions, and whether the time goes back. -/
def upsR (d : ℕ) (E : Env) (s : St) : List ℕ → Val → Bool → Option (Val × Bool)
  | [], v, rv => some (v, rv)
  | k :: l, v, rv => match find k s.asg with
    | none => none
    | some e => bif Nat.beq e.q v.p then upsR d E s l (upV E.N E.G e (E.cell d s.paths k) (k / E.G) (k % E.G) v) (bif e.rev then !rv else rv) else none

theorem upsF_sound {d : ℕ} {E : Env} {paths : List ℕ} {asg : List Ent} (hg : Good d E (paths, asg)) {K : ℕ → ℕ → ℕ → List ℕ → ℕ → Bool → Bool} :
    ∀ (l : List ℕ) (p t T : ℕ) (x : List ℕ) (M : ℕ) (rv : Bool), upsF E.N E.G asg K l p t T x M rv = true →
      ∃ w rv', upsR d E ⟨paths, strip asg⟩ l ⟨p, t, T, x, M⟩ rv = some (w, rv') ∧ K w.p w.t w.T w.x w.M rv' = true
  | [], p, t, T, x, M, rv, h => ⟨_, _, rfl, h⟩
  | k :: l, p, t, T, x, M, rv, h => by
    change findF k asg (fun e y => cond (Nat.beq e.q p) (force (k / E.G) fun p' => force (k % E.G * T + cond e.rev (T - t) t) fun t' => force (E.G * T) fun T' =>
      coF M x e.co y fun x' => force (E.N * M) fun M' => upsF E.N E.G asg K l p' t' T' x' M' (cond e.rev (cond rv false true) rv)) false) = true at h
    obtain ⟨e, h1, h2⟩ := findF_sound hg h
    simp only [force_eq, coF_eq] at h2
    cases hq : Nat.beq e.q p with
    | false => rw [hq] at h2; cases h2
    | true =>
      rw [hq, cond_true] at h2
      obtain ⟨w, rv', h3, h4⟩ := upsF_sound hg l _ _ _ _ _ _ h2
      refine ⟨w, rv', ?_, h4⟩
      rw [upsR]
      simp only [h1, hq, cond_true]
      rw [← h3]
      cases rv <;> rfl

theorem upsR_ups {d : ℕ} {E : Env} {s : St} : ∀ {l : List ℕ} {v w : Val} {rv rv' : Bool}, upsR d E s l v rv = some (w, rv') → E.ups d s l v = some w
  | [], v, w, rv, rv', h => by simp only [upsR, Option.some.injEq, Prod.mk.injEq] at h; simp [Env.ups, h.1]
  | k :: l, v, w, rv, rv', h => by
    rw [upsR] at h
    rw [Env.ups, Env.up]
    cases hk : find k s.asg with
    | none => rw [hk] at h; cases h
    | some e =>
      rw [hk] at h
      dsimp only at h ⊢
      cases hq : Nat.beq e.q v.p with
      | false => rw [hq] at h; cases h
      | true =>
        rw [hq, cond_true] at h
        exact upsR_ups h

/-- There is room for the times that go on, or back, from `t / T`. -/
def Room (rv : Bool) (t T : ℕ) : Prop := (rv = true → 1 ≤ t ∧ t ≤ T) ∧ (rv = false → t + 1 ≤ T)

/-- The times go on, or back, from `t / T`. -/
def go (rv : Bool) (t T1 u : ℕ) : ℕ := bif rv then t * T1 - u else t * T1 + u

theorem Room.next {rv : Bool} {t T : ℕ} (h : Room rv t T) {G k : ℕ} (hG : 0 < G) (b : Bool) :
    Room (bif b then !rv else rv) (k % G * T + (bif b then T - t else t)) (G * T) := by
  have h1 : k % G * T + T ≤ G * T := by
    have := Nat.mul_le_mul_right T (Nat.succ_le_of_lt (Nat.mod_lt k hG))
    rw [Nat.succ_mul] at this
    exact this
  obtain ⟨a, c⟩ := h
  cases b <;> cases rv <;> simp [Room] at a c ⊢ <;> omega

theorem go_next {rv : Bool} {t T : ℕ} (h : Room rv t T) (i : ℕ) (b : Bool) {T1 u : ℕ} (hu : u ≤ T1) :
    i * (T * T1) + (bif b then T * T1 - go rv t T1 u else go rv t T1 u) = go (bif b then !rv else rv) (i * T + (bif b then T - t else t)) T1 u := by
  obtain ⟨a, c⟩ := h
  cases b <;> cases rv <;> simp only [Bool.false_eq_true, false_imp_iff, true_imp_iff, reduceCtorEq, forall_const] at a c <;> simp only [go, cond_true, cond_false, Bool.not_true, Bool.not_false]
  · ring
  · have e1 : T1 ≤ t * T1 := Nat.le_mul_of_pos_left _ a.1
    have e2 : (i * T + t) * T1 = i * (T * T1) + t * T1 := by ring
    omega
  · have e1 : (t + 1) * T1 ≤ T * T1 := Nat.mul_le_mul_right _ c
    have e2 : (i * T + (T - t)) * T1 = i * (T * T1) + (T - t) * T1 := by ring
    have e3 : (T - t) * T1 = T * T1 - t * T1 := Nat.sub_mul _ _ _
    rw [Nat.add_mul, one_mul] at e1
    omega
  · have e0 : t * T1 ≤ T * T1 := Nat.mul_le_mul_right _ a.2
    have e1 : T1 ≤ t * T1 := Nat.le_mul_of_pos_left _ a.1
    have e2 : (i * T + (T - t)) * T1 = i * (T * T1) + (T - t) * T1 := by ring
    have e3 : (T - t) * T1 = T * T1 - t * T1 := Nat.sub_mul _ _ _
    omega

theorem upsR_go {d : ℕ} {E : Env} (hG : 0 < E.G) {s : St} : ∀ {l : List ℕ} {v w : Val} {rv rv' : Bool}, upsR d E s l v rv = some (w, rv') → Room rv v.t v.T →
    Room rv' w.t w.T ∧ ∀ T1 u, u ≤ T1 → E.ups d s l ⟨v.p, go rv v.t T1 u, v.T * T1, v.x, v.M⟩ = some ⟨w.p, go rv' w.t T1 u, w.T * T1, w.x, w.M⟩
  | [], v, w, rv, rv', h, hr => by
    simp only [upsR, Option.some.injEq, Prod.mk.injEq] at h
    obtain ⟨rfl, rfl⟩ := h
    exact ⟨hr, fun T1 u hu => rfl⟩
  | k :: l, v, w, rv, rv', h, hr => by
    rw [upsR] at h
    cases hk : find k s.asg with
    | none => rw [hk] at h; cases h
    | some e =>
      rw [hk] at h
      dsimp only at h
      cases hq : Nat.beq e.q v.p with
      | false => rw [hq] at h; cases h
      | true =>
        rw [hq, cond_true] at h
        obtain ⟨h1, h2⟩ := upsR_go hG h (hr.next hG e.rev)
        refine ⟨h1, fun T1 u hu => ?_⟩
        rw [Env.ups, Env.up, hk]
        dsimp only
        rw [hq, cond_true]
        dsimp only
        rw [← h2 T1 u hu]
        simp only [upV]
        rw [go_next hr _ e.rev hu, Nat.mul_assoc]

theorem bitsF_eq (d : ℕ) : ∀ (b : ℕ) (k : List ℕ → Bool), bitsF d b k = k (Env.bits d b) := by
  induction d with
  | zero => intro b k; rfl
  | succ d ih =>
    intro b k
    change force (b % 2) (fun c => bitsF d (b / 2) fun l => k (c :: l)) = _
    rw [force_eq, ih]
    rfl

theorem lastF_eq (l : List ℕ) : ∀ k, lastF l k = Env.last (k :: l) := by
  induction l with
  | nil => intro k; rfl
  | cons a l ih => intro k; exact ih a

theorem mulEq_sound {M : ℕ} : ∀ {l m : List ℕ}, mulEq M l m = true → m = l.map (· * M)
  | [], [], _ => rfl
  | [], _ :: _, h => by cases h
  | _ :: _, [], h => by cases h
  | a :: l, b :: m, h => by
    change cond (Nat.beq b (a * M)) (mulEq M l m) false = true at h
    cases hb : Nat.beq b (a * M) with
    | false => rw [hb] at h; cases h
    | true =>
      rw [hb, cond_true] at h
      rw [Nat.beq_eq] at hb
      rw [List.map_cons, ← mulEq_sound h, hb]

theorem cond_false_eq {a b : Bool} (h : cond a b false = true) : a = true ∧ b = true := by cases a <;> simp_all

theorem vertexF_sound {d : ℕ} {E : Env} (hG : 0 < E.G) {paths : List ℕ} {asg : List Ent} (hg : Good d E (paths, asg)) {b k : ℕ} {per : List ℕ}
    {K : ℕ → ℕ → ℕ → List ℕ → ℕ → Bool} (h : vertexF d E.N E.G E.m asg b k per K = true) :
    ∃ v, E.vertex d ⟨paths, strip asg⟩ b (k :: per) = some v ∧ K v.p v.t v.T v.x v.M = true := by
  unfold vertexF at h
  simp only [force_eq, bitsF_eq, lastF_eq] at h
  obtain ⟨w, rv, h1, h2⟩ := upsF_sound hg _ _ _ _ _ _ _ h
  obtain ⟨h3, h2⟩ := cond_false_eq h2
  obtain ⟨h4, h2⟩ := cond_false_eq h2
  obtain ⟨h5, h2⟩ := cond_false_eq h2
  obtain ⟨h6, h2⟩ := cond_false_eq h2
  obtain ⟨h7, h2⟩ := cond_false_eq h2
  obtain ⟨h8, h9⟩ := upsR_go hG h1 (by simp [Room])
  refine ⟨⟨Env.last (k :: per) / E.G, w.t, cond rv (Nat.succ w.T) (Nat.pred w.T), Env.bits d b, 1⟩, ?_, h2⟩
  set T := cond rv (Nat.succ w.T) (Nat.pred w.T) with hT
  have u0 := upsR_ups h1
  have u1 := h9 1 1 (le_refl _)
  have u2 := h9 T w.t (Nat.ble_eq.mp h4)
  simp only [go, cond_false, Nat.zero_mul, Nat.zero_add, Nat.one_mul, Nat.mul_one] at u1 u2
  have hd : Nat.div (Env.last (k :: per)) E.G = Env.last (k :: per) / E.G := rfl
  rw [hd] at u0 u1 u2 h3 h6
  rw [Env.vertex]
  dsimp only
  rw [u0, u1]
  dsimp only
  have e1 : (bif Nat.blt w.t (bif rv then w.t - 1 else w.t + 1) then w.T - 1 else w.T + 1) = T := by
    rw [hT]
    cases rv
    · have : Nat.blt w.t (w.t + 1) = true := by rw [Nat.blt_eq]; omega
      simp only [cond_false, this, cond_true, Nat.pred_eq_sub_one]
    · have : Nat.blt w.t (w.t - 1) = false := by rw [← Bool.not_eq_true, Nat.blt_eq]; omega
      simp only [cond_true, this, cond_false]
  rw [e1, u2]
  dsimp only
  have e2 : Nat.beq ((bif rv then w.t * T - w.t else w.t * T + w.t) * T) (w.t * (w.T * T)) = true := by
    rw [Nat.beq_eq, ← Nat.mul_assoc]
    congr 1
    cases rv
    · have hT' : w.T = T + 1 := by
        have := h8.2 rfl
        simp only [cond_false, Nat.pred_eq_sub_one] at hT
        omega
      rw [hT', Nat.mul_add, Nat.mul_one, cond_false]
    · have hT' : T = w.T + 1 := hT
      rw [hT', Nat.mul_add, Nat.mul_one, cond_true, Nat.add_sub_cancel]
  have e3 := mulEq_sound h7
  rw [h3, h4, h5, h6, e2, decide_eq_true e3]
  rfl

theorem cellF_eq (W n : ℕ) : ∀ (a : ℕ) (k : List ℕ → Bool), cellF W n a k = k (cellOf W n a) := by
  induction n with
  | zero => intro a k; rfl
  | succ n ih =>
    intro a k
    change force (W ^ n) (fun w => force (Nat.pred (a / w)) fun c => cellF W n (a % w) fun l => k (c :: l)) = _
    rw [force_eq, force_eq, ih]
    rfl

theorem codeF_eq (E : Env) (paths : List ℕ) (k : ℕ) : codeF E paths k = E.code paths k := by
  unfold codeF
  rw [getF_eq]
  rfl

theorem zipF_eq (S : ℕ) (y : List ℕ) : ∀ (z : List ℕ) (k : List ℕ → Bool), zipF S y z k = k (List.zipWith (fun y z => y * S + z) y z) := by
  induction y with
  | nil => intro z k; rfl
  | cons a y ih =>
    intro z k
    cases z with
    | nil => rfl
    | cons b z =>
      change force (a * S + b) (fun w => zipF S y z fun l => k (w :: l)) = _
      rw [force_eq, ih]
      rfl

theorem gateF_eq (d : ℕ) (E : Env) (paths : List ℕ) (k : ℕ) (last : Bool) (K : ℕ → ℕ → ℕ → List ℕ → ℕ → Bool) :
    gateF d E paths k last K = K (E.gate d paths k last).p (E.gate d paths k last).t (E.gate d paths k last).T (E.gate d paths k last).x (E.gate d paths k last).M := by
  unfold gateF
  simp only [force_eq, cellF_eq, zipF_eq, getL_eq, codeF_eq]
  rfl

theorem ptF_sound {d : ℕ} {E : Env} (hG : 0 < E.G) {paths : List ℕ} {asg : List Ent} (hg : Good d E (paths, asg)) {pre per : List ℕ} {b : ℕ}
    {K : ℕ → ℕ → ℕ → List ℕ → ℕ → Bool} (h : ptF d E paths asg pre per b K = true) :
    ∃ v, E.pt d ⟨paths, strip asg⟩ pre per b = some v ∧ K v.p v.t v.T v.x v.M = true := by
  cases per with
  | nil =>
    cases pre with
    | nil => cases h
    | cons k l =>
      change cond (Nat.blt k (E.m * E.G)) (gateF d E paths k (Nat.beq b 1) fun p t T x M => upsF E.N E.G asg (fun p t T x M _ => K p t T x M) l p t T x M false)
        false = true at h
      obtain ⟨h1, h⟩ := cond_false_eq h
      rw [gateF_eq] at h
      obtain ⟨w, rv, h2, h3⟩ := upsF_sound hg _ _ _ _ _ _ _ h
      refine ⟨w, ?_, h3⟩
      rw [Env.pt]
      dsimp only
      rw [h1, cond_true]
      exact upsR_ups h2
  | cons k l =>
    change vertexF d E.N E.G E.m asg b k l (fun p t T x M => upsF E.N E.G asg (fun p t T x M _ => K p t T x M) pre p t T x M false) = true at h
    obtain ⟨v, h1, h2⟩ := vertexF_sound hG hg h
    obtain ⟨w, rv, h3, h4⟩ := upsF_sound hg _ _ _ _ _ _ _ h2
    refine ⟨w, ?_, h4⟩
    rw [Env.pt]
    rw [h1]
    exact upsR_ups h3

theorem unpackF_eq (n : ℕ) : ∀ (a : ℕ) (k : List ℕ → ℕ → Bool), unpackF n a k = k (unpack n a).1 (unpack n a).2 := by
  induction n with
  | zero => intro a k; rfl
  | succ n ih =>
    intro a k
    change force (a % 128) (fun b => force (a / 128) fun r => cond (Nat.beq b 0) (k [] r) (force (Nat.pred b) fun b => unpackF n r fun l => k (b :: l))) = _
    rw [force_eq, force_eq, force_eq, ih, unpack]
    cases Nat.beq (a % 128) 0 <;> rfl

theorem absF_eq (M M' : ℕ) (x : List ℕ) : ∀ (y : List ℕ) (k : List ℕ → Bool),
    absF M M' x y k = k (List.zipWith (fun a b => absd (a * M') (b * M)) x y) := by
  induction x with
  | nil => intro y k; rfl
  | cons a x ih =>
    intro y k
    cases y with
    | nil => rfl
    | cons b y =>
      change force (a * M') (fun a => force (b * M) fun b => force (a - b + (b - a)) fun w => absF M M' x y fun l => k (w :: l)) = _
      rw [force_eq, force_eq, force_eq, ih]
      rfl

theorem sumF_eq (l : List ℕ) : sumF l = sumN l := by
  induction l with
  | nil => rfl
  | cons a l ih => rw [sumN, ← ih]; rfl

theorem sqF_eq (l : List ℕ) : sqF l = sqN l := by
  induction l with
  | nil => rfl
  | cons a l ih => rw [sqN, ← ih]; rfl

theorem maxF_eq (l : List ℕ) : ∀ m, maxF l m = max m (maxN l) := by
  induction l with
  | nil => intro m; rw [maxN, Nat.max_zero]; rfl
  | cons a l ih =>
    intro m
    change maxF l (cond (Nat.ble a m) m a) = _
    rw [ih, maxN]
    cases h : Nat.ble a m
    · have : ¬ a ≤ m := fun h' => by rw [Nat.ble_eq.mpr h'] at h; cases h
      rw [cond_false]
      omega
    · have := Nat.ble_eq.mp h
      rw [cond_true]
      omega

theorem numF_eq (r : Ratio) (d : ℕ) (l : List ℕ) : numF r d l = numN r d l := by
  cases r
  · change maxF l 0 ^ d = _; rw [maxF_eq, Nat.zero_max]; rfl
  · change sumF l ^ d = _; rw [sumF_eq]; rfl
  · change sqF l ^ d = _; rw [sqF_eq]; rfl
  · change sqF l ^ (d / 2) = _; rw [sqF_eq]; rfl

theorem farF_sound {r : Ratio} {d vn vd : ℕ} {v w : Val} (h : farF r d vn vd v.p v.t v.T v.x v.M w.p w.t w.T w.x w.M = true) : farB r d vn vd v w = true := by
  unfold farF at h
  simp only [force_eq, absF_eq, numF_eq] at h
  obtain ⟨h1, h⟩ := cond_false_eq h
  obtain ⟨h2, h⟩ := cond_false_eq h
  rw [farB, Bool.and_eq_true, Bool.and_eq_true]
  exact ⟨⟨h1, h2⟩, h⟩

theorem badF_sound {r : Ratio} {d vn vd : ℕ} {E : Env} (hG : 0 < E.G) {paths : List ℕ} {asg : List Ent} (hg : Good d E (paths, asg)) {n : ℕ}
    (h : badF r d vn vd E paths asg n = true) : badB r d vn vd E ⟨paths, strip asg⟩ n = true := by
  unfold badF at h
  simp only [unpackF_eq] at h
  obtain ⟨v, h1, h⟩ := ptF_sound hG hg h
  obtain ⟨w, h2, h⟩ := ptF_sound hG hg h
  unfold badB
  dsimp only
  have h1' : E.pt d ⟨paths, strip asg⟩ (unpack 64 n).1 (unpack 64 (unpack 64 n).2).1 ((unpack 64 (unpack 64 n).2).2 % 128) = some v := h1
  rw [h1']
  have h2' := h2
  change E.pt d _ (unpack 64 ((unpack 64 (unpack 64 n).2).2 / 128)).1 (unpack 64 (unpack 64 ((unpack 64 (unpack 64 n).2).2 / 128)).2).1
    ((unpack 64 (unpack 64 ((unpack 64 (unpack 64 n).2).2 / 128)).2).2 % 128) = some w at h2'
  rw [h2']
  exact farF_sound h

/-- Without the cubes. -/
def bare (s : StF) : St := ⟨s.1, strip s.2⟩

theorem pushF_eq (s : StF) (k : ℕ) (y : List ℕ) (st : List StF) (D : List Sp) : pushF s k y st D = D.map (fun e => (s.1, (k, e, y) :: s.2)) ++ st := by
  induction D with
  | nil => rfl
  | cons e D ih => rw [List.map_cons, List.cons_append, ← ih]; rfl

theorem runF_sound {r : Ratio} {d vn vd : ℕ} {E : Env} (hG : 0 < E.G) : ∀ (ts : List ℕ) (st : List StF), (∀ s ∈ st, Good d E s) →
    runF r d vn vd E ts st = true → run r d vn vd E [] ts (st.map bare) = true
  | [], [], _, _ => rfl
  | [], _ :: _, _, h => by cases h
  | _ :: _, [], _, h => by cases h
  | t :: ts, s :: st, hg, h => by
    change force (t % 4) (fun a => force (t / 4) fun k => cond (Nat.beq a 0) (cond (Nat.blt k (E.m * E.G)) (force (codeF E s.1 k) fun c => cellF E.W d (c / E.L) fun y =>
        runF r d vn vd E ts (pushF s k y st (getL [] E.doms (c % E.L)))) false)
      (cond (Nat.beq a 1) (cond (badF r d vn vd E s.1 s.2 k) (runF r d vn vd E ts st) false) false)) = true at h
    simp only [force_eq, cellF_eq, codeF_eq, getL_eq, pushF_eq] at h
    have hst : ∀ s ∈ st, Good d E s := fun s hs => hg s (List.mem_cons_of_mem _ hs)
    have hs := hg s List.mem_cons_self
    rw [List.map_cons, run]
    cases h0 : Nat.beq (t % 4) 0 with
    | true =>
      rw [h0, cond_true] at h
      obtain ⟨h1, h⟩ := cond_false_eq h
      rw [cond_true, h1, Bool.true_and]
      have := runF_sound hG ts _ (by
        intro s' hs'
        rcases List.mem_append.1 hs' with h' | h'
        · obtain ⟨e, -, rfl⟩ := List.mem_map.1 h'
          intro x hx
          rcases List.mem_cons.1 hx with rfl | hx
          · rfl
          · exact hs x hx
        · exact hst s' h') h
      rw [List.map_append, List.map_map] at this
      exact this
    | false =>
      rw [h0, cond_false] at h
      obtain ⟨h1, h⟩ := cond_false_eq h
      obtain ⟨h2, h⟩ := cond_false_eq h
      rw [cond_false, h1, cond_true]
      have e : badB r d vn vd E (bare s) (t / 4) = true := badF_sound hG hs h2
      rw [e, Bool.true_and]
      exact runF_sound hG ts st hst h

/-- The fast check is enough. -/
theorem run_one {r : Ratio} {d vn vd : ℕ} {E : Env} {ts : List ℕ} {ps : List ℕ} (h : runAll r d vn vd E ts (ps.map fun P => [P]) = true) :
    run r d vn vd E [] ts (ps.map fun P => ⟨[P], []⟩) = true := by
  obtain ⟨h1, h2⟩ := cond_false_eq h
  have := runF_sound (Nat.blt_eq.mp h1) _ _ (by
    intro s hs
    obtain ⟨P, -, rfl⟩ := List.mem_map.1 hs
    intro x hx
    cases hx) h2
  rw [List.map_map, List.map_map] at this
  exact this

/-- The fast check is enough. -/
theorem run_many {r : Ratio} {d vn vd : ℕ} {E : Env} {ts : List ℕ} {ps : List (List ℕ)} (h : runAll r d vn vd E ts ps = true) :
    run r d vn vd E [] ts (ps.map fun P => ⟨P, []⟩) = true := by
  obtain ⟨h1, h2⟩ := cond_false_eq h
  have := runF_sound (Nat.blt_eq.mp h1) _ _ (by
    intro s hs
    obtain ⟨P, -, rfl⟩ := List.mem_map.1 hs
    intro x hx
    cases hx) h2
  rw [List.map_map] at this
  exact this

/-- With the cubes. -/
def fill (d : ℕ) (E : Env) (s : St) : StF := (s.paths, s.asg.map fun x => (x.1, x.2, E.cell d s.paths x.1))

/-- The fast check is enough. -/
theorem run_any {r : Ratio} {d vn vd : ℕ} {E : Env} {ts : List ℕ} {st : List St} (h : cond (Nat.blt 0 E.G) (runF r d vn vd E ts (st.map (fill d E))) false = true) :
    run r d vn vd E [] ts st = true := by
  obtain ⟨h1, h2⟩ := cond_false_eq h
  have := runF_sound (Nat.blt_eq.mp h1) _ _ (by
    intro s hs
    obtain ⟨s, -, rfl⟩ := List.mem_map.1 hs
    intro x hx
    obtain ⟨x, -, rfl⟩ := List.mem_map.1 hx
    rfl) h2
  rw [List.map_map, List.map_congr_left (g := id), List.map_id] at this
  · exact this
  · rintro ⟨p, a⟩ -
    simp [bare, fill, strip, Function.comp_def]

end
end Run
end MinCert
end Peano
