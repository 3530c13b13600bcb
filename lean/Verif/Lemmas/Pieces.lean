import Verif.Lemmas.Cover

set_option autoImplicit false

/- Positions of pieces and bounds for pairs of pieces. -/
namespace Peano
variable {d : ℕ} {r : Ratio} {f : ℕ → ℝ → Fin d → ℝ}

namespace FCurve
variable {c : FCurve d}

/-- The spec of the fraction reached from `s` by the numbers. -/
def walkSpec (c : FCurve d) (s : Spec d) (cnums : List ℕ) : Spec d := cnums.foldl c.curSpec s

/-- The cubes passed on the way. -/
def walkCubes (c : FCurve d) : Spec d → List ℕ → List (Cube d)
  | _, [] => []
  | s, i :: l => c.curCube s i :: c.walkCubes (c.curSpec s i) l

theorem walkSpec_append (s : Spec d) (l : List ℕ) (i : ℕ) : c.walkSpec s (l ++ [i]) = c.curSpec (c.walkSpec s l) i := by
  unfold walkSpec; rw [List.foldl_append]; rfl

theorem walkCubes_append (s : Spec d) (l : List ℕ) (i : ℕ) : c.walkCubes s (l ++ [i]) = c.walkCubes s l ++ [c.curCube (c.walkSpec s l) i] := by
  induction l generalizing s with
  | nil => rfl
  | cons a l ih =>
    rw [List.cons_append, walkCubes, ih]
    rfl

theorem walkCubes_length (s : Spec d) (l : List ℕ) : (c.walkCubes s l).length = l.length := by
  induction l generalizing s with
  | nil => rfl
  | cons a l ih => rw [walkCubes, List.length_cons, ih, List.length_cons]

theorem Full.walkSpec_lt (h : c.Full) {s : Spec d} (hs : s.pnum < c.mult) (l : List ℕ) (hl : ∀ i ∈ l, i < c.genus) : (c.walkSpec s l).pnum < c.mult := by
  induction l generalizing s with
  | nil => exact hs
  | cons a l ih =>
    exact ih (h.curSpec_lt hs (hl a List.mem_cons_self)) fun i hi => hl i (List.mem_cons_of_mem _ hi)

theorem Full.getDeepSpec_eq (h : c.Full) {p : ℕ} (hp : p < c.mult) (l : List ℕ) (hl : ∀ i ∈ l, i < c.genus) :
    c.getDeepSpec p l = some (c.walkSpec ⟨BaseMap.idMap d, p⟩ l) := by
  have key : ∀ (l : List ℕ) (s : Spec d), s.pnum < c.mult → (∀ i ∈ l, i < c.genus) → l.foldlM (fun s cnum => c.composeSpecs s cnum) s = some (c.walkSpec s l) := by
    intro l
    induction l with
    | nil => intro s _ _; rfl
    | cons a l ih =>
      intro s hs hl
      have ha := hl a List.mem_cons_self
      rw [List.foldlM_cons, h.composeSpecs_cur hs ha, Option.bind_eq_bind, Option.bind_some, ih _ (h.curSpec_lt hs ha) fun i hi => hl i (List.mem_cons_of_mem _ hi)]
      rfl
  exact key l _ hp hl

/-- During the `n`-th of `G^k` intervals `s * f` is the image of `sp * f` put into the cube `x` of the grid with `N^k` cells. -/
structure Cell (c : FCurve d) (f : ℕ → ℝ → Fin d → ℝ) (s : Spec d) (k n : ℕ) (x : Cube d) (sp : Spec d) : Prop where
  lt : n < c.genus ^ k
  pnum : sp.pnum < c.mult
  eqn : ∀ t : ℝ, 0 ≤ t → t ≤ 1 → actFn s f ((n + t) / (c.genus : ℝ) ^ k) = fun j => (x j + actFn sp f t j) / (c.div : ℝ) ^ k

theorem Full.cell_walk (h : c.Full) (hf : c.Realizes f) {s : Spec d} (hs : s.pnum < c.mult) (l : List ℕ) (hl : ∀ i ∈ l, i < c.genus) :
    c.Cell f s l.length (getIntTime d c.div l) (getIntCube c.div (c.walkCubes s l)) (c.walkSpec s l) := by
  have hN := h.div_pos
  have hG : (0 : ℝ) < c.genus := by exact_mod_cast h.genus_pos
  induction l using List.reverseRecOn with
  | nil =>
    refine ⟨by simp, hs, ?_⟩
    intro t _ _
    simp [walkCubes, walkSpec]
  | append_singleton l i ih =>
    have ih := ih fun k hk => hl k (List.mem_append_left _ hk)
    have hi := hl i (by simp)
    refine ⟨?_, h.walkSpec_lt hs _ hl, ?_⟩
    · have := getIntTime_lt d c.div (l ++ [i]) hl
      simpa [genus] using this
    · intro t h0 h1
      have hm := (show 0 ≤ (i + t) / (c.genus : ℝ) ∧ (i + t) / (c.genus : ℝ) ≤ 1 by
        have : (i : ℝ) + 1 ≤ c.genus := by exact_mod_cast hi
        refine ⟨by positivity, ?_⟩
        rw [div_le_one hG]; linarith)
      have e := ih.eqn _ hm.1 hm.2
      rw [getIntTime_append_singleton, walkCubes_append, walkSpec_append, List.length_append, List.length_singleton]
      have e1 : (((getIntTime d c.div l * c.div ^ d + i : ℕ) : ℝ) + t) / (c.genus : ℝ) ^ (l.length + 1) =
          ((getIntTime d c.div l : ℕ) + (i + t) / (c.genus : ℝ)) / (c.genus : ℝ) ^ l.length := by
        push_cast
        rw [← c.genus_cast, pow_succ]
        field_simp
        ring
      rw [e1, e]
      funext j
      rw [hf.walkD h ih.pnum hi h0 h1, getIntCube_append_singleton, pow_succ]
      push_cast
      field_simp
      ring

/-- Rotation of a cell. -/
theorem Cell.rotate (h : c.Full) {s sp : Spec d} {k n : ℕ} {x : Cube d} (hc : c.Cell f s k n x sp) (b : BaseMap d) :
    c.Cell f (Spec.rmulBaseMap b s) k (b.applyCnum (c.genus ^ k) n) (b.applyCube ((c.div ^ k : ℕ) : ℤ) x) (Spec.rmulBaseMap b sp) := by
  refine ⟨BaseMap.applyCnum_lt _ hc.lt, hc.pnum, ?_⟩
  intro t h0 h1
  have hlt := BaseMap.applyCnum_lt b hc.lt
  rw [actFn_rmul]
  have e := applyT_frac b hlt t
  rw [BaseMap.applyCnum_applyCnum _ hc.lt] at e
  push_cast at e
  rw [e]
  have hm := applyT_mem01 b h0 h1
  rw [hc.eqn _ hm.1 hm.2]
  have hN := h.div_pos
  have e2 := BaseMap.applyX_cube (K := ℝ) b ((c.div ^ k : ℕ) : ℤ) (by push_cast; positivity) x (actFn sp f (b.applyT 1 t))
  push_cast at e2 ⊢
  rw [e2, actFn_rmul]

/-- Position of a piece of pattern `p` of the full curve. -/
structure PosFor (c : FCurve d) (p : ℕ) (pos : PiecePos d) : Prop where
  div : pos.div = c.div
  cnums : ∀ i ∈ pos.cnums, i < c.genus
  cubes : pos.cubes = c.walkCubes ⟨BaseMap.idMap d, p⟩ pos.cnums

theorem PosFor.cell (h : c.Full) (hf : c.Realizes f) {s : Spec d} (hs : s.pnum < c.mult) {pos : PiecePos d} (hp : c.PosFor s.pnum pos) :
    c.Cell f s pos.depth (s.baseMap.applyCnum (c.genus ^ pos.depth) (getIntTime d c.div pos.cnums))
      (s.baseMap.applyCube ((c.div ^ pos.depth : ℕ) : ℤ) (getIntCube c.div pos.cubes))
      (Spec.rmulBaseMap s.baseMap (c.walkSpec ⟨BaseMap.idMap d, s.pnum⟩ pos.cnums)) := by
  have h1 := h.cell_walk hf (s := ⟨BaseMap.idMap d, s.pnum⟩) hs pos.cnums hp.cnums
  rw [← hp.cubes] at h1
  have h2 := h1.rotate h s.baseMap
  have e : Spec.rmulBaseMap s.baseMap ⟨BaseMap.idMap d, s.pnum⟩ = s := by
    show (⟨s.baseMap * 1, s.pnum⟩ : Spec d) = s
    rw [mul_one]
  rw [e] at h2
  exact h2

theorem Realizes.actFn_surjective (h : c.Full) (hfill : c.FillsGrid) (hf : c.Realizes f) {s : Spec d} (hs : s.pnum < c.mult) {x : Fin d → ℝ}
    (hx : ∀ j, 0 ≤ x j ∧ x j ≤ 1) : ∃ t : ℝ, 0 ≤ t ∧ t ≤ 1 ∧ actFn s f t = x := by
  obtain ⟨t, h0, h1, ht⟩ := hf.surjective h hfill hs (x := s.baseMap⁻¹.applyX 1 x) (fun j => BaseMap.applyX_mem _ hx j)
  have hm := applyT_mem01 s.baseMap h0 h1
  refine ⟨s.baseMap.applyT 1 t, hm.1, hm.2, ?_⟩
  unfold actFn
  rw [BaseMap.applyT_applyT, ht, BaseMap.applyX_applyX_inv]

/-- Geometry of a pair of pieces in the integer coordinates computed by the code. -/
structure Geom (c : FCurve d) (f : ℕ → ℝ → Fin d → ℝ) (r : Ratio) (j : Junction d) (pos1 pos2 : PiecePos d) (k : Dilation.Coords d) (n1 n2 : ℕ)
    (sp1 sp2 : Spec d) : Prop where
  mx2 : 0 < k.mx2
  mt2 : 0 < k.mt2
  mx2_pow : k.mt2 = k.mx2 ^ d
  mx : 0 < k.mx
  mt : k.mt = (c.genus : ℤ) ^ pos1.depth
  mt_pow : k.mt = k.mx ^ d
  lt1 : n1 < c.genus ^ pos1.depth
  lt2 : n2 < c.genus ^ pos2.depth
  pnum1 : sp1.pnum < c.mult
  pnum2 : sp2.pnum < c.mult
  t1 : k.t1 = n1
  t2 : k.t2 = n2 * k.mt2 + j.deltaT * (c.genus : ℤ) ^ pos1.depth
  scale : k.mt2 * (c.genus : ℤ) ^ pos2.depth = (c.genus : ℤ) ^ pos1.depth
  point1 : ∀ x : ℝ, 0 ≤ x → x ≤ 1 → ∀ i, (k.mx : ℝ) * actFn j.spec1 f ((n1 + x) / (c.genus : ℝ) ^ pos1.depth) i = k.x1 i + actFn sp1 f x i
  point2 : ∀ y : ℝ, 0 ≤ y → y ≤ 1 → ∀ i, (k.mx : ℝ) * (j.deltaX i + actFn j.spec2 f ((n2 + y) / (c.genus : ℝ) ^ pos2.depth) i) =
    k.x2 i + k.mx2 * actFn sp2 f y i
  ratio : ∀ x y : ℝ, 0 ≤ x → x ≤ 1 → 0 ≤ y → y ≤ 1 →
    j.ratio r f ((n1 + x) / (c.genus : ℝ) ^ pos1.depth) ((n2 + y) / (c.genus : ℝ) ^ pos2.depth) =
      r.val (fun i => (k.x1 i + actFn sp1 f x i) - (k.x2 i + k.mx2 * actFn sp2 f y i)) (k.t2 + k.mt2 * y - (k.t1 + x))

/-- Number of the cell of a position in the time of the fraction. -/
def cellNo (c : FCurve d) (s : Spec d) (pos : PiecePos d) : ℕ := s.baseMap.applyCnum (c.genus ^ pos.depth) (getIntTime d c.div pos.cnums)

/-- Spec of a position in the fraction. -/
def posSpec (c : FCurve d) (s : Spec d) (pos : PiecePos d) : Spec d :=
  Spec.rmulBaseMap s.baseMap (c.walkSpec ⟨BaseMap.idMap d, s.pnum⟩ pos.cnums)

theorem commonScale_eq {pos1 pos2 : PiecePos d} (hb : pos1.depth = pos2.depth ∨ pos1.depth = pos2.depth + 1) :
    ∃ m : ℕ, (m = 1 ∧ pos1.depth = pos2.depth ∨ m = pos1.div ∧ pos1.depth = pos2.depth + 1) ∧
      Dilation.commonScale pos1 pos2 = some ((m : ℤ), (m : ℤ) ^ d) := by
  unfold Dilation.commonScale
  rcases hb with hb | hb
  · exact ⟨1, Or.inl ⟨rfl, hb⟩, by rw [if_pos hb]; simp⟩
  · exact ⟨pos1.div, Or.inr ⟨rfl, hb⟩, by rw [if_neg (by omega), if_pos hb]⟩

theorem Full.geom (hr : r.Ok d) (h : c.Full) (hf : c.Realizes f) {j : Junction d} (h1 : j.spec1.pnum < c.mult) (h2 : j.spec2.pnum < c.mult)
    {pos1 pos2 : PiecePos d} (hp1 : c.PosFor j.spec1.pnum pos1) (hp2 : c.PosFor j.spec2.pnum pos2)
    (hb : pos1.depth = pos2.depth ∨ pos1.depth = pos2.depth + 1) :
    ∃ k, Dilation.coords j pos1 pos2 = some k ∧
      c.Geom f r j pos1 pos2 k (c.cellNo j.spec1 pos1) (c.cellNo j.spec2 pos2) (c.posSpec j.spec1 pos1) (c.posSpec j.spec2 pos2) := by
  obtain ⟨m, hm, hcs⟩ := commonScale_eq hb
  have c1 := hp1.cell h hf h1
  have c2 := hp2.cell h hf h2
  have hN0 : 0 < c.div := by have := h.two_le_div; omega
  have hN := h.div_pos
  have hG0 := h.genus_pos
  have hG : (0 : ℝ) < c.genus := by exact_mod_cast hG0
  have hm0 : 0 < m := by
    rcases hm with ⟨rfl, _⟩ | ⟨rfl, _⟩
    · exact one_pos
    · rw [hp1.div]; exact hN0
  have hpow : c.div ^ pos1.depth = m * c.div ^ pos2.depth := by
    rcases hm with ⟨rfl, e⟩ | ⟨rfl, e⟩
    · rw [e, one_mul]
    · rw [e, hp1.div, pow_succ]; ring
  have hgk : ∀ k : ℕ, c.genus ^ k = (c.div ^ k) ^ d := by intro k; unfold genus; rw [← pow_mul, ← pow_mul, mul_comm]
  have hgpow : m ^ d * c.genus ^ pos2.depth = c.genus ^ pos1.depth := by rw [hgk, hgk, hpow, mul_pow]
  refine ⟨{
    x1 := j.spec1.baseMap.applyCube ((c.div ^ pos1.depth : ℕ) : ℤ) (getIntCube c.div pos1.cubes)
    t1 := (c.cellNo j.spec1 pos1 : ℕ)
    x2 := fun i => j.spec2.baseMap.applyCube ((c.div ^ pos2.depth : ℕ) : ℤ) (getIntCube c.div pos2.cubes) i * m + j.deltaX i * ((c.div ^ pos1.depth : ℕ) : ℤ)
    t2 := (c.cellNo j.spec2 pos2 : ℕ) * (m : ℤ) ^ d + j.deltaT * ((c.genus ^ pos1.depth : ℕ) : ℤ)
    mx2 := m, mt2 := (m : ℤ) ^ d, mx := ((c.div ^ pos1.depth : ℕ) : ℤ), mt := ((c.genus ^ pos1.depth : ℕ) : ℤ) }, ?_, ?_⟩
  · unfold Dilation.coords PiecePos.intCoords cellNo
    simp only [hcs, hp1.div, hp2.div, Option.bind_eq_bind, Option.bind_some, Option.pure_def, ← hgk]
  · have key1 : ∀ x : ℝ, 0 ≤ x → x ≤ 1 → ∀ i, ((c.div : ℝ) ^ pos1.depth) * actFn j.spec1 f ((c.cellNo j.spec1 pos1 + x) / (c.genus : ℝ) ^ pos1.depth) i =
        j.spec1.baseMap.applyCube ((c.div ^ pos1.depth : ℕ) : ℤ) (getIntCube c.div pos1.cubes) i + actFn (c.posSpec j.spec1 pos1) f x i := by
      intro x x0 x1 i
      have := congrFun (c1.eqn x x0 x1) i
      unfold cellNo posSpec
      rw [this]
      field_simp
    have key2 : ∀ y : ℝ, 0 ≤ y → y ≤ 1 → ∀ i, ((c.div : ℝ) ^ pos1.depth) * (j.deltaX i + actFn j.spec2 f ((c.cellNo j.spec2 pos2 + y) / (c.genus : ℝ) ^ pos2.depth) i) =
        ((j.spec2.baseMap.applyCube ((c.div ^ pos2.depth : ℕ) : ℤ) (getIntCube c.div pos2.cubes) i * m + j.deltaX i * ((c.div ^ pos1.depth : ℕ) : ℤ) : ℤ) : ℝ) +
          m * actFn (c.posSpec j.spec2 pos2) f y i := by
      intro y y0 y1 i
      have := congrFun (c2.eqn y y0 y1) i
      unfold cellNo posSpec
      rw [this]
      have hp : ((c.div : ℝ) ^ pos1.depth) = m * (c.div : ℝ) ^ pos2.depth := by exact_mod_cast hpow
      push_cast
      rw [hp]
      field_simp
      ring
    have hgp : (m : ℝ) ^ d * (c.genus : ℝ) ^ pos2.depth = (c.genus : ℝ) ^ pos1.depth := by exact_mod_cast hgpow
    refine ⟨by show (0 : ℤ) < (m : ℤ); exact_mod_cast hm0, by show (0 : ℤ) < (m : ℤ) ^ d; positivity, rfl, by show (0 : ℤ) < ((c.div ^ pos1.depth : ℕ) : ℤ); positivity,
      by show ((c.genus ^ pos1.depth : ℕ) : ℤ) = _; push_cast; rfl, by show ((c.genus ^ pos1.depth : ℕ) : ℤ) = ((c.div ^ pos1.depth : ℕ) : ℤ) ^ d; exact_mod_cast hgk pos1.depth, c1.lt, c2.lt, c1.pnum, c2.pnum, rfl, by push_cast; rfl,
      by show (m : ℤ) ^ d * (c.genus : ℤ) ^ pos2.depth = (c.genus : ℤ) ^ pos1.depth; exact_mod_cast hgpow, ?_, ?_, ?_⟩
    · intro x x0 x1 i
      have := key1 x x0 x1 i
      push_cast at this ⊢
      exact this
    · intro y y0 y1 i
      have := key2 y y0 y1 i
      push_cast at this ⊢
      exact this
    · intro x y x0 x1 y0 y1
      have hP : (0 : ℝ) < (c.div : ℝ) ^ pos1.depth := by positivity
      unfold Junction.ratio
      conv_lhs => rw [← Ratio.val_smul r hr hP]
      congr 1
      · funext i
        rw [mul_sub, key1 x x0 x1, key2 y y0 y1]
        push_cast
        ring
      · have e : ((c.div : ℝ) ^ pos1.depth) ^ d = (c.genus : ℝ) ^ pos1.depth := by exact_mod_cast (hgk pos1.depth).symm
        rw [e]
        push_cast
        have hg2 : (0 : ℝ) < (c.genus : ℝ) ^ pos2.depth := by positivity
        have hm0' : (0 : ℝ) < m := by exact_mod_cast hm0
        rw [← hgp]
        field_simp
        ring

end FCurve
end Peano
