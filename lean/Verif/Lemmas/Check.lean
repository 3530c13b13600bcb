import Verif.Lemmas.Realize
import Mathlib.Data.List.Chain

/- `Curve.get_paths` and `Curve.check`. -/
namespace Peano
variable {d : ℕ}

theorem applyX_cast (b : BaseMap d) (q : Fin d → ℚ) (j : Fin d) : ((b.applyX 1 q j : ℚ) : ℝ) = b.applyX 1 (fun i => (q i : ℝ)) j := by
  unfold BaseMap.applyX; split <;> simp

section paths
variable {S : Type} [SubsetOps S d]

/-- Relation between consecutive (cube, link) pairs for point links. -/
def LinkGlue (x y : Cube d × Link (Point d)) : Prop := x.2.exit = Point.shift y.2.entrance fun j => y.1 j - x.1 j

instance (x y : Cube d × Link (Point d)) : Decidable (LinkGlue x y) := by unfold LinkGlue; infer_instance

theorem continuousLoop_eq (rest : List (Cube d × Link (Point d))) (pc : Cube d) (pl : Link (Point d)) :
    ∃ b, Path.continuousLoop pc pl (rest.map fun x => (some x.1, x.2)) = some b ∧ (b = true ↔ List.IsChain LinkGlue ((pc, pl) :: rest)) := by
  induction rest generalizing pc pl with
  | nil => exact ⟨true, rfl, by simp⟩
  | cons x rest ih =>
    obtain ⟨b, hb1, hb2⟩ := ih x.1 x.2
    by_cases h : LinkGlue (pc, pl) x
    · refine ⟨b, ?_, ?_⟩
      · simp only [List.map_cons, Path.continuousLoop, Option.bind_eq_bind, Option.bind_some]
        rw [show SubsetOps.shift x.2.entrance (fun j => x.1 j - pc j) = some (Point.shift x.2.entrance fun j => x.1 j - pc j) from rfl]
        simp only [Option.bind_some]
        rw [if_pos, hb1]
        exact decide_eq_true h
      · rw [hb2, List.isChain_cons_cons]; simp [h]
    · refine ⟨false, ?_, ?_⟩
      · simp only [List.map_cons, Path.continuousLoop, Option.bind_eq_bind, Option.bind_some]
        rw [show SubsetOps.shift x.2.entrance (fun j => x.1 j - pc j) = some (Point.shift x.2.entrance fun j => x.1 j - pc j) from rfl]
        simp only [Option.bind_some]
        rw [if_neg]
        · rfl
        · exact fun h' => h (of_decide_eq_true h')
      · simp only [Bool.false_eq_true, false_iff]
        rw [List.isChain_cons_cons]; exact fun h' => h h'.1

theorem isContinuous_eq {p : Path (Point d) d} {cubes : List (Cube d)} (hp : p.proto = cubes.map some) (hne : cubes ≠ [])
    (hl : p.links.length = cubes.length) :
    ∃ b, p.isContinuous = some b ∧ (b = true ↔ List.IsChain LinkGlue (cubes.zip p.links)) := by
  obtain ⟨dv, proto, links, link⟩ := p
  simp only at hp hl ⊢
  subst hp
  cases cubes with
  | nil => simp at hne
  | cons c0 cubes =>
    cases links with
    | nil => simp at hl
    | cons l0 links =>
      obtain ⟨b, hb1, hb2⟩ := continuousLoop_eq (cubes.zip links) c0 l0
      refine ⟨b, ?_, by rw [hb2, List.zip_cons_cons]⟩
      unfold Path.isContinuous
      simp only [List.map_cons, List.head?_cons, List.tail_cons, Option.bind_eq_bind, Option.bind_some]
      rw [← hb1]
      congr 1
      rw [List.zip_map_left]
      rfl

theorem foldlM_all {α : Type} {f : α → Option Bool} {l : List α} {b : α → Bool} (h : ∀ a ∈ l, f a = some (b a)) (b0 : Bool) :
    l.foldlM (fun ok p => if ok then f p else some false) b0 = some (b0 && l.all b) := by
  induction l generalizing b0 with
  | nil => simp
  | cons a l ih =>
    have h1 := h a List.mem_cons_self
    have h2 := ih (fun x hx => h x (List.mem_cons_of_mem _ hx))
    cases b0
    · simp only [List.foldlM_cons, Bool.false_eq_true, if_false, Option.bind_eq_bind, Option.bind_some, h2, Bool.false_and]
    · simp only [List.foldlM_cons, if_true, h1, Option.bind_eq_bind, Option.bind_some, h2, Bool.true_and, List.all_cons]

end paths

namespace FCurve
variable {c : FCurve d}

theorem Full.pattern_proto (h : c.Full) {p : ℕ} {pat : Pattern d} (hp : c.patterns[p]? = some pat) :
    pat.proto = ((List.range c.genus).map fun i => c.cubeD p i).map some := by
  have hpm : p < c.mult := (List.getElem?_eq_some_iff.1 hp).1
  have hl := h.proto_length pat (List.mem_of_getElem? hp)
  apply List.ext_getElem?
  intro i
  by_cases hi : i < c.genus
  · have := h.cube_eq hpm hi
    unfold cube? Proto.cube? at this
    rw [hp] at this
    simp only [Option.bind_some] at this
    rw [List.getElem?_eq_getElem (by omega)] at this ⊢
    simp only [Option.join_some] at this
    simp [hi, this]
  · rw [List.getElem?_eq_none (by omega), List.getElem?_eq_none (by simp; omega)]

theorem Full.pattern_specs (h : c.Full) {p : ℕ} {pat : Pattern d} (hp : c.patterns[p]? = some pat) :
    pat.specs = ((List.range c.genus).map fun i => c.specD p i).map some := by
  have hpm : p < c.mult := (List.getElem?_eq_some_iff.1 hp).1
  have hl := h.specs_length pat (List.mem_of_getElem? hp)
  apply List.ext_getElem?
  intro i
  by_cases hi : i < c.genus
  · have := h.spec_eq hpm hi
    unfold spec? at this
    rw [hp] at this
    simp only [Option.bind_some] at this
    rw [List.getElem?_eq_getElem (by omega)] at this ⊢
    simp only [Option.join_some] at this
    simp [hi, this]
  · rw [List.getElem?_eq_none (by omega), List.getElem?_eq_none (by simp; omega)]

/-- The rational end points found by the code. -/
theorem Full.exists_gates (h : c.Full) {g : Bool → ℕ → Fin d → ℝ} (hg : c.EndEqs g) :
    ∃ Q : Bool → ℕ → Point d, (∀ p < c.mult, c.getEntrance p = some (Q false p) ∧ c.getExit p = some (Q true p)) ∧
      ∀ last, ∀ p < c.mult, ∀ j, (Q last p j : ℝ) = g last p j := by
  have key : ∀ last p, ∃ q : Point d, p < c.mult → c.getCubeLimit p (endIdx c.genus last) = some q ∧ ∀ j, (q j : ℝ) = g last p j := by
    intro last p
    by_cases hp : p < c.mult
    · obtain ⟨q, hq⟩ := getCubeLimit_spec h.gates hg hp last
      exact ⟨q, fun _ => hq⟩
    · exact ⟨0, fun h => absurd h hp⟩
  choose Q hQ using key
  exact ⟨Q, fun p hp => ⟨(hQ false p hp).1, (hQ true p hp).1⟩, fun last p hp => (hQ last p hp).2⟩

/-- Global link of a pattern. -/
def gateLink (Q : Bool → ℕ → Point d) (p : ℕ) : Link (Point d) := ⟨Q false p, Q true p⟩

/-- What `get_paths` returns. -/
theorem Full.getPaths_eq (h : c.Full) {Q : Bool → ℕ → Point d}
    (hQ : ∀ p < c.mult, c.getEntrance p = some (Q false p) ∧ c.getExit p = some (Q true p)) :
    ∃ paths, c.getPaths = some paths ∧ paths.length = c.mult ∧ ∀ p (path : Path (Point d) d), paths[p]? = some path →
      path.div = c.div ∧ path.proto = ((List.range c.genus).map fun i => c.cubeD p i).map some ∧
      path.links = (List.range c.genus).map (fun i => Link.act (c.specD p i).baseMap (gateLink Q (c.specD p i).pnum)) ∧
      Path.make c.div path.proto path.links = some path := by
  have hlinks : (List.range c.mult).mapM (fun pnum => do
      let entr ← c.getEntrance pnum
      let exit ← c.getExit pnum
      return (⟨entr, exit⟩ : Link (Point d))) = some ((List.range c.mult).map (gateLink Q)) := by
    apply mapM_eq_some_map
    intro p hp
    have := hQ p (List.mem_range.1 hp)
    rw [this.1, this.2]; rfl
  have hpl : ∀ p (pat : Pattern d), c.patterns[p]? = some pat →
      pat.specs.mapM (fun s => do
        let s ← s
        let l ← ((List.range c.mult).map (gateLink Q))[s.pnum]?
        return Link.act s.baseMap l) =
      some ((List.range c.genus).map fun i => Link.act (c.specD p i).baseMap (gateLink Q (c.specD p i).pnum)) := by
    intro p pat hp
    have hpm : p < c.mult := (List.getElem?_eq_some_iff.1 hp).1
    rw [h.pattern_specs hp, mapM_eq_some, List.map_map, List.forall₂_map_left_iff, List.forall₂_map_right_iff, List.forall₂_same]
    intro i hi
    have := h.specD_lt hpm (List.mem_range.1 hi)
    simp [this]
  have hmake : ∀ p (pat : Pattern d), c.patterns[p]? = some pat → ∃ path, (do
        let patternLinks ← pat.specs.mapM fun s => do
          let s ← s
          let l ← ((List.range c.mult).map (gateLink Q))[s.pnum]?
          return Link.act s.baseMap l
        Path.make c.div pat.proto patternLinks) = some path ∧
      path.div = c.div ∧ path.proto = ((List.range c.genus).map fun i => c.cubeD p i).map some ∧
      path.links = (List.range c.genus).map (fun i => Link.act (c.specD p i).baseMap (gateLink Q (c.specD p i).pnum)) ∧
      Path.make c.div path.proto path.links = some path := by
    intro p pat hp
    have hpm : p < c.mult := (List.getElem?_eq_some_iff.1 hp).1
    rw [hpl p pat hp, h.pattern_proto hp]
    have hG := h.genus_pos
    have hdiv : c.div ≠ 0 := by have := h.two_le_div; omega
    obtain ⟨G, hGe⟩ : ∃ G, c.genus = G + 1 := ⟨c.genus - 1, by omega⟩
    have hm : ∀ (s : Point d) (cube : Cube d), SubsetOps.mapToCube s c.div cube = some (Point.scale (Point.shift s cube) (1 / c.div)) := by
      intro s cube
      show Point.mapToCube s c.div cube = _
      simp [Point.mapToCube, hdiv]
    cases hmk : Path.make c.div (((List.range c.genus).map fun i => c.cubeD p i).map some)
        ((List.range c.genus).map fun i => Link.act (c.specD p i).baseMap (gateLink Q (c.specD p i).pnum)) with
    | none =>
      exfalso
      unfold Path.make at hmk
      simp [hGe, List.head?_range, List.getLast?_range, hm] at hmk
    | some path =>
      refine ⟨path, hmk, ?_⟩
      have hmk' := hmk
      unfold Path.make at hmk'
      simp [hGe, List.head?_range, List.getLast?_range, hm] at hmk'
      subst hmk'
      simp only [← hGe] at hmk ⊢
      exact ⟨trivial, by simp, trivial, by simpa using hmk⟩
  have hall : ∀ pat ∈ c.patterns, ((do
        let patternLinks ← pat.specs.mapM fun s => do
          let s ← s
          let l ← ((List.range c.mult).map (gateLink Q))[s.pnum]?
          return Link.act s.baseMap l
        Path.make c.div pat.proto patternLinks) : Option (Path (Point d) d)).isSome := by
    intro pat hpat
    obtain ⟨p, hp⟩ := List.mem_iff_getElem?.1 hpat
    obtain ⟨path, h1, _⟩ := hmake p pat hp
    rw [h1]; rfl
  obtain ⟨paths, hpaths⟩ := Option.isSome_iff_exists.1 (mapM_isSome_iff.2 hall)
  have hf2 := mapM_eq_some.1 hpaths
  refine ⟨paths, ?_, ?_, ?_⟩
  · unfold getPaths
    rw [hlinks]
    exact hpaths
  · exact hf2.length_eq.symm
  · intro p path hp
    obtain ⟨pat, hpat, hrel⟩ := forall₂_getElem? hf2 p path hp
    obtain ⟨path', h1, h2⟩ := hmake p pat hpat
    rw [hrel] at h1
    cases h1
    exact h2

theorem act_link_exit {Q : Bool → ℕ → Point d} {g : Bool → ℕ → Fin d → ℝ} {s : Spec d} (hQ : ∀ last, ∀ j, (Q last s.pnum j : ℝ) = g last s.pnum j)
    (j : Fin d) : ((Link.act s.baseMap (gateLink Q s.pnum)).exit j : ℝ) = endPt g true s j ∧
      ((Link.act s.baseMap (gateLink Q s.pnum)).entrance j : ℝ) = endPt g false s j := by
  have e : ∀ last, (fun i => (Q last s.pnum i : ℝ)) = g last s.pnum := fun last => funext (hQ last)
  unfold Link.act endPt gateLink
  have hact : ∀ q : Point d, SubsetOps.act s.baseMap q = s.baseMap.applyX 1 q := fun _ => rfl
  by_cases h : s.baseMap.timeRev = true
  · simp only [h, if_true, hact, applyX_cast, e]; exact ⟨rfl, rfl⟩
  · simp only [h, if_false, hact, applyX_cast, e, Bool.false_eq_true]
    simp [h]

/-- `check()` compares the end points of consecutive fractions. -/
theorem Full.check_spec (h : c.Full) {g : Bool → ℕ → Fin d → ℝ} (hg : c.EndEqs g) :
    ∃ b, c.check = some b ∧ (b = true ↔ ∀ p < c.mult, ∀ i, i + 1 < c.genus → ∀ j,
      (c.cubeD p i j : ℝ) + endPt g true (c.specD p i) j = c.cubeD p (i + 1) j + endPt g false (c.specD p (i + 1)) j) := by
  obtain ⟨Q, hQ1, hQ2⟩ := h.exists_gates hg
  obtain ⟨paths, hp1, hp2, hp3⟩ := h.getPaths_eq hQ1
  have hcont : ∀ path ∈ paths, ∃ b, path.isContinuous = some b := by
    intro path hmem
    obtain ⟨p, hp⟩ := List.mem_iff_getElem?.1 hmem
    obtain ⟨_, ha, hb, _⟩ := hp3 p path hp
    obtain ⟨b, hb1, _⟩ := isContinuous_eq ha (by have := h.genus_pos; simp; omega) (by rw [hb]; simp)
    exact ⟨b, hb1⟩
  refine ⟨paths.all fun path => path.isContinuous.getD false, ?_, ?_⟩
  · unfold check
    rw [hp1]
    simp only [Option.bind_eq_bind, Option.bind_some]
    rw [foldlM_all (b := fun path => path.isContinuous.getD false)]
    · simp
    · intro path hmem
      obtain ⟨b, hb⟩ := hcont path hmem
      rw [hb]; rfl
  · rw [List.all_eq_true]
    have hpath : ∀ p (path : Path (Point d) d), paths[p]? = some path → (path.isContinuous.getD false = true ↔ ∀ i, i + 1 < c.genus → ∀ j,
        (c.cubeD p i j : ℝ) + endPt g true (c.specD p i) j = c.cubeD p (i + 1) j + endPt g false (c.specD p (i + 1)) j) := by
      intro p path hp
      have hpm : p < c.mult := by rw [← hp2]; exact (List.getElem?_eq_some_iff.1 hp).1
      obtain ⟨_, ha, hb, _⟩ := hp3 p path hp
      obtain ⟨b, hb1, hb2⟩ := isContinuous_eq ha (by have := h.genus_pos; simp; omega) (by rw [hb]; simp)
      rw [hb1, Option.getD_some, hb2, hb, List.isChain_iff_getElem]
      have hlen : (((List.range c.genus).map fun i => c.cubeD p i).zip ((List.range c.genus).map
        (fun i => Link.act (c.specD p i).baseMap (gateLink Q (c.specD p i).pnum)))).length = c.genus := by simp
      simp only [hlen, List.getElem_zip, List.getElem_map, List.getElem_range]
      apply forall_congr'
      intro i
      apply forall_congr'
      intro hi
      unfold LinkGlue
      rw [funext_iff]
      apply forall_congr'
      intro j
      simp only [Point.shift]
      rw [← Rat.cast_inj (α := ℝ)]
      push_cast
      rw [(act_link_exit (fun last j => hQ2 last _ (h.specD_lt hpm (by omega)) j) j).1,
        (act_link_exit (fun last j => hQ2 last _ (h.specD_lt hpm hi) j) j).2]
      constructor <;> intro he <;> linarith
    constructor
    · intro hall p hp
      have hlt : p < paths.length := by omega
      have hget := List.getElem?_eq_getElem hlt
      exact (hpath p _ hget).1 (hall _ (List.getElem_mem hlt))
    · intro hall path hmem
      obtain ⟨p, hp⟩ := List.mem_iff_getElem?.1 hmem
      have hpm : p < c.mult := by rw [← hp2]; exact (List.getElem?_eq_some_iff.1 hp).1
      exact (hpath p path hp).2 (hall p hpm)

/-- Every fully specified curve has end points satisfying the end equations. -/
theorem Full.halfOpen_endEqs (h : c.Full) : ∃ f : ℕ → ℝ → Fin d → ℝ,
    (∀ p < c.mult, ∀ t : ℝ, 0 ≤ t → t ≤ 1 → f p t ∈ unitCube d) ∧
    (∀ p < c.mult, ∀ i < c.genus, ∀ t : ℝ, 0 ≤ t → (t < 1 ∨ (i = c.genus - 1 ∧ t = 1)) →
      f p ((i + t) / c.genus) = fun j => (c.cubeD p i j + actFn (c.specD p i) f t j) / c.div) ∧
    c.EndEqs fun last p => f p (if last then 1 else 0) := by
  obtain ⟨f, hf1, hf2⟩ := h.exists_halfOpen
  have hG : (0 : ℝ) < c.genus := by exact_mod_cast h.genus_pos
  have hends : c.EndEqs fun last p => f p (if last then 1 else 0) := by
    intro last p cube s hcube hsp
    have hp := cube?_lt hcube
    have hi := endIdx_lt h.genus_pos last
    rw [h.cube_eq hp hi] at hcube
    rw [h.spec_eq hp hi] at hsp
    cases hcube; cases hsp
    have := hf2 p hp _ hi (if last then 1 else 0) (by split <;> norm_num) (by cases last <;> simp [endIdx])
    have ht : (((endIdx c.genus last : ℕ) : ℝ) + (if last then 1 else 0)) / c.genus = if last then 1 else 0 := by
      cases last
      · simp [endIdx]
      · simp only [endIdx, if_true]
        rw [Nat.cast_sub h.genus_pos]
        field_simp
        push_cast
        ring
    rw [ht] at this
    simp only [this]
    funext j
    congr 2
    unfold endPt actFn BaseMap.applyT
    by_cases hr : (c.specD p (endIdx c.genus last)).baseMap.timeRev = true <;> cases last <;> simp [hr]
  exact ⟨f, hf1, hf2, hends⟩

theorem Full.exists_endEqs (h : c.Full) : ∃ g, c.EndEqs g := by
  obtain ⟨f, _, _, h3⟩ := h.halfOpen_endEqs
  exact ⟨_, h3⟩

/-- Successful check: the curve is realized. -/
theorem Full.realizes_of_check (h : c.Full) (hc : c.check = some true) : ∃ f, c.Realizes f := by
  obtain ⟨f, hf1, hf2, hends⟩ := h.halfOpen_endEqs
  obtain ⟨b, hb1, hb2⟩ := h.check_spec hends
  rw [hc] at hb1
  cases hb1
  have hglue := hb2.1 rfl
  refine ⟨f, hf1, ?_⟩
  intro p i cube s hcube hsp t h0 h1
  have hp := cube?_lt hcube
  have hi := h.cube?_lt_genus hcube
  rw [h.cube_eq hp hi] at hcube
  rw [h.spec_eq hp hi] at hsp
  cases hcube; cases hsp
  by_cases ht : t < 1 ∨ (i = c.genus - 1 ∧ t = 1)
  · exact hf2 p hp i hi t h0 ht
  · push Not at ht
    have ht1 : t = 1 := le_antisymm h1 ht.1
    subst ht1
    have hi' : i + 1 < c.genus := by
      have : i ≠ c.genus - 1 := fun hh => ht.2 hh rfl
      omega
    have e := hf2 p hp (i + 1) hi' 0 le_rfl (Or.inl zero_lt_one)
    have e0 : ((i : ℝ) + 1) / c.genus = (((i + 1 : ℕ) : ℝ) + 0) / c.genus := by push_cast; ring
    rw [e0, e]
    funext j
    have := hglue p hp i hi' j
    congr 1
    have a1 : actFn (c.specD p i) f 1 = endPt (fun last p => f p (if last then 1 else 0)) true (c.specD p i) := by
      unfold endPt actFn BaseMap.applyT
      by_cases hr : (c.specD p i).baseMap.timeRev = true <;> simp [hr]
    have a2 : actFn (c.specD p (i + 1)) f 0 = endPt (fun last p => f p (if last then 1 else 0)) false (c.specD p (i + 1)) := by
      unfold endPt actFn BaseMap.applyT
      by_cases hr : (c.specD p (i + 1)).baseMap.timeRev = true <;> simp [hr]
    rw [a1, a2, this]

/-- A realized curve passes the check. -/
theorem Full.check_of_realizes (h : c.Full) {f : ℕ → ℝ → Fin d → ℝ} (hf : c.Realizes f) : c.check = some true := by
  obtain ⟨b, hb1, hb2⟩ := h.check_spec (hf.endEqs h.toShape)
  rw [hb1]
  congr 1
  rw [hb2]
  intro p hp i hi j
  have e1 := hf.eqnD h hp (by omega : i < c.genus) zero_le_one le_rfl
  have e2 := hf.eqnD h hp hi le_rfl zero_le_one
  have e0 : ((i : ℝ) + 1) / c.genus = (((i + 1 : ℕ) : ℝ) + 0) / c.genus := by push_cast; ring
  rw [e0, e2] at e1
  have := congrFun e1 j
  have a1 : actFn (c.specD p i) f 1 = endPt (fun last p => f p (if last then 1 else 0)) true (c.specD p i) := by
    unfold endPt actFn BaseMap.applyT
    by_cases hr : (c.specD p i).baseMap.timeRev = true <;> simp [hr]
  have a2 : actFn (c.specD p (i + 1)) f 0 = endPt (fun last p => f p (if last then 1 else 0)) false (c.specD p (i + 1)) := by
    unfold endPt actFn BaseMap.applyT
    by_cases hr : (c.specD p (i + 1)).baseMap.timeRev = true <;> simp [hr]
  simp only [a1, a2] at this
  have hd := h.div_pos
  field_simp at this
  linarith

end FCurve
end Peano
