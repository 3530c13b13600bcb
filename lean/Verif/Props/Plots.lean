import Verif.Lemmas.Plots
import Verif.Props.Subdivision
import Verif.Lemmas.Valid
import Verif.Model.Zoo

set_option autoImplicit false

/-
Property C72: pictures of curves.
-/
namespace Peano
namespace Plot
variable {d : ℕ}

open FCurve

/-- The text near a cube of the prototype: the name of the pattern that the fraction is a copy of, with a bar if time is reversed. -/
def textAt (cube : Cube d) (div : ℕ) (s : Spec d) : Pt d × String :=
  (fun j => ((cube j : ℚ) + 37 / 100) / (div : ℚ), if s.baseMap.timeRev then "$\\overline{\\mathrm{" ++ nameOf s.pnum ++ "}}$" else nameOf s.pnum)

/-- The picture shows pattern `p` of the curve, refined by the subdivision `fine` with `G` cubes per fraction. -/
structure Shows (c fine : FCurve d) (separate : Bool) (G p : ℕ) (pic : Picture d) : Prop where
  /-- the fractions are drawn through the centres of the cubes of the finer curve, in the order of the curve -/
  fractions : ∃ x : ℕ → Pt d, (∀ n < fine.genus, IsCentre fine p n (x n)) ∧ fine.genus = c.genus * G ∧
    ShowsFractions c G p x (linesIn .fraction (pic.items (detailAxis separate p))) (linesIn .connection (pic.items (detailAxis separate p)))
  /-- the prototype is drawn through the centres of the cubes of the curve, in the order of the curve -/
  proto : ∃ y : ℕ → Pt d, (∀ n < c.genus, IsCentre c p n (y n)) ∧ ∃ arrow, IsArrow (y (c.genus - 2)) (y (c.genus - 1)) arrow ∧
    linesIn .proto (pic.items (globAxis separate p)) =
      [⟨.proto, if separate then colorOf p else "gray", (List.range c.genus).map y ++ arrow⟩]
  /-- names of patterns are shown if there are several ones -/
  texts : (textsOf (pic.items (globAxis separate p))).length = if c.mult > 1 then c.genus else 0
  text : c.mult > 1 → ∀ i < c.genus, ∀ cube s, c.cube? p i = some cube → c.spec? p i = some s →
    (textsOf (pic.items (globAxis separate p)))[i]? = some (textAt cube c.div s)
  title : (pic.axes[globAxis separate p]?).map (·.title) = some (if c.mult > 1 then some ("pattern (" ++ nameOf p ++ ")") else none)
  /-- separate axes show only the prototype or only the fractions -/
  only : separate = true → (linesOf (pic.items (globAxis separate p))).length = 1 ∧ textsOf (pic.items (detailAxis separate p)) = [] ∧
    linesIn .proto (pic.items (detailAxis separate p)) = []

theorem exists_coarse {c : FCurve d} (hk : c.kind = .curve) (h : c.Full) (k : ℕ) :
    ∃ s s', c.getSubdivision k = some s ∧ c.getSubdivision (k + 1) = some s' ∧ IsRefine c s s' := by
  refine ⟨_, _, subdivision_cells hk h k, subdivision_cells hk h (k + 1), ?_⟩
  have := (h.good.refineIter k).isRefine (pn := c.pnum) (pn' := c.pnum) (k := .curve) (k' := c.kind) h.good (by simp)
  rw [← h.eq_ofCells] at this
  have e1 : refineAll (c.div ^ (k + 1)) (refineIter c.div c.cells k) c.cells = refineIter c.div c.cells (k + 1) := by
    rw [refineAll_refineIter, refineIter_eq]
  rw [e1, ← pow_succ'] at this
  exact this

theorem axes_eq {m : ℕ} (hm : m ≤ 4) (separate : Bool) : axes m separate = some ((List.range m).flatMap fun p =>
    if separate then [(⟨m, 2, p + 1, if m > 1 then some ("pattern (" ++ nameOf p ++ ")") else none⟩ : Axis), ⟨m, 2, p + 1 + m, none⟩]
    else [⟨m, 1, p + 1, if m > 1 then some ("pattern (" ++ nameOf p ++ ")") else none⟩]) := by
  unfold axes
  rw [mapM_eq_some_map (g := fun p => if separate then
    [(⟨m, 2, p + 1, if m > 1 then some ("pattern (" ++ nameOf p ++ ")") else none⟩ : Axis), ⟨m, 2, p + 1 + m, none⟩]
    else [⟨m, 1, p + 1, if m > 1 then some ("pattern (" ++ nameOf p ++ ")") else none⟩])]
  · rw [List.flatMap_def]; rfl
  · intro p hp
    rw [List.mem_range] at hp
    by_cases h1 : m > 1
    · simp [h1, names_eq (show p < 4 by omega)]
    · simp [h1]

/-- C72. `plot_curve` of a curve in dimension 2 or 3 with at most four patterns does not fail for any number of subdivisions, and the picture
shows the curve: the positions of axes in the figure are different and exist; for every pattern, the fractions are drawn as lines through the centres
of the cubes of the subdivided curve in the order in which the curve visits them, connected with each other and with an arrow at the end, and the
prototype is drawn through the centres of the cubes of the curve. -/
theorem C72_picture (c : FCurve d) (hk : c.kind = .curve) (h : c.Full) (hf : c.FillsGrid) (hd : d = 2 ∨ d = 3) (hm : c.mult ≤ 4) (separate : Bool)
    (k : ℕ) :
    ∃ pic fine, plotCurve c separate k = some pic ∧ c.getSubdivision (k + 1) = some fine ∧
      pic.axes.length = (if separate then 2 * c.mult else c.mult) ∧ (pic.axes.map (·.index)).Nodup ∧
      (∀ a ∈ pic.axes, 1 ≤ a.index ∧ a.index ≤ a.rows * a.cols ∧ a.rows = c.mult ∧ a.cols = if separate then 2 else 1) ∧
      ∀ p < c.mult, Shows c fine separate (c.genus ^ (k + 1)) p pic := by
  obtain ⟨sub, fine, h1, h2, hr⟩ := exists_coarse hk h k
  have hd2 : 2 ≤ d := by omega
  have hGc := genus_ge h hd2
  have hGs := genus_ge hr.full.2.1 hd2
  have hff : fine.FillsGrid := by
    obtain ⟨c', e1, _, _, _, _, _, e2⟩ := C16_subdivision c hk h (k + 1)
    rw [h2] at e1
    cases e1
    exact e2 hf
  have hsg : sub.genus = c.genus ^ (k + 1) := by
    obtain ⟨c', e1, e3, _⟩ := C16_subdivision c hk h k
    rw [h1] at e1
    cases e1
    unfold FCurve.genus
    rw [e3, ← pow_mul, ← pow_mul, Nat.mul_comm]
  have hfg : fine.genus = c.genus * sub.genus := by
    unfold FCurve.genus
    rw [hr.div, Nat.mul_pow]
  have hfm : fine.mult = c.mult := by rw [hr.mult.2, hr.mult.1]
  have hbig : 4 ≤ c.genus * sub.genus := by nlinarith
  have ha : ∀ p < c.mult, ∃ l, getArr (centre fine p (c.genus * sub.genus - 2)) (centre fine p (c.genus * sub.genus - 1)) = some l ∧
      IsArrow (centre fine p (c.genus * sub.genus - 2)) (centre fine p (c.genus * sub.genus - 1)) l := fun p hp =>
    getArr_eq hd (centre_ne hr.full.2.2 hff (by omega) (by omega) (by omega) (by omega))
  have hb : ∀ p < c.mult, ∃ l, getArr (centre c p (c.genus - 2)) (centre c p (c.genus - 1)) = some l ∧
      IsArrow (centre c p (c.genus - 2)) (centre c p (c.genus - 1)) l := fun p hp =>
    getArr_eq hd (centre_ne h hf hp (by omega) (by omega) (by omega))
  choose! arr harr1 harr2 using ha
  choose! arr' hb1 hb2 using hb
  let glob : ℕ → List (Item d) := fun p => (List.range c.genus).flatMap (textOf c p) ++
    [.line ⟨.proto, if separate then colorOf p else "gray", (List.range c.genus).map (centre c p) ++ arr' p⟩]
  let detail : ℕ → List (Item d) := fun p =>
    (List.range c.genus).flatMap fun i => (connOf c fine sub.genus p i ++ [fracOf c fine sub.genus p (arr p) i]).map .line
  have hitems : ((enumFrom 0 c.patterns).mapM fun x => patternItems c sub separate x.1 x.2) =
      some ((List.range c.mult).map fun p => (glob p, detail p)) := by
    rw [enumFrom_eq, mapM_eq_some, List.forall₂_iff_get]
    refine ⟨by simp [FCurve.mult], ?_⟩
    intro i hi1 hi2
    have hi : i < c.mult := by simpa using hi2
    have hi' : i < c.patterns.length := hi
    simp only [List.get_eq_getElem, List.getElem_zipWith, List.getElem_range, List.getElem_map, Nat.zero_add]
    exact patternItems_eq hr hm (List.getElem?_eq_getElem hi') hd2 (harr1 i hi) (hb1 i hi) separate
  have hsub : (if k ≠ 0 then c.getSubdivision k else some c) = some sub := by
    by_cases hk0 : k = 0
    · subst hk0
      simpa [getSubdivision] using h1
    · simp [hk0, h1]
  have hplot : plotCurve c separate k = some ⟨(List.range c.mult).flatMap fun p =>
    if separate then [(⟨c.mult, 2, p + 1, if c.mult > 1 then some ("pattern (" ++ nameOf p ++ ")") else none⟩ : Axis), ⟨c.mult, 2, p + 1 + c.mult, none⟩]
    else [⟨c.mult, 1, p + 1, if c.mult > 1 then some ("pattern (" ++ nameOf p ++ ")") else none⟩],
      itemsAt separate ((List.range c.mult).map fun p => (glob p, detail p))⟩ := by
    unfold plotCurve
    rw [if_neg (show ¬ d > 3 by omega), axes_eq hm]
    simp only [Option.bind_eq_bind, Option.bind_some] at hitems ⊢
    by_cases hk0 : k = 0
    · subst hk0
      simp only [ne_eq, not_true_eq_false, if_false, Option.some.injEq] at hsub
      have e : ∀ i pat, patternItems c c separate i pat = patternItems c sub separate i pat := by intro i pat; rw [← hsub]
      simp only [ne_eq, not_true_eq_false, if_false, e, Option.bind_some, hitems, Option.pure_def]
    · simp only [ne_eq, hk0, not_false_eq_true, if_true, h1, Option.bind_some, hitems, Option.pure_def]
  refine ⟨_, fine, hplot, h2, ?_, ?_, ?_, ?_⟩
  · by_cases hs : separate = true
    · simp only [hs, if_true]
      rw [length_flatMap_const (G := 2) _ (by simp), List.length_range, Nat.mul_comm]
    · simp only [hs]
      simp only [Bool.false_eq_true, if_false]
      rw [length_flatMap_const (G := 1) _ (by simp), List.length_range, Nat.mul_one]
  · rw [List.map_flatMap]
    by_cases hs : separate = true
    · simp only [hs, if_true, List.map_cons, List.map_nil]
      rw [List.nodup_flatMap]
      constructor
      · intro p hp
        rw [List.mem_range] at hp
        simp
        omega
      · apply List.Pairwise.imp_of_mem _ List.nodup_range
        intro a b ha hb hab
        rw [List.mem_range] at ha hb
        simp [Function.onFun, List.disjoint_left]
        omega
    · simp only [hs]
      simp only [Bool.false_eq_true, if_false, List.map_cons, List.map_nil]
      rw [← List.map_eq_flatMap]
      exact List.nodup_range.map (fun a b hab => by simpa using hab)
  · intro a ha'
    rw [List.mem_flatMap] at ha'
    obtain ⟨p, hp, ha'⟩ := ha'
    rw [List.mem_range] at hp
    by_cases hs : separate = true
    · simp only [hs, if_true, List.mem_cons, List.not_mem_nil, or_false] at ha'
      rcases ha' with rfl | rfl
      · simp [hs]; omega
      · simp [hs]; omega
    · simp only [hs] at ha'
      simp only [Bool.false_eq_true, if_false, List.mem_cons, List.not_mem_nil, or_false] at ha'
      subst ha'
      simp [hs]; omega
  · intro p hp
    rw [← hsg]
    have hget : ((List.range c.mult).map fun p => (glob p, detail p))[p]? = some (glob p, detail p) := by
      rw [List.getElem?_map, List.getElem?_range hp]; rfl
    have hg : linesOf (glob p) = [⟨.proto, if separate then colorOf p else "gray", (List.range c.genus).map (centre c p) ++ arr' p⟩] :=
      linesOf_glob p _
    have hdl : linesOf (detail p) = (List.range c.genus).flatMap fun i => connOf c fine sub.genus p i ++ [fracOf c fine sub.genus p (arr p) i] :=
      detail_lines fine sub.genus p c.genus (arr p)
    have hdt : textsOf (detail p) = [] := by
      show textsOf ((List.range c.genus).flatMap fun i => (connOf c fine sub.genus p i ++ [fracOf c fine sub.genus p (arr p) i]).map Item.line) = []
      rw [textsOf_flatMap]; simp
    have hgt : textsOf (glob p) = if c.mult > 1 then (List.range c.genus).map fun i => textAt (c.cubeD p i) c.div (c.specD p i) else [] := by
      show textsOf ((List.range c.genus).flatMap (textOf c p) ++ _) = _
      rw [textsOf_append, textsOf_flatMap, textsOf_line, List.append_nil]
      by_cases h1 : c.mult > 1
      · rw [if_pos h1, List.map_eq_flatMap]
        congr 1
        funext i
        unfold textOf
        rw [if_pos h1]
        rfl
      · rw [if_neg h1]
        have : ∀ i, textsOf (textOf c p i) = [] := by intro i; unfold textOf; rw [if_neg h1]; rfl
        simp [this]
    have hfr := filter_detail (c := c) fine sub.genus p c.genus (arr p)
    have hitD : ∀ s : Style, s ≠ .proto → linesIn s (itemsAt separate ((List.range c.mult).map fun p => (glob p, detail p)) (detailAxis separate p)) =
        (linesOf (detail p)).filter fun x => x.style = s := by
      intro s hs'
      unfold itemsAt detailAxis linesIn
      by_cases hs : separate = true
      · simp only [hs, if_true]
        rw [show (2 * p + 1) / 2 = p by omega, hget, show (2 * p + 1) % 2 = 1 by omega]
        rfl
      · simp only [hs]
        simp only [Bool.false_eq_true, if_false]
        rw [hget]
        simp only
        rw [linesOf_append, hg, List.filter_append]
        have : List.filter (fun x : Line d => decide (x.style = s)) [⟨.proto, if separate then colorOf p else "gray", (List.range c.genus).map (centre c p) ++ arr' p⟩] = [] := by
          simp [hs'.symm]
        rw [this, List.nil_append]
    have hitG : linesIn .proto (itemsAt separate ((List.range c.mult).map fun p => (glob p, detail p)) (globAxis separate p)) = linesOf (glob p) := by
      unfold itemsAt globAxis linesIn
      by_cases hs : separate = true
      · simp only [hs, if_true]
        rw [show (2 * p) / 2 = p by omega, hget, show (2 * p) % 2 = 0 by omega]
        simp [hg]
      · simp only [hs]
        simp only [Bool.false_eq_true, if_false]
        rw [hget]
        simp only
        rw [linesOf_append, List.filter_append, hdl, hfr, List.append_nil, hg]
        simp
    have hitT : textsOf (itemsAt separate ((List.range c.mult).map fun p => (glob p, detail p)) (globAxis separate p)) = textsOf (glob p) := by
      unfold itemsAt globAxis
      by_cases hs : separate = true
      · simp only [hs, if_true]
        rw [show (2 * p) / 2 = p by omega, hget, show (2 * p) % 2 = 0 by omega]
        rfl
      · simp only [hs]
        simp only [Bool.false_eq_true, if_false]
        rw [hget]
        simp only
        rw [textsOf_append, hdt, List.append_nil]
    refine ⟨⟨centre fine p, fun n hn => isCentre hr.full.2.2 (by omega) hn, hfg, ?_, ?_, ?_, ?_⟩,
      ⟨centre c p, fun n hn => isCentre h hp hn, arr' p, hb2 p hp, ?_⟩, ?_, ?_, ?_, ?_⟩
    · simp only
      rw [hitD _ (by decide), hdl, hfr]
      simp
    · intro i hi s hs
      simp only
      rw [hitD _ (by decide), hdl, hfr]
      refine ⟨if i + 1 = c.genus then arr p else [], ?_, ?_, ?_⟩
      · rw [h.spec_eq hp hi] at hs
        cases hs
        simp only [List.getElem?_map, List.getElem?_range hi]
        rfl
      · intro e; rw [if_neg e]
      · intro e; rw [if_pos e]; exact harr2 p hp
    · simp only
      rw [hitD _ (by decide), hdl, hfr]
      exact conn_length fine _ p _
    · intro i hi s t hs ht
      simp only
      rw [hitD _ (by decide), hdl, hfr]
      simp only
      rw [h.spec_eq hp (by omega)] at hs ht
      cases hs
      cases ht
      have c0 := conn_get (c := c) fine sub.genus p c.genus i hi 0 (by omega)
      have c1 := conn_get (c := c) fine sub.genus p c.genus i hi 1 (by omega)
      rw [Nat.add_zero] at c0
      rw [c0, c1]
      unfold connOf
      simp
    · simp only
      rw [hitG, hg]
    · simp only
      rw [hitT, hgt]
      split <;> simp
    · intro h1 i hi cube s hc hs
      simp only
      rw [hitT, hgt, if_pos h1]
      rw [h.spec_eq hp hi] at hs
      rw [h.cube_eq hp hi] at hc
      cases hs
      cases hc
      rw [List.getElem?_map, List.getElem?_range hi]
      rfl
    · simp only
      unfold globAxis
      by_cases hs : separate = true
      · simp only [hs, if_true]
        have := getElem?_flatMap_const (G := 2) (g := fun p =>
          [(⟨c.mult, 2, p + 1, if c.mult > 1 then some ("pattern (" ++ nameOf p ++ ")") else none⟩ : Axis), ⟨c.mult, 2, p + 1 + c.mult, none⟩])
          (List.range c.mult) (by simp) p 0 (by omega)
        rw [Nat.add_zero, Nat.mul_comm] at this
        rw [this, List.getElem?_range hp]
        rfl
      · simp only [hs]
        simp only [Bool.false_eq_true, if_false]
        rw [← List.map_eq_flatMap, List.getElem?_map, List.getElem?_range hp]
        rfl
    · intro hs
      have eG : itemsAt separate ((List.range c.mult).map fun p => (glob p, detail p)) (globAxis separate p) = glob p := by
        unfold itemsAt globAxis
        simp only [hs, if_true]
        rw [show (2 * p) / 2 = p by omega, hget, show (2 * p) % 2 = 0 by omega]
        rfl
      have eD : itemsAt separate ((List.range c.mult).map fun p => (glob p, detail p)) (detailAxis separate p) = detail p := by
        unfold itemsAt detailAxis
        simp only [hs, if_true]
        rw [show (2 * p + 1) / 2 = p by omega, hget, show (2 * p + 1) % 2 = 1 by omega]
        rfl
      simp only
      rw [eG, eD, hg, hdt]
      refine ⟨rfl, rfl, ?_⟩
      unfold linesIn
      rw [hdl, hfr]

/-- C72. A curve with more than four patterns cannot be drawn: there are only four names of patterns (IndexError). -/
theorem C72_too_many_patterns (c : FCurve d) (hm : 4 < c.mult) (separate : Bool) (k : ℕ) : plotCurve c separate k = none := by
  have h : axes c.mult separate = none := by
    unfold axes
    have : ((List.range c.mult).mapM fun pnum => do
        let title ← if c.mult > 1 then (patternNames[pnum]?).map fun n => some ("pattern (" ++ n ++ ")") else some none
        return if separate then [(⟨c.mult, 2, pnum + 1, title⟩ : Axis), ⟨c.mult, 2, pnum + 1 + c.mult, none⟩] else [⟨c.mult, 1, pnum + 1, title⟩]) = none := by
      rw [← Option.not_isSome_iff_eq_none, mapM_isSome_iff]
      intro hall
      have := hall 4 (List.mem_range.2 hm)
      rw [if_pos (show c.mult > 1 by omega)] at this
      cases this
    rw [this]
    rfl
  unfold plotCurve
  rw [h]
  by_cases h3 : d > 3
  · rw [if_pos h3]; rfl
  · rw [if_neg h3]; rfl

/-- Curves of the zoo can be drawn; the curve of one pattern in the plane and the one of two patterns. -/
example : Zoo.hilbert.kind = .curve ∧ Zoo.hilbert.Full ∧ Zoo.hilbert.FillsGrid ∧ Zoo.hilbert.mult ≤ 4 :=
  ⟨by decide +kernel, full_of_fullB (by decide +kernel), fills_of_fillsB (full_of_fullB (by decide +kernel)) (by decide +kernel), by decide +kernel⟩
example : Zoo.betaOmega.kind = .curve ∧ Zoo.betaOmega.Full ∧ Zoo.betaOmega.FillsGrid ∧ Zoo.betaOmega.mult = 2 :=
  ⟨by decide +kernel, full_of_fullB (by decide +kernel), fills_of_fillsB (full_of_fullB (by decide +kernel)) (by decide +kernel), by decide +kernel⟩
/-- The first fraction of the picture of the Hilbert curve. -/
example : ((plotCurve Zoo.hilbert false 0).map fun pic => (linesIn .fraction (pic.items 0))[0]?.map (·.points)) =
    some (some [![1 / 8, 1 / 8], ![3 / 8, 1 / 8], ![3 / 8, 3 / 8], ![1 / 8, 3 / 8]]) := by decide +kernel

end Plot
end Peano
