import Verif.Lemmas.Depth
import Verif.Model.ZooData
import Verif.Props.Zoo
import Verif.Props.Curves
import Verif.Props.Moments
import Verif.Props.Utils

set_option autoImplicit false
set_option maxRecDepth 10000

/-
Property C70: the information which the zoo gives about its curves is right.  The tables are finite and are checked entirely by the
kernel; what they say about the curves (real functions of real time, subdivisions of all depths) comes from C14, C15, C21 and C23.
-/
namespace Peano.Zoo
variable {d : ℕ}

/-- The list describes the gates of the curve: one text per pattern, the points in it are where the pattern starts and ends. -/
def GatesRight (i : CurveInfo d) : Prop :=
  ∀ texts, i.gates = some texts → texts.length = i.curve.mult ∧
    ∀ f : ℕ → ℝ → Fin d → ℝ, i.curve.Realizes f → ∀ p text, texts[p]? = some text →
      ∃ link : Link (Point d), Link.parseGates d text.toList = some link ∧ f p 0 = (fun j => (link.entrance j : ℝ)) ∧
        f p 1 = fun j => (link.exit j : ℝ)

/-- The list describes the moments of the curve (its first pattern): a list with the key `n ≥ 0` consists of the first times when the
curve is on the faces with `n` free coordinates, a list with the key `-n < 0` of the last times. -/
def MomentsRight (i : CurveInfo d) : Prop :=
  ∀ x ∈ i.moments, ∀ f : ℕ → ℝ → Fin d → ℝ, i.curve.Realizes f →
    ∃ (faces : List (Face d)) (m : Face d → ℚ), faces.Nodup ∧
      (∀ face, face ∈ faces ↔ ((List.finRange d).filter fun j => face j = none).length = x.1.natAbs) ∧
      (∀ face ∈ faces, if x.1 < 0 then IsGreatest {t : ℝ | 0 ≤ t ∧ t ≤ 1 ∧ OnFace face (f 0 t)} (m face)
        else IsLeast {t : ℝ | 0 ≤ t ∧ t ≤ 1 ∧ OnFace face (f 0 t)} (m face)) ∧
      (faces.map m).Perm x.2

/-- The depth is the least `D` such that all pairs of neighbouring fractions of all subdivisions are met, up to isometry and time
reversal, in the subdivisions of depth at most `D`. -/
def DepthRight (i : CurveInfo d) : Prop :=
  ∀ D₀, i.depth = some D₀ →
    IsLeast {D | ∀ k a, i.curve.AdjacentAt k a → ∃ k' ≤ D, ∃ a', i.curve.AdjacentAt k' a' ∧ a.Same a'} D₀

/-- The count is the number of pairs of neighbouring fractions in all subdivisions, up to isometry and time reversal. -/
def CountRight (i : CurveInfo d) : Prop :=
  ∀ n, i.junctionsCount = some n → ∃ l : List (FracPair d), l.length = n ∧ l.Pairwise (fun a a' => ¬ a.Same a') ∧
    (∀ a ∈ l, ∃ k, ∃ a', i.curve.AdjacentAt k a' ∧ a'.Same a) ∧ ∀ k a, i.curve.AdjacentAt k a → ∃ a' ∈ l, a.Same a'

/-! ### The checks of the tables -/

def gatesB (i : CurveInfo d) : Bool :=
  match i.gates with
  | none => true
  | some l => decide (l.length = i.curve.mult) && (List.range i.curve.mult).all fun p =>
    match (l[p]?).bind (fun s => Link.parseGates d s.toList) with
    | none => false
    | some g => decide (i.curve.getEntrance p = some g.entrance) && decide (i.curve.getExit p = some g.exit)

theorem gatesRight_of {i : CurveInfo d} (hv : Valid i.curve) (h : gatesB i = true) : GatesRight i := by
  intro texts ht
  unfold gatesB at h
  rw [ht] at h
  simp only [Bool.and_eq_true, decide_eq_true_eq, List.all_eq_true, List.mem_range] at h
  refine ⟨h.1, fun f hf p text hp => ?_⟩
  have hpm : p < i.curve.mult := h.1 ▸ (List.getElem?_eq_some_iff.1 hp).1
  have h2 := h.2 p hpm
  rw [hp, Option.bind_some] at h2
  split at h2
  · cases h2
  · rename_i g hg
    simp only [Bool.and_eq_true, decide_eq_true_eq] at h2
    obtain ⟨⟨x, hx, ex⟩, ⟨y, hy, ey⟩⟩ := FCurve.C14_entrance_exit i.curve hv.2.1.gates f hf p hpm
    rw [h2.1] at hx
    rw [h2.2] at hy
    cases hx
    cases hy
    exact ⟨g, hg, ex.symm, ey.symm⟩

def momentsB (i : CurveInfo d) : Bool := i.moments.all fun x =>
  decide (x.1.natAbs ≤ d) &&
  match (genFaces d x.1.natAbs).bind fun l => l.mapM fun face => i.curve.getFaceMoment face 0 (decide (x.1 < 0)) with
  | none => false
  | some r => decide (r.Perm x.2)

theorem momentsRight_of {i : CurveInfo d} (hd : d ≠ 0) (hv : Valid i.curve) (h : momentsB i = true) : MomentsRight i := by
  intro x hx f hf
  have h := List.all_eq_true.1 h x hx
  simp only [Bool.and_eq_true, decide_eq_true_eq] at h
  obtain ⟨h0, h⟩ := h
  obtain ⟨faces, g1, g2, g3⟩ := mem_genFaces h0
  rw [g1, Option.bind_some] at h
  split at h
  · cases h
  · rename_i r hr
    simp only [decide_eq_true_eq] at h
    have key : ∀ face ∈ faces, i.curve.getFaceMoment face 0 (decide (x.1 < 0)) =
        some ((i.curve.getFaceMoment face 0 (decide (x.1 < 0))).getD 0) := by
      intro face hface
      have := mapM_isSome_iff.1 (by rw [hr]; rfl) face hface
      obtain ⟨q, hq⟩ := Option.isSome_iff_exists.1 this
      rw [hq]; rfl
    rw [mapM_eq_some_map key] at hr
    cases hr
    refine ⟨faces, _, g2, g3, fun face hface => ?_, h⟩
    have k := key face hface
    by_cases hn : x.1 < 0
    · rw [if_pos hn]
      obtain ⟨q, _, e1, _, e2, _⟩ := FCurve.C15_last_moment i.curve hd hv.2.1 hv.2.2.1 f hf face 0 hv.1
      simp only [hn, decide_true] at k ⊢
      rw [e1]
      exact e2
    · rw [if_neg hn]
      obtain ⟨q, _, e1, _, e2, _⟩ := FCurve.C15_first_moment i.curve hd hv.2.1 hv.2.2.1 f hf face 0 hv.1
      simp only [hn, decide_false] at k ⊢
      rw [e1]
      exact e2

def depthB (i : CurveInfo d) : Bool :=
  match i.depth with
  | none => true
  | some D => decide (i.curve.kind = .curve) && decide (i.curve.getDepth = some D) && i.curve.deepB D

theorem depthRight_of {i : CurveInfo d} (hd : d ≠ 0) (hv : Valid i.curve) (h : depthB i = true) : DepthRight i := by
  intro D₀ hD
  unfold depthB at h
  rw [hD] at h
  simp only [Bool.and_eq_true, decide_eq_true_eq] at h
  obtain ⟨⟨hk, h1⟩, h2⟩ := h
  obtain ⟨l, hl, _⟩ := FCurve.C21_junctions_exact i.curve hk hv.2.1 hv.2.2.2
  obtain ⟨_, D, e1, _, _, e2⟩ := FCurve.C23_depth_partial i.curve hk hv.2.1 hv.2.2.2 hd hv.1 l hl
  rw [h1] at e1
  cases e1
  refine ⟨e2, fun D hD => ?_⟩
  obtain ⟨k, a, ha, hdeep⟩ := hv.2.1.deep hk hv.2.2.2 h2
  obtain ⟨k', hk', a', ha', hs⟩ := hD k a ha
  by_contra hlt
  exact hdeep k' a' (by omega) ha' hs

def countB (i : CurveInfo d) : Bool :=
  match i.junctionsCount with
  | none => true
  | some n => decide (i.curve.kind = .curve) &&
    match i.curve.genRegularJunctions with
    | none => false
    | some l => decide (l.length = n) &&
      l.all fun x => decide (x.1.spec1.pnum ≠ x.1.spec2.pnum ∨ x.1.spec1.baseMap.timeRev = x.1.spec2.baseMap.timeRev)

theorem countRight_of {i : CurveInfo d} (hv : Valid i.curve) (h : countB i = true) : CountRight i := by
  intro n hn
  unfold countB at h
  rw [hn] at h
  simp only [Bool.and_eq_true, decide_eq_true_eq] at h
  obtain ⟨hk, h⟩ := h
  split at h
  · cases h
  · rename_i l hl
    simp only [Bool.and_eq_true, decide_eq_true_eq, List.all_eq_true] at h
    obtain ⟨h1, h2⟩ := h
    obtain ⟨l', e1, e2, e3, e4⟩ := FCurve.C21_junctions_exact i.curve hk hv.2.1 hv.2.2.2
    rw [hl] at e1
    cases e1
    have hu := (FCurve.C21_standardized i.curve hk hv.2.1 hv.2.2.2 l hl).2
    refine ⟨l.map fun x => x.1.pair, by rw [List.length_map]; exact h1, ?_, ?_, ?_⟩
    · rw [List.pairwise_map]
      have e2 : l.Pairwise fun x y => x.1 ≠ y.1 := List.pairwise_map.1 e2
      refine e2.imp_of_mem fun {x y} hx hy hne hs => hne (hu x hx y hy hs (h2 x hx))
    · intro a ha
      obtain ⟨x, hx, rfl⟩ := List.mem_map.1 ha
      obtain ⟨k, a, ha, hs⟩ := e3 x hx
      exact ⟨k, a, ha, hs⟩
    · intro k a ha
      obtain ⟨x, hx, hs⟩ := e4 k a ha
      exact ⟨_, List.mem_map.2 ⟨x, hx, rfl⟩, hs⟩

/-! ### The property -/

/-- What C70 says about an entry of the zoo. -/
def InfoRight (i : CurveInfo d) : Prop := GatesRight i ∧ MomentsRight i ∧ DepthRight i ∧ CountRight i

theorem infoRight_of {i : CurveInfo d} (hd : d ≠ 0) (hv : Valid i.curve)
    (h : (gatesB i && momentsB i && depthB i && countB i) = true) : InfoRight i := by
  simp only [Bool.and_eq_true] at h
  exact ⟨gatesRight_of hv h.1.1.1, momentsRight_of hd hv h.1.1.2, depthRight_of hd hv h.1.2, countRight_of hv h.2⟩

/-- C70. The gates, moments, depths and counts which the zoo declares are those of its plane curves. -/
theorem C70_zoo2 : infos2.map CurveInfo.curve = curves2 ∧ ∀ i ∈ infos2, InfoRight i := by
  refine ⟨rfl, ?_⟩
  have : infos2.all (fun i => gatesB i && momentsB i && depthB i && countB i) = true := by decide +kernel
  intro i hi
  exact infoRight_of (by decide) (C57_zoo2 _ (List.mem_map_of_mem hi)) (List.all_eq_true.1 this i hi)

/-- C70. The gates, moments, depths and counts which the zoo declares are those of its curves in space. -/
theorem C70_zoo3 : infos3.map CurveInfo.curve = curves3 ∧ ∀ i ∈ infos3, InfoRight i := by
  refine ⟨rfl, ?_⟩
  have : infos3.all (fun i => gatesB i && momentsB i && depthB i && countB i) = true := by decide +kernel
  intro i hi
  exact infoRight_of (by decide) (C57_zoo3 _ (List.mem_map_of_mem hi)) (List.all_eq_true.1 this i hi)

/-- The claims are about existing curves: Tokarev's curve has a realization (unique by C12). -/
example : ∃ f : ℕ → ℝ → Fin 3 → ℝ, tokarev.Realizes f := by
  obtain ⟨h1, h2, h3, h4⟩ := C57_zoo3 tokarev (by simp [curves3])
  exact (FCurve.C12_check_iff tokarev h2).2.1 h4

/-- An instance: the depth of Tokarev's curve is exactly 3. -/
example : IsLeast {D | ∀ k a, tokarev.AdjacentAt k a → ∃ k' ≤ D, ∃ a', tokarev.AdjacentAt k' a' ∧ a.Same a'} 3 :=
  (C70_zoo3.2 tokarevInfo (by simp [infos3])).2.2.1 3 rfl

end Peano.Zoo
