import Verif.Lemmas.Bounds
import Verif.Lemmas.SATB
import Verif.Spec.Dilation

set_option autoImplicit false

/- Curves for the estimators and division of pieces. -/
namespace Peano
variable {d : ℕ} {r : Ratio} {f : ℕ → ℝ → Fin d → ℝ}

namespace FCurve
variable {c c' e : FCurve d}

theorem Possible.genus (h : Possible c e) : e.genus = c.genus := by unfold FCurve.genus; rw [h.div]

theorem Possible.exists_pattern (h : Possible c e) {p : ℕ} {pat : Pattern d} (hp : c.patterns[p]? = some pat) :
    ∃ pat', e.patterns[p]? = some pat' ∧ pat'.proto = pat.proto := by
  have : p < e.mult := by rw [h.mult]; exact (List.getElem?_eq_some_iff.1 hp).1
  obtain ⟨pat', hp'⟩ := getElem?_of_lt this
  exact ⟨pat', hp', (h.pattern p pat pat' hp hp').1⟩

theorem Possible.cube? (h : Possible c e) (p i : ℕ) : e.cube? p i = c.cube? p i := by
  unfold FCurve.cube?
  cases hp : c.patterns[p]? with
  | none =>
    have : e.patterns[p]? = none := by
      rw [List.getElem?_eq_none_iff] at hp ⊢
      have := h.mult
      unfold FCurve.mult at this
      omega
    rw [this]
  | some pat =>
    obtain ⟨pat', h1, h2⟩ := h.exists_pattern hp
    rw [h1]
    simp only [Option.bind_some, h2]

theorem Sized.lt_of_raw (h : c.Sized) {p i : ℕ} {o : Option (Spec d)} (ho : c.raw p i = some o) : p < c.mult ∧ i < c.genus := by
  unfold raw at ho
  rw [Option.bind_eq_some_iff] at ho
  obtain ⟨pat, h1, h2⟩ := ho
  refine ⟨(List.getElem?_eq_some_iff.1 h1).1, ?_⟩
  rw [← h.specs_length pat (List.mem_of_getElem? h1)]
  exact (List.getElem?_eq_some_iff.1 h2).1

theorem raw_of_spec {p i : ℕ} {s : Spec d} (h : c.spec? p i = some s) : c.raw p i = some (some s) := by
  rw [spec?_eq_raw] at h
  exact Option.join_eq_some_iff.1 h

namespace Estimable
variable (hE : c.Estimable)
include hE

theorem sized : c.Sized := ⟨hE.specs_length⟩

theorem allowedDefined : c.AllowedDefined := fun p hp i hi => by
  obtain ⟨l, h1, h2, _⟩ := hE.allowed p hp i hi
  exact ⟨l, h1, h2⟩

theorem nonempty : ∀ p < c.mult, ∀ i < c.genus, c.genAllowedSpecs p i ≠ some [] := fun p hp i hi h => by
  obtain ⟨l, h1, _, h2⟩ := hE.allowed p hp i hi
  rw [h] at h1
  cases h1
  exact h2 rfl

theorem exists_possible : ∃ e, Possible c e := by
  obtain ⟨e, _, h⟩ := getCurveExample_spec hE.sized hE.allowedDefined hE.nonempty
  exact ⟨_, h⟩

theorem exists_full : ∃ e, Possible c e ∧ e.Full := by
  obtain ⟨e, h⟩ := hE.exists_possible
  exact ⟨e, h, (hE.possible e h).1⟩

theorem two_le_div : 2 ≤ c.div := by
  obtain ⟨e, h, hf⟩ := hE.exists_full
  rw [← h.div]; exact hf.two_le_div

theorem genus_pos : 0 < c.genus := by
  obtain ⟨e, h, hf⟩ := hE.exists_full
  rw [← h.genus]; exact hf.genus_pos

theorem two_le_genus (hd : d ≠ 0) : 2 ≤ c.genus := by
  calc 2 ≤ c.div := hE.two_le_div
    _ = c.div ^ 1 := (pow_one _).symm
    _ ≤ c.div ^ d := Nat.pow_le_pow_right (by have := hE.two_le_div; omega) (by omega)

theorem kind_ne : c.kind ≠ .fuzzy := by
  obtain ⟨l, h, _⟩ := hE.allowed 0 hE.mult_pos 0 hE.genus_pos
  exact genAllowedSpecs_kind h

theorem spec_lt {p i : ℕ} {s : Spec d} (h : c.spec? p i = some s) : p < c.mult ∧ i < c.genus := hE.sized.lt_of_raw (raw_of_spec h)

theorem agrees {e : FCurve d} (he : Possible c e) : e.AgreesWith c := by
  intro p i s hs
  obtain ⟨hp, hi⟩ := hE.spec_lt hs
  obtain ⟨s', h1, h2⟩ := he.spec_allowed hp hi (genAllowedSpecs_defined hE.kind_ne (raw_of_spec hs))
  rw [List.mem_singleton] at h1
  rw [← h1]; exact h2

theorem spec_mem_lt {p i : ℕ} (hp : p < c.mult) (hi : i < c.genus) {l : List (Spec d)} (hl : c.genAllowedSpecs p i = some l) {s : Spec d} (hs : s ∈ l) :
    ∃ c', c.specify p i s = .ok c' ∧ c'.Estimable ∧ (∀ e, Possible c' e ↔ Possible c e ∧ e.spec? p i = some s) ∧ c'.mult = c.mult ∧ c'.div = c.div ∧
      c'.kind = c.kind ∧ c'.spec? p i = some s ∧ (∀ p' i' s', c.spec? p' i' = some s' → c'.spec? p' i' = some s') ∧
      (∀ p' i' s', c'.spec? p' i' = some s' → c.spec? p' i' = some s' ∨ p' = p ∧ i' = i ∧ s' = s) ∧ s.pnum < c.mult := by
  obtain ⟨c', h1, h2, h3⟩ := specify_ok hE.sized hp hi hl hs
  have hposs := possible_specify h2 hp hi hl hs h3
  have hall := allowed_of_raw h2 hE.kind_ne h3
  have hE' : c'.Estimable := by
    refine ⟨by rw [h2.mult]; exact hE.mult_pos, h2.sized.specs_length, ?_, ?_⟩
    · intro p' hp' i' hi'
      rw [hall]
      split
      · exact ⟨[s], rfl, List.nodup_singleton s, by simp⟩
      · rw [h2.mult] at hp'
        rw [h2.genus] at hi'
        exact hE.allowed p' hp' i' hi'
    · intro e he
      exact hE.possible e ((hposs e).1 he).1
  have hspec : ∀ p' i', c'.spec? p' i' = if (p', i') = (p, i) then some s else c.spec? p' i' := by
    intro p' i'
    rw [spec?_eq_raw, h3, spec?_eq_raw]
    split <;> rfl
  refine ⟨c', h1, hE', hposs, h2.mult, h2.div, h2.kind, by rw [hspec, if_pos rfl], ?_, ?_, ?_⟩
  · intro p' i' s' hs'
    rw [hspec]
    split
    · rename_i he
      cases he
      have := genAllowedSpecs_defined hE.kind_ne (raw_of_spec hs')
      rw [hl] at this
      cases this
      rw [List.mem_singleton.1 hs]
    · exact hs'
  · intro p' i' s' hs'
    rw [hspec] at hs'
    split at hs'
    · rename_i he
      cases he
      cases hs'
      exact Or.inr ⟨rfl, rfl, rfl⟩
    · exact Or.inl hs'
  · obtain ⟨e, he, hf⟩ := hE'.exists_full
    have := hf.spec_range p i s ((hposs e).1 he).2
    rwa [he.mult, h2.mult] at this

theorem cube_def {p i : ℕ} (hp : p < c.mult) (hi : i < c.genus) : ∃ x, c.cube? p i = some x := by
  obtain ⟨e, he, hf⟩ := hE.exists_full
  have := hf.cube_def p (by rw [he.mult]; exact hp) i (by rw [he.genus]; exact hi)
  rw [he.cube?] at this
  exact Option.isSome_iff_exists.1 this

end Estimable

theorem getDeepSpec_mono (hg : c'.genus = c.genus) (h : ∀ p i s, c.spec? p i = some s → c'.spec? p i = some s) {p : ℕ} {l : List ℕ} {s : Spec d}
    (hs : c.getDeepSpec p l = some s) : c'.getDeepSpec p l = some s := by
  unfold getDeepSpec at hs ⊢
  revert hs
  generalize (⟨BaseMap.idMap d, p⟩ : Spec d) = s0
  induction l generalizing s0 with
  | nil => exact fun h => h
  | cons a l ih =>
    intro hs
    rw [List.foldlM_cons, Option.bind_eq_bind, Option.bind_eq_some_iff] at hs ⊢
    obtain ⟨s1, h1, h2⟩ := hs
    refine ⟨s1, ?_, ih s1 h2⟩
    unfold composeSpecs at h1 ⊢
    rw [hg]
    rw [Option.map_eq_some_iff] at h1 ⊢
    obtain ⟨last, h3, h4⟩ := h1
    exact ⟨last, h _ _ _ h3, h4⟩

theorem getDeepSpec_append (p : ℕ) (l : List ℕ) (i : ℕ) : c.getDeepSpec p (l ++ [i]) = (c.getDeepSpec p l).bind fun s => c.composeSpecs s i := by
  unfold getDeepSpec
  rw [List.foldlM_append, Option.bind_eq_bind]
  congr 1
  funext s
  simp

/-- A piece the estimators can divide. -/
structure PieceOK (c : FCurve d) (p : ℕ) (pos : PiecePos d) : Prop where
  pnum : p < c.mult
  div : pos.div = c.div
  ne : pos.cnums ≠ []
  prev : ∃ s, c.getDeepSpec p pos.cnums.dropLast = some s
  posFor : ∀ e, Possible c e → e.PosFor p pos

theorem Estimable.deep_possible (hE : c.Estimable) (he : Possible c e) {p : ℕ} {l : List ℕ} {s : Spec d} (hp : p < c.mult) (hl : ∀ i ∈ l, i < c.genus)
    (hs : c.getDeepSpec p l = some s) : s = e.walkSpec ⟨BaseMap.idMap d, p⟩ l ∧ s.pnum < c.mult := by
  have h1 := getDeepSpec_mono he.genus (hE.agrees he) hs
  have hfull := (hE.possible e he).1
  have hp' : p < e.mult := by rw [he.mult]; exact hp
  have hl' : ∀ i ∈ l, i < e.genus := by rw [he.genus]; exact hl
  rw [hfull.getDeepSpec_eq hp' l hl'] at h1
  have h2 := Option.some.inj h1
  refine ⟨h2.symm, ?_⟩
  rw [← h2, ← he.mult]
  exact hfull.walkSpec_lt (s := ⟨BaseMap.idMap d, p⟩) hp' l hl'

/-- A sub-curve: more is specified. -/
structure SubCurve (c c' : FCurve d) : Prop where
  estimable : c'.Estimable
  mult : c'.mult = c.mult
  div : c'.div = c.div
  possible : ∀ e, Possible c' e ↔ Possible c e ∧ e.AgreesWith c'
  mono : ∀ p i s, c.spec? p i = some s → c'.spec? p i = some s

theorem SubCurve.genus (h : SubCurve c c') : c'.genus = c.genus := by unfold FCurve.genus; rw [h.div]

theorem Estimable.refl (hE : c.Estimable) : SubCurve c c := ⟨hE, rfl, rfl, fun _ => ⟨fun h => ⟨h, hE.agrees h⟩, And.left⟩, fun _ _ _ h => h⟩

theorem SubCurve.trans {c1 c2 c3 : FCurve d} (h : SubCurve c1 c2) (h' : SubCurve c2 c3) : SubCurve c1 c3 :=
  ⟨h'.estimable, h'.mult.trans h.mult, h'.div.trans h.div, fun e => by
    rw [h'.possible, h.possible]
    exact ⟨fun hh => ⟨hh.1.1, hh.2⟩, fun hh => ⟨⟨hh.1, fun p i s hs => hh.2 p i s (h'.mono p i s hs)⟩, hh.2⟩⟩,
    fun p i s hs => h'.mono p i s (h.mono p i s hs)⟩

theorem PieceOK.sub {p : ℕ} {pos : PiecePos d} (h : PieceOK c p pos) (hs : SubCurve c c') : PieceOK c' p pos := by
  obtain ⟨s, hprev⟩ := h.prev
  exact ⟨by rw [hs.mult]; exact h.pnum, by rw [hs.div]; exact h.div, h.ne, ⟨s, getDeepSpec_mono hs.genus hs.mono hprev⟩,
    fun e he => h.posFor e ((hs.possible e).1 he).1⟩

theorem PieceOK.cnums_lt {p : ℕ} {pos : PiecePos d} (hE : c.Estimable) (h : PieceOK c p pos) : ∀ i ∈ pos.cnums, i < c.genus := by
  obtain ⟨e, he⟩ := hE.exists_possible
  rw [← he.genus]
  exact (h.posFor e he).cnums

/-- Result of the division of a piece. -/
structure Divided (c : FCurve d) (p : ℕ) (pos : PiecePos d) (subs : List (CurvePiece d)) : Prop where
  ok : ∀ sub ∈ subs, sub.pnum = p ∧ SubCurve c sub.curve ∧ PieceOK sub.curve p sub.pos ∧ ∃ i < c.genus, sub.pos.cnums = pos.cnums ++ [i]
  cover : ∀ e, Possible c e → ∀ i < c.genus, ∃ sub ∈ subs, Possible sub.curve e ∧ sub.pos.cnums = pos.cnums ++ [i]

theorem PieceOK.divide (hE : c.Estimable) {p : ℕ} {pos : PiecePos d} (h : PieceOK c p pos) :
    ∃ subs, (⟨c, p, pos⟩ : CurvePiece d).divide = some subs ∧ Divided c p pos subs := by
  obtain ⟨prev, hprev⟩ := h.prev
  have hlt := h.cnums_lt hE
  obtain ⟨ini, last, hcn⟩ := (List.eq_nil_or_concat pos.cnums).resolve_left h.ne
  have hcn : pos.cnums = ini ++ [last] := by rw [hcn]; simp
  have hlast : last < c.genus := hlt last (by rw [hcn]; simp)
  have hini : ∀ i ∈ ini, i < c.genus := fun i hi => hlt i (by rw [hcn]; simp [hi])
  have hdrop : pos.cnums.dropLast = ini := by rw [hcn]; simp
  rw [hdrop] at hprev
  have hprevlt : prev.pnum < c.mult := by
    obtain ⟨e, he⟩ := hE.exists_possible
    exact (hE.deep_possible he h.pnum hini hprev).2
  set orig := prev.baseMap.applyCnum c.genus last with horig
  have hoi : orig < c.genus := BaseMap.applyCnum_lt _ hlast
  obtain ⟨l, hl, hnd, hne⟩ := hE.allowed prev.pnum hprevlt orig hoi
  -- one spec
  have hone : ∀ s ∈ l, ∃ subs, (⟨c, p, pos⟩ : CurvePiece d).divideWith prev orig s = some subs ∧
      (∀ sub ∈ subs, sub.pnum = p ∧ SubCurve c sub.curve ∧ PieceOK sub.curve p sub.pos ∧ ∃ i < c.genus, sub.pos.cnums = pos.cnums ++ [i]) ∧
      (∀ e, Possible c e → e.spec? prev.pnum orig = some s → ∀ i < c.genus, ∃ sub ∈ subs, Possible sub.curve e ∧ sub.pos.cnums = pos.cnums ++ [i]) := by
    intro s hs
    obtain ⟨c', g1, g2, g3, g4, g5, g6, g7, g8, g9, g10⟩ := hE.spec_mem_lt hprevlt hoi hl hs
    have hsub : SubCurve c c' := by
      refine ⟨g2, g4, g5, ?_, g8⟩
      intro e
      constructor
      · intro he
        exact ⟨((g3 e).1 he).1, g2.agrees he⟩
      · rintro ⟨h1, h2⟩
        exact (g3 e).2 ⟨h1, h2 _ _ _ g7⟩
    have hgen := hsub.genus
    obtain ⟨pat, hpat⟩ := getElem?_of_lt g10
    -- the specification of the piece
    have hwalk : ∀ e, Possible c' e → e.walkSpec ⟨BaseMap.idMap d, p⟩ pos.cnums = ⟨prev.baseMap * s.baseMap, s.pnum⟩ := by
      intro e he
      have heo := ((g3 e).1 he)
      have h1 := (hE.deep_possible heo.1 h.pnum hini hprev).1
      rw [hcn, walkSpec_append, ← h1]
      unfold curSpec
      rw [heo.1.genus, ← horig]
      simp only [specD, heo.2]
      rfl
    have hproto : ∀ e, Possible c' e → pat.proto.act c.div (prev.baseMap * s.baseMap) =
        (List.range c.genus).map fun i => some (e.curCube (e.walkSpec ⟨BaseMap.idMap d, p⟩ pos.cnums) i) := by
      intro e he
      have heo := ((g3 e).1 he)
      have hfull := (hE.possible e heo.1).1
      obtain ⟨pat', h1, h2⟩ := heo.1.exists_pattern hpat
      have := hfull.act_proto (s := ⟨prev.baseMap * s.baseMap, s.pnum⟩) h1
      rw [heo.1.div, heo.1.genus, h2] at this
      rw [this, hwalk e he]
    obtain ⟨e0, he0⟩ := g2.exists_possible
    have hp0 := hproto e0 he0
    set cubes : ℕ → Cube d := fun i => e0.curCube (e0.walkSpec ⟨BaseMap.idMap d, p⟩ pos.cnums) i with hcubes
    have hcube : ∀ e, Possible c' e → ∀ i < c.genus, cubes i = e.curCube (e.walkSpec ⟨BaseMap.idMap d, p⟩ pos.cnums) i := by
      intro e he i hi
      have := hproto e he
      rw [hp0] at this
      have := congrArg (fun l => l[i]?) this
      simpa [hi] using this
    refine ⟨(List.range c.genus).map fun i => ⟨c', p, pos.specify i (cubes i)⟩, ?_, ?_, ?_⟩
    · unfold CurvePiece.divideWith
      simp only [g1, Option.bind_eq_bind, Option.bind_some, hpat]
      rw [hp0]
      have key : ∀ (n k : ℕ), (((List.range' k n).map fun i => some (cubes i)).zipIdx k).mapM (fun e : Option (Cube d) × ℕ =>
          e.1.map fun cube => (⟨c', p, pos.specify e.2 cube⟩ : CurvePiece d)) =
          some ((List.range' k n).map fun i => ⟨c', p, pos.specify i (cubes i)⟩) := by
        intro n
        induction n with
        | zero => intro k; rfl
        | succ n ih =>
          intro k
          rw [List.range'_succ, List.map_cons, List.zipIdx_cons, List.mapM_cons, ih (k + 1)]
          rfl
      rw [List.range_eq_range']
      exact key c.genus 0
    · intro sub hsub'
      rw [List.mem_map] at hsub'
      obtain ⟨i, hi, rfl⟩ := hsub'
      rw [List.mem_range] at hi
      refine ⟨rfl, hsub, ?_, i, hi, rfl⟩
      refine ⟨by rw [g4]; exact h.pnum, by rw [g5]; exact h.div, by simp [PiecePos.specify], ?_, ?_⟩
      · refine ⟨Spec.rmulBaseMap prev.baseMap s, ?_⟩
        have h1 : (pos.specify i (cubes i)).cnums.dropLast = ini ++ [last] := by simp [PiecePos.specify, hcn]
        rw [h1, getDeepSpec_append, getDeepSpec_mono hgen g8 hprev, Option.bind_some]
        unfold composeSpecs
        rw [hgen, ← horig, g7]
        rfl
      · intro e he
        have heo := ((g3 e).1 he).1
        have hpf := h.posFor e heo
        refine ⟨hpf.div, ?_, ?_⟩
        · intro k hk
          have hk : k ∈ pos.cnums ++ [i] := hk
          rw [List.mem_append, List.mem_singleton] at hk
          rcases hk with hk | rfl
          · exact hpf.cnums k hk
          · rw [heo.genus]; exact hi
        · show pos.cubes ++ [cubes i] = e.walkCubes _ (pos.cnums ++ [i])
          rw [walkCubes_append, ← hpf.cubes, hcube e he i hi]
    · intro e he hes i hi
      refine ⟨⟨c', p, pos.specify i (cubes i)⟩, List.mem_map.2 ⟨i, List.mem_range.2 hi, rfl⟩, (g3 e).2 ⟨he, hes⟩, rfl⟩
  choose! F hF1 hF2 hF3 using hone
  have hmap := mapM_eq_some_map (f := fun s => (⟨c, p, pos⟩ : CurvePiece d).divideWith prev orig s) (g := F) (l := l) hF1
  refine ⟨(l.map F).flatten, ?_, ⟨?_, ?_⟩⟩
  · unfold CurvePiece.divide
    have hgl : pos.cnums.getLast? = some last := by rw [hcn]; simp
    simp only [hdrop, hprev, hgl, Option.bind_eq_bind, Option.bind_some, ← horig, hl]
    rw [hmap]
    rfl
  · intro sub hsub
    rw [List.mem_flatten] at hsub
    obtain ⟨m, hm, hsub⟩ := hsub
    rw [List.mem_map] at hm
    obtain ⟨s, hs, rfl⟩ := hm
    exact hF2 s hs sub hsub
  · intro e he i hi
    obtain ⟨s, hs, hes⟩ := he.spec_allowed hprevlt hoi hl
    obtain ⟨sub, h1, h2⟩ := hF3 s hs e he hes i hi
    exact ⟨sub, List.mem_flatten.2 ⟨F s, List.mem_map.2 ⟨s, hs, rfl⟩, h1⟩, h2⟩

end FCurve
end Peano
