import Verif.Spec.PlaneGates
import Verif.Props.Results

set_option autoImplicit false

/-
Property C84: the exact list of gates of plane curves with one pattern, and the number of gates printed by the search.
-/
namespace Peano
open MinCert

/-- Gates that are emitted are gates of some curve. -/
theorem exists_curve_of_emittable {N : ℕ} (hN : 2 ≤ N) {l : Link (Point 2)} (h : GateTuple.Emittable N 1 false [l]) :
    ∃ c : FCurve 2, c.IsCandidate N 1 none ∧ c.HasGates [l] := by
  obtain ⟨p, hp⟩ := h.paths l (List.mem_singleton.2 rfl)
  obtain ⟨pc, hpc, _, hposs⟩ := FCurve.examined_ok hN (S := [l]) (by simp) (ps := [p]) (.cons hp .nil)
  obtain ⟨e, _, he⟩ := FCurve.C19_example [p] none false N pc (by simp) (fun q hq => by rw [List.mem_singleton.1 hq]; exact hp.valid) (.init hpc)
  exact ⟨_, hposs _ he⟩

/-- Gates of some curve are emitted. -/
theorem emitted_of_curve (g : GatesGen 2) (hash : GatesGen.Hash 2) (hm : g.mult = 1) (hf : g.onlyFacet = false) {l m : Link (Point 2)}
    (hu : ∀ j, (0 ≤ l.entrance j ∧ l.entrance j ≤ 1) ∧ (0 ≤ l.exit j ∧ l.exit j ≤ 1)) (hb : l.entrance.OnBoundary ∧ l.exit.OnBoundary)
    (hs : GatesGen.stdGates [l] = some [m]) {mc : Option ℤ} (h : ∃ c : FCurve 2, c.IsCandidate g.div 1 mc ∧ c.GatesIn [[l]]) :
    ∃ out, g.genAllGates hash = some out ∧ [m] ∈ out := by
  obtain ⟨c, hc, hg⟩ := h
  obtain ⟨w, B, _, h1, h2⟩ := exists_reparam (S := [l]) (by simp) (by simpa using hu) hc hg
  obtain ⟨out, std, k1, k2, k3⟩ := GatesGen.C52_emitted_form g hash (by norm_num) hf _ (by rw [h1.mult_eq]; simp) h1.full h1.fills h1.checked h1.div_eq
    (by rw [h1.mult_eq, hm]; rfl) [l] h2 (by simpa using hb)
  rw [hs, Option.some.injEq] at k2
  exact ⟨out, k1, k2 ▸ k3⟩

/-- C84. For plane curves with one pattern on the grids from 2×2 to 6×6 the generator of gates returns exactly the listed gates, each once: side gates always, diagonal
gates on the grids with odd side, and the gates to the middle of a side on the grids from 4×4. -/
theorem C84_gates (g : GatesGen 2) (hash : GatesGen.Hash 2) (h1 : 2 ≤ g.div) (h2 : g.div ≤ 6) (hm : g.mult = 1) (hf : g.onlyFacet = false) :
    ∃ out, g.genAllGates hash = some out ∧ out.Perm (planeGates g.div) := by
  obtain ⟨out, k1, k2, k3⟩ := C74_gen_gates g hash h1 hm hf
  obtain ⟨out', k1', _, k4⟩ := GatesGen.C51_all_gates g hash (by norm_num) h1 hf
  rw [k1, Option.some.injEq] at k1'
  subst k1'
  refine ⟨out, k1, ?_⟩
  have emit : ∀ {l m : Link (Point 2)} {mc : Option ℤ}, (∀ j, (0 ≤ l.entrance j ∧ l.entrance j ≤ 1) ∧ (0 ≤ l.exit j ∧ l.exit j ≤ 1)) →
      (l.entrance.OnBoundary ∧ l.exit.OnBoundary) → GatesGen.stdGates [l] = some [m] → (∃ c : FCurve 2, c.IsCandidate g.div 1 mc ∧ c.GatesIn [[l]]) → [m] ∈ out := by
    intro l m mc a1 a2 a3 a4
    obtain ⟨o, b1, b2⟩ := emitted_of_curve g hash hm hf a1 a2 a3 a4
    rw [k1, Option.some.injEq] at b1
    exact b1 ▸ b2
  have side : ∀ {mc : Option ℤ}, (∃ c : FCurve 2, c.IsCandidate g.div 1 mc ∧ c.IsSide) → sideTuple ∈ out :=
    fun h => emit (l := ⟨![0, 0], ![1, 0]⟩) unit_side ⟨⟨fun j => (unit_side j).1, 0, .inl rfl⟩, fun j => (unit_side j).2, 0, .inr rfl⟩ (by decide +kernel) h
  have diag : ∀ {mc : Option ℤ}, (∃ c : FCurve 2, c.IsCandidate g.div 1 mc ∧ c.IsDiag) → diagTuple ∈ out :=
    fun h => emit (l := ⟨![0, 0], ![1, 1]⟩) unit_diag ⟨⟨fun j => (unit_diag j).1, 0, .inl rfl⟩, fun j => (unit_diag j).2, 0, .inr rfl⟩ (by decide +kernel) h
  have med : ∀ {mc : Option ℤ}, (∃ c : FCurve 2, c.IsCandidate g.div 1 mc ∧ c.IsMedian) → medianTuple ∈ out :=
    fun h => emit (l := ⟨![0, 0], ![1, 1 / 2]⟩) unit_median ⟨⟨fun j => (unit_median j).1, 0, .inl rfl⟩, fun j => (unit_median j).2, 0, .inr rfl⟩ (by decide +kernel) h
  have nomed : g.div ≤ 3 → medianTuple ∉ out := by
    intro h3 hS
    have hE := k4 _ hS
    rw [hm] at hE
    obtain ⟨c, hc, hg⟩ := exists_curve_of_emittable h1 (l := ⟨![0, 0], ![1 / 2, 1]⟩) hE
    refine C76_no_median g.div (by simp; omega) ⟨c, none, hc, ?_⟩
    exact (gatesIn_single hg).2 ⟨⟨![(1, false), (0, false)], false, by decide⟩, by decide +kernel⟩
  have ne : sideTuple ≠ medianTuple ∧ sideTuple ≠ diagTuple ∧ medianTuple ≠ diagTuple := by decide +kernel
  have nodup : (planeGates g.div).Nodup := by
    obtain h | h | h | h | h : g.div = 2 ∨ g.div = 3 ∨ g.div = 4 ∨ g.div = 5 ∨ g.div = 6 := by omega
    all_goals rw [h]; decide +kernel
  rw [List.perm_ext_iff_of_nodup k2 nodup]
  have use : ∀ {r : Ratio} {N : ℕ} {mc : Option ℤ} {P : FCurve 2 → Prop} {v : ℝ}, g.div = N → LeastDilation r N mc P v → ∃ c : FCurve 2, c.IsCandidate g.div 1 mc ∧ P c := by
    rintro r N mc P v rfl ⟨⟨c, a, b, _⟩, _⟩
    exact ⟨c, a, b⟩
  intro S
  constructor
  · intro hS
    have hk := k3 S hS
    change S = sideTuple ∨ S = medianTuple ∨ (S = diagTuple ∧ _) at hk
    obtain h | h | h | h | h : g.div = 2 ∨ g.div = 3 ∨ g.div = 4 ∨ g.div = 5 ∨ g.div = 6 := by omega
    all_goals
      rw [h] at hk nomed ⊢
      rcases hk with rfl | rfl | ⟨rfl, hodd⟩
      all_goals first | (simp [planeGates]; done) | exact absurd hS (nomed (by norm_num)) | exact absurd hodd (by decide)
  · intro hS
    obtain h | h | h | h | h : g.div = 2 ∨ g.div = 3 ∨ g.div = 4 ∨ g.div = 5 ∨ g.div = 6 := by omega
    all_goals
      rw [h] at hS
      simp only [planeGates, List.mem_cons, List.not_mem_nil, or_false] at hS
    · rw [hS]; exact side (use h C76_side2.1)
    · rcases hS with rfl | rfl
      · exact side (use h C76_side3.1)
      · exact diag (use h C76_diag3.1)
    · rcases hS with rfl | rfl
      · exact side (use h C76_side4.1)
      · exact med (use h C76_median4.1)
    · rcases hS with rfl | rfl | rfl
      · exact side (use h C76_side5_adjacent.1)
      · exact diag (use h C76_diag5_adjacent)
      · exact med (use h C76_median5.1)
    · rcases hS with rfl | rfl
      · exact side (use h C76_side6_adjacent.1)
      · exact med (use h C76_median6_adjacent)

/-- All reports of the loop over the generators carry the number of gates given to it. -/
theorem loop_count {n : ℕ} (Q : HeapQ (HNode (BoundedPair (n + 1))) HNode.lt) (B : Dilation.Key (n + 1) → Option (PairBounds (n + 1))) (S : SatSolver)
    (H : HeapQ (Dilation.SeqItem (n + 1)) Dilation.SeqItem.lt) (hash : Search.Hashes n) (fuel : ℕ) (p : Search.Params n) (k : ℕ) :
    ∀ (gens : List (Search.GenId n × List (GateTuple (n + 1)))) {out : List (Search.Printed n)} {e : Search.Ending},
      Search.loop (m := Option) Q B S H hash fuel p k gens = some (out, e) → ∀ {id lo up idxs cnt cs}, .found id lo up idxs cnt cs ∈ out → cnt = k := by
  intro gens
  induction gens with
  | nil =>
    intro out e h
    rw [Search.loop, Option.pure_def, Option.some.injEq, Prod.mk.injEq] at h
    simp [← h.1]
  | cons g gens ih =>
    obtain ⟨id', gl⟩ := g
    intro out e h id lo up idxs cnt cs hm
    rw [Search.loop] at h
    simp only [Option.bind_eq_bind, Option.bind_eq_some_iff] at h
    obtain ⟨curves, _, r, _, h⟩ := h
    cases r with
    | outOfFuel =>
      rw [Option.pure_def, Option.some.injEq, Prod.mk.injEq] at h
      rw [← h.1] at hm
      simp at hm
    | absent =>
      rw [Option.pure_def, Option.some.injEq, Prod.mk.injEq] at h
      rw [← h.1] at hm
      simp at hm
    | ok lo' up' cs' idxs' =>
      simp only [Option.bind_eq_some_iff] at h
      obtain ⟨r, hr, h⟩ := h
      rw [Option.pure_def, Option.some.injEq, Prod.mk.injEq] at h
      rw [← h.1, List.mem_cons] at hm
      rcases hm with hm | hm
      · split at hm
        · cases hm
        · cases hm; rfl
      · exact ih hr hm

/-- C84. So the number of gates in every report of a search without given gates is the number of these gates, grouped by gates or not;
and with `--output-gates` the search prints these gates, each once. -/
theorem C84_count {m : Ratio} (Q : HeapQ (HNode (BoundedPair 2)) HNode.lt) (H : HeapQ (Dilation.SeqItem 2) Dilation.SeqItem.lt) (S : SatSolver)
    (hash : Search.Hashes 1) (fuel : ℕ) (p : Search.Params 1) (h1 : 2 ≤ p.div) (h2 : p.div ≤ 6) (hm : p.mult = 1) (hgl : p.gateList = none) (hf : p.facetGated = false)
    {out : List (Search.Printed 1)} {e : Search.Ending} (h : Search.runSearch (m := Option) Q (Dilation.keyBounds m) S H hash fuel p = some (out, e)) :
    (∀ {id lo up idxs cnt cs}, .found id lo up idxs cnt cs ∈ out → cnt = (planeGates p.div).length) ∧
      (p.outputGates = true → out.Perm ((planeGates p.div).map .gates) ∧ e = .finished) := by
  obtain ⟨gl, k1, k2⟩ := C84_gates ⟨p.div, p.mult, p.facetGated⟩ hash.point h1 h2 hm hf
  have hout : Search.gateList hash p = some gl := by
    unfold Search.gateList GatesGen.genGates
    rw [hgl]
    simp only [hf]
    rw [hf] at k1
    exact k1
  unfold Search.runSearch at h
  simp only [Option.bind_eq_bind, Option.bind_eq_some_iff] at h
  obtain ⟨gl', hg, h⟩ := h
  have : gl' = gl := by
    have hg' : Search.gateList hash p = some gl' := hg
    rw [hout, Option.some.injEq] at hg'
    exact hg'.symm
  subst this
  rw [← k2.length_eq]
  split at h
  · next ho =>
    rw [Option.pure_def, Option.some.injEq, Prod.mk.injEq] at h
    rw [← h.1, ← h.2]
    exact ⟨by simp, fun _ => ⟨k2.map _, rfl⟩⟩
  · next ho => exact ⟨fun hm => loop_count _ _ _ _ _ _ _ _ _ h hm, fun ho' => absurd ho' ho⟩

/-- The numbers of gates in the log of the YE proof. -/
example : (planeGates 2).length = 1 ∧ (planeGates 3).length = 2 ∧ (planeGates 4).length = 2 ∧ (planeGates 5).length = 3 ∧ (planeGates 6).length = 2 := by decide +kernel
