import Verif.Lemmas.SAT
import Verif.Lemmas.Templates

set_option autoImplicit false

/-! Soundness and completeness of the SAT encoding. -/
namespace Peano
namespace Sat
variable {d : ℕ}
open FCurve

/-- What is known about the fuzzy curve. -/
structure Ready (c : FCurve d) (T : List (Junction d × List (FCurve d))) : Prop where
  allowed : c.AllowedDefined
  templates : c.getJunctionTemplates = some T
  keys : (T.map Prod.fst).Nodup
  active : ∀ j ts, (j, ts) ∈ T → ts ≠ [] ∧ ∀ t ∈ ts, ∃ c', Possible c c' ∧ c'.AgreesWith t
  junctions : ∀ c', Possible c c' → ∃ l, c'.genRegularJunctions = some l ∧
      ∀ j, j ∈ l.map Prod.fst ↔ ∃ ts, (j, ts) ∈ T ∧ ∃ t ∈ ts, c'.AgreesWith t
  full : ∀ c', Possible c c' → c'.Full ∧ c'.check = some true

variable {c c' : FCurve d} {T : List (Junction d × List (FCurve d))}

theorem base_deltaT {p m : ℕ} {j : Junction d} (h : c.getBaseJunction p m = some j) : j.deltaT = 1 := by
  unfold getBaseJunction at h
  simp only [Option.bind_eq_bind, Option.bind_eq_some_iff, Option.pure_def, Option.some.injEq] at h
  obtain ⟨_, _, _, _, _, _, _, _, rfl⟩ := h
  simp

theorem derived_deltaT {j j' : Junction d} (h : c.getDerivedJunction j = some j') : j'.deltaT = 1 := by
  unfold getDerivedJunction at h
  simp only [Option.bind_eq_bind, Option.bind_eq_some_iff, Option.pure_def, Option.some.injEq] at h
  obtain ⟨_, _, _, _, _, _, _, _, _, _, _, _, rfl⟩ := h
  simp

theorem regular_deltaT (hk : c.kind = .curve) (h : c.Full) (hc : c.check = some true) {l : List (Junction d × Option ℕ)}
    (hl : c.genRegularJunctions = some l) {j : Junction d} (hj : j ∈ l.map Prod.fst) : j.deltaT = 1 := by
  obtain ⟨l', h1, h2⟩ := h.regular_closure hk hc
  rw [hl] at h1
  cases h1
  obtain ⟨p, m, b, _, _, hb, hr⟩ := (h2 j).1 hj
  unfold ReachJ at hr
  cases hr with
  | refl => exact base_deltaT hb
  | tail _ h => exact derived_deltaT h

theorem auto_deltaT {j : Junction d} (h : j ∈ c.genAutoJunctions) : j.deltaT = 0 := by
  unfold genAutoJunctions at h
  rw [List.mem_map] at h
  obtain ⟨p, _, rfl⟩ := h
  rfl

namespace Ready
variable (hR : Ready c T)
include hR

theorem key_deltaT {j : Junction d} {ts : List (FCurve d)} (h : (j, ts) ∈ T) : j.deltaT = 1 := by
  obtain ⟨h1, h2⟩ := hR.active j ts h
  obtain ⟨t, ht⟩ := List.exists_mem_of_ne_nil _ h1
  obtain ⟨e, he, ha⟩ := h2 t ht
  obtain ⟨l, hl, hj⟩ := hR.junctions e he
  obtain ⟨hf, hc⟩ := hR.full e he
  exact regular_deltaT he.kind hf hc hl ((hj j).2 ⟨ts, h, t, ht, ha⟩)

theorem auto_eq (hp : Possible c c') : c'.genAutoJunctions = c.genAutoJunctions := by
  unfold genAutoJunctions
  rw [hp.mult]

/-- Junctions of a possible curve. -/
theorem hasJunction_iff (hp : Possible c c') (j : Junction d) :
    c'.HasJunction j ↔ j ∈ c.genAutoJunctions ∨ ∃ ts, (j, ts) ∈ T ∧ ∃ t ∈ ts, c'.AgreesWith t := by
  unfold HasJunction
  rw [hR.auto_eq hp]
  obtain ⟨l, hl, hj⟩ := hR.junctions c' hp
  rw [← hj]
  refine or_congr_right ?_
  constructor
  · rintro ⟨l', h1, h2⟩
    rw [hl] at h1
    cases h1
    exact h2
  · intro h
    exact ⟨l, hl, h⟩

theorem key_unique {j : Junction d} {ts ts' : List (FCurve d)} (h : (j, ts) ∈ T) (h' : (j, ts') ∈ T) : ts = ts' := by
  rw [Dict.mem_iff_get? hR.keys] at h h'
  rw [h] at h'
  exact Option.some.inj h'

theorem hasJunction_key (hp : Possible c c') {j : Junction d} {ts : List (FCurve d)} (h : (j, ts) ∈ T) :
    c'.HasJunction j ↔ ∃ t ∈ ts, c'.AgreesWith t := by
  rw [hR.hasJunction_iff hp]
  constructor
  · rintro (h1 | ⟨ts', h1, h2⟩)
    · have := auto_deltaT h1
      rw [hR.key_deltaT h] at this
      exact absurd this (by decide)
    · rw [hR.key_unique h h1]
      exact h2
  · intro h2
    exact Or.inr ⟨ts, h, h2⟩

end Ready

/-- Meaning of the loaded clauses. -/
def LoadP (c : FCurve d) (T : List (Junction d × List (FCurve d))) (v : BoolVar d → Bool) : Prop :=
  (∀ p < c.mult, ∀ i < c.genus, ∀ l, c.genAllowedSpecs p i = some l → OneTrue v (l.map fun sp => .spec p i sp)) ∧
      (∀ j ∈ c.genAutoJunctions, v (.junc j) = true) ∧
      ∀ e ∈ T, (∀ c ∈ e.2, ZDef v c.genDefinedSpecs) ∧ JDef v e.1 e.2

/-- Meaning of the clauses of a built adapter. -/
def BuiltP (c : FCurve d) (T : List (Junction d × List (FCurve d))) (forb : List (Junction d × FCurve d)) (v : BoolVar d → Bool) : Prop :=
  LoadP c T v ∧ ∀ e ∈ forb, ¬ (v (.junc e.1) = true ∧ ∀ x ∈ e.2.genDefinedSpecs, v (specVar x) = true)

theorem built_mean (hR : Ready c T) {st : Adapter d} {forb : List (Junction d × FCurve d)} (h : Built c st forb) : Mean st (BuiltP c T forb) := by
  induction h with
  | load h =>
    obtain ⟨st', h1, h2⟩ := mean_load hR.allowed hR.templates
    rw [h] at h1
    cases h1
    exact h2.congr fun v => by simp [BuiltP, LoadP]
  | forbid j sub _ ih =>
    refine (ih.addForbid j sub).congr fun v => ?_
    unfold BuiltP
    simp only [List.mem_cons, forall_eq_or_imp]
    tauto

/-- The assignment of symbolic variables given by a curve. -/
noncomputable def valOf (c' : FCurve d) : BoolVar d → Bool := by
  classical
  exact fun x => match x with
    | .spec p i s => decide (c'.spec? p i = some s)
    | .junc j => decide (c'.HasJunction j)
    | .curve specs => decide (∀ e ∈ specs, c'.spec? e.1 e.2.1 = some e.2.2)

theorem valOf_spec {p i : ℕ} {s : Spec d} : valOf c' (.spec p i s) = true ↔ c'.spec? p i = some s := by simp [valOf]
theorem valOf_junc {j : Junction d} : valOf c' (.junc j) = true ↔ c'.HasJunction j := by simp [valOf]
theorem valOf_specs (specs : List (ℕ × ℕ × Spec d)) : valOf c' (.curve specs) = true ↔ ∀ e ∈ specs, c'.spec? e.1 e.2.1 = some e.2.2 := by
  simp only [valOf, decide_eq_true_eq]
theorem valOf_curve {sub : FCurve d} : valOf c' (curveVar sub) = true ↔ c'.AgreesWith sub := by
  rw [agreesWith_iff, curveVar, valOf_specs]

theorem valOf_zdef (specs : List (ℕ × ℕ × Spec d)) : ZDef (valOf c') specs := by
  unfold ZDef specVar
  rw [valOf_specs]
  simp only [valOf_spec]

theorem valOf_load (hR : Ready c T) (hp : Possible c c') : LoadP c T (valOf c') := by
  refine ⟨?_, ?_, ?_⟩
  · intro p hpm i hi l hl
    obtain ⟨s, h1, h2⟩ := hp.spec_allowed hpm hi hl
    refine ⟨⟨_, List.mem_map.2 ⟨s, h1, rfl⟩, valOf_spec.2 h2⟩, ?_⟩
    intro x hx y hy h3 h4
    rw [List.mem_map] at hx hy
    obtain ⟨a, _, rfl⟩ := hx
    obtain ⟨b, _, rfl⟩ := hy
    rw [valOf_spec] at h3 h4
    rw [h3] at h4
    rw [Option.some.inj h4]
  · intro j hj
    rw [valOf_junc, hR.hasJunction_iff hp]
    exact Or.inl hj
  · rintro ⟨j, ts⟩ he
    refine ⟨fun t _ => valOf_zdef _, ?_⟩
    unfold JDef
    rw [valOf_junc, hR.hasJunction_key hp he]
    simp only [valOf_curve]

theorem valOf_built (hR : Ready c T) (hp : Possible c c') {forb : List (Junction d × FCurve d)} (hf : ∀ e ∈ forb, ¬ c'.Violates e) :
    BuiltP c T forb (valOf c') := by
  refine ⟨valOf_load hR hp, ?_⟩
  rintro e he ⟨h1, h2⟩
  refine hf e he ⟨valOf_junc.1 h1, ?_⟩
  rw [agreesWith_iff]
  intro x hx
  exact valOf_spec.1 (h2 x hx)

/-- The curve given by an assignment. -/
theorem curve_of_val (hR : Ready c T) {v : BoolVar d → Bool} (h : LoadP c T v) :
    ∃ c', Possible c c' ∧ (∀ p < c.mult, ∀ i < c.genus, ∀ l, c.genAllowedSpecs p i = some l → ∀ s ∈ l,
      (v (.spec p i s) = true ↔ c'.spec? p i = some s)) ∧ ∀ j, (∃ c'', Possible c c'' ∧ c''.HasJunction j) → (v (.junc j) = true ↔ c'.HasJunction j) := by
  classical
  have hx : ∀ pc : ℕ × ℕ, ∃ s : Spec d, pc.1 < c.mult → pc.2 < c.genus → ∀ l, c.genAllowedSpecs pc.1 pc.2 = some l → s ∈ l ∧ v (.spec pc.1 pc.2 s) = true := by
    intro pc
    by_cases hpc : pc.1 < c.mult ∧ pc.2 < c.genus
    · obtain ⟨l, hl, _⟩ := hR.allowed pc.1 hpc.1 pc.2 hpc.2
      obtain ⟨⟨x, hx, hv⟩, _⟩ := h.1 pc.1 hpc.1 pc.2 hpc.2 l hl
      rw [List.mem_map] at hx
      obtain ⟨s, hs, rfl⟩ := hx
      refine ⟨s, fun _ _ l' hl' => ?_⟩
      rw [hl] at hl'
      cases hl'
      exact ⟨hs, hv⟩
    · exact ⟨⟨1, 0⟩, fun h1 h2 => absurd ⟨h1, h2⟩ hpc⟩
  choose S hS using hx
  have hlen : (c.positions.map S).length = c.mult * c.genus := by rw [List.length_map, positions_length]
  have hget : ∀ p < c.mult, ∀ i < c.genus, (c.positions.map S)[p * c.genus + i]? = some (S (p, i)) := by
    intro p hp i hi
    rw [List.getElem?_map, c.positions_getElem? hp hi]
    rfl
  have hposs : Possible c (c.mkCurve (c.positions.map S)) := mkCurve_possible hlen (by
    intro p hp i hi
    obtain ⟨l, hl, _⟩ := hR.allowed p hp i hi
    exact ⟨l, S (p, i), hl, (hS (p, i) hp hi l hl).1, hget p hp i hi⟩)
  have hspec : ∀ p < c.mult, ∀ i < c.genus, (c.mkCurve (c.positions.map S)).spec? p i = some (S (p, i)) := by
    intro p hp i hi
    rw [mkCurve_spec? _ _ hp hi, hget p hp i hi]
  have key : ∀ p < c.mult, ∀ i < c.genus, ∀ l, c.genAllowedSpecs p i = some l → ∀ s ∈ l,
      (v (.spec p i s) = true ↔ (c.mkCurve (c.positions.map S)).spec? p i = some s) := by
    intro p hp i hi l hl s hs
    rw [hspec p hp i hi]
    obtain ⟨h1, h2⟩ := hS (p, i) hp hi l hl
    constructor
    · intro hv
      have := (h.1 p hp i hi l hl).2 _ (List.mem_map.2 ⟨s, hs, rfl⟩) _ (List.mem_map.2 ⟨_, h1, rfl⟩) hv h2
      injection this with _ _ e
      rw [e]
    · intro he
      rw [← Option.some.inj he]
      exact h2
  refine ⟨_, hposs, key, ?_⟩
  rintro j ⟨c'', hp'', hj⟩
  rw [hR.hasJunction_iff hp''] at hj
  rcases hj with hj | ⟨ts, hts, _⟩
  · constructor
    · intro _
      rw [hR.hasJunction_iff hposs]
      exact Or.inl hj
    · intro _
      exact h.2.1 j hj
  · obtain ⟨hz, hjd⟩ := h.2.2 _ hts
    unfold JDef at hjd
    rw [hjd, hR.hasJunction_key hposs hts]
    refine exists_congr fun t => and_congr_right fun ht => ?_
    have hzt := hz t ht
    unfold ZDef at hzt
    unfold curveVar
    rw [hzt, agreesWith_iff]
    refine forall₂_congr fun e he => ?_
    obtain ⟨p, i, s⟩ := e
    obtain ⟨e, hpe, ha⟩ := (hR.active j ts hts).2 t ht
    have hes := ha p i s ((mem_genDefinedSpecs _ _ _ _).1 he)
    have hpm : p < c.mult := by
      rw [← hpe.mult]
      exact spec?_lt hes
    have him : i < c.genus := by
      have hg : e.genus = c.genus := by unfold genus; rw [hpe.div]
      rw [← hg]
      exact (hR.full e hpe).1.toShape.spec?_lt_genus hes
    obtain ⟨l, s', hl, hs', hes'⟩ := hpe.allowed p hpm i him
    rw [hes] at hes'
    cases hes'
    exact key p hpm i him l hl s hs'

/-- A variable that matters has a number. -/
theorem numbered {st : Adapter d} {P : (BoolVar d → Bool) → Prop} (h : Mean st P) {v : BoolVar d → Bool} (hv : P v) {x : BoolVar d}
    (hx : ∀ v', (∀ y, y ≠ x → v' y = v y) → v' x = !v x → ¬ P v') : ∃ n, Dict.get? x st.varNo = some n := by
  classical
  by_contra hcon
  push Not at hcon
  obtain ⟨cls, hr, hP⟩ := h.repr
  have hn : x ∉ st.varNo.map Prod.fst := fun hm => hcon _ (get?_of_mem hm)
  refine hx (fun y => if y = x then !v x else v y) (fun y hy => if_neg hy) (if_pos rfl) ?_
  rw [← hP]
  intro cl hcl
  obtain ⟨e, he, h1⟩ := (hP v).2 hv cl hcl
  refine ⟨e, he, ?_⟩
  have : e.1 ≠ x := fun hh => hn (hh ▸ hr.vars cl hcl e he)
  simp only [if_neg this]
  exact h1

theorem describes_of (hR : Ready c T) {st : Adapter d} {forb : List (Junction d × FCurve d)} (hb : Built c st forb) {v : BoolVar d → Bool}
    (hv : BuiltP c T forb v) {a : ℕ → Bool} (ha : ∀ x n, Dict.get? x st.varNo = some n → a n = v x)
    (h1 : ∀ p < c.mult, ∀ i < c.genus, ∀ l, c.genAllowedSpecs p i = some l → ∀ s ∈ l, (v (.spec p i s) = true ↔ c'.spec? p i = some s))
    (h2 : ∀ j, (∃ c'', Possible c c'' ∧ c''.HasJunction j) → (v (.junc j) = true ↔ c'.HasJunction j)) : Describes c st a c' := by
  have hm := built_mean hR hb
  constructor
  · intro p hp i hi l hl s hs
    obtain ⟨n, hn⟩ := numbered hm hv (x := .spec p i s) (by
      intro v' hy hx hv'
      have o1 := hv.1.1 p hp i hi l hl
      have o2 := hv'.1.1 p hp i hi l hl
      have hsm : BoolVar.spec p i s ∈ l.map fun sp => BoolVar.spec p i sp := List.mem_map.2 ⟨s, hs, rfl⟩
      cases hvs : v (.spec p i s) with
      | true =>
        obtain ⟨y, hym, hyt⟩ := o2.1
        by_cases hyx : y = .spec p i s
        · rw [hyx, hx, hvs] at hyt
          exact absurd hyt (by simp)
        · rw [hy y hyx] at hyt
          exact hyx (o1.2 _ hym _ hsm hyt hvs)
      | false =>
        obtain ⟨y, hym, hyt⟩ := o1.1
        have hyx : y ≠ .spec p i s := by rintro rfl; rw [hvs] at hyt; exact absurd hyt (by simp)
        exact hyx (o2.2 _ hym _ hsm (by rw [hy y hyx]; exact hyt) (by rw [hx, hvs]; rfl)))
    refine ⟨n, hn, ?_⟩
    rw [ha _ _ hn]
    exact h1 p hp i hi l hl s hs
  · intro j hj
    obtain ⟨n, hn⟩ := numbered hm hv (x := .junc j) (by
      intro v' hy hx hv'
      obtain ⟨c'', hp'', hj''⟩ := hj
      rw [hR.hasJunction_iff hp''] at hj''
      rcases hj'' with hj'' | ⟨ts, hts, _⟩
      · have e1 := hv.1.2.1 j hj''
        have e2 := hv'.1.2.1 j hj''
        rw [hx, e1] at e2
        exact absurd e2 (by simp)
      · have e1 := (hv.1.2.2 _ hts).2
        have e2 := (hv'.1.2.2 _ hts).2
        unfold JDef at e1 e2
        have : (∃ t ∈ ts, v' (curveVar t) = true) ↔ ∃ t ∈ ts, v (curveVar t) = true := by
          refine exists_congr fun t => and_congr_right fun _ => ?_
          rw [hy (curveVar t) (by simp [curveVar])]
        rw [this, ← e1, hx] at e2
        cases hvj : v (.junc j) <;> simp [hvj] at e2)
    refine ⟨n, hn, ?_⟩
    rw [ha _ _ hn]
    exact h2 j hj

theorem sat_sound (hR : Ready c T) {st : Adapter d} {forb : List (Junction d × FCurve d)} (hb : Built c st forb) {a : ℕ → Bool}
    (ha : Satisfies a st.intClauses) : ∃ c', Possible c c' ∧ (∀ e ∈ forb, ¬ c'.Violates e) ∧ Describes c st a c' := by
  have hm := built_mean hR hb
  obtain ⟨cls, hr, hP⟩ := hm.repr
  let v : BoolVar d → Bool := fun x => a (num st.varNo x)
  have hv : ∀ x n, Dict.get? x st.varNo = some n → a n = v x := by
    intro x n hn
    simp only [v, num, hn, Option.getD_some]
  have hPv : BuiltP c T forb v := (hP v).1 ((satisfies_iff hr hv).1 ha)
  obtain ⟨c', hp, h1, h2⟩ := curve_of_val hR hPv.1
  refine ⟨c', hp, ?_, describes_of hR hb hPv hv h1 h2⟩
  rintro ⟨j, sub⟩ he ⟨hj, hag⟩
  refine hPv.2 _ he ⟨(h2 j ⟨c', hp, hj⟩).2 hj, ?_⟩
  rintro ⟨p, i, s⟩ hx
  have hs := hag p i s ((mem_genDefinedSpecs _ _ _ _).1 hx)
  have hpm : p < c.mult := by rw [← hp.mult]; exact spec?_lt hs
  have him : i < c.genus := by
    have hg : c'.genus = c.genus := by unfold genus; rw [hp.div]
    rw [← hg]
    exact (hR.full c' hp).1.toShape.spec?_lt_genus hs
  obtain ⟨l, s', hl, hs', hes'⟩ := hp.allowed p hpm i him
  rw [hs] at hes'
  cases hes'
  exact (h1 p hpm i him l hl s hs').2 hs

theorem sat_complete (hR : Ready c T) {st : Adapter d} {forb : List (Junction d × FCurve d)} (hb : Built c st forb) (hp : Possible c c')
    (hf : ∀ e ∈ forb, ¬ c'.Violates e) : ∃ a, Satisfies a st.intClauses ∧ Describes c st a c' := by
  have hm := built_mean hR hb
  obtain ⟨cls, hr, hP⟩ := hm.repr
  have hv := valOf_built hR hp hf
  have ha : ∀ x n, Dict.get? x st.varNo = some n → toNat st.varNo (valOf c') n = valOf c' x := fun x n h => toNat_eq hr.num _ h
  refine ⟨toNat st.varNo (valOf c'), (satisfies_iff hr ha).2 ((hP _).2 hv), describes_of hR hb hv ha ?_ ?_⟩
  · intro p _ i _ l _ s _
    exact valOf_spec
  · intro j _
    exact valOf_junc

/-! ### The model of the solver -/

theorem noVar_aux (l : List (BoolVar d × ℕ)) (acc : List (ℕ × BoolVar d)) (h : (acc.map Prod.fst ++ l.map Prod.snd).Nodup) :
    l.foldl (fun dict e => Dict.set e.2 e.1 dict) acc = acc ++ l.map fun e => (e.2, e.1) := by
  induction l generalizing acc with
  | nil => simp
  | cons e l ih =>
    rw [List.foldl_cons]
    have hn : e.2 ∉ acc.map Prod.fst := by
      intro hm
      rw [List.nodup_append] at h
      exact h.2.2 _ hm e.2 (by simp) rfl
    rw [set_new hn, ih]
    · simp
    · simpa using h

theorem getModel_spec {st : Adapter d} (h : NumOK st.varNo) (m : List ℤ) (hc : ∀ l ∈ m, -l ∉ m) (hr : ∀ l ∈ m, l ≠ 0 ∧ l.natAbs ≤ st.varNo.length) :
    ∃ model, getModel st m = some model ∧ ∀ x n, Dict.get? x st.varNo = some n →
      Dict.get? x model = if (n : ℤ) ∈ m then some true else if -(n : ℤ) ∈ m then some false else none := by
  unfold getModel
  have hnd : (st.varNo.map Prod.snd).Nodup := by rw [h.nums]; exact List.nodup_range'
  simp only
  rw [noVar_aux _ _ (by simpa using hnd), List.nil_append]
  have hno : ∀ n x, Dict.get? n (st.varNo.map fun e => (e.2, e.1)) = some x ↔ Dict.get? x st.varNo = some n := by
    intro n x
    rw [← Dict.mem_iff_get? h.keys, ← Dict.mem_iff_get?]
    · simp only [List.mem_map, Prod.mk.injEq, Prod.exists]
      constructor
      · rintro ⟨a, b, hab, rfl, rfl⟩; exact hab
      · intro hx; exact ⟨x, n, hx, rfl, rfl⟩
    · rw [List.map_map]
      exact hnd
  have hex : ∀ l : ℤ, l ≠ 0 → l.natAbs ≤ st.varNo.length → ∃ x, Dict.get? l.natAbs (st.varNo.map fun e => (e.2, e.1)) = some x := by
    intro l h0 hle
    have : l.natAbs ∈ st.varNo.map Prod.snd := by
      rw [h.nums, List.mem_range'_1]
      omega
    obtain ⟨e, he, hee⟩ := List.mem_map.1 this
    refine ⟨e.1, (hno _ _).2 ?_⟩
    rw [← Dict.mem_iff_get? h.keys, ← hee]
    exact he
  have main : ∀ (m : List ℤ), (∀ l ∈ m, -l ∉ m) → (∀ l ∈ m, l ≠ 0 ∧ l.natAbs ≤ st.varNo.length) → ∀ acc : List (BoolVar d × Bool),
      ∃ model, m.foldlM (fun model tok => (Dict.get? tok.natAbs (st.varNo.map fun e => (e.2, e.1))).map fun var => Dict.set var (decide (tok > 0)) model) acc = some model ∧
        ∀ x n, Dict.get? x st.varNo = some n →
          Dict.get? x model = if (n : ℤ) ∈ m then some true else if -(n : ℤ) ∈ m then some false else Dict.get? x acc := by
    intro m
    induction m with
    | nil => intro _ _ acc; exact ⟨acc, rfl, by simp⟩
    | cons tok m ih =>
      intro hc hr acc
      obtain ⟨y, hy⟩ := hex tok (hr tok (by simp)).1 (hr tok (by simp)).2
      obtain ⟨model, h1, h2⟩ := ih (fun l hl hl' => hc l (List.mem_cons_of_mem _ hl) (List.mem_cons_of_mem _ hl'))
        (fun l hl => hr l (List.mem_cons_of_mem _ hl)) (Dict.set y (decide (tok > 0)) acc)
      refine ⟨model, ?_, ?_⟩
      · rw [List.foldlM_cons, hy]
        exact h1
      · intro x n hx
        rw [h2 x n hx, Dict.get?_set]
        simp only [List.mem_cons]
        have hpos := (num_pos h hx).1
        have hxy : y = x ↔ tok.natAbs = n := by
          constructor
          · rintro rfl
            have := (hno _ _).1 hy
            rw [hx] at this
            exact (Option.some.inj this).symm
          · rintro rfl
            have := (hno _ _).2 hx
            rw [hy] at this
            exact Option.some.inj this
        have htc := hc tok (by simp)
        by_cases e1 : (n : ℤ) = tok
        · have : y = x := hxy.2 (by omega)
          have hp : tok > 0 := by omega
          have hnm : -(n : ℤ) ∉ m := by rw [e1]; exact fun h => htc (List.mem_cons_of_mem _ h)
          simp [e1, this, hp]
          rw [e1] at hnm
          simp [hnm]
        · by_cases e2 : -(n : ℤ) = tok
          · have : y = x := hxy.2 (by omega)
            have hp : ¬ tok > 0 := by omega
            have hnm : (n : ℤ) ∉ m := by
              intro h
              apply htc
              rw [← e2, neg_neg]
              exact List.mem_cons_of_mem _ h
            simp [e1, e2, this, hp, hnm]
          · have : y ≠ x := fun h => by
              have := hxy.1 h
              omega
            simp [e1, e2, this]
  exact main m hc hr []

theorem find?_unique {α : Type} {l : List α} {p : α → Bool} {s : α} (hs : s ∈ l) (hp : p s = true) (hu : ∀ x ∈ l, p x = true → x = s) : l.find? p = some s := by
  induction l with
  | nil => simp at hs
  | cons a l ih =>
    rw [List.find?_cons]
    cases hpa : p a with
    | true => rw [hu a (by simp) hpa]
    | false =>
      rcases List.mem_cons.1 hs with rfl | hs
      · rw [hp] at hpa; exact absurd hpa (by simp)
      · exact ih hs fun x hx => hu x (List.mem_cons_of_mem _ hx)

theorem model_curve (hR : Ready c T) {st : Adapter d} {forb : List (Junction d × FCurve d)} (hb : Built c st forb) (S : SatSolver) {m : List ℤ}
    (hm : S.solve st.intClauses = some m) :
    ∃ c', Possible c c' ∧ (∀ e ∈ forb, ¬ c'.Violates e) ∧ getModelCurve c st m = some { c' with pnum := 0 } := by
  classical
  have hmean := built_mean hR hb
  obtain ⟨cls, hr, hP⟩ := hmean.repr
  have hcons := S.model_consistent _ _ hm
  have hvars : ∀ l ∈ m, l ≠ 0 ∧ l.natAbs ≤ st.varNo.length := by
    intro l hl
    obtain ⟨h0, cl, hcl, k, hk, hle⟩ := S.model_vars _ _ hm l hl
    exact ⟨h0, hle.trans (ints_le hr cl hcl k hk)⟩
  let a : ℕ → Bool := fun n => decide (-(n : ℤ) ∉ m)
  have hsat : Satisfies a st.intClauses := by
    intro cl hcl
    obtain ⟨l, hl, hlm⟩ := S.model_sat _ _ hm cl hcl
    have h0 := (hvars l hlm).1
    refine ⟨l, hl, ?_⟩
    simp only [a]
    by_cases hpos : 0 < l
    · have e : ((l.natAbs : ℕ) : ℤ) = l := by omega
      rw [e]
      simp [hcons l hlm, hpos]
    · have e : -((l.natAbs : ℕ) : ℤ) = l := by omega
      rw [e]
      simp [hlm, hpos]
  obtain ⟨c', hp, hforb, hdesc⟩ := sat_sound hR hb hsat
  refine ⟨c', hp, hforb, ?_⟩
  obtain ⟨model, hmod, hval⟩ := getModel_spec hr.num m hcons hvars
  have hgood : ∀ p < c.mult, ∀ i < c.genus, ∀ l, c.genAllowedSpecs p i = some l → goodSpec model p i l = c'.spec? p i := by
    intro p hpm i hi l hl
    have hb : ∀ s ∈ l, (match Dict.get? (BoolVar.spec p i s) model with
        | none => true
        | some b => b) = true ↔ c'.spec? p i = some s := by
      intro s hs
      obtain ⟨n, hn, h⟩ := hdesc.1 p hpm i hi l hl s hs
      rw [← h, hval _ _ hn]
      simp only [a, decide_eq_true_eq]
      by_cases h1 : (n : ℤ) ∈ m
      · simp [h1, hcons _ h1]
      · by_cases h2 : -(n : ℤ) ∈ m <;> simp [h1, h2]
    obtain ⟨s, hs, hsp⟩ := hp.spec_allowed hpm hi hl
    unfold goodSpec
    rw [hsp]
    apply find?_unique hs ((hb s hs).2 hsp)
    intro x hx hxt
    have := (hb x hx).1 hxt
    rw [hsp] at this
    exact (Option.some.inj this).symm
  let F : ℕ × ℕ → Spec d := fun pc => (c'.spec? pc.1 pc.2).getD ⟨1, 0⟩
  have hF : ∀ p < c.mult, ∀ i < c.genus, c'.spec? p i = some (F (p, i)) := by
    intro p hpm i hi
    obtain ⟨l, s, _, _, h⟩ := hp.allowed p hpm i hi
    simp only [F, h, Option.getD_some]
  have hmap : (c.positions.mapM fun pc => do
      let allowed ← c.genAllowedSpecs pc.1 pc.2
      goodSpec model pc.1 pc.2 allowed) = some (c.positions.map F) := by
    apply mapM_eq_some_map
    intro pc hpc
    obtain ⟨h1, h2⟩ := c.mem_positions.1 hpc
    obtain ⟨l, hl, _⟩ := hR.allowed pc.1 h1 pc.2 h2
    rw [hl]
    simp only [Option.bind_eq_bind, Option.bind_some]
    rw [hgood pc.1 h1 pc.2 h2 l hl, hF pc.1 h1 pc.2 h2]
  have hlen : (c.positions.map F).length = c.mult * c.genus := by rw [List.length_map, positions_length]
  have hget : ∀ p < c.mult, ∀ i < c.genus, (c.positions.map F)[p * c.genus + i]? = some (F (p, i)) := by
    intro p hp i hi
    rw [List.getElem?_map, c.positions_getElem? hp hi]
    rfl
  have hposs : Possible c (c.mkCurve (c.positions.map F)) := mkCurve_possible hlen (by
    intro p hpm i hi
    obtain ⟨l, hl, _⟩ := hR.allowed p hpm i hi
    obtain ⟨s, hs, hsp⟩ := hp.spec_allowed hpm hi hl
    rw [hF p hpm i hi] at hsp
    refine ⟨l, F (p, i), hl, ?_, hget p hpm i hi⟩
    rw [Option.some.inj hsp]
    exact hs)
  have heq : c.mkCurve (c.positions.map F) = c' := hposs.ext hp (by
    intro p hpm i hi
    rw [mkCurve_spec? _ _ hpm hi, hget p hpm i hi, hF p hpm i hi])
  unfold getModelCurve
  rw [hmod]
  simp only [Option.bind_eq_bind, Option.bind_some, Option.pure_def] at hmap ⊢
  rw [hmap, Option.bind_some, ← heq]
  simp only [mkCurve, Option.some.injEq, FCurve.mk.injEq, true_and, and_true]
  apply List.map_congr_left
  intro pp _
  rw [Nat.mul_comm]

theorem no_model (hR : Ready c T) {st : Adapter d} {forb : List (Junction d × FCurve d)} (hb : Built c st forb) (S : SatSolver)
    (hm : S.solve st.intClauses = none) : ∀ c', Possible c c' → ∃ e ∈ forb, c'.Violates e := by
  intro c' hp
  by_contra hcon
  push Not at hcon
  obtain ⟨a, ha, _⟩ := sat_complete hR hb hp hcon
  obtain ⟨cls, hr, _⟩ := (built_mean hR hb).repr
  exact S.no_model _ (ints_ne_zero hr) hm ⟨a, ha⟩

end Sat
end Peano
