import Verif.Spec.Fuzzy
import Verif.Lemmas.Subdivision
import Verif.Lemmas.Itertools
import Verif.Lemmas.ListM

/- Possible curves of a fuzzy curve, specification. -/
namespace Peano
variable {d : ℕ}
namespace FCurve
variable {c c' : FCurve d}

/-- The entry of the table of specs; `none` if the position does not exist. -/
def raw (c : FCurve d) (p i : ℕ) : Option (Option (Spec d)) := (c.patterns[p]?).bind fun pat => pat.specs[i]?

theorem spec?_eq_raw (c : FCurve d) (p i : ℕ) : c.spec? p i = (c.raw p i).join := by
  unfold spec? raw
  cases c.patterns[p]? <;> rfl

/-- Sizes of the tables. -/
structure Sized (c : FCurve d) : Prop where
  specs_length : ∀ p ∈ c.patterns, p.specs.length = c.genus

theorem Sized.raw_isSome (h : c.Sized) {p i : ℕ} (hp : p < c.mult) (hi : i < c.genus) : ∃ o, c.raw p i = some o := by
  obtain ⟨pat, hpat⟩ := getElem?_of_lt hp
  have := h.specs_length pat (List.mem_of_getElem? hpat)
  unfold raw
  rw [hpat]
  exact ⟨pat.specs[i]'(by omega), by simp [List.getElem?_eq_getElem (by omega : i < pat.specs.length)]⟩

/-- `gen_allowed_specs` reads only the entry and the immutable data. -/
theorem genAllowedSpecs_congr (hk : c'.kind = c.kind) {p i : ℕ} (hr : c'.raw p i = c.raw p i) :
    c'.genAllowedSpecs p i = c.genAllowedSpecs p i := by
  unfold genAllowedSpecs
  rw [hk]
  cases hkind : c.kind with
  | fuzzy => rfl
  | curve => simp only [spec?_eq_raw, hr]
  | path x =>
    unfold raw at hr
    simp only [Option.bind_eq_bind]
    rw [← Option.bind_assoc, hr, Option.bind_assoc]

theorem genAllowedSpecs_defined {p i : ℕ} {s : Spec d} (hk : c.kind ≠ .fuzzy) (hr : c.raw p i = some (some s)) :
    c.genAllowedSpecs p i = some [s] := by
  unfold genAllowedSpecs
  cases hkind : c.kind with
  | fuzzy => exact absurd hkind hk
  | curve => simp [spec?_eq_raw, hr]
  | path x =>
    unfold raw at hr
    simp only [Option.bind_eq_bind]
    rw [← Option.bind_assoc, hr]
    rfl

theorem genAllowedSpecs_kind {p i : ℕ} {l : List (Spec d)} (h : c.genAllowedSpecs p i = some l) : c.kind ≠ .fuzzy := by
  intro hk
  unfold genAllowedSpecs at h
  rw [hk] at h
  cases h

/-! ### `_specify_allowed` -/

theorem setSpec_eq {specs : List (Option (Spec d))} {i : ℕ} {s : Spec d} (h : i < specs.length) : setSpec specs i s = some (specs.set i (some s)) := by
  unfold setSpec
  rw [if_pos h]

/-- One assignment. -/
theorem specifyStep {ps : List (Pattern d)} {e : (ℕ × ℕ) × Spec d} {pat : Pattern d} (h1 : ps[e.1.1]? = some pat) (h2 : e.1.2 < pat.specs.length) :
    (do let p ← ps[e.1.1]?
        let specs ← setSpec p.specs e.1.2 e.2
        return ps.set e.1.1 ⟨p.proto, specs⟩ : Option (List (Pattern d))) = some (ps.set e.1.1 ⟨pat.proto, pat.specs.set e.1.2 (some e.2)⟩) := by
  simp [h1, setSpec_eq h2]

/-- Effect of assignments on the patterns. -/
structure Assigned (ps ps' : List (Pattern d)) (dict : List ((ℕ × ℕ) × Spec d)) : Prop where
  protos : ps'.map Pattern.proto = ps.map Pattern.proto
  lengths : ps'.map (fun p => p.specs.length) = ps.map (fun p => p.specs.length)
  entries : ∀ p i, ((ps'[p]?).bind fun pat => pat.specs[i]?) = match dict.lookup (p, i) with
    | some s => some (some s)
    | none => (ps[p]?).bind fun pat => pat.specs[i]?

theorem lookup_none_of_notMem {α β : Type} [BEq α] [LawfulBEq α] {l : List (α × β)} {k : α} (h : k ∉ l.map Prod.fst) : l.lookup k = none := by
  rw [List.lookup_eq_none_iff]
  intro e he
  simp only [bne_iff_ne, ne_eq, beq_iff_eq]
  rintro rfl
  exact h (List.mem_map.2 ⟨e, he, rfl⟩)

theorem specify_foldlM (dict : List ((ℕ × ℕ) × Spec d)) (hn : (dict.map Prod.fst).Nodup) (ps : List (Pattern d))
    (hin : ∀ e ∈ dict, ∃ pat, ps[e.1.1]? = some pat ∧ e.1.2 < pat.specs.length) :
    ∃ ps', dict.foldlM (fun (ps : List (Pattern d)) e => do
      let p ← ps[e.1.1]?
      let specs ← setSpec p.specs e.1.2 e.2
      return ps.set e.1.1 ⟨p.proto, specs⟩) ps = some ps' ∧ Assigned ps ps' dict := by
  induction dict generalizing ps with
  | nil => exact ⟨ps, rfl, rfl, rfl, fun p i => rfl⟩
  | cons e dict ih =>
    obtain ⟨pat, hp1, hp2⟩ := hin e List.mem_cons_self
    have hlt : e.1.1 < ps.length := (List.getElem?_eq_some_iff.1 hp1).1
    have hge : ps[e.1.1] = pat := (List.getElem?_eq_some_iff.1 hp1).2
    rw [List.map_cons, List.nodup_cons] at hn
    obtain ⟨ps', h1, h2⟩ := ih hn.2 (ps.set e.1.1 ⟨pat.proto, pat.specs.set e.1.2 (some e.2)⟩) (by
      intro e' he'
      obtain ⟨pat', q1, q2⟩ := hin e' (List.mem_cons_of_mem _ he')
      by_cases heq : e.1.1 = e'.1.1
      · refine ⟨_, by rw [← heq, List.getElem?_set_self hlt], ?_⟩
        rw [← heq, hp1] at q1
        cases q1
        simpa using q2
      · exact ⟨pat', by rw [List.getElem?_set_ne heq]; exact q1, q2⟩)
    refine ⟨ps', ?_, ?_, ?_, ?_⟩
    · rw [List.foldlM_cons, specifyStep hp1 hp2]
      exact h1
    · rw [h2.protos, List.map_set, ← hge]
      show (ps.map Pattern.proto).set e.1.1 ps[e.1.1].proto = _
      have : ps[e.1.1].proto = (ps.map Pattern.proto)[e.1.1]'(by simpa using hlt) := by simp
      rw [this, List.set_getElem_self]
    · rw [h2.lengths, List.map_set]
      have : (pat.specs.set e.1.2 (some e.2)).length = (ps.map fun p => p.specs.length)[e.1.1]'(by simpa using hlt) := by simp [hge]
      rw [this, List.set_getElem_self]
    · intro p i
      rw [h2.entries p i]
      by_cases hkey : (p, i) = e.1
      · have h0 : dict.lookup (p, i) = none := lookup_none_of_notMem (by rw [hkey]; exact hn.1)
        have h3 : (e :: dict).lookup (p, i) = some e.2 := by
          obtain ⟨k, v⟩ := e
          simp only at hkey
          simp [List.lookup_cons, hkey]
        rw [h0, h3]
        simp only
        have hpe : p = e.1.1 := by rw [← hkey]
        have hie : i = e.1.2 := by rw [← hkey]
        subst hpe hie
        rw [List.getElem?_set_self hlt]
        simp [List.getElem?_set_self hp2]
      · have h3 : (e :: dict).lookup (p, i) = dict.lookup (p, i) := by
          obtain ⟨k, v⟩ := e
          have : ((p, i) == k) = false := by simpa using hkey
          rw [List.lookup_cons, this]
        rw [h3]
        cases dict.lookup (p, i) with
        | some s => rfl
        | none =>
          simp only
          by_cases hpe : e.1.1 = p
          · subst hpe
            rw [List.getElem?_set_self hlt, hp1]
            simp only [Option.bind_some]
            rw [List.getElem?_set_ne]
            intro hie
            exact hkey (by rw [← hie])
          · rw [List.getElem?_set_ne hpe]

theorem specifyAllowed_spec (dict : List ((ℕ × ℕ) × Spec d)) (hn : (dict.map Prod.fst).Nodup) (h : c.Sized)
    (hin : ∀ e ∈ dict, e.1.1 < c.mult ∧ e.1.2 < c.genus) :
    ∃ c', c.specifyAllowed dict = some c' ∧ c'.div = c.div ∧ c'.pnum = c.pnum ∧ c'.kind = c.kind ∧ c'.mult = c.mult ∧ c'.Sized ∧
      (c'.patterns.map Pattern.proto = c.patterns.map Pattern.proto) ∧
      ∀ p i, c'.raw p i = match dict.lookup (p, i) with
        | some s => some (some s)
        | none => c.raw p i := by
  obtain ⟨ps', h1, h2⟩ := specify_foldlM dict hn c.patterns (by
    intro e he
    obtain ⟨q1, q2⟩ := hin e he
    obtain ⟨pat, hpat⟩ := getElem?_of_lt q1
    exact ⟨pat, hpat, by rw [h.specs_length pat (List.mem_of_getElem? hpat)]; exact q2⟩)
  refine ⟨{ c with patterns := ps' }, ?_, rfl, rfl, rfl, ?_, ⟨?_⟩, h2.protos, h2.entries⟩
  · unfold specifyAllowed
    rw [h1]; rfl
  · have := congrArg List.length h2.protos
    simpa [mult] using this
  · intro pat hpat
    have hl := h2.lengths
    show pat.specs.length = c.genus
    have : pat.specs.length ∈ ps'.map fun p => p.specs.length := List.mem_map.2 ⟨pat, hpat, rfl⟩
    rw [hl] at this
    obtain ⟨q, hq, he⟩ := List.mem_map.1 this
    rw [← he]
    exact h.specs_length q hq

/-! ### possible curves -/

theorem positions_getElem? (c : FCurve d) {p i : ℕ} (hp : p < c.mult) (hi : i < c.genus) : c.positions[p * c.genus + i]? = some (p, i) := by
  unfold positions
  rw [getElem?_flatMap_const _ (by simp) p i hi]
  simp [hp, hi]

theorem positions_length (c : FCurve d) : c.positions.length = c.mult * c.genus := by
  unfold positions
  rw [List.length_flatMap]
  simp

theorem mem_positions (c : FCurve d) {pc : ℕ × ℕ} : pc ∈ c.positions ↔ pc.1 < c.mult ∧ pc.2 < c.genus := by
  unfold positions
  simp only [List.mem_flatMap, List.mem_range, List.mem_map]
  constructor
  · rintro ⟨p, hp, i, hi, rfl⟩; exact ⟨hp, hi⟩
  · rintro ⟨hp, hi⟩; exact ⟨_, hp, _, hi, rfl⟩

/-- The curve made from a flat list of specs. -/
def mkCurve (c : FCurve d) (x : List (Spec d)) : FCurve d :=
  { div := c.div
    patterns := c.patterns.zipIdx.map fun pp => ⟨pp.1.proto, ((x.drop (c.genus * pp.2)).take c.genus).map some⟩
    pnum := c.pnum
    kind := .curve }

theorem mkCurve_pattern (c : FCurve d) (x : List (Spec d)) (p : ℕ) :
    (c.mkCurve x).patterns[p]? = (c.patterns[p]?).map fun pat => ⟨pat.proto, ((x.drop (c.genus * p)).take c.genus).map some⟩ := by
  unfold mkCurve
  simp only [List.getElem?_map, List.getElem?_zipIdx, Option.map_map]
  congr 1
  funext pat
  simp

theorem mkCurve_spec? (c : FCurve d) (x : List (Spec d)) {p i : ℕ} (hp : p < c.mult) (hi : i < c.genus) :
    (c.mkCurve x).spec? p i = x[p * c.genus + i]? := by
  obtain ⟨pat, hpat⟩ := getElem?_of_lt hp
  unfold spec?
  rw [mkCurve_pattern, hpat]
  simp only [Option.map_some, Option.bind_some, List.getElem?_map, List.getElem?_take, hi, if_true, List.getElem?_drop]
  rw [Nat.mul_comm c.genus p]
  cases x[p * c.genus + i]? <;> rfl

theorem mkCurve_inj {x y : List (Spec d)} (hx : x.length = c.mult * c.genus) (hy : y.length = c.mult * c.genus)
    (h : c.mkCurve x = c.mkCurve y) : x = y := by
  apply List.ext_getElem?
  intro n
  by_cases hn : n < c.mult * c.genus
  · have hG : 0 < c.genus := by
      by_contra hcon
      have : c.genus = 0 := by omega
      rw [this] at hn
      omega
    have hp : n / c.genus < c.mult := by rw [Nat.div_lt_iff_lt_mul hG]; exact hn
    have hi := Nat.mod_lt n hG
    have e1 := mkCurve_spec? c x hp hi
    have e2 := mkCurve_spec? c y hp hi
    rw [Nat.div_add_mod'] at e1 e2
    rw [← e1, ← e2, h]
  · rw [List.getElem?_eq_none (by omega), List.getElem?_eq_none (by omega)]

/-- All allowed sets are defined. -/
def AllowedDefined (c : FCurve d) : Prop := ∀ p < c.mult, ∀ i < c.genus, ∃ l, c.genAllowedSpecs p i = some l ∧ l.Nodup

theorem Possible.ext {c c1 c2 : FCurve d} (h1 : Possible c c1) (h2 : Possible c c2)
    (h : ∀ p < c.mult, ∀ i < c.genus, c1.spec? p i = c2.spec? p i) : c1 = c2 := by
  have hpat : c1.patterns = c2.patterns := by
    apply List.ext_getElem?
    intro p
    by_cases hp : p < c.mult
    · obtain ⟨pat, hpat⟩ := getElem?_of_lt hp
      obtain ⟨p1, hp1⟩ := getElem?_of_lt (c := c1) (by rw [h1.mult]; exact hp)
      obtain ⟨p2, hp2⟩ := getElem?_of_lt (c := c2) (by rw [h2.mult]; exact hp)
      have e1 := h1.pattern p pat p1 hpat hp1
      have e2 := h2.pattern p pat p2 hpat hp2
      rw [hp1, hp2]
      congr 1
      have hs : p1.specs = p2.specs := by
        apply List.ext_getElem?
        intro i
        by_cases hi : i < c.genus
        · have e := h p hp i hi
          obtain ⟨_, s1, _, _, hs1⟩ := h1.allowed p hp i hi
          obtain ⟨_, s2, _, _, hs2⟩ := h2.allowed p hp i hi
          rw [hs1, hs2] at e
          cases e
          unfold spec? at hs1 hs2
          rw [hp1, Option.bind_some] at hs1
          rw [hp2, Option.bind_some] at hs2
          have key : ∀ o : Option (Option (Spec d)), o.join = some s1 → o = some (some s1) := by
            intro o ho
            cases o with
            | none => cases ho
            | some o => exact congrArg some ho
          rw [key _ hs1, key _ hs2]
        · rw [List.getElem?_eq_none (by omega), List.getElem?_eq_none (by omega)]
      cases p1; cases p2
      simp only at e1 e2 hs
      rw [e1.1, e2.1, hs]
    · rw [List.getElem?_eq_none (by have := h1.mult; show c1.mult ≤ p; omega), List.getElem?_eq_none (by have := h2.mult; show c2.mult ≤ p; omega)]
  cases c1; cases c2
  have := h1.div.trans h2.div.symm
  have := h1.pnum.trans h2.pnum.symm
  have := h1.kind.trans h2.kind.symm
  simp only at *
  simp_all

theorem mkCurve_mult (x : List (Spec d)) : (c.mkCurve x).mult = c.mult := by simp [mkCurve, mult]

theorem mkCurve_possible {x : List (Spec d)} (hx : x.length = c.mult * c.genus)
    (h : ∀ p < c.mult, ∀ i < c.genus, ∃ l s, c.genAllowedSpecs p i = some l ∧ s ∈ l ∧ x[p * c.genus + i]? = some s) : Possible c (c.mkCurve x) where
  kind := rfl
  div := rfl
  pnum := rfl
  mult := mkCurve_mult x
  pattern := by
    intro p pat pat' h1 h2
    rw [mkCurve_pattern, h1] at h2
    simp only [Option.map_some, Option.some.injEq] at h2
    subst h2
    refine ⟨rfl, ?_⟩
    have hp : p < c.mult := (List.getElem?_eq_some_iff.1 h1).1
    simp only [List.length_map, List.length_take, List.length_drop, hx]
    have : c.genus * p + c.genus ≤ c.mult * c.genus := by
      rw [Nat.mul_comm c.genus p, ← Nat.succ_mul]
      exact Nat.mul_le_mul_right _ hp
    omega
  allowed := by
    intro p hp i hi
    obtain ⟨l, s, h1, h2, h3⟩ := h p hp i hi
    exact ⟨l, s, h1, h2, by rw [mkCurve_spec? c x hp hi]; exact h3⟩

theorem genPossibleCurves_spec (h : c.AllowedDefined) :
    ∃ L, c.genPossibleCurves = some L ∧ L.Nodup ∧ (∀ c', c' ∈ L ↔ Possible c c') ∧ c.countPossibleCurves = some L.length := by
  have hA : ∀ pc ∈ c.positions, c.genAllowedSpecs pc.1 pc.2 = some ((c.genAllowedSpecs pc.1 pc.2).getD []) := by
    intro pc hpc
    obtain ⟨hp, hi⟩ := c.mem_positions.1 hpc
    obtain ⟨l, hl, _⟩ := h _ hp _ hi
    rw [hl]; rfl
  have hgens : c.positions.mapM (fun pc => c.genAllowedSpecs pc.1 pc.2) = some (c.positions.map fun pc => (c.genAllowedSpecs pc.1 pc.2).getD []) :=
    mapM_eq_some_map hA
  have hlen : ∀ x ∈ Itertools.product (c.positions.map fun pc => (c.genAllowedSpecs pc.1 pc.2).getD []), x.length = c.mult * c.genus := by
    intro x hx
    rw [(Itertools.mem_product.1 hx).length_eq, List.length_map, positions_length]
  have hG : ∀ n, n < c.mult * c.genus → 0 < c.genus := by
    intro n hn
    by_contra hcon
    have : c.genus = 0 := by omega
    rw [this] at hn
    omega
  refine ⟨(Itertools.product (c.positions.map fun pc => (c.genAllowedSpecs pc.1 pc.2).getD [])).map c.mkCurve, ?_, ?_, ?_, ?_⟩
  · unfold genPossibleCurves
    rw [hgens]
    rfl
  · refine List.Nodup.map_on ?_ (Itertools.nodup_product ?_)
    · intro x hx y hy hxy
      exact mkCurve_inj (hlen x hx) (hlen y hy) hxy
    · intro l hl
      obtain ⟨pc, hpc, rfl⟩ := List.mem_map.1 hl
      obtain ⟨hp, hi⟩ := c.mem_positions.1 hpc
      obtain ⟨l, hl, hn⟩ := h _ hp _ hi
      rw [hl]; exact hn
  · intro c'
    constructor
    · intro hc'
      obtain ⟨x, hx, rfl⟩ := List.mem_map.1 hc'
      refine mkCurve_possible (hlen x hx) ?_
      intro p hp i hi
      have hpos := c.positions_getElem? hp hi
      obtain ⟨l, hl, _⟩ := h p hp i hi
      obtain ⟨s, hs1, hs2⟩ := forall₂_getElem? (Itertools.mem_product.1 hx) (p * c.genus + i) l (by rw [List.getElem?_map, hpos]; simp [hl])
      exact ⟨l, s, hl, hs2, hs1⟩
    · intro hposs
      have hspec : ∀ n, n < c.mult * c.genus → ∃ s, c'.spec? (n / c.genus) (n % c.genus) = some s := by
        intro n hn
        have hG := hG n hn
        obtain ⟨l, s, _, _, hs⟩ := hposs.allowed (n / c.genus) (by rw [Nat.div_lt_iff_lt_mul hG]; exact hn) _ (Nat.mod_lt n hG)
        exact ⟨s, hs⟩
      let x : List (Spec d) := (List.range (c.mult * c.genus)).map fun n => (c'.spec? (n / c.genus) (n % c.genus)).getD ⟨1, 0⟩
      have hx : ∀ p < c.mult, ∀ i < c.genus, x[p * c.genus + i]? = c'.spec? p i := by
        intro p hp i hi
        have hn : p * c.genus + i < c.mult * c.genus := by
          calc p * c.genus + i < p * c.genus + c.genus := by omega
            _ = (p + 1) * c.genus := by ring
            _ ≤ c.mult * c.genus := Nat.mul_le_mul_right _ hp
        have e1 : (p * c.genus + i) / c.genus = p := by
          rw [Nat.mul_comm, Nat.mul_add_div (by omega), Nat.div_eq_of_lt hi]; rfl
        have e2 : (p * c.genus + i) % c.genus = i := by
          rw [Nat.mul_comm, Nat.mul_add_mod, Nat.mod_eq_of_lt hi]
        obtain ⟨s, hs⟩ := hspec _ hn
        simp only [x, List.getElem?_map, List.getElem?_range hn, Option.map_some]
        rw [hs, Option.getD_some, ← hs, e1, e2]
      have hposs' : Possible c (c.mkCurve x) := mkCurve_possible (by simp [x]) (by
        intro p hp i hi
        obtain ⟨l, s, h1, h2, h3⟩ := hposs.allowed p hp i hi
        exact ⟨l, s, h1, h2, by rw [hx p hp i hi]; exact h3⟩)
      refine List.mem_map.2 ⟨x, ?_, ?_⟩
      · rw [Itertools.mem_product, List.forall₂_iff_get]
        refine ⟨by simp [x, positions_length], ?_⟩
        intro n h1 h2
        have hn : n < c.mult * c.genus := by simpa [x] using h1
        have hG := hG n hn
        have hp : n / c.genus < c.mult := by rw [Nat.div_lt_iff_lt_mul hG]; exact hn
        have hi := Nat.mod_lt n hG
        obtain ⟨l, s, g1, g2, g3⟩ := hposs.allowed _ hp _ hi
        have e1 : x[n]? = some s := by rw [← g3, ← hx _ hp _ hi, Nat.div_add_mod']
        have e2 : c.positions[n]? = some (n / c.genus, n % c.genus) := by
          rw [← c.positions_getElem? hp hi, Nat.div_add_mod']
        have e3 := (List.getElem?_eq_some_iff.1 e1).2
        have e4 := (List.getElem?_eq_some_iff.1 e2).2
        simp only [List.get_eq_getElem, List.getElem_map, e3, e4, g1]
        exact g2
      · refine hposs'.ext hposs ?_
        intro p hp i hi
        rw [mkCurve_spec? c x hp hi, hx p hp i hi]
  · rw [List.length_map, Itertools.length_product, List.map_map]
    unfold countPossibleCurves
    generalize c.positions = ps at hA
    have key : ∀ (ps : List (ℕ × ℕ)) (r : ℕ), (∀ pc ∈ ps, c.genAllowedSpecs pc.1 pc.2 = some ((c.genAllowedSpecs pc.1 pc.2).getD [])) →
        ps.foldlM (fun r pc => (c.genAllowedSpecs pc.1 pc.2).map fun l => r * l.length) r =
          some (r * (ps.map (List.length ∘ fun pc => (c.genAllowedSpecs pc.1 pc.2).getD [])).prod) := by
      intro ps
      induction ps with
      | nil => intro r _; simp
      | cons pc ps ih =>
        intro r hps
        rw [List.foldlM_cons, hps pc List.mem_cons_self]
        simp only [Option.map_some, Option.bind_eq_bind, Option.bind_some]
        rw [ih _ (fun pc' h' => hps pc' (List.mem_cons_of_mem _ h'))]
        simp [mul_assoc]
    rw [key ps 1 hA, one_mul]

/-- Specification of possible curves by tables of entries. -/
theorem Possible.spec_allowed (h : Possible c c') {p i : ℕ} (hp : p < c.mult) (hi : i < c.genus) {l : List (Spec d)}
    (hl : c.genAllowedSpecs p i = some l) : ∃ s ∈ l, c'.spec? p i = some s := by
  obtain ⟨l', s, h1, h2, h3⟩ := h.allowed p hp i hi
  rw [hl] at h1
  cases h1
  exact ⟨s, h2, h3⟩

theorem undefined_mem (c : FCurve d) {pc : ℕ × ℕ} : pc ∈ c.undefinedPositions ↔ c.raw pc.1 pc.2 = some none := by
  unfold undefinedPositions raw
  rw [List.mem_flatMap]
  constructor
  · rintro ⟨pp, hpp, hm⟩
    obtain ⟨sc, hsc, he⟩ := List.mem_filterMap.1 hm
    split at he
    · rename_i hn
      cases he
      rw [List.mk_mem_zipIdx_iff_getElem?.1 hpp]
      have := List.mk_mem_zipIdx_iff_getElem?.1 hsc
      simp only [Option.bind_some, this]
      rw [Option.isNone_iff_eq_none] at hn
      rw [hn]
    · cases he
  · intro h
    rw [Option.bind_eq_some_iff] at h
    obtain ⟨pat, h1, h2⟩ := h
    exact ⟨(pat, pc.1), List.mk_mem_zipIdx_iff_getElem?.2 h1, List.mem_filterMap.2 ⟨(none, pc.2), List.mk_mem_zipIdx_iff_getElem?.2 h2, by simp⟩⟩

theorem undefined_nodup (c : FCurve d) : c.undefinedPositions.Nodup := by
  unfold undefinedPositions
  rw [List.nodup_flatMap]
  constructor
  · intro pp _
    generalize pp.1.specs = specs
    have hsub : ((specs.zipIdx.filterMap fun sc => if sc.1.isNone then some (pp.2, sc.2) else none).map Prod.snd).Sublist (specs.zipIdx.map Prod.snd) := by
      generalize specs.zipIdx = l
      induction l with
      | nil => simp
      | cons a l ih =>
        rw [List.filterMap_cons]
        split
        · exact ih.cons _
        · rename_i b hb
          split at hb
          · cases hb
            exact ih.cons_cons _
          · cases hb
    exact (hsub.nodup (by rw [List.zipIdx_map_snd]; exact List.nodup_range')).of_map
  · have : (c.patterns.zipIdx.map Prod.snd).Nodup := by rw [List.zipIdx_map_snd]; exact List.nodup_range'
    rw [List.Nodup, List.pairwise_map] at this
    refine this.imp ?_
    intro a b hab
    simp only [Function.onFun, List.disjoint_left, List.mem_filterMap, not_exists, not_and]
    rintro s ⟨x, _, hx⟩ y _ hy
    split at hx
    · cases hx
      split at hy
      · exact hab (congrArg Prod.fst (Option.some.inj hy)).symm
      · cases hy
    · cases hx

/-- `get_curve_example` succeeds and gives a possible curve (apart from the class of the object). -/
theorem getCurveExample_spec (hs : c.Sized) (h : c.AllowedDefined) (hne : ∀ p < c.mult, ∀ i < c.genus, c.genAllowedSpecs p i ≠ some []) :
    ∃ e, c.getCurveExample = some e ∧ Possible c { e with kind := .curve } := by
  have hrange : ∀ pc ∈ c.undefinedPositions, pc.1 < c.mult ∧ pc.2 < c.genus := by
    intro pc hpc
    have := (c.undefined_mem).1 hpc
    unfold raw at this
    rw [Option.bind_eq_some_iff] at this
    obtain ⟨pat, h1, h2⟩ := this
    refine ⟨(List.getElem?_eq_some_iff.1 h1).1, ?_⟩
    rw [← hs.specs_length pat (List.mem_of_getElem? h1)]
    exact (List.getElem?_eq_some_iff.1 h2).1
  have hhead : ∀ pc ∈ c.undefinedPositions, ∃ l s, c.genAllowedSpecs pc.1 pc.2 = some l ∧ l.head? = some s := by
    intro pc hpc
    obtain ⟨h1, h2⟩ := hrange pc hpc
    obtain ⟨l, hl, _⟩ := h _ h1 _ h2
    have := hne _ h1 _ h2
    cases l with
    | nil => exact absurd hl this
    | cons a l => exact ⟨_, a, hl, rfl⟩
  let pick : ℕ × ℕ → Spec d := fun pc => ((c.genAllowedSpecs pc.1 pc.2).bind List.head?).getD ⟨1, 0⟩
  have hmap : c.undefinedPositions.mapM (fun pc => do
      let allowed ← c.genAllowedSpecs pc.1 pc.2
      let s ← allowed.head?
      return (pc, s)) = some (c.undefinedPositions.map fun pc => (pc, pick pc)) := by
    apply mapM_eq_some_map
    intro pc hpc
    obtain ⟨l, s, h1, h2⟩ := hhead pc hpc
    simp [h1, h2, pick]
  have hkeys : (c.undefinedPositions.map fun pc => (pc, pick pc)).map Prod.fst = c.undefinedPositions := by
    rw [List.map_map]; simp [Function.comp_def]
  obtain ⟨e, h1, h2, h3, h4, h5, h6, h7, h8⟩ := specifyAllowed_spec (c.undefinedPositions.map fun pc => (pc, pick pc))
    (by rw [hkeys]; exact c.undefined_nodup) hs (by
      intro x hx
      obtain ⟨pc, hpc, rfl⟩ := List.mem_map.1 hx
      exact hrange pc hpc)
  have hgen : ∀ (p : ℕ) (pat : Pattern d), c.patterns[p]? = some pat → ∃ pat' : Pattern d, e.patterns[p]? = some pat' ∧ pat'.proto = pat.proto := by
    intro p pat hp
    have := congrArg (fun l => l[p]?) h7
    simp only [List.getElem?_map, hp, Option.map_some] at this
    rw [Option.map_eq_some_iff] at this
    exact this
  refine ⟨e, ?_, rfl, h2, h3, h5, ?_, ?_⟩
  · unfold getCurveExample
    rw [hmap]
    exact h1
  · intro p pat pat' hp hp'
    obtain ⟨pat'', q1, q2⟩ := hgen p pat hp
    have hp'' : e.patterns[p]? = some pat' := hp'
    rw [q1] at hp''
    cases hp''
    refine ⟨q2, ?_⟩
    rw [h6.specs_length _ (List.mem_of_getElem? q1)]
    unfold genus
    rw [h2]
  · intro p hp i hi
    obtain ⟨l, hl, _⟩ := h p hp i hi
    obtain ⟨o, ho⟩ := hs.raw_isSome hp hi
    have hsp : ∀ x, ({ e with kind := .curve } : FCurve d).spec? x i = e.spec? x i := fun x => rfl
    rw [hsp, spec?_eq_raw, h8 p i]
    cases o with
    | some s =>
      have : (c.undefinedPositions.map fun pc => (pc, pick pc)).lookup (p, i) = none := by
        apply lookup_none_of_notMem
        rw [hkeys, undefined_mem]
        simp [ho]
      rw [this]
      have := genAllowedSpecs_defined (genAllowedSpecs_kind hl) ho
      exact ⟨[s], s, this, by simp, by rw [ho]; rfl⟩
    | none =>
      have hmem : (p, i) ∈ c.undefinedPositions := (c.undefined_mem).2 ho
      have : (c.undefinedPositions.map fun pc => (pc, pick pc)).lookup (p, i) = some (pick (p, i)) := by
        generalize c.undefinedPositions = l at hmem
        induction l with
        | nil => simp at hmem
        | cons a l ih =>
          rw [List.map_cons, List.lookup_cons]
          by_cases ha : (p, i) = a
          · subst ha; simp
          · have hb : ((p, i) == a) = false := by simpa using ha
            rw [hb]
            exact ih ((List.mem_cons.1 hmem).resolve_left ha)
      rw [this]
      obtain ⟨l', s, g1, g2⟩ := hhead _ hmem
      refine ⟨l', s, g1, List.mem_of_mem_head? g2, ?_⟩
      simp [pick, g1, g2]

end FCurve
end Peano
