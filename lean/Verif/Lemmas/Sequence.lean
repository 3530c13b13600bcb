import Verif.Lemmas.FuzzyMono

set_option autoImplicit false

/-
Lemmas for C50: invariants of `estimate_dilation_sequence`.
-/
namespace Peano
variable {d : ℕ}
open FCurve (Possible HasExample)
namespace Dilation

theorem _root_.Peano.FCurve.Estimable.count {c : FCurve d} (hE : c.Estimable) : ∃ n, c.countPossibleCurves = some n := by
  obtain ⟨L, _, _, _, h⟩ := FCurve.genPossibleCurves_spec (c := c) (fun p hp i hi => by
    obtain ⟨l, h1, h2, _⟩ := hE.allowed p hp i hi
    exact ⟨l, h1, h2⟩)
  exact ⟨_, h⟩

section cleanup
variable (H : HeapQ (SeqItem d) SeqItem.lt)

theorem seqCleanup_spec (up : ℚ) (n : ℕ) : ∀ act : List (SeqItem d), act.length ≤ n → H.Valid act →
    ∃ act' dropped, seqCleanup H up n act = some act' ∧ H.Valid act' ∧ act.Perm (dropped ++ act') ∧ (∀ x ∈ act', x.lo.getD 0 ≤ up) ∧
      ∀ x ∈ dropped, up < x.lo.getD 0 := by
  induction n with
  | zero =>
    intro act hlen hv
    obtain rfl : act = [] := List.eq_nil_of_length_eq_zero (by omega)
    exact ⟨[], [], rfl, hv, .refl _, by simp, by simp⟩
  | succ n ih =>
    intro act hlen hv
    cases act with
    | nil => exact ⟨[], [], rfl, hv, .refl _, by simp, by simp⟩
    | cons x t =>
      unfold seqCleanup
      dsimp only
      by_cases hx : x.lo.getD 0 > up
      · rw [if_pos hx]
        obtain ⟨h', e1, e2, e3⟩ := H.pop_cons x t hv
        rw [e1, Option.bind_some]
        obtain ⟨act', dropped, f1, f2, f3, f4, f5⟩ := ih h' (by rw [e2.length_eq]; simpa using hlen) e3
        refine ⟨act', x :: dropped, f1, f2, ?_, f4, ?_⟩
        · exact (e2.symm.trans f3).cons x
        · intro y hy
          rcases List.mem_cons.1 hy with rfl | hy
          · exact hx
          · exact f5 y hy
      · rw [if_neg hx]
        refine ⟨x :: t, [], rfl, hv, .refl _, ?_, by simp⟩
        intro y hy
        rcases List.mem_cons.1 hy with rfl | hy
        · exact not_lt.1 hx
        · have h := H.first_le x t hv y hy
          unfold SeqItem.lt at h
          have h1 : ¬ x.lo.getD 0 < y.lo.getD 0 := by
            intro hlt
            rw [decide_eq_true hlt, Bool.true_or] at h
            cases h
          exact (not_lt.1 h1).trans (not_lt.1 hx)

end cleanup

variable {curves : List (FCurve d)} {r : Ratio} {Q : HeapQ (HNode (BoundedPair d)) HNode.lt} {S : SatSolver} {H : HeapQ (SeqItem d) SeqItem.lt}

/-- All dilations of the fuzzy curve are above `u`. -/
def Above (c : FCurve d) (r : Ratio) (u : ℚ) : Prop := ∀ e D, Possible c e → e.IsDilation r D → (u : ℝ) < D

/-- An item of the list `active`. -/
structure SItem (curves : List (FCurve d)) (r : Ratio) (it : SeqItem d) : Prop where
  get : curves[it.idx]? = some it.curve
  loOk : ∀ l, it.lo = some l → LoOK it.curve r l
  nonneg : ∀ l, it.lo = some l → 0 ≤ l
  upOk : ∀ u, it.up = some u → it.example_.isSome ∧ CurOK it.curve r it.example_ u

/-- An item processed in the epoch with tolerance `1 + 1/rel`. -/
structure SDone (curves : List (FCurve d)) (r : Ratio) (p : SeqParams) (rel : ℤ) (u : ℚ) (it : SeqItem d) : Prop where
  item : SItem curves r it
  bnd : ∃ l v, it.lo = some l ∧ it.up = some v ∧ l ≤ u ∧ u ≤ v ∧ (p.bisect.maxIter = none → v ≤ l * (1 + 1 / (rel : ℚ)))

/-- Where `curr_up` comes from; it is at most the given bound. -/
def CuOK (curves : List (FCurve d)) (r : Ratio) (p : SeqParams) (cu : Option ℚ) : Prop :=
  (∀ u, cu = some u → (∃ c ∈ curves, UpOK c r u) ∨ p.upperBound = some u) ∧ ∀ b, p.upperBound = some b → ∃ u, cu = some u ∧ u ≤ b

/-- The invariant of the loop over items. -/
structure EpInv (curves : List (FCurve d)) (r : Ratio) (p : SeqParams) (rel : ℤ) (H : HeapQ (SeqItem d) SeqItem.lt) (rest : List (SeqItem d)) (cu : Option ℚ)
    (act : List (SeqItem d)) : Prop where
  valid : H.Valid act
  done : ∀ it ∈ act, ∃ u, cu = some u ∧ SDone curves r p rel u it
  todo : ∀ it ∈ rest, SItem curves r it
  nodup : ((act ++ rest).map SeqItem.idx).Nodup
  cover : ∀ i c, curves[i]? = some c → i ∈ (act ++ rest).map SeqItem.idx ∨ ∃ u, cu = some u ∧ Above c r u
  cuOk : CuOK curves r p cu

theorem UpOK.mono {c : FCurve d} {u v : ℚ} (h : UpOK c r u) (hle : u ≤ v) : UpOK c r v := by
  obtain ⟨e, D, h1, h2, h3⟩ := h
  exact ⟨e, D, h1, h2, h3.trans (by exact_mod_cast hle)⟩

theorem Above.mono {c : FCurve d} {u v : ℚ} (h : Above c r v) (hle : u ≤ v) : Above c r u := fun e D h1 h2 =>
  lt_of_le_of_lt (by exact_mod_cast hle) (h e D h1 h2)

/-- One item. -/
theorem epStep (hd : d ≠ 0) (hr : r.Ok d) (hE : ∀ c ∈ curves, c.Estimable) {p : SeqParams} {rel : ℤ} (hrel : rel ≠ 0) (fuel : ℕ) {item : SeqItem d}
    {rest : List (SeqItem d)} {cu : Option ℚ} {act : List (SeqItem d)} (inv : EpInv curves r p rel H (item :: rest) cu act) :
    ∃ res, estimateFuzzy (m := Option) Q (keyBounds r) S fuel item.curve ⟨rel, cu, item.lo, item.up, item.example_, p.bisect⟩ = some res ∧
      ∀ curve lo up, res = .ok curve lo up → ∀ newUp, newUp = (if cu.all (fun u => decide (up < u)) then up else cu.getD 0) →
        ∀ act1, act1 = (if lo ≤ newUp then H.push act ⟨item.idx, some lo, some up, item.curve, curve⟩ else act) →
          ∃ act2, seqCleanup H newUp act1.length act1 = some act2 ∧ EpInv curves r p rel H rest (some newUp) act2 ∧
            ∀ u, cu = some u → newUp ≤ u := by
  have hit := inv.todo item List.mem_cons_self
  have hcE := hE item.curve (List.mem_of_getElem? hit.get)
  obtain ⟨res, k1, k2⟩ := C49_fuzzy hd r hr item.curve hcE Q S ⟨rel, cu, item.lo, item.up, item.example_, p.bisect⟩ hrel fuel
  refine ⟨res, k1, ?_⟩
  intro curve lo up hres newUp hnew act1 hact1
  obtain ⟨g1, g2, g3, g4, g5⟩ := k2 curve lo up hres
  have hlo : LoOK item.curve r lo := g1 fun l hl => hit.loOk l hl
  have hcur : CurOK item.curve r curve up := g3 fun u c0 hu hc0 => (hit.upOk u hu).2 c0 hc0
  have hsome : curve.isSome := g4 fun hs => by
    obtain ⟨u, hu⟩ := Option.isSome_iff_exists.1 hs
    exact (hit.upOk u hu).1
  have hup : UpOK item.curve r up := g2 fun u hu => by
    obtain ⟨h1, h2⟩ := hit.upOk u hu
    obtain ⟨c0, h0⟩ := Option.isSome_iff_exists.1 h1
    rw [h0] at h2
    exact curOK_up hcE hd hr h2
  have hnn : 0 ≤ lo := by
    rw [hres] at k1
    refine estimateFuzzy_nonneg hd hr hcE (p := ⟨rel, cu, item.lo, item.up, item.example_, p.bisect⟩) hrel hit.nonneg ?_ k1
    intro u hu
    obtain ⟨h1, h2⟩ := hit.upOk u hu
    obtain ⟨c0, h0⟩ := Option.isSome_iff_exists.1 h1
    rw [h0] at h2
    exact curOK_up hcE hd hr h2
  -- the new upper bound
  have hle : ∀ u, cu = some u → newUp ≤ u := by
    rintro u rfl
    rw [hnew]
    by_cases h : up < u
    · rw [if_pos (by simpa using h)]; exact h.le
    · rw [if_neg (by simpa using h)]; exact le_rfl
  have hle2 : newUp ≤ up := by
    rw [hnew]
    cases cu with
    | none => simp
    | some u =>
      by_cases h : up < u
      · rw [if_pos (by simpa using h)]
      · rw [if_neg (by simpa using h)]; exact not_lt.1 h
  have hcu : CuOK curves r p (some newUp) := by
    refine ⟨fun u hu => ?_, fun b hb => ?_⟩
    swap
    · obtain ⟨u, hu, hub⟩ := inv.cuOk.2 b hb
      exact ⟨newUp, rfl, (hle u hu).trans hub⟩
    cases hu
    by_cases h : cu.all (fun u => decide (up < u)) = true
    · rw [if_pos h] at hnew
      rw [hnew]
      exact .inl ⟨_, List.mem_of_getElem? hit.get, hup⟩
    · rw [if_neg h] at hnew
      cases cu with
      | none => simp at h
      | some u => exact inv.cuOk.1 _ (by rw [hnew]; rfl)
  -- the processed item
  have hnewItem : SItem curves r ⟨item.idx, some lo, some up, item.curve, curve⟩ :=
    ⟨hit.get, fun l hl => by cases hl; exact hlo, fun l hl => by cases hl; exact hnn, fun u hu => by cases hu; exact ⟨hsome, hcur⟩⟩
  have hnewDone : lo ≤ newUp → SDone curves r p rel newUp ⟨item.idx, some lo, some up, item.curve, curve⟩ := by
    intro h
    refine ⟨hnewItem, lo, up, rfl, rfl, h, hle2, fun hm => ?_⟩
    rcases g5 hm with h5 | ⟨s, hs, hs2⟩
    · exact h5
    · exact absurd (h.trans (hle s hs)) (not_le.2 hs2)
  -- after the push
  have hpush : H.Valid act1 ∧ (∀ it ∈ act1, ∃ l v, it.lo = some l ∧ it.up = some v ∧ (p.bisect.maxIter = none → v ≤ l * (1 + 1 / (rel : ℚ))) ∧ newUp ≤ v ∧
      SItem curves r it) ∧ ((act1 ++ rest).map SeqItem.idx).Nodup ∧
      ∀ i c, curves[i]? = some c → i ∈ (act1 ++ rest).map SeqItem.idx ∨ Above c r newUp := by
    have hold : ∀ it ∈ act, ∃ l v, it.lo = some l ∧ it.up = some v ∧ (p.bisect.maxIter = none → v ≤ l * (1 + 1 / (rel : ℚ))) ∧ newUp ≤ v ∧
        SItem curves r it := by
      intro it hi
      obtain ⟨u, hu, hdone⟩ := inv.done it hi
      obtain ⟨l, v, e1, e2, _, e4, e5⟩ := hdone.bnd
      exact ⟨l, v, e1, e2, e5, (hle u hu).trans e4, hdone.item⟩
    have hmid : ((act ++ item :: rest).map SeqItem.idx).Perm (item.idx :: ((act ++ rest).map SeqItem.idx)) := by
      have := (List.perm_middle (a := item) (l₁ := act) (l₂ := rest)).map SeqItem.idx
      simpa using this
    have hcov : ∀ i c, curves[i]? = some c → i = item.idx ∨ i ∈ (act ++ rest).map SeqItem.idx ∨ Above c r newUp := by
      intro i c hc
      rcases inv.cover i c hc with h | ⟨u, hu, h⟩
      · rcases List.mem_cons.1 (hmid.mem_iff.1 h) with h | h
        · exact .inl h
        · exact .inr (.inl h)
      · exact .inr (.inr (h.mono (hle u hu)))
    by_cases h : lo ≤ newUp
    · rw [if_pos h] at hact1
      have hp := H.push_perm act ⟨item.idx, some lo, some up, item.curve, curve⟩ inv.valid
      have hidx : ((act1 ++ rest).map SeqItem.idx).Perm (item.idx :: ((act ++ rest).map SeqItem.idx)) := by
        rw [hact1]
        exact (hp.append_right rest).map SeqItem.idx
      refine ⟨by rw [hact1]; exact H.valid_push _ _ inv.valid, ?_, hidx.nodup_iff.2 (hmid.nodup_iff.1 inv.nodup), ?_⟩
      · intro it hi
        rw [hact1] at hi
        rcases List.mem_cons.1 (hp.mem_iff.1 hi) with rfl | hi
        · obtain ⟨l, v, e1, e2, _, e4, e5⟩ := (hnewDone h).bnd
          exact ⟨l, v, e1, e2, e5, e4, hnewItem⟩
        · exact hold it hi
      · intro i c hc
        rcases hcov i c hc with h | h | h
        · exact .inl (hidx.mem_iff.2 (by rw [h]; exact List.mem_cons_self))
        · exact .inl (hidx.mem_iff.2 (List.mem_cons_of_mem _ h))
        · exact .inr h
    · rw [if_neg h] at hact1
      subst hact1
      refine ⟨inv.valid, hold, (List.nodup_cons.1 (hmid.nodup_iff.1 inv.nodup)).2, ?_⟩
      intro i c hc
      rcases hcov i c hc with rfl | h' | h'
      · right
        intro e D he hD
        have e1 := hit.get
        rw [hc] at e1
        cases e1
        exact lt_of_lt_of_le (by exact_mod_cast not_le.1 h) (hlo e D he hD)
      · exact .inl h'
      · exact .inr h'
  obtain ⟨q1, q2, q3, q4⟩ := hpush
  obtain ⟨act2, dropped, c1, c2, c3, c4, c5⟩ := seqCleanup_spec H newUp act1.length act1 le_rfl q1
  have hperm : ((act1 ++ rest).map SeqItem.idx).Perm (dropped.map SeqItem.idx ++ (act2 ++ rest).map SeqItem.idx) := by
    have := (c3.append_right rest).map SeqItem.idx
    simpa using this
  refine ⟨act2, c1, ⟨c2, ?_, fun it hi => inv.todo it (List.mem_cons_of_mem _ hi), ?_, ?_, hcu⟩, hle⟩
  · intro it hi
    refine ⟨newUp, rfl, ?_⟩
    obtain ⟨l, v, e1, e2, e3, e4, e5⟩ := q2 it (c3.mem_iff.2 (List.mem_append_right _ hi))
    refine ⟨e5, l, v, e1, e2, ?_, e4, e3⟩
    have := c4 it hi
    rw [e1] at this
    exact this
  · exact (List.nodup_append.1 (hperm.nodup_iff.1 q3)).2.1
  · intro i c hc
    rcases q4 i c hc with h | h
    · rcases List.mem_append.1 (hperm.mem_iff.1 h) with h | h
      · right
        obtain ⟨it, hi, rfl⟩ := List.mem_map.1 h
        obtain ⟨l, v, e1, e2, e3, e4, e5⟩ := q2 it (c3.mem_iff.2 (List.mem_append_left _ hi))
        refine ⟨newUp, rfl, ?_⟩
        intro e D he hD
        have e6 := e5.get
        rw [hc] at e6
        cases e6
        have := c5 it hi
        rw [e1] at this
        exact lt_of_lt_of_le (by exact_mod_cast this) (e5.loOk l e1 e D he hD)
      · exact .inl h
    · exact .inr ⟨newUp, rfl, h⟩

/-- The loop over the items of an epoch. -/
theorem seqEpoch_ok (hd : d ≠ 0) (hr : r.Ok d) (hE : ∀ c ∈ curves, c.Estimable) {p : SeqParams} {rel : ℤ} (hrel : rel ≠ 0) (fuel : ℕ) (first : Bool)
    (rest : List (SeqItem d)) : ∀ cu act, EpInv curves r p rel H rest cu act →
      ∃ res, seqEpoch (m := Option) Q (keyBounds r) S H fuel p rel first rest cu act = some res ∧ ∀ cu' act', res = some (cu', act') →
        EpInv curves r p rel H [] cu' act' ∧ (∀ u, cu = some u → ∃ u', cu' = some u' ∧ u' ≤ u) ∧ (rest ≠ [] → cu'.isSome) := by
  induction rest with
  | nil =>
    intro cu act inv
    refine ⟨some (cu, act), rfl, ?_⟩
    rintro cu' act' ⟨⟩
    exact ⟨inv, fun u hu => ⟨u, hu, le_rfl⟩, by simp⟩
  | cons item rest ih =>
    intro cu act inv
    obtain ⟨res, h1, h2⟩ := epStep (Q := Q) (S := S) hd hr hE hrel fuel inv
    unfold seqEpoch
    obtain ⟨cnt, hcnt⟩ : ∃ cnt, seqStats first item.curve = some cnt := by
      cases first with
      | false => exact ⟨0, rfl⟩
      | true =>
        obtain ⟨n, hn⟩ := (hE item.curve (List.mem_of_getElem? (inv.todo item List.mem_cons_self).get)).count
        exact ⟨n, hn⟩
    show ∃ res, Option.bind (seqStats first item.curve) _ = _ ∧ _
    rw [hcnt, Option.bind_some]
    show ∃ res, Option.bind (estimateFuzzy (m := Option) Q (keyBounds r) S fuel item.curve ⟨rel, cu, item.lo, item.up, item.example_, p.bisect⟩) _ = _ ∧ _
    rw [h1, Option.bind_some]
    cases res with
    | outOfFuel => exact ⟨none, rfl, by simp⟩
    | ok curve lo up =>
      obtain ⟨act2, a1, a2, a3⟩ := h2 curve lo up rfl _ rfl _ rfl
      show ∃ res, Option.bind (seqCleanup H _ _ _) _ = _ ∧ _
      rw [a1, Option.bind_some]
      obtain ⟨res', b1, b2⟩ := ih _ _ a2
      refine ⟨res', b1, ?_⟩
      intro cu' act' hres
      obtain ⟨c1, c2, c3⟩ := b2 cu' act' hres
      obtain ⟨u', e1, e2⟩ := c2 _ rfl
      exact ⟨c1, fun u hu => ⟨u', e1, e2.trans (a3 u hu)⟩, fun _ => by rw [e1]; rfl⟩

/-- The invariant of the loop over epochs; `first` before the first epoch. -/
structure LInv (curves : List (FCurve d)) (r : Ratio) (p : SeqParams) (first : Bool) (rel : ℤ) (active : List (SeqItem d)) (lo : ℚ) (cu : Option ℚ) : Prop where
  todo : ∀ it ∈ active, SItem curves r it
  nodup : (active.map SeqItem.idx).Nodup
  cover : ∀ i c, curves[i]? = some c → i ∈ active.map SeqItem.idx ∨ ∃ u, cu = some u ∧ Above c r u
  cuOk : CuOK curves r p cu
  start : first = true → lo = 0 ∧ cu = p.upperBound ∧ ∀ it ∈ active, it.example_ = none
  later : first = false → ∃ u, cu = some u ∧ (∀ it ∈ active, SDone curves r p rel u it ∧ lo ≤ it.lo.getD 0) ∧ ∃ it ∈ active, it.lo = some lo

theorem LInv.epoch {p : SeqParams} {first : Bool} {rel rel' : ℤ} {active : List (SeqItem d)} {lo : ℚ} {cu : Option ℚ} (h : LInv curves r p first rel active lo cu) :
    EpInv curves r p rel' H active cu [] :=
  ⟨H.valid_nil, by simp, h.todo, h.nodup, h.cover, h.cuOk⟩

/-- After an epoch. -/
theorem EpInv.next {p : SeqParams} {rel : ℤ} {cu : Option ℚ} {act : List (SeqItem d)} (h : EpInv curves r p rel H [] cu act) (hne : act ≠ []) :
    ∃ lo, ((act.mergeSort fun a b => decide (a.up.getD 0 ≤ b.up.getD 0)).map fun item => item.lo.getD 0).min? = some lo ∧
      LInv curves r p false rel (act.mergeSort fun a b => decide (a.up.getD 0 ≤ b.up.getD 0)) lo cu := by
  have hp := List.mergeSort_perm act fun a b => decide (a.up.getD 0 ≤ b.up.getD 0)
  generalize act.mergeSort (fun a b => decide (a.up.getD 0 ≤ b.up.getD 0)) = act' at hp ⊢
  have hidx : ((act ++ []).map SeqItem.idx).Perm (act'.map SeqItem.idx) := by
    rw [List.append_nil]
    exact (hp.map _).symm
  have hne' : (act'.map fun item => item.lo.getD 0) ≠ [] := by
    intro h0
    have : act' = [] := List.map_eq_nil_iff.1 h0
    rw [this] at hp
    exact hne hp.symm.eq_nil
  obtain ⟨lo, hlo⟩ : ∃ lo, (act'.map fun item => item.lo.getD 0).min? = some lo := by
    cases h0 : (act'.map fun item => item.lo.getD 0).min? with
    | some lo => exact ⟨lo, rfl⟩
    | none => exact absurd (List.min?_eq_none_iff.1 h0) hne'
  refine ⟨lo, hlo, ?_⟩
  obtain ⟨hm, hmin⟩ := List.min?_eq_some_iff.1 hlo
  have hdone : ∀ it ∈ act', ∃ u, cu = some u ∧ SDone curves r p rel u it := fun it hi => h.done it (hp.mem_iff.1 hi)
  refine ⟨fun it hi => ?_, hidx.nodup_iff.1 h.nodup, fun i c hc => ?_, h.cuOk, by simp, fun _ => ?_⟩
  · obtain ⟨_, _, hd⟩ := hdone it hi
    exact hd.item
  · rcases h.cover i c hc with h | h
    · exact .inl (hidx.mem_iff.1 h)
    · exact .inr h
  · obtain ⟨it, hi, hl⟩ := List.mem_map.1 hm
    obtain ⟨u, hu, hd⟩ := hdone it hi
    refine ⟨u, hu, fun it' hi' => ?_, it, hi, ?_⟩
    · obtain ⟨u', hu', hd'⟩ := hdone it' hi'
      rw [hu] at hu'
      cases hu'
      exact ⟨hd', hmin _ (List.mem_map.2 ⟨it', hi', rfl⟩)⟩
    · obtain ⟨l, v, e1, _⟩ := hd.bnd
      rw [e1] at hl ⊢
      exact congrArg some hl

/-- What the loop over epochs returns. -/
structure SeqOK (curves : List (FCurve d)) (r : Ratio) (p : SeqParams) (tol : ℚ) (lo up : ℚ) (cs : List (Option (FCurve d))) (idxs : List ℕ) : Prop where
  ex : ∃ first k active, LInv curves r p first (p.relTolInvMult ^ k) active lo (some up) ∧ cs = active.map SeqItem.example_ ∧ idxs = active.map SeqItem.idx ∧
    (first = false → k ≠ 0)
  tol : up ≤ lo * tol

/-- None. -/
def AbsentOK (curves : List (FCurve d)) (r : Ratio) (p : SeqParams) : Prop := ∀ c ∈ curves, ∃ u, p.upperBound = some u ∧ Above c r u

theorem EpInv.absent (hd : d ≠ 0) (hr : r.Ok d) (hE : ∀ c ∈ curves, c.Estimable) {p : SeqParams} {rel : ℤ} {cu : Option ℚ} (h : EpInv curves r p rel H [] cu []) :
    AbsentOK curves r p := by
  intro c hc
  have key : ∀ c ∈ curves, ∃ u, cu = some u ∧ Above c r u := by
    intro c hc
    obtain ⟨i, hi⟩ := List.getElem?_of_mem hc
    rcases h.cover i c hi with h | h
    · simp at h
    · exact h
  obtain ⟨u, hu, ha⟩ := key c hc
  rcases h.cuOk.1 u hu with ⟨c', hc', e, D, h1, h2, h3⟩ | h4
  · obtain ⟨u', hu', ha'⟩ := key c' hc'
    rw [hu] at hu'
    cases hu'
    exact absurd h3 (not_le.2 (ha' e D h1 h2))
  · exact ⟨u, h4, ha⟩

theorem seqLoop_ok (hd : d ≠ 0) (hr : r.Ok d) (hE : ∀ c ∈ curves, c.Estimable) {p : SeqParams} (hm : p.relTolInvMult ≠ 0) (tol : ℚ) (fuel n : ℕ) :
    ∀ first k active lo cu, LInv curves r p first (p.relTolInvMult ^ k) active lo cu → (first = false → k ≠ 0) →
      ∃ res, seqLoop (m := Option) Q (keyBounds r) S H fuel p tol n first (p.relTolInvMult ^ k) active lo cu = some res ∧
        (∀ lo' up' cs idxs, res = .ok lo' up' cs idxs → SeqOK curves r p tol lo' up' cs idxs) ∧ (res = .absent → AbsentOK curves r p) := by
  have hend : ∀ first k active lo cu, LInv curves r p first (p.relTolInvMult ^ k) active lo cu → (first = false → k ≠ 0) → ¬ seqContinue tol lo cu = true →
      ∃ up, cu = some up ∧ SeqOK curves r p tol lo up (active.map SeqItem.example_) (active.map SeqItem.idx) := by
    intro first k active lo cu inv hk hc
    unfold seqContinue at hc
    cases cu with
    | none => simp at hc
    | some up =>
      refine ⟨up, rfl, ⟨first, k, active, inv, rfl, rfl, hk⟩, ?_⟩
      simpa using hc
  induction n with
  | zero =>
    intro first k active lo cu inv hk
    unfold seqLoop
    by_cases hc : seqContinue tol lo cu = true
    · rw [if_pos hc]
      exact ⟨_, rfl, by simp, by simp⟩
    · rw [if_neg hc]
      obtain ⟨up, rfl, h⟩ := hend first k active lo cu inv hk hc
      refine ⟨_, rfl, ?_, by simp⟩
      rintro lo' up' cs idxs ⟨⟩
      exact h
  | succ n ih =>
    intro first k active lo cu inv hk
    unfold seqLoop
    by_cases hc : seqContinue tol lo cu = true
    · rw [if_pos hc, ← pow_succ]
      obtain ⟨res, e1, e2⟩ := seqEpoch_ok (Q := Q) (S := S) (H := H) hd hr hE (pow_ne_zero (k + 1) hm) fuel first active cu [] inv.epoch
      show ∃ res, Option.bind (seqEpoch (m := Option) Q (keyBounds r) S H fuel p (p.relTolInvMult ^ (k + 1)) first active cu []) _ = _ ∧ _
      rw [e1, Option.bind_some]
      cases res with
      | none => exact ⟨_, rfl, by simp, by simp⟩
      | some y =>
        obtain ⟨cu', act'⟩ := y
        obtain ⟨inv', _, _⟩ := e2 cu' act' rfl
        dsimp only
        by_cases hemp : act'.isEmpty = true
        · rw [if_pos hemp]
          refine ⟨_, rfl, by simp, fun _ => ?_⟩
          rw [List.isEmpty_iff.1 hemp] at inv'
          exact inv'.absent hd hr hE
        · rw [if_neg hemp]
          obtain ⟨lo', f1, f2⟩ := inv'.next (fun h => hemp (List.isEmpty_iff.2 h))
          show ∃ res, Option.bind (((act'.mergeSort fun a b => decide (a.up.getD 0 ≤ b.up.getD 0)).map fun item => item.lo.getD 0).min?) _ = _ ∧ _
          rw [f1, Option.bind_some]
          exact ih false (k + 1) _ lo' cu' f2 (fun _ => Nat.succ_ne_zero k)
    · rw [if_neg hc]
      obtain ⟨up, rfl, h⟩ := hend first k active lo cu inv hk hc
      refine ⟨_, rfl, ?_, by simp⟩
      rintro lo' up' cs idxs ⟨⟩
      exact h

end Dilation
end Peano
