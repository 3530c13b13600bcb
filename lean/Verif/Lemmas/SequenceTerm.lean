import Verif.Lemmas.Sequence

set_option autoImplicit false

/-
Lemmas for C62: `estimate_dilation_sequence` terminates.
-/
namespace Peano
variable {d : ℕ}
open FCurve (Possible HasExample)
namespace Dilation

variable {curves : List (FCurve d)} {r : Ratio} {Q : HeapQ (HNode (BoundedPair d)) HNode.lt} {S : SatSolver} {H : HeapQ (SeqItem d) SeqItem.lt}

theorem seqEpoch_cons {fuel : ℕ} {p : SeqParams} {rel : ℤ} {first : Bool} {item : SeqItem d} {rest : List (SeqItem d)} {cu : Option ℚ} {act : List (SeqItem d)}
    {cnt : ℕ} {curve : Option (FCurve d)} {lo up newUp : ℚ} {act2 : List (SeqItem d)} (h0 : seqStats first item.curve = some cnt)
    (h1 : estimateFuzzy (m := Option) Q (keyBounds r) S fuel item.curve ⟨rel, cu, item.lo, item.up, item.example_, p.bisect⟩ = some (.ok curve lo up))
    (h2 : newUp = (if cu.all (fun u => decide (up < u)) then up else cu.getD 0))
    (h3 : seqCleanup H newUp (if lo ≤ newUp then H.push act ⟨item.idx, some lo, some up, item.curve, curve⟩ else act).length
      (if lo ≤ newUp then H.push act ⟨item.idx, some lo, some up, item.curve, curve⟩ else act) = some act2) :
    seqEpoch (m := Option) Q (keyBounds r) S H fuel p rel first (item :: rest) cu act =
      seqEpoch (m := Option) Q (keyBounds r) S H fuel p rel first rest (some newUp) act2 := by
  subst h2
  show Option.bind (seqStats first item.curve) _ = _
  rw [h0, Option.bind_some]
  show Option.bind (estimateFuzzy (m := Option) Q (keyBounds r) S fuel item.curve ⟨rel, cu, item.lo, item.up, item.example_, p.bisect⟩) _ = _
  rw [h1, Option.bind_some]
  show Option.bind (seqCleanup H _ _ _) _ = _
  rw [h3, Option.bind_some]

/-- An epoch ends, with the same result for all sufficient fuels. -/
theorem seqEpoch_terminates (hd : d ≠ 0) (hr : r.Ok d) (hE : ∀ c ∈ curves, c.Estimable) {p : SeqParams} {rel : ℤ} (hrel : 0 < rel) (first : Bool)
    (rest : List (SeqItem d)) : ∀ cu act, EpInv curves r p rel H rest cu act →
      ∃ fuel0 cu' act', ∀ fuel ≥ fuel0, seqEpoch (m := Option) Q (keyBounds r) S H fuel p rel first rest cu act = some (some (cu', act')) := by
  induction rest with
  | nil => intro cu act _; exact ⟨0, cu, act, fun _ _ => rfl⟩
  | cons item rest ih =>
    intro cu act inv
    have hit := inv.todo item List.mem_cons_self
    have hcE := hE item.curve (List.mem_of_getElem? hit.get)
    obtain ⟨f0, hf0⟩ := C61_terminates hd r hr item.curve hcE Q S ⟨rel, cu, item.lo, item.up, item.example_, p.bisect⟩ hrel hit.nonneg (fun u hu => by
      obtain ⟨h1, h2⟩ := hit.upOk u hu
      obtain ⟨c0, h0⟩ := Option.isSome_iff_exists.1 h1
      rw [h0] at h2
      exact curOK_up hcE hd hr h2)
    obtain ⟨curve, lo, up, hrun⟩ := hf0 f0 le_rfl
    obtain ⟨res, h1, h2⟩ := epStep (Q := Q) (S := S) hd hr hE hrel.ne' f0 inv
    rw [hrun] at h1
    obtain ⟨act2, a1, a2, a3⟩ := h2 curve lo up (Option.some.inj h1).symm _ rfl _ rfl
    obtain ⟨f1, cu', act', hf1⟩ := ih _ _ a2
    obtain ⟨cnt, hcnt⟩ : ∃ cnt, seqStats first item.curve = some cnt := by
      cases first with
      | false => exact ⟨0, rfl⟩
      | true => exact hcE.count
    refine ⟨max f0 f1, cu', act', fun fuel hle => ?_⟩
    have hrun' := estimateFuzzy_mono (S := S) hd hr hcE (p := ⟨rel, cu, item.lo, item.up, item.example_, p.bisect⟩) hrel.ne' (fuel' := fuel) (by omega) hrun
    rw [seqEpoch_cons hcnt hrun' rfl a1]
    exact hf1 fuel (by omega)

/-- The tolerance of the epoch suffices. -/
theorem LInv.stop (hd : d ≠ 0) {p : SeqParams} (hm : p.bisect.maxIter = none) {tolInv rel : ℤ} (h0 : 0 < tolInv) (hrel : tolInv ≤ rel)
    {active : List (SeqItem d)} {lo : ℚ} {cu : Option ℚ} (inv : LInv curves r p false rel active lo cu) :
    ¬ seqContinue (1 + 1 / (tolInv : ℚ)) lo cu = true := by
  obtain ⟨u, rfl, g1, it, hit, hlo⟩ := inv.later rfl
  obtain ⟨gd, _⟩ := g1 it hit
  obtain ⟨l, v, e1, e2, e3, e4, e5⟩ := gd.bnd
  rw [hlo] at e1
  cases e1
  have h5 := e5 hm
  have hl := gd.item.nonneg lo hlo
  have hq : (0 : ℚ) < (tolInv : ℚ) := by exact_mod_cast h0
  have hq2 : (tolInv : ℚ) ≤ (rel : ℚ) := by exact_mod_cast hrel
  have : 1 / (rel : ℚ) ≤ 1 / (tolInv : ℚ) := one_div_le_one_div_of_le hq hq2
  have h6 : lo * (1 + 1 / (rel : ℚ)) ≤ lo * (1 + 1 / (tolInv : ℚ)) := mul_le_mul_of_nonneg_left (by linarith) hl
  unfold seqContinue
  simp only [Option.all_some, decide_eq_true_eq, not_lt, gt_iff_lt]
  linarith

theorem seqLoop_terminates (hd : d ≠ 0) (hr : r.Ok d) (hE : ∀ c ∈ curves, c.Estimable) {p : SeqParams} (hm : 0 < p.relTolInvMult) (hmax : p.bisect.maxIter = none)
    {tolInv : ℤ} (h0 : 0 < tolInv) {K : ℕ} (hK : ∀ k, K ≤ k → tolInv ≤ p.relTolInvMult ^ k) (j : ℕ) :
    ∀ first k active lo cu, LInv curves r p first (p.relTolInvMult ^ k) active lo cu → K + (if first then 1 else 0) ≤ k + j → (first = true → k = 0) →
      ∃ fuel0, ∀ fuel ≥ fuel0, ∀ n ≥ j, ∃ res, seqLoop (m := Option) Q (keyBounds r) S H fuel p (1 + 1 / (tolInv : ℚ)) n first (p.relTolInvMult ^ k) active lo cu = some res ∧
        res ≠ .outOfFuel := by
  have hend : ∀ first k active lo cu, LInv curves r p first (p.relTolInvMult ^ k) active lo cu → ¬ seqContinue (1 + 1 / (tolInv : ℚ)) lo cu = true →
      ∀ fuel n, ∃ res, seqLoop (m := Option) Q (keyBounds r) S H fuel p (1 + 1 / (tolInv : ℚ)) n first (p.relTolInvMult ^ k) active lo cu = some res ∧
        res ≠ .outOfFuel := by
    intro first k active lo cu _ hc fuel n
    have hcu : ∃ u, cu = some u := by
      cases cu with
      | none => simp [seqContinue] at hc
      | some u => exact ⟨u, rfl⟩
    obtain ⟨u, rfl⟩ := hcu
    cases n with
    | zero =>
      unfold seqLoop
      rw [if_neg hc]
      exact ⟨_, rfl, by simp⟩
    | succ n =>
      unfold seqLoop
      rw [if_neg hc]
      exact ⟨_, rfl, by simp⟩
  induction j with
  | zero =>
    intro first k active lo cu inv hj hk
    refine ⟨0, fun fuel _ n _ => ?_⟩
    cases first with
    | true =>
      have := hk rfl
      simp at hj
      omega
    | false => exact hend _ _ _ _ _ inv (inv.stop hd hmax h0 (hK k (by simpa using hj))) fuel n
  | succ j ih =>
    intro first k active lo cu inv hj hk
    by_cases hc : seqContinue (1 + 1 / (tolInv : ℚ)) lo cu = true
    · obtain ⟨f0, cu', act', hf0⟩ := seqEpoch_terminates (Q := Q) (S := S) (H := H) (rel := p.relTolInvMult ^ (k + 1)) hd hr hE (pow_pos hm (k + 1)) first active cu [] inv.epoch
      obtain ⟨res, e1, e2⟩ := seqEpoch_ok (Q := Q) (S := S) (H := H) hd hr hE (pow_ne_zero (k + 1) hm.ne') f0 first active cu [] inv.epoch
      rw [hf0 f0 le_rfl] at e1
      obtain ⟨inv', _, _⟩ := e2 cu' act' (Option.some.inj e1).symm
      by_cases hemp : act'.isEmpty = true
      · refine ⟨f0, fun fuel hf n hn => ?_⟩
        obtain ⟨n, rfl⟩ : ∃ k, n = k + 1 := ⟨n - 1, by omega⟩
        unfold seqLoop
        rw [if_pos hc, ← pow_succ]
        show ∃ res, Option.bind (seqEpoch (m := Option) Q (keyBounds r) S H fuel p (p.relTolInvMult ^ (k + 1)) first active cu []) _ = _ ∧ _
        rw [hf0 fuel hf, Option.bind_some]
        dsimp only
        rw [if_pos hemp]
        exact ⟨_, rfl, by simp⟩
      · obtain ⟨lo', f1, f2⟩ := inv'.next (fun h => hemp (List.isEmpty_iff.2 h))
        obtain ⟨f2', hf2⟩ := ih false (k + 1) _ lo' cu' f2 (by
          cases first <;> simp at hj ⊢ <;> omega) (by simp)
        refine ⟨max f0 f2', fun fuel hf n hn => ?_⟩
        obtain ⟨n, rfl⟩ : ∃ k, n = k + 1 := ⟨n - 1, by omega⟩
        unfold seqLoop
        rw [if_pos hc, ← pow_succ]
        show ∃ res, Option.bind (seqEpoch (m := Option) Q (keyBounds r) S H fuel p (p.relTolInvMult ^ (k + 1)) first active cu []) _ = _ ∧ _
        rw [hf0 fuel (by omega), Option.bind_some]
        dsimp only
        rw [if_neg hemp]
        show ∃ res, Option.bind (((act'.mergeSort fun a b => decide (a.up.getD 0 ≤ b.up.getD 0)).map fun item => item.lo.getD 0).min?) _ = _ ∧ _
        rw [f1, Option.bind_some]
        exact hf2 fuel (by omega) n (by omega)
    · exact ⟨0, fun fuel _ n _ => hend _ _ _ _ _ inv hc fuel n⟩

end Dilation
end Peano
