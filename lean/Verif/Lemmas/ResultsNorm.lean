import Verif.Lemmas.Search
import Verif.Lemmas.YeRigid
import Verif.Lemmas.MinBound
import Verif.Spec.YeProof

set_option autoImplicit false

/-
A candidate whose gates are the given ones up to symmetry: after permuting and mapping its patterns it has exactly the given gates.
-/
namespace Peano

namespace MinCert
variable {n : ℕ}

theorem exists_reparam {c : FCurve (n + 1)} {N : ℕ} {mc : Option ℤ} {S : GateTuple (n + 1)} (hpos : 0 < S.length)
    (hunit : ∀ m ∈ S, ∀ j, (0 ≤ m.entrance j ∧ m.entrance j ≤ 1) ∧ (0 ≤ m.exit j ∧ m.exit j ≤ 1))
    (hc : c.IsCandidate N S.length mc) (hg : c.GatesIn [S]) :
    ∃ w B, w.Perm (List.range c.mult) ∧ (c.reparam w B).IsCandidate N S.length mc ∧ (c.reparam w B).HasGates S := by
  have hdiv : 2 ≤ N := by rw [← hc.div_eq]; exact hc.full.two_le_div
  have hM : 2 ≤ N ^ (n + 1) := le_trans hdiv (Nat.le_self_pow (by omega) _)
  obtain ⟨G, hG, S', hS', hs⟩ := hg
  rw [List.mem_singleton] at hS'
  subst hS'
  obtain ⟨out, h1, h2, h3, h4⟩ := PathsGen.C63_std_tuples { div := N, links := S', maxCdist := mc } (fun _ => 0) none none none hM hunit
  simp only [Option.getD_none] at h3 h4
  obtain ⟨Q, path, _, hpath, qs, hqs, w', B, hwr, hB'⟩ := FCurve.exists_examined_paths (out := out) (fun ps hps => by
      obtain ⟨qs, hq, _⟩ := h4 ps hps
      exact ⟨qs, hq⟩) hc hG hs
  have hF := h3 qs hqs
  have hgen : ∀ q ∈ qs, ∃ l ∈ S', Generated N S' mc l q := by
    intro q hq
    obtain ⟨j, hj⟩ := List.mem_iff_getElem?.1 hq
    obtain ⟨h1, h2⟩ := List.getElem?_eq_some_iff.1 hj
    have := hF
    rw [List.forall₂_iff_get] at this
    have := this.2 j (by omega) h1
    simp only [List.get_eq_getElem, h2] at this
    exact ⟨_, List.getElem_mem _, this⟩
  obtain ⟨pc, hpc⟩ : ∃ pc, FCurve.initFromPaths qs none false = some pc := by
    refine (FCurve.C18_init_iff qs none false (by simp)).2 ⟨?_, ?_⟩
    · rintro rfl
      rw [hF.length_eq] at hpos
      simp at hpos
    · intro path hpath link hlink
      obtain ⟨l, hl, hg⟩ := hgen path hpath
      obtain ⟨b, m, hm, rfl⟩ := imageOf_iff_act.1 (hg.links_image link hlink)
      obtain ⟨j, hj⟩ := List.mem_iff_getElem?.1 hm
      obtain ⟨k1, k2⟩ := List.getElem?_eq_some_iff.1 hj
      have hF' := hF
      rw [List.forall₂_iff_get] at hF'
      have k3 := hF'.2 j k1 (by omega)
      simp only [List.get_eq_getElem, k2] at k3
      exact ⟨qs[j]'(by omega), List.getElem_mem _, b, ⟨by simp, by simp⟩, by rw [k3.link_eq]⟩
  have hv : ∀ q ∈ qs, q.Valid c.div := by
    intro q hq
    obtain ⟨_, _, h⟩ := hgen q hq
    rw [hc.div_eq]
    exact h.valid
  have hposs := FCurve.possible_reparam hc.full (by rw [hc.mult_eq]; exact hpos) (Q := Q) (path := path) (fun p hp => (hpath p hp).2.2.1)
    (fun p hp => (hpath p hp).2.2.2) (fun p hp => (hpath p hp).1) (fun p hp => (hpath p hp).2.1) hwr hB' hv hpc
  exact ⟨w', B, hwr, FCurve.possible_candidate hdiv hF hpc hposs⟩

end MinCert
end Peano
