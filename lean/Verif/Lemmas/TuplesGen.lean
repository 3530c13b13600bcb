import Verif.Model.GeneratePaths
import Verif.Lemmas.Dict
import Verif.Lemmas.UtilsB
import Verif.Lemmas.ListM
import Verif.Lemmas.Order
import Verif.Props.Utils

set_option autoImplicit false

/-! Tuples of paths for lists of restrictions, for any kind of subsets. -/
namespace Peano
namespace PathsGen
variable {d : ℕ} {S : Type} [SubsetOps S d] [DecidableEq S] {K : Type}

/-- The tuples are the same up to `Same` of each path, and up to permutations of paths with the same key. -/
def TupleSame (Same : K → Path S d → Path S d → Prop) (L : List K) (ps qs : List (Path S d)) : Prop :=
  ps.length = L.length ∧ qs.length = L.length ∧ ∃ ws : List (Path S d),
    List.Forall₂ (fun e w => Same e.1 e.2 w) (L.zip ps) ws ∧ (L.zip ws).Perm (L.zip qs)

variable (g : PathsGen d S) (hash : Finset (Cube d) × CubeTree.Node d (Link S) → ℤ) {links : Option (List (Link S))} {parents : Option (List (Path S d))}
  (startMax finishMax : Option ℤ) {ι : K → Restriction S d} (hι : Function.Injective ι) {L : List K}
  (hR : g.getRestrictions links parents = some (L.map ι))

include hR in
/-- what `generate_paths` returns, given the results for single restrictions -/
theorem tuples_cases (std : Bool) {pool : Restriction S d → List (Path S d)}
    (h : ∀ l ∈ L, g.generateGeneric hash std startMax finishMax (ι l) = some (pool (ι l))) :
    (∃ l, L = [l] ∧ g.generatePaths hash links parents std startMax finishMax = some ((pool (ι l)).map fun p => [p])) ∨
    (∃ pool' : Restriction S d → List (Path S d), (∀ l ∈ L, pool' (ι l) = pool (ι l)) ∧
      (∀ r, pool' r = [] ∨ ∃ l ∈ L, pool' r = pool (ι l)) ∧
      g.generatePaths hash links parents std startMax finishMax = if std then combinationsProduct (L.map ι) pool'
        else some (Itertools.product ((L.map ι).map pool'))) := by
  unfold generatePaths
  rw [hR]
  simp only [Option.bind_eq_bind, Option.bind_some]
  by_cases h1 : ∃ l, L = [l]
  · obtain ⟨l, rfl⟩ := h1
    refine Or.inl ⟨l, rfl, ?_⟩
    simp only [List.map_cons, List.map_nil, h l (by simp)]
    rfl
  · refine Or.inr ?_
    set D := (L.map ι).dedup with hD
    have hDl : ∀ r ∈ D, ∃ l ∈ L, r = ι l := by
      intro r hr
      rw [hD, List.mem_dedup, List.mem_map] at hr
      obtain ⟨l, hl, rfl⟩ := hr
      exact ⟨l, hl, rfl⟩
    have hm : (D.mapM fun r => (g.generateGeneric hash std startMax finishMax r).map fun paths => (r, paths)) = some (D.map fun r => (r, pool r)) := by
      apply mapM_eq_some_map
      intro r hr
      obtain ⟨l, hl, rfl⟩ := hDl r hr
      rw [h l hl]
      rfl
    have hget : ∀ (l : List (Restriction S d)) r, r ∈ l → Dict.get? r (l.map fun r => (r, pool r)) = some (pool r) := by
      intro l r hr
      induction l with
      | nil => simp at hr
      | cons a l ih =>
        simp only [List.map_cons, Dict.get?]
        by_cases ha : a = r
        · subst ha; simp
        · rw [if_neg ha]
          exact ih ((List.mem_cons.1 hr).resolve_left (Ne.symm ha))
    have hget' : ∀ (l : List (Restriction S d)) r, r ∉ l → Dict.get? r (l.map fun r => (r, pool r)) = none := by
      intro l r hr
      rw [Dict.get?_eq_none, List.map_map]
      simpa using hr
    refine ⟨fun r => (Dict.get? r (D.map fun r => (r, pool r))).getD [], ?_, ?_, ?_⟩
    · intro l hl
      beta_reduce
      rw [hget]
      · rfl
      · rw [hD, List.mem_dedup]; exact List.mem_map_of_mem hl
    · intro r
      beta_reduce
      by_cases hr : r ∈ D
      · rw [hget _ _ hr]
        obtain ⟨l, hl, rfl⟩ := hDl r hr
        exact Or.inr ⟨l, hl, rfl⟩
      · rw [hget' _ _ hr]
        exact Or.inl rfl
    · split
      · rename_i heq
        exfalso
        apply h1
        rw [List.map_eq_singleton_iff] at heq
        obtain ⟨l, hl, _⟩ := heq
        exact ⟨l, hl⟩
      · rw [hm]
        simp only [Option.bind_some]
        cases std <;> rfl

theorem exists_pool {P : K → List (Path S d) → Prop} (hι : Function.Injective ι) (h : ∀ l ∈ L, ∃ out, P l out) :
    ∃ pool : Restriction S d → List (Path S d), ∀ l ∈ L, P l (pool (ι l)) := by
  classical
  refine ⟨fun r => if hr : ∃ l ∈ L, ι l = r then (h hr.choose hr.choose_spec.1).choose else [], ?_⟩
  intro l hl
  have hr : ∃ l' ∈ L, ι l' = ι l := ⟨l, hl, rfl⟩
  beta_reduce
  rw [dif_pos hr]
  have e : hr.choose = l := hι hr.choose_spec.2
  have := (h hr.choose hr.choose_spec.1).choose_spec
  simp only [e] at this ⊢
  exact this

include hι hR in
theorem all_tuples {G : K → Path S d → Prop}
    (h : ∀ l ∈ L, ∃ out, g.generateGeneric hash false startMax finishMax (ι l) = some out ∧ out.Nodup ∧ ∀ p, p ∈ out ↔ G l p) :
    ∃ out, g.generatePaths hash links parents false startMax finishMax = some out ∧ out.Nodup ∧ ∀ ps, ps ∈ out ↔ List.Forall₂ G L ps := by
  obtain ⟨pool, hpool⟩ := exists_pool (S := S) (d := d) hι h
  rcases tuples_cases g hash startMax finishMax hR false (pool := pool) (fun l hl => (hpool l hl).1) with ⟨l, hl, he⟩ | ⟨pool', k1, k2, he⟩
  · subst hl
    obtain ⟨_, h2, h3⟩ := hpool l (by simp)
    refine ⟨_, he, h2.map fun a b h => by simpa using h, ?_⟩
    intro ps
    rw [List.mem_map, List.forall₂_cons_left_iff]
    constructor
    · rintro ⟨p, hp, rfl⟩
      exact ⟨p, [], (h3 p).1 hp, List.Forall₂.nil, rfl⟩
    · rintro ⟨p, u, hp, hu, rfl⟩
      rw [List.forall₂_nil_left_iff] at hu
      subst hu
      exact ⟨p, (h3 p).2 hp, rfl⟩
  · simp only [Bool.false_eq_true, if_false] at he
    refine ⟨_, he, Itertools.nodup_product ?_, ?_⟩
    · intro l hl
      obtain ⟨r, _, rfl⟩ := List.mem_map.1 hl
      rcases k2 r with h | ⟨l', hl', h⟩
      · rw [h]; exact List.nodup_nil
      · rw [h]; exact (hpool l' hl').2.1
    · intro ps
      rw [Itertools.mem_product, List.map_map, List.forall₂_map_right_iff]
      refine Iff.trans ⟨List.Forall₂.flip, List.Forall₂.flip⟩ ?_
      have : ∀ {M : List K}, (∀ l ∈ M, l ∈ L) → ∀ ps : List (Path S d),
          List.Forall₂ (fun l p => p ∈ (pool' ∘ ι) l) M ps ↔ List.Forall₂ G M ps := by
        intro M hM ps
        induction M generalizing ps with
        | nil => simp
        | cons l M ih =>
          rw [List.forall₂_cons_left_iff, List.forall₂_cons_left_iff]
          refine exists_congr fun p => exists_congr fun u => ?_
          rw [ih fun l hl => hM l (List.mem_cons_of_mem _ hl), Function.comp_apply, k1 l (hM l (by simp)), (hpool l (hM l (by simp))).2.2]
      exact this (fun _ h => h) ps

include hι hR in
theorem std_tuples {G : K → Path S d → Prop} {Same : K → Path S d → Path S d → Prop}
    (h : ∀ l ∈ L, ∃ out, g.generateGeneric hash true startMax finishMax (ι l) = some out ∧ out.Nodup ∧ (∀ p ∈ out, G l p) ∧
      ∀ p, G l p → ∃! q, q ∈ out ∧ Same l p q) :
    ∃ out, g.generatePaths hash links parents true startMax finishMax = some out ∧ out.Nodup ∧ (∀ ps ∈ out, List.Forall₂ G L ps) ∧
      ∀ ps, List.Forall₂ G L ps → ∃! qs, qs ∈ out ∧ TupleSame Same L ps qs := by
  obtain ⟨pool, hpool⟩ := exists_pool (S := S) (d := d) hι h
  rcases tuples_cases g hash startMax finishMax hR true (pool := pool) (fun l hl => (hpool l hl).1) with ⟨l, hl, he⟩ | ⟨pool', k1, k2, he⟩
  · subst hl
    obtain ⟨_, h2, h3, h4⟩ := hpool l (by simp)
    refine ⟨_, he, h2.map fun a b h => by simpa using h, ?_, ?_⟩
    · intro ps hps
      obtain ⟨p, hp, rfl⟩ := List.mem_map.1 hps
      exact List.Forall₂.cons (h3 p hp) List.Forall₂.nil
    · intro ps hps
      rw [List.forall₂_cons_left_iff] at hps
      obtain ⟨p, u, hp, hu, rfl⟩ := hps
      rw [List.forall₂_nil_left_iff] at hu
      subst hu
      obtain ⟨q, ⟨hq1, hq2⟩, hq3⟩ := h4 p hp
      refine ⟨[q], ⟨List.mem_map.2 ⟨q, hq1, rfl⟩, rfl, rfl, [q], List.Forall₂.cons hq2 List.Forall₂.nil, List.Perm.refl _⟩, ?_⟩
      rintro qs ⟨hqs, _, _, ws, hws, hperm⟩
      obtain ⟨q', hq', rfl⟩ := List.mem_map.1 hqs
      simp only [List.zip_cons_cons, List.zip_nil_right, List.forall₂_cons_left_iff, List.forall₂_nil_left_iff] at hws
      obtain ⟨w, u, hw, rfl, rfl⟩ := hws
      simp only [List.zip_cons_cons, List.zip_nil_right, List.perm_singleton, List.cons.injEq, Prod.mk.injEq, and_true, true_and] at hperm
      subst hperm
      rw [hq3 w ⟨hq', hw⟩]
  · simp only [if_true] at he
    have hp' : ∀ r, (pool' r).Nodup := by
      intro r
      rcases k2 r with h | ⟨l', hl', h⟩
      · rw [h]; exact List.nodup_nil
      · rw [h]; exact (hpool l' hl').2.1
    obtain ⟨out, e1, e2, e3⟩ := C29_each_class_once (L.map ι) pool' hp'
    obtain ⟨out', f1, f2⟩ := C29_valid_choices (L.map ι) pool'
    rw [e1, Option.some.injEq] at f1
    subst f1
    rw [e1] at he
    have hpools : ∀ x, List.Forall₂ (fun r t => t ∈ pool' r) (L.map ι) x ↔ List.Forall₂ (fun l t => t ∈ pool (ι l)) L x := by
      intro x
      rw [List.forall₂_map_left_iff]
      have : ∀ {M : List K}, (∀ l ∈ M, l ∈ L) → ∀ x : List (Path S d),
          List.Forall₂ (fun l t => t ∈ pool' (ι l)) M x ↔ List.Forall₂ (fun l t => t ∈ pool (ι l)) M x := by
        intro M hM x
        induction M generalizing x with
        | nil => simp
        | cons l M ih =>
          rw [List.forall₂_cons_left_iff, List.forall₂_cons_left_iff]
          refine exists_congr fun p => exists_congr fun u => ?_
          rw [ih fun l hl => hM l (List.mem_cons_of_mem _ hl), k1 l (hM l (by simp))]
      exact this (fun _ h => h) x
    have hzip : ∀ x : List (Path S d), (L.map ι).zip x = (L.zip x).map fun e => (ι e.1, e.2) := by
      intro x
      rw [List.zip_map_left]
      rfl
    have hperm : ∀ x y : List (Path S d), ((L.map ι).zip x).Perm ((L.map ι).zip y) ↔ (L.zip x).Perm (L.zip y) := by
      intro x y
      rw [hzip, hzip]
      refine List.map_perm_map_iff ?_
      rintro ⟨a, b⟩ ⟨a', b'⟩ h
      rw [Prod.mk.injEq] at h
      exact Prod.ext (hι h.1) h.2
    refine ⟨out, he, e2, ?_, ?_⟩
    · intro ps hps
      have := (hpools ps).1 (f2 ps hps)
      rw [List.forall₂_iff_zip] at this ⊢
      exact ⟨this.1, fun {l p} hab => (hpool l (List.of_mem_zip hab).1).2.2.1 p (this.2 hab)⟩
    · intro ps hps
      -- representatives
      have hrep : ∃ ws, List.Forall₂ (fun e w => w ∈ pool (ι e.1) ∧ Same e.1 e.2 w) (L.zip ps) ws ∧
          ∀ ws', List.Forall₂ (fun e w => w ∈ pool (ι e.1) ∧ Same e.1 e.2 w) (L.zip ps) ws' → ws' = ws := by
        clear e3 f2 he e1 hperm hzip hpools k1 k2 hR h
        induction hps with
        | nil => exact ⟨[], by simp, by simp⟩
        | @cons l p L ps hp _ ih =>
          obtain ⟨ws, i1, i2⟩ := ih fun l hl => hpool l (List.mem_cons_of_mem _ hl)
          obtain ⟨q, ⟨hq1, hq2⟩, hq3⟩ := (hpool l (by simp)).2.2.2 p hp
          refine ⟨q :: ws, List.Forall₂.cons ⟨hq1, hq2⟩ i1, ?_⟩
          intro ws' hws'
          rw [List.zip_cons_cons, List.forall₂_cons_left_iff] at hws'
          obtain ⟨w, u, hw, hu, rfl⟩ := hws'
          rw [i2 u hu, hq3 w ⟨hw.1, hw.2⟩]
      obtain ⟨ws, hws1, hws2⟩ := hrep
      have hlen : L.length = ps.length := hps.length_eq
      have hlenw : L.length = ws.length := by
        rw [← hws1.length_eq, List.length_zip, hlen, min_self]
      have hzp : ∀ ws' : List (Path S d), L.length = ws'.length → ∀ R : K → Path S d → Prop,
          (List.Forall₂ (fun e w => R e.1 w) (L.zip ps) ws' ↔ List.Forall₂ R L ws') := by
        intro ws' _ R
        have : L = (L.zip ps).map Prod.fst := by rw [List.map_fst_zip]; omega
        conv_rhs => rw [this, List.forall₂_map_left_iff]
      have hwpool : List.Forall₂ (fun l t => t ∈ pool (ι l)) L ws := by
        rw [← hzp ws hlenw]
        exact hws1.imp fun e w h => h.1
      obtain ⟨qs, ⟨q1, q2⟩, q3⟩ := e3 ws ((hpools ws).2 hwpool)
      rw [hperm] at q2
      have hlenq : ∀ qs ∈ out, qs.length = L.length := fun qs hq => ((hpools qs).1 (f2 qs hq)).length_eq.symm
      refine ⟨qs, ⟨q1, hlen.symm, hlenq qs q1, ws, hws1.imp fun _ _ h => h.2, q2.symm⟩, ?_⟩
      rintro rs ⟨r1, _, r2, ws', hws', hpr⟩
      have hlenw' : L.length = ws'.length := by
        rw [← hws'.length_eq, List.length_zip, hlen, min_self]
      have hws'pool : List.Forall₂ (fun l t => t ∈ pool (ι l)) L ws' := by
        have hr := (hpools rs).1 (f2 rs r1)
        rw [List.forall₂_iff_zip] at hr ⊢
        exact ⟨hlenw', fun {a b} hab => hr.2 (hpr.mem_iff.1 hab)⟩
      have : ws' = ws := by
        apply hws2
        rw [← hzp ws' hlenw'] at hws'pool
        rw [List.forall₂_iff_zip] at hws'pool hws' ⊢
        exact ⟨hws'.1, fun {a b} hab => ⟨hws'pool.2 hab, hws'.2 hab⟩⟩
      subst this
      exact q3 rs ⟨r1, (hperm _ _).2 hpr.symm⟩

end PathsGen
end Peano
