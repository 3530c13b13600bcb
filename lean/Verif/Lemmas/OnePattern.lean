import Verif.Lemmas.Interior
import Verif.Spec.OnePattern

set_option autoImplicit false

/-
A pattern with its ends at vertices, where no other pattern has an end at a vertex, uses only itself.
-/
namespace Peano
variable {d : ℕ}
namespace FCurve
variable {c : FCurve d} {f : ℕ → ℝ → Fin d → ℝ}

/-- The point is a vertex of the unit cube. -/
def Vert (x : Fin d → ℝ) : Prop := ∀ j, x j = 0 ∨ x j = 1

theorem vert_applyX {a : BaseMap d} {x : Fin d → ℝ} : Vert (a.applyX 1 x) ↔ Vert x := by
  have key : ∀ j, (a.applyX 1 x j = 0 ∨ a.applyX 1 x j = 1) ↔ (x (a.coords j).1 = 0 ∨ x (a.coords j).1 = 1) := by
    intro j
    unfold BaseMap.applyX
    split
    · constructor <;> rintro (h | h)
      · right; linarith
      · left; linarith
      · right; linarith
      · left; linarith
    · rfl
  constructor
  · intro h j
    obtain ⟨k, hk⟩ := (Finite.injective_iff_surjective.1 a.inj) j
    have := (key k).1 (h k)
    simpa [hk] using this
  · exact fun h j => (key j).2 (h _)

theorem vert_actFn_start {s : Spec d} (h : Vert (actFn s f 0)) : Vert (f s.pnum 0) ∨ Vert (f s.pnum 1) := by
  unfold actFn BaseMap.applyT at h
  have h := vert_applyX.1 h
  by_cases ht : s.baseMap.timeRev = true
  · simp only [ht, if_true, sub_zero] at h; exact .inr h
  · simp only [ht] at h; exact .inl h

theorem vert_actFn_end {s : Spec d} (h0 : Vert (f s.pnum 0)) (h1 : Vert (f s.pnum 1)) : Vert (actFn s f 1) := by
  unfold actFn BaseMap.applyT
  refine vert_applyX.2 ?_
  by_cases ht : s.baseMap.timeRev = true
  · simpa only [ht, if_true, sub_self] using h0
  · simpa only [ht, Bool.false_eq_true, if_false] using h1

/-- A pattern with its ends at vertices, where no other pattern has an end at a vertex, uses only itself. -/
theorem Realizes.lone_uses (h : c.Full) (hf : c.Realizes f) {p : ℕ} (hp : p < c.mult) (h0 : Vert (f p 0)) (h1 : Vert (f p 1))
    (ho : ∀ q < c.mult, q ≠ p → ¬ Vert (f q 0) ∧ ¬ Vert (f q 1)) {i : ℕ} (hi : i < c.genus) : (c.specD p i).pnum = p := by
  have hN : (0 : ℝ) < c.div := by exact_mod_cast h.div_pos
  have hG : (0 : ℝ) < c.genus := by exact_mod_cast h.genus_pos
  have eq : ∀ k < c.genus, ∀ t : ℝ, 0 ≤ t → t ≤ 1 → f p ((k + t) / c.genus) = fun j => (c.cubeD p k j + actFn (c.specD p k) f t j) / c.div :=
    fun k hk t t0 t1 => hf.eqn p k _ _ (h.cube_eq hp hk) (h.spec_eq hp hk) t t0 t1
  have pn : ∀ k < c.genus, (c.specD p k).pnum < c.mult := fun k hk => h.spec_range p k _ (h.spec_eq hp hk)
  have vint : ∀ k < c.genus, (∀ j, ∃ z : ℤ, actFn (c.specD p k) f 0 j = z) → Vert (actFn (c.specD p k) f 0) := by
    intro k hk hz j
    obtain ⟨z, hz⟩ := hz j
    obtain ⟨b1, b2⟩ := hf.actFn_mem (pn k hk) le_rfl zero_le_one j
    rw [hz] at b1 b2 ⊢
    have b1 : 0 ≤ z := by exact_mod_cast b1
    have b2 : z ≤ 1 := by exact_mod_cast b2
    rcases (by omega : z = 0 ∨ z = 1) with rfl | rfl <;> simp
  have use : ∀ k < c.genus, Vert (actFn (c.specD p k) f 0) → (c.specD p k).pnum = p := by
    intro k hk hv
    by_contra hne
    obtain ⟨n0, n1⟩ := ho _ (pn k hk) hne
    exact (vert_actFn_start hv).elim n0 n1
  have all : ∀ k < c.genus, Vert (actFn (c.specD p k) f 0) := by
    intro k
    induction k with
    | zero =>
      intro hk
      refine vint 0 hk fun j => ?_
      have e := congrFun (eq 0 hk 0 le_rfl zero_le_one) j
      simp only [Nat.cast_zero, add_zero, zero_div] at e
      rcases h0 j with hv | hv <;> rw [hv] at e
      · refine ⟨-(c.cubeD p 0 j), ?_⟩
        rw [eq_div_iff hN.ne'] at e
        push_cast; linarith
      · refine ⟨c.div - c.cubeD p 0 j, ?_⟩
        rw [eq_div_iff hN.ne'] at e
        push_cast; linarith
    | succ k ih =>
      intro hk
      have hk' : k < c.genus := by omega
      have hu := use k hk' (ih hk')
      have hv : Vert (actFn (c.specD p k) f 1) := vert_actFn_end (by rw [hu]; exact h0) (by rw [hu]; exact h1)
      refine vint _ hk fun j => ?_
      have e1 := congrFun (eq k hk' 1 zero_le_one le_rfl) j
      have e2 := congrFun (eq (k + 1) hk 0 le_rfl zero_le_one) j
      rw [show ((k + 1 : ℕ) + 0 : ℝ) / c.genus = (k + 1) / c.genus by push_cast; ring, e1, div_left_inj' hN.ne'] at e2
      rcases hv j with hv | hv <;> rw [hv] at e2
      · exact ⟨c.cubeD p k j - c.cubeD p (k + 1) j, by push_cast; linarith⟩
      · exact ⟨c.cubeD p k j + 1 - c.cubeD p (k + 1) j, by push_cast; linarith⟩
  exact use i hi (all i hi)

/-! ### The curve with one pattern -/

section
variable {p : ℕ}

theorem only_patterns (hp : p < c.mult) : (c.only p).patterns =
    [⟨(c.patterns[p]'hp).proto, (c.patterns[p]'hp).specs.map (Option.map fun s => ⟨s.baseMap, 0⟩)⟩] := by
  simp only [only, List.getElem?_eq_getElem (show p < c.patterns.length from hp)]
  rfl

theorem only_mult (hp : p < c.mult) : (c.only p).mult = 1 := by
  unfold mult; rw [only_patterns hp]; rfl

theorem only_genus : (c.only p).genus = c.genus := rfl

theorem only_cube (hp : p < c.mult) (i : ℕ) : (c.only p).cube? 0 i = c.cube? p i := by
  simp only [cube?, only_patterns hp, List.getElem?_eq_getElem (show p < c.patterns.length from hp)]
  rfl

theorem only_spec (hp : p < c.mult) (i : ℕ) : (c.only p).spec? 0 i = (c.spec? p i).map fun s => ⟨s.baseMap, 0⟩ := by
  simp only [spec?, only_patterns hp, List.getElem?_eq_getElem (show p < c.patterns.length from hp), List.getElem?_cons_zero, Option.bind_some,
    List.getElem?_map]
  rcases (c.patterns[p]'hp).specs[i]? with _ | _ | s <;> rfl

theorem Full.only (h : c.Full) (hp : p < c.mult) : (c.only p).Full := by
  refine ⟨⟨h.two_le_div, ?_, ?_, ?_, ?_⟩, ?_, ?_⟩
  · intro q hq
    rw [only_patterns hp, List.mem_singleton] at hq
    subst hq
    exact h.proto_length (c.patterns[p]'hp) (List.getElem_mem _)
  · intro q hq
    rw [only_patterns hp, List.mem_singleton] at hq
    subst hq
    rw [only_genus, List.length_map]
    exact h.specs_length (c.patterns[p]'hp) (List.getElem_mem _)
  · intro q i x hx
    have hq := lt_of_cube hx
    rw [only_mult hp] at hq
    obtain rfl : q = 0 := by omega
    rw [only_cube hp] at hx
    exact h.cube_range _ _ _ hx
  · intro q i s hs
    have hq := lt_of_spec hs
    rw [only_mult hp] at hq
    obtain rfl : q = 0 := by omega
    rw [only_spec hp] at hs
    obtain ⟨s', -, rfl⟩ := Option.map_eq_some_iff.1 hs
    rw [only_mult hp]; exact Nat.one_pos
  · intro q hq i hi
    rw [only_mult hp] at hq
    obtain rfl : q = 0 := by omega
    rw [only_cube hp]
    exact h.cube_def _ hp i hi
  · intro q hq i hi
    rw [only_mult hp] at hq
    obtain rfl : q = 0 := by omega
    rw [only_spec hp, Option.isSome_map]
    exact h.spec_def _ hp i hi

theorem lt_genus_of_spec (h : c.Full) {i : ℕ} {s : Spec d} (hs : c.spec? p i = some s) : i < c.genus := by
  have hp := lt_of_spec hs
  by_contra hi
  unfold spec? at hs
  rw [List.getElem?_eq_getElem (show p < c.patterns.length from hp)] at hs
  simp only [Option.bind_some] at hs
  rw [List.getElem?_eq_none (by rw [h.specs_length _ (List.getElem_mem _)]; omega)] at hs
  simp at hs

theorem Realizes.only (hf : c.Realizes f) (hp : p < c.mult) (hu : ∀ i s, c.spec? p i = some s → s.pnum = p) : (c.only p).Realizes fun _ => f p := by
  refine ⟨fun _ _ => hf.mem_cube _ hp, ?_⟩
  intro q i x s hx hs t t0 t1
  have hq := lt_of_cube hx
  rw [only_mult hp] at hq
  obtain rfl : q = 0 := by omega
  rw [only_cube hp] at hx
  rw [only_spec hp] at hs
  obtain ⟨s', hs', rfl⟩ := Option.map_eq_some_iff.1 hs
  have e := hf.eqn p i x s' hx hs' t t0 t1
  rw [only_genus, e]
  unfold actFn
  rw [hu i s' hs']
  rfl

theorem IsCandidate.only {N m : ℕ} {mc : Option ℤ} (h : c.IsCandidate N m mc) (hp : p < c.mult) (hu : ∀ i s, c.spec? p i = some s → s.pnum = p) :
    (c.only p).IsCandidate N 1 mc := by
  obtain ⟨f, hf⟩ := h.full.realizes_of_check h.checked
  have hfull := h.full.only hp
  refine ⟨hfull, ?_, hfull.check_of_realizes (hf.only hp hu), h.div_eq, only_mult hp, ?_⟩
  · intro q hq x hx
    rw [only_mult hp] at hq
    obtain rfl : q = 0 := by omega
    obtain ⟨i, hi, e⟩ := h.fills p hp x hx
    exact ⟨i, hi, by rw [only_cube hp]; exact e⟩
  · intro k hk q i x y hx hy
    have hq := lt_of_cube hx
    rw [only_mult hp] at hq
    obtain rfl : q = 0 := by omega
    rw [only_cube hp] at hx hy
    exact h.steps k hk _ _ _ _ hx hy

/-- Entrances and exits are the ends of the maps. -/
theorem Full.vert_iff (h : c.Full) (hf : c.Realizes f) (hp : p < c.mult) :
    (∃ x, c.getEntrance p = some x ∧ (x.IsVertex ↔ Vert (f p 0))) ∧ ∃ y, c.getExit p = some y ∧ (y.IsVertex ↔ Vert (f p 1)) := by
  obtain ⟨⟨x, hx1, hx2⟩, y, hy1, hy2⟩ := C14_entrance_exit c h.gates f hf p hp
  refine ⟨⟨x, hx1, ?_⟩, y, hy1, ?_⟩
  · rw [← hx2]
    exact forall_congr' fun j => by dsimp only; norm_cast
  · rw [← hy2]
    exact forall_congr' fun j => by dsimp only; norm_cast

/-- The pattern uses only itself. -/
theorem LoneVertex.uses (hl : c.LoneVertex p) (h : c.Full) (hc : c.check = some true) : ∀ i s, c.spec? p i = some s → s.pnum = p := by
  obtain ⟨f, hf⟩ := h.realizes_of_check hc
  obtain ⟨⟨x, hx, hxv⟩, y, hy, hyv⟩ := h.vert_iff hf hl.lt
  intro i s hs
  have hi := lt_genus_of_spec h hs
  have e := h.spec_eq hl.lt hi
  rw [hs] at e
  rw [Option.some.inj e]
  refine hf.lone_uses h hl.lt (hxv.1 (hl.own x (.inl hx))) (hyv.1 (hl.own y (.inr hy))) (fun q hq hne => ?_) hi
  obtain ⟨⟨x, hx, hxv⟩, y, hy, hyv⟩ := h.vert_iff hf hq
  exact ⟨fun hv => hl.other q hq hne x (.inl hx) (hxv.2 hv), fun hv => hl.other q hq hne y (.inr hy) (hyv.2 hv)⟩

/-- The gates of the pattern do not change. -/
theorem Full.only_gates (h : c.Full) (hc : c.check = some true) (hp : p < c.mult) (hu : ∀ i s, c.spec? p i = some s → s.pnum = p) :
    (c.only p).getEntrance 0 = c.getEntrance p ∧ (c.only p).getExit 0 = c.getExit p := by
  obtain ⟨f, hf⟩ := h.realizes_of_check hc
  obtain ⟨⟨x, hx1, hx2⟩, y, hy1, hy2⟩ := C14_entrance_exit c h.gates f hf p hp
  obtain ⟨⟨x', hx1', hx2'⟩, y', hy1', hy2'⟩ := C14_entrance_exit _ (h.only hp).gates _ (hf.only hp hu) 0 (by rw [only_mult hp]; exact Nat.one_pos)
  rw [hx1, hy1, hx1', hy1']
  constructor
  · congr 1; funext j
    have := congrFun (hx2'.trans hx2.symm) j
    exact_mod_cast this
  · congr 1; funext j
    have := congrFun (hy2'.trans hy2.symm) j
    exact_mod_cast this

/-- The dilation of the pattern is at most the dilation of the curve. -/
theorem IsDilation.only {r : Ratio} {D : ℝ} (hp : p < c.mult) (hu : ∀ i s, c.spec? p i = some s → s.pnum = p) (hD : c.IsDilation r D) :
    ∃ D' ≤ D, (c.only p).IsDilation r D' := by
  obtain ⟨f, hf, hD⟩ := hD
  have hsub : (c.only p).ratios r (fun _ => f p) ⊆ c.ratios r f := by
    rintro x ⟨_, _, s, t, h⟩
    exact ⟨p, hp, s, t, h⟩
  have hne : ((c.only p).ratios r fun _ => f p).Nonempty :=
    ⟨_, 0, by rw [only_mult hp]; exact Nat.one_pos, 0, 1, le_rfl, zero_lt_one, le_rfl, rfl⟩
  have hub : D ∈ upperBounds ((c.only p).ratios r fun _ => f p) := fun x hx => hD.1 (hsub hx)
  exact ⟨_, csSup_le hne hub, _, hf.only hp hu, isLUB_csSup hne ⟨D, hub⟩⟩

end

theorem isVertex_applyX {a : BaseMap d} {x : Point d} : Point.IsVertex (a.applyX 1 x) ↔ x.IsVertex := by
  have key : ∀ j, (a.applyX 1 x j = 0 ∨ a.applyX 1 x j = 1) ↔ (x (a.coords j).1 = 0 ∨ x (a.coords j).1 = 1) := by
    intro j
    unfold BaseMap.applyX
    split
    · constructor <;> rintro (h | h)
      · right; linarith
      · left; linarith
      · right; linarith
      · left; linarith
    · rfl
  constructor
  · intro h j
    obtain ⟨k, hk⟩ := (Finite.injective_iff_surjective.1 a.inj) j
    have := (key k).1 (h k)
    simpa [hk] using this
  · exact fun h j => (key j).2 (h _)

theorem isVertex_act {b : BaseMap d} {l m : Link (Point d)} (h : Link.act b l = m) :
    ((m.entrance.IsVertex ∧ m.exit.IsVertex) ↔ (l.entrance.IsVertex ∧ l.exit.IsVertex)) ∧
      ((m.entrance.IsVertex ∨ m.exit.IsVertex) ↔ (l.entrance.IsVertex ∨ l.exit.IsVertex)) := by
  have e1 : ∀ x : Point d, Point.IsVertex (SubsetOps.act b x) ↔ x.IsVertex := fun x => isVertex_applyX
  subst h
  unfold Link.act
  dsimp only
  split <;> simp only [e1]
  · exact ⟨and_comm, or_comm⟩
  · exact ⟨trivial, trivial⟩

/-- Gates `l`, with ends at vertices, and `m`, without. -/
theorem GatesIn.lone {l m : Link (Point d)} (hl : l.entrance.IsVertex ∧ l.exit.IsVertex) (hm : ¬ (m.entrance.IsVertex ∨ m.exit.IsVertex))
    (h : c.GatesIn [[l, m]]) : ∃ p, c.LoneVertex p ∧ ∃ b k, c.getEntrance p = some k.entrance ∧ c.getExit p = some k.exit ∧ Link.act b k = l := by
  obtain ⟨G, ⟨hlen, hG⟩, S, hS, W, hW, hF⟩ := h
  obtain rfl := List.mem_singleton.1 hS
  have hG2 : G.length = 2 := by rw [hF.length_eq, hW.length_eq]; rfl
  match G, hG2 with
  | [g0, g1], _ =>
  have h0 := hG 0 g0 rfl
  have h1 := hG 1 g1 rfl
  have hmult : c.mult = 2 := hlen.symm
  match W, hF with
  | [w0, w1], .cons ⟨b0, e0⟩ (.cons ⟨b1, e1⟩ .nil) =>
  have main : ∀ p q : ℕ, p < 2 → q = 1 - p → ∀ g g' b b', c.getEntrance p = some g.entrance ∧ c.getExit p = some g.exit →
      c.getEntrance q = some g'.entrance ∧ c.getExit q = some g'.exit → Link.act b g = l → Link.act b' g' = m →
      ∃ p, c.LoneVertex p ∧ ∃ b k, c.getEntrance p = some k.entrance ∧ c.getExit p = some k.exit ∧ Link.act b k = l := by
    intro p q hp hq g g' b b' h h' e e'
    refine ⟨p, ⟨by omega, ?_, ?_⟩, b, g, h.1, h.2, e⟩
    · have := (isVertex_act e).1.1 hl
      rintro x (hx | hx)
      · rw [h.1] at hx; cases hx; exact this.1
      · rw [h.2] at hx; cases hx; exact this.2
    · intro q' hq' hne x hx hv
      obtain rfl : q' = q := by omega
      apply hm
      refine (isVertex_act e').2.2 ?_
      rcases hx with hx | hx
      · rw [h'.1] at hx; cases hx; exact .inl hv
      · rw [h'.2] at hx; cases hx; exact .inr hv
  have hmem : w0 ∈ [l, m] := hW.subset (List.mem_cons_self ..)
  simp only [List.mem_cons, List.not_mem_nil, or_false] at hmem
  rcases hmem with rfl | rfl
  · have : w1 = m := by simpa using (List.perm_cons w0).1 hW
    subst this
    exact main 0 1 (by omega) rfl g0 g1 b0 b1 h0 h1 e0 e1
  · have : w1 = l := by simpa using (List.perm_cons w0).1 (hW.trans (List.Perm.swap w0 l []))
    subst this
    exact main 1 0 (by omega) rfl g1 g0 b1 b0 h1 h0 e1 e0

/-- So the dilation is at least the least dilation of curves with one pattern and this gate. -/
theorem IsCandidate.lone_bound {l m : Link (Point d)} (hl : l.entrance.IsVertex ∧ l.exit.IsVertex) (hm : ¬ (m.entrance.IsVertex ∨ m.exit.IsVertex))
    {N : ℕ} {mc : Option ℤ} (hc : c.IsCandidate N 2 mc) (h : c.GatesIn [[l, m]]) {r : Ratio} {D : ℝ} (hD : c.IsDilation r D) :
    ∃ e : FCurve d, e.IsCandidate N 1 mc ∧ e.GatesIn [[l]] ∧ ∃ D' ≤ D, e.IsDilation r D' := by
  obtain ⟨p, hp, b, k, h1, h2, e⟩ := h.lone hl hm
  have hu := hp.uses hc.full hc.checked
  obtain ⟨g1, g2⟩ := hc.full.only_gates hc.checked hp.lt hu
  refine ⟨c.only p, hc.only hp.lt hu, ⟨[k], ⟨by rw [only_mult hp.lt]; rfl, ?_⟩, [l], by simp, [l], List.Perm.refl _, .cons ⟨b, e⟩ .nil⟩, hD.only hp.lt hu⟩
  intro q x hx
  match q with
  | 0 => cases hx; exact ⟨g1.trans h1, g2.trans h2⟩
  | _ + 1 => cases hx

end FCurve
end Peano
