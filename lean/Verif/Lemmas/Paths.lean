import Verif.Spec.Paths
import Verif.Lemmas.Order
import Mathlib.Tactic.Ring
import Mathlib.Tactic.FieldSimp
import Mathlib.Tactic.Linarith

/-! Lemmas about pointed paths (C37). -/
namespace Peano
namespace Path
variable {d : ℕ}

/-- a pointed path from its cubes and links -/
theorem make_iff {div : ℕ} {proto : Proto d} {links : List (Link (Point d))} {p : Path (Point d) d} :
    make div proto links = some p ↔ div ≠ 0 ∧ ∃ c0 c1 l0 l1, proto.head? = some (some c0) ∧ proto.getLast? = some (some c1) ∧
      links.head? = some l0 ∧ links.getLast? = some l1 ∧
      p = ⟨div, proto, links, ⟨fun j => (l0.entrance j + c0 j) * (1 / div), fun j => (l1.exit j + c1 j) * (1 / div)⟩⟩ := by
  unfold make
  simp only [Option.bind_eq_bind, Option.bind_eq_some_iff, Option.pure_def, Option.some.injEq]
  have hm : ∀ (q : Point d) c r, SubsetOps.mapToCube q div c = some r ↔ div ≠ 0 ∧ r = fun j => (q j + c j) * (1 / div) := by
    intro q c r
    show Point.mapToCube q div c = some r ↔ _
    unfold Point.mapToCube
    split
    · simp [*]
    · simp only [Option.some.injEq, ne_eq, *, not_false_eq_true, true_and]
      exact eq_comm
  constructor
  · rintro ⟨l0, h0, l1, h1, _, hc0, c0, rfl, _, hc1, c1, rfl, e, he, x, hx, rfl⟩
    rw [hm] at he hx
    obtain ⟨hd, rfl⟩ := he
    obtain ⟨_, rfl⟩ := hx
    exact ⟨hd, c0, c1, l0, l1, hc0, hc1, h0, h1, rfl⟩
  · rintro ⟨hd, c0, c1, l0, l1, hc0, hc1, h0, h1, rfl⟩
    exact ⟨l0, h0, l1, h1, _, hc0, c0, rfl, _, hc1, c1, rfl, _, (hm _ _ _).2 ⟨hd, rfl⟩, _, (hm _ _ _).2 ⟨hd, rfl⟩, rfl⟩

theorem WF.data {p : Path (Point d) d} (h : p.WF) : ∃ cs : List (Cube d), p.proto = cs.map some ∧ cs ≠ [] ∧ cs.length = p.links.length := by
  obtain ⟨h1, h2, h3⟩ := h
  have : ∃ cs : List (Cube d), p.proto = cs.map some := by
    generalize p.proto = l at h1
    clear h2 h3
    induction l with
    | nil => exact ⟨[], rfl⟩
    | cons a l ih =>
      obtain ⟨cs, rfl⟩ := ih fun c hc => h1 c (List.mem_cons_of_mem _ hc)
      obtain ⟨c, rfl⟩ := Option.ne_none_iff_exists'.1 (h1 a (by simp))
      exact ⟨c :: cs, rfl⟩
  obtain ⟨cs, hcs⟩ := this
  refine ⟨cs, hcs, ?_, by rw [h2, hcs, List.length_map]⟩
  rintro rfl
  rw [make_iff] at h3
  obtain ⟨_, c0, _, _, _, h, _⟩ := h3
  rw [hcs] at h
  simp at h

theorem continuousLoop_iff (c : Cube d) (l : Link (Point d)) (rest : List (Cube d × Link (Point d))) :
    ∃ b : Bool, continuousLoop c l (rest.map fun e => (some e.1, e.2)) = some b ∧
      (b = true ↔ ∀ (i : ℕ) (e e' : Cube d × Link (Point d)), ((c, l) :: rest)[i]? = some e → ((c, l) :: rest)[i + 1]? = some e' →
        ∀ j, (e.1 j : ℚ) + e.2.exit j = (e'.1 j : ℚ) + e'.2.entrance j) := by
  induction rest generalizing c l with
  | nil => exact ⟨true, rfl, by simp⟩
  | cons e rest ih =>
    obtain ⟨c', l'⟩ := e
    obtain ⟨b, hb, hb'⟩ := ih c' l'
    simp only [List.map_cons, continuousLoop, Option.bind_eq_bind, Option.bind_some, Option.pure_def]
    have hs : SubsetOps.shift l'.entrance (fun j => c' j - c j) = some (Point.shift l'.entrance fun j => c' j - c j) := rfl
    have hi : ∀ q : Point d, SubsetOps.intersects l.exit q = decide (l.exit = q) := fun q => rfl
    rw [hs]
    simp only [Option.bind_some, hi, decide_eq_true_eq]
    by_cases heq : l.exit = Point.shift l'.entrance fun j => c' j - c j
    · refine ⟨b, by rw [if_pos heq]; exact hb, hb'.trans ?_⟩
      constructor
      · intro h i e e' he he'
        cases i with
        | zero =>
          simp only [List.getElem?_cons_zero, Option.some.injEq, zero_add, List.getElem?_cons_succ] at he he'
          subst he he'
          intro j
          simp only [heq, Point.shift]
          push_cast
          ring
        | succ i => exact h i e e' (by simpa using he) (by simpa using he')
      · intro h i e e' he he'
        exact h (i + 1) e e' (by simpa using he) (by simpa using he')
    · refine ⟨false, by rw [if_neg heq], ?_⟩
      simp only [Bool.false_eq_true, false_iff]
      intro h
      refine heq ?_
      funext j
      have := h 0 (c, l) (c', l') rfl rfl j
      simp only [Point.shift] at this ⊢
      push_cast
      linarith

theorem isContinuous_iff {p : Path (Point d) d} (h : p.WF) : ∃ b : Bool, p.isContinuous = some b ∧ (b = true ↔ p.Joined) := by
  obtain ⟨cs, hcs, hne, hlen⟩ := h.data
  obtain ⟨c, cs, rfl⟩ : ∃ a l, cs = a :: l := List.exists_cons_of_ne_nil hne
  unfold isContinuous Joined
  rw [hcs]
  obtain ⟨l, ls, hls⟩ : ∃ a l, p.links = a :: l := List.exists_cons_of_ne_nil (by rintro h0; rw [h0] at hlen; simp at hlen)
  rw [hls] at hlen ⊢
  have hlen' : cs.length = ls.length := by simpa using hlen
  obtain ⟨b, hb, hb'⟩ := continuousLoop_iff c l (cs.zip ls)
  refine ⟨b, ?_, hb'.trans ?_⟩
  · simp only [List.map_cons, List.head?_cons, Option.bind_eq_bind, Option.bind_some, List.tail_cons]
    rw [← hb]
    congr 1
    rw [List.zip_map_left]
    simp [Function.comp_def, Prod.map]
  · have hz : (c, l) :: cs.zip ls = (c :: cs).zip (l :: ls) := rfl
    rw [hz]
    constructor
    · intro h i a a' m m' h1 h2 h3 h4
      simp only [List.getElem?_map, Option.map_eq_some_iff, Option.some.injEq, exists_eq_right] at h1 h2
      exact h i (a, m) (a', m') (by rw [List.getElem?_zip_eq_some]; exact ⟨h1, h3⟩) (by rw [List.getElem?_zip_eq_some]; exact ⟨h2, h4⟩)
    · rintro h i ⟨a, m⟩ ⟨a', m'⟩ h1 h2
      rw [List.getElem?_zip_eq_some] at h1 h2
      exact h i a a' m m' (by rw [List.getElem?_map, h1.1]; rfl) (by rw [List.getElem?_map, h2.1]; rfl) h1.2 h2.2

theorem proto_act_head (div : ℕ) (b : BaseMap d) (p : Proto d) :
    (Proto.act div b p).head? = (if b.timeRev then p.getLast? else p.head?).map fun c => c.map (b.applyCube div) := by
  unfold Proto.act
  split <;> simp

theorem proto_act_last (div : ℕ) (b : BaseMap d) (p : Proto d) :
    (Proto.act div b p).getLast? = (if b.timeRev then p.head? else p.getLast?).map fun c => c.map (b.applyCube div) := by
  unfold Proto.act
  split <;> simp

theorem act_placed {div : ℕ} (hd : div ≠ 0) (b : BaseMap d) (q : Point d) (c : Cube d) :
    Point.act b (fun j => (q j + c j) * (1 / div)) = fun j => (Point.act b q j + b.applyCube div c j) * (1 / (div : ℚ)) := by
  have := BaseMap.applyX_cube (K := ℚ) b div (by exact_mod_cast hd) c q
  have e : ∀ (x y : ℚ), (x + y) * (1 / div) = (y + x) / ((div : ℤ) : ℚ) := by intro x y; push_cast; ring
  simp only [e]
  exact this

/-- the image of a path -/
theorem act_eq {p : Path (Point d) d} (h : p.WF) (b : BaseMap d) :
    act b p = some ⟨p.div, p.proto.act p.div b, (if b.timeRev then p.links.reverse else p.links).map (Link.act b), Link.act b p.link⟩ := by
  have hm := h.made
  rw [make_iff] at hm
  obtain ⟨hd, c0, c1, l0, l1, hc0, hc1, h0, h1, hp⟩ := hm
  have hlink : p.link = ⟨fun j => (l0.entrance j + c0 j) * (1 / p.div), fun j => (l1.exit j + c1 j) * (1 / p.div)⟩ := congrArg Path.link hp
  unfold act
  rw [make_iff]
  refine ⟨hd, ?_⟩
  by_cases ht : b.timeRev = true
  · refine ⟨b.applyCube p.div c1, b.applyCube p.div c0, Link.act b l1, Link.act b l0, ?_, ?_, ?_, ?_, ?_⟩
    · rw [proto_act_head, if_pos ht, hc1]; rfl
    · rw [proto_act_last, if_pos ht, hc0]; rfl
    · simp [ht, h1]
    · simp [ht, h0]
    · rw [hlink]
      simp only [Link.act_def, ht, if_true, Path.mk.injEq, true_and, Link.mk.injEq]
      exact ⟨act_placed hd b _ _, act_placed hd b _ _⟩
  · refine ⟨b.applyCube p.div c0, b.applyCube p.div c1, Link.act b l0, Link.act b l1, ?_, ?_, ?_, ?_, ?_⟩
    · rw [proto_act_head, if_neg ht, hc0]; rfl
    · rw [proto_act_last, if_neg ht, hc1]; rfl
    · simp [ht, h0]
    · simp [ht, h1]
    · rw [hlink]
      simp only [Link.act_def, ht, Path.mk.injEq, true_and]
      simp only [Bool.false_eq_true, if_false, Link.mk.injEq]
      exact ⟨act_placed hd b _ _, act_placed hd b _ _⟩

/-- the image of a path as a total function -/
def img (b : BaseMap d) (p : Path (Point d) d) : Path (Point d) d :=
  ⟨p.div, p.proto.act p.div b, (if b.timeRev then p.links.reverse else p.links).map (Link.act b), Link.act b p.link⟩

theorem proto_act_mul (div : ℕ) (a b : BaseMap d) (p : Proto d) : Proto.act div (a * b) p = Proto.act div a (Proto.act div b p) := by
  have : (a * b).applyCube (div : ℤ) = fun x => a.applyCube div (b.applyCube div x) := by funext x; simp
  unfold Proto.act
  rw [this]
  by_cases ha : a.timeRev = true <;> by_cases hb : b.timeRev = true <;>
    simp [ha, hb, List.map_reverse, Function.comp_def]

theorem img_mul (a b : BaseMap d) (p : Path (Point d) d) : img (a * b) p = img a (img b p) := by
  unfold img
  simp only [Path.mk.injEq, true_and, proto_act_mul, Link.act_mul, and_true]
  by_cases ha : a.timeRev = true <;> by_cases hb : b.timeRev = true <;>
    simp [ha, hb, List.map_reverse, Function.comp_def, Link.act_mul]

@[simp] theorem img_one (p : Path (Point d) d) : img 1 p = p := by
  unfold img Proto.act
  have : (fun c : Option (Cube d) => Option.map (BaseMap.applyCube 1 (p.div : ℤ)) c) = id := by
    funext c
    have : (BaseMap.applyCube (1 : BaseMap d) (p.div : ℤ)) = id := by funext x; simp
    rw [this]
    simp
  have h2 : (fun l : Link (Point d) => Link.act 1 l) = id := by funext l; simp
  simp [this, h2]

theorem img_wf {p : Path (Point d) d} (h : p.WF) (b : BaseMap d) : (img b p).WF := by
  refine ⟨?_, ?_, act_eq h b⟩
  · intro c hc
    simp only [img, Proto.act, List.mem_map] at hc
    obtain ⟨c', hc', rfl⟩ := hc
    have := h.cubes c' (by split at hc' <;> simpa using hc')
    obtain ⟨c'', rfl⟩ := Option.ne_none_iff_exists'.1 this
    simp
  · have := h.length
    simp only [img, Proto.act, List.length_map]
    split <;> simpa using this

theorem img_joined {p : Path (Point d) d} (h : p.WF) (b : BaseMap d) (hj : p.Joined) : (img b p).Joined := by
  obtain ⟨cs, hcs, hne, hlen⟩ := h.data
  intro i c c' l l' hc hc' hl hl'
  have hn : p.proto.length = p.links.length := h.length.symm
  have hx : ∀ (x : Point d) (c : Cube d) (j : Fin d), (b.applyCube p.div c j : ℚ) + Point.act b x j = b.applyX (p.div : ℚ) (fun k => (c k : ℚ) + x k) j := by
    intro x c j
    unfold Point.act BaseMap.applyX BaseMap.applyCube
    by_cases hb : (b.coords j).2 = true <;> simp [hb]; ring
  by_cases ht : b.timeRev = true
  · simp only [img, Proto.act, ht, if_true, List.getElem?_map, Option.map_eq_some_iff] at hc hc' hl hl'
    obtain ⟨o, ho, a, rfl, rfl⟩ := hc
    obtain ⟨o', ho', a', rfl, rfl⟩ := hc'
    obtain ⟨m, hm, rfl⟩ := hl
    obtain ⟨m', hm', rfl⟩ := hl'
    have hi : i + 1 < p.links.length := by
      have := (List.getElem?_eq_some_iff.1 hm').1
      simpa using this
    rw [List.getElem?_reverse (by omega)] at ho ho' hm hm'
    have e1 : p.proto.length - 1 - i = p.links.length - 1 - (i + 1) + 1 := by omega
    have e2 : p.proto.length - 1 - (i + 1) = p.links.length - 1 - (i + 1) := by omega
    have e3 : p.links.length - 1 - i = p.links.length - 1 - (i + 1) + 1 := by omega
    rw [e1] at ho; rw [e2] at ho'; rw [e3] at hm
    have := hj _ a' a m' m ho' ho hm' hm
    intro j
    simp only [Link.act_def, ht, if_true]
    rw [hx, hx]
    congr 1
    funext k
    exact (this k).symm
  · simp only [img, Proto.act, ht, List.getElem?_map, Option.map_eq_some_iff] at hc hc' hl hl'
    obtain ⟨o, ho, a, rfl, rfl⟩ := hc
    obtain ⟨o', ho', a', rfl, rfl⟩ := hc'
    obtain ⟨m, hm, rfl⟩ := hl
    obtain ⟨m', hm', rfl⟩ := hl'
    simp only [Bool.false_eq_true, if_false] at ho ho' hm hm'
    have := hj _ a a' m m' ho ho' hm hm'
    intro j
    simp only [Link.act_def, ht]
    simp only [Bool.false_eq_true, if_false]
    rw [hx, hx]
    congr 1
    funext k
    exact this k

theorem img_joined_iff {p : Path (Point d) d} (h : p.WF) (b : BaseMap d) : (img b p).Joined ↔ p.Joined := by
  constructor
  · intro hj
    have := img_joined (img_wf h b) b⁻¹ hj
    rwa [← img_mul, inv_mul_cancel, img_one] at this
  · exact img_joined h b

end Path
end Peano
