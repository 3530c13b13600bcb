import Mathlib.Logic.Relation
import Verif.Lemmas.JunctionsB
import Verif.Lemmas.PossibleB

/- Junction templates. -/
namespace Peano
variable {d : ℕ}
namespace FCurve
variable {c c' : FCurve d}

/-- Junction `j` is obtained from `b` by deriving several times. -/
def ReachJ (c : FCurve d) (b j : Junction d) : Prop := Relation.ReflTransGen (fun x y => c.getDerivedJunction x = some y) b j

theorem Full.closure (hk : c.kind = .curve) (h : c.Full) (hc : c.check = some true) (base : List (Junction d × Option ℕ)) (hn : (base.map Prod.fst).Nodup)
    (hb : ∀ x ∈ base, ∃ p m, p < c.mult ∧ m + 1 < c.genus ∧ c.getBaseJunction p m = some x.1) :
    ∃ l, c.genJunctionsFromBase base = some l ∧ (l.map Prod.fst).Nodup ∧ ∀ j, j ∈ l.map Prod.fst ↔ ∃ x ∈ base, c.ReachJ x.1 j := by
  obtain ⟨res, h1, h2, h3, ⟨ext, h4⟩, h5, h6⟩ := junctionsLoop_spec (c := c)
    (P := fun x => (∃ k, c.GenJ (x.1, some k)) ∧ ∃ b ∈ base, c.ReachJ b.1 x.1) (U := allJunctions d c.mult)
    (by
      rintro j dep ⟨⟨k, hj⟩, b, hb, hr⟩
      obtain ⟨dj, e1, _, e2⟩ := hj.derive hk h
      exact ⟨dj, e1, ⟨k + 1, e2⟩, b, hb, hr.tail e1⟩)
    (by rintro x ⟨⟨k, hx⟩, _⟩; exact hx.mem_all hk h hc) c.junctionFuel base base.reverse
    (by
      intro x hx
      obtain ⟨p, m, hp, hm, he⟩ := hb x hx
      rw [h.getBaseJunction_eq hp hm] at he
      refine ⟨⟨1, ?_⟩, x, hx, .refl⟩
      have he' := Option.some.inj he
      rw [← he']
      exact ⟨Junction.regular_standard _ _ _, 1, c.basePair p m, rfl,
        (h.adjacent_one hk _).2 ((h.neighbours_iff _).2 ⟨p, m, hp, hm, rfl⟩), Junction.regular_same _ _ _⟩)
    (by simp) hn (by intro x hx hx'; exact absurd (List.mem_reverse.2 hx) hx') (by
      rw [length_allJunctions]
      unfold junctionFuel
      simp
      omega)
  refine ⟨res, h1, h3, ?_⟩
  intro j
  constructor
  · intro hj
    obtain ⟨x, hx, rfl⟩ := List.mem_map.1 hj
    exact (h2 x hx).2
  · rintro ⟨x, hx, hr⟩
    induction hr with
    | refl => exact List.mem_map.2 ⟨x, by rw [h4]; exact List.mem_append_left _ hx, rfl⟩
    | tail _ hstep ih =>
      obtain ⟨y, hy, rfl⟩ := List.mem_map.1 ih
      obtain ⟨dj, e1, e2⟩ := h5 y hy
      rw [hstep] at e1
      cases e1
      exact e2

theorem Full.regular_closure (hk : c.kind = .curve) (h : c.Full) (hc : c.check = some true) :
    ∃ l, c.genRegularJunctions = some l ∧
      ∀ j, j ∈ l.map Prod.fst ↔ ∃ p m b, p < c.mult ∧ m + 1 < c.genus ∧ c.getBaseJunction p m = some b ∧ c.ReachJ b j := by
  obtain ⟨base, hb1, hb2, hb3⟩ := h.genBaseJunctions_eq
  have hb4 : ∀ j, j ∈ base ↔ ∃ p m, p < c.mult ∧ m + 1 < c.genus ∧ c.getBaseJunction p m = some j := by
    intro j
    rw [hb3]
    constructor
    · rintro ⟨p, m, hp, hm, rfl⟩
      exact ⟨p, m, hp, hm, h.getBaseJunction_eq hp hm⟩
    · rintro ⟨p, m, hp, hm, he⟩
      rw [h.getBaseJunction_eq hp hm] at he
      exact ⟨p, m, hp, hm, (Option.some.inj he).symm⟩
  obtain ⟨l, h1, _, h3⟩ := h.closure hk hc (base.map fun j => (j, some 1)) (by rw [List.map_map]; simpa [Function.comp_def] using hb2) (by
    intro x hx
    obtain ⟨j, hj, rfl⟩ := List.mem_map.1 hx
    exact (hb4 j).1 hj)
  refine ⟨l, ?_, ?_⟩
  · unfold genRegularJunctions
    rw [hb1]
    exact h1
  · intro j
    rw [h3]
    constructor
    · rintro ⟨x, hx, hr⟩
      obtain ⟨b, hb, rfl⟩ := List.mem_map.1 hx
      obtain ⟨p, m, hp, hm, he⟩ := (hb4 b).1 hb
      exact ⟨p, m, b, hp, hm, he, hr⟩
    · rintro ⟨p, m, b, hp, hm, he, hr⟩
      exact ⟨(b, some 1), List.mem_map.2 ⟨b, (hb4 b).2 ⟨p, m, hp, hm, he⟩, rfl⟩, hr⟩

/-- The loop depends on the curve only through the derivation. -/
theorem junctionsLoop_congr (hd : ∀ j, c'.getDerivedJunction j = c.getDerivedJunction j) (n : ℕ) (seen todo : List (Junction d × Option ℕ)) :
    c'.junctionsLoop n seen todo = c.junctionsLoop n seen todo := by
  induction n generalizing seen todo with
  | zero => cases todo <;> rfl
  | succ n ih =>
    cases todo with
    | nil => rfl
    | cons x todo =>
      rw [junctionsLoop, junctionsLoop]
      simp only [hd, ih]

/-- Curves with the same gates have the same derivation. -/
theorem getDerivedJunction_congr (hdiv : c'.div = c.div) (hmult : c'.mult = c.mult) (hs : c.Sized) (hs' : c'.Sized)
    (hpl : c.patterns.map Pattern.proto = c'.patterns.map Pattern.proto)
    (hg : ∀ p < c.mult, ∀ last, c'.spec? p (endIdx c.genus last) = c.spec? p (endIdx c.genus last)) (j : Junction d) :
    c'.getDerivedJunction j = c.getDerivedJunction j := by
  have hgen : c'.genus = c.genus := by unfold genus; rw [hdiv]
  unfold getDerivedJunction
  have key : ∀ (p : ℕ), (c.patterns[p]? = none ∧ c'.patterns[p]? = none) ∨ ∃ (pat pat' : Pattern d), c.patterns[p]? = some pat ∧ c'.patterns[p]? = some pat' ∧
      pat'.proto = pat.proto ∧ ∀ last, endElem pat'.specs last = endElem pat.specs last := by
    intro p
    by_cases hp : p < c.mult
    · obtain ⟨pat, h1⟩ := getElem?_of_lt hp
      obtain ⟨pat', h2⟩ := getElem?_of_lt (c := c') (p := p) (by omega)
      refine Or.inr ⟨pat, pat', h1, h2, ?_, ?_⟩
      · have := congrArg (fun l => l[p]?) hpl
        simpa [h1, h2, eq_comm] using this
      · intro last
        rw [endElem_eq _ _ ((hs'.specs_length _ (List.mem_of_getElem? h2)).trans hgen), endElem_eq _ _ (hs.specs_length _ (List.mem_of_getElem? h1))]
        have := hg p hp last
        unfold spec? at this
        rw [h1, h2] at this
        exact this
    · left
      constructor
      · exact List.getElem?_eq_none (by unfold mult at hp; omega)
      · exact List.getElem?_eq_none (by unfold mult at hp hmult; omega)
  rcases key j.spec1.pnum with ⟨h1, h2⟩ | ⟨p1, p1', h1, h2, h3, h4⟩
  · simp [h1, h2]
  · rcases key j.spec2.pnum with ⟨k1, k2⟩ | ⟨p2, p2', k1, k2, k3, k4⟩
    · simp [k1, k2]
    · simp only [h1, h2, k1, k2, Option.bind_eq_bind, Option.bind_some, h3, h4, k3, k4, hdiv]

/-! ### dictionaries -/

theorem lookup_dictSet {α β : Type} [DecidableEq α] [BEq α] [LawfulBEq α] (k k' : α) (v : β) (l : List (α × β)) :
    (dictSet k v l).lookup k' = if k' = k then some v else l.lookup k' := by
  induction l with
  | nil => 
    by_cases h : k' = k
    · subst h; simp [dictSet]
    · have : (k' == k) = false := by simpa using h
      simp [dictSet, List.lookup_cons, h, this]
  | cons e l ih =>
    obtain ⟨a, w⟩ := e
    unfold dictSet
    by_cases ha : a = k
    · subst ha
      rw [if_pos rfl, List.lookup_cons, List.lookup_cons]
      by_cases h : k' = a
      · subst h; simp
      · have : (k' == a) = false := by simpa using h
        simp [h, this]
    · rw [if_neg ha, List.lookup_cons, List.lookup_cons, ih]
      by_cases h : k' = a
      · subst h; simp [ha]
      · have : (k' == a) = false := by simpa using h
        simp [this]

theorem mem_dictSet_keys {α β : Type} [DecidableEq α] (k : α) (v : β) (l : List (α × β)) (x : α) :
    x ∈ (dictSet k v l).map Prod.fst ↔ x = k ∨ x ∈ l.map Prod.fst := by
  induction l with
  | nil => simp [dictSet]
  | cons e l ih =>
    obtain ⟨a, w⟩ := e
    unfold dictSet
    split
    · rename_i h
      subst h
      simp
    · rw [List.map_cons, List.mem_cons, ih, List.map_cons, List.mem_cons]
      tauto

theorem nodup_dictSet {α β : Type} [DecidableEq α] (k : α) (v : β) (l : List (α × β)) (h : (l.map Prod.fst).Nodup) :
    ((dictSet k v l).map Prod.fst).Nodup := by
  induction l with
  | nil => simp [dictSet]
  | cons e l ih =>
    obtain ⟨a, w⟩ := e
    rw [List.map_cons, List.nodup_cons] at h
    unfold dictSet
    split
    · rw [List.map_cons, List.nodup_cons]; exact h
    · rename_i hne
      rw [List.map_cons, List.nodup_cons]
      refine ⟨?_, ih h.2⟩
      rw [mem_dictSet_keys]
      rintro (h' | h')
      · exact hne h'
      · exact h.1 h'

theorem foldl_dictSet {α β : Type} [DecidableEq α] [BEq α] [LawfulBEq α] (es : List (α × β)) (acc : List (α × β)) (hacc : (acc.map Prod.fst).Nodup) :
    ((es.foldl (fun dict e => dictSet e.1 e.2 dict) acc).map Prod.fst).Nodup ∧
    (∀ x, x ∈ (es.foldl (fun dict e => dictSet e.1 e.2 dict) acc).map Prod.fst ↔ x ∈ acc.map Prod.fst ∨ x ∈ es.map Prod.fst) ∧
    ((es.map Prod.fst).Nodup → ∀ k, (es.foldl (fun dict e => dictSet e.1 e.2 dict) acc).lookup k =
      match es.lookup k with
      | some v => some v
      | none => acc.lookup k) ∧
    ∀ k v, (es.foldl (fun dict e => dictSet e.1 e.2 dict) acc).lookup k = some v → acc.lookup k = some v ∨ (k, v) ∈ es := by
  induction es generalizing acc with
  | nil => exact ⟨hacc, by simp, by simp, by simp⟩
  | cons e es ih =>
    obtain ⟨h1, h2, h3, h4⟩ := ih (dictSet e.1 e.2 acc) (nodup_dictSet _ _ _ hacc)
    rw [List.foldl_cons]
    refine ⟨h1, ?_, ?_, ?_⟩
    · intro x
      rw [h2, mem_dictSet_keys, List.map_cons, List.mem_cons]
      tauto
    · intro hn k
      rw [List.map_cons, List.nodup_cons] at hn
      rw [h3 hn.2]
      obtain ⟨a, v⟩ := e
      rw [List.lookup_cons, lookup_dictSet]
      by_cases hk : k = a
      · subst hk
        rw [lookup_none_of_notMem hn.1]
        simp
      · have : (k == a) = false := by simpa using hk
        simp [this, hk]
    · intro k v hv
      rcases h4 k v hv with h | h
      · rw [lookup_dictSet] at h
        split at h
        · rename_i he
          cases h; cases he
          exact Or.inr List.mem_cons_self
        · exact Or.inl h
      · exact Or.inr (List.mem_cons_of_mem _ h)

theorem mem_dictAppend {α β : Type} [DecidableEq α] (k k' : α) (v w : β) (l : List (α × List β)) :
    (∃ ws, (k', ws) ∈ dictAppend k v l ∧ w ∈ ws) ↔ (∃ ws, (k', ws) ∈ l ∧ w ∈ ws) ∨ (k' = k ∧ w = v) := by
  induction l with
  | nil => simp [dictAppend]
  | cons e l ih =>
    obtain ⟨a, ws⟩ := e
    unfold dictAppend
    by_cases ha : a = k
    · subst ha
      rw [if_pos rfl]
      constructor
      · rintro ⟨ws', h1, h2⟩
        rcases List.mem_cons.1 h1 with h | h
        · cases h
          rcases List.mem_append.1 h2 with h2 | h2
          · exact Or.inl ⟨ws, by simp, h2⟩
          · exact Or.inr ⟨rfl, List.mem_singleton.1 h2⟩
        · exact Or.inl ⟨ws', List.mem_cons_of_mem _ h, h2⟩
      · rintro (⟨ws', h1, h2⟩ | ⟨rfl, rfl⟩)
        · rcases List.mem_cons.1 h1 with h | h
          · cases h
            exact ⟨_, List.mem_cons_self, List.mem_append_left _ h2⟩
          · exact ⟨ws', List.mem_cons_of_mem _ h, h2⟩
        · exact ⟨_, List.mem_cons_self, by simp⟩
    · rw [if_neg ha]
      constructor
      · rintro ⟨ws', h1, h2⟩
        rcases List.mem_cons.1 h1 with h | h
        · cases h; exact Or.inl ⟨ws, by simp, h2⟩
        · rcases ih.1 ⟨ws', h, h2⟩ with ⟨ws'', h3, h4⟩ | h3
          · exact Or.inl ⟨ws'', List.mem_cons_of_mem _ h3, h4⟩
          · exact Or.inr h3
      · rintro (⟨ws', h1, h2⟩ | h)
        · rcases List.mem_cons.1 h1 with h | h
          · cases h; exact ⟨ws, by simp, h2⟩
          · obtain ⟨ws'', h3, h4⟩ := ih.2 (Or.inl ⟨ws', h, h2⟩)
            exact ⟨ws'', List.mem_cons_of_mem _ h3, h4⟩
        · obtain ⟨ws'', h3, h4⟩ := ih.2 (Or.inr h)
          exact ⟨ws'', List.mem_cons_of_mem _ h3, h4⟩

theorem dictAppend_keys {α β : Type} [DecidableEq α] (k : α) (v : β) (l : List (α × List β)) (x : α) :
    x ∈ (dictAppend k v l).map Prod.fst ↔ x = k ∨ x ∈ l.map Prod.fst := by
  induction l with
  | nil => simp [dictAppend]
  | cons e l ih =>
    obtain ⟨a, w⟩ := e
    unfold dictAppend
    split
    · rename_i h; subst h; simp
    · rw [List.map_cons, List.mem_cons, ih, List.map_cons, List.mem_cons]; tauto

theorem nodup_dictAppend {α β : Type} [DecidableEq α] (k : α) (v : β) (l : List (α × List β)) (h : (l.map Prod.fst).Nodup) :
    ((dictAppend k v l).map Prod.fst).Nodup := by
  induction l with
  | nil => simp [dictAppend]
  | cons e l ih =>
    obtain ⟨a, w⟩ := e
    rw [List.map_cons, List.nodup_cons] at h
    unfold dictAppend
    split
    · rw [List.map_cons, List.nodup_cons]; exact h
    · rename_i hne
      rw [List.map_cons, List.nodup_cons]
      refine ⟨?_, ih h.2⟩
      rw [dictAppend_keys]
      rintro (h' | h')
      · exact hne h'
      · exact h.1 h'

theorem dictAppend_ne_nil {α β : Type} [DecidableEq α] (k : α) (v : β) (l : List (α × List β)) (h : ∀ e ∈ l, e.2 ≠ []) :
    ∀ e ∈ dictAppend k v l, e.2 ≠ [] := by
  induction l with
  | nil => simp [dictAppend]
  | cons e l ih =>
    obtain ⟨a, w⟩ := e
    unfold dictAppend
    split
    · intro x hx
      rcases List.mem_cons.1 hx with rfl | hx
      · simp
      · exact h x (List.mem_cons_of_mem _ hx)
    · intro x hx
      rcases List.mem_cons.1 hx with rfl | hx
      · exact h _ List.mem_cons_self
      · exact ih (fun y hy => h y (List.mem_cons_of_mem _ hy)) x hx

/-! ### templates -/

/-- The dictionary of a template. -/
structure IsTemplate (c : FCurve d) (p m : ℕ) (D : List ((ℕ × ℕ) × Spec d)) : Prop where
  hp : p < c.mult
  hm : m + 1 < c.genus
  nodup : (D.map Prod.fst).Nodup
  range : ∀ e ∈ D, e.1.1 < c.mult ∧ e.1.2 < c.genus
  gates : ∀ q < c.mult, ∀ last, ∃ s, D.lookup (q, endIdx c.genus last) = some s
  first : ∃ s, D.lookup (p, m) = some s
  second : ∃ s, D.lookup (p, m + 1) = some s
  allowed : ∀ p' i' s, D.lookup (p', i') = some s → ∃ l, c.genAllowedSpecs p' i' = some l ∧ s ∈ l

theorem mem_gatePositions (c : FCurve d) {pc : ℕ × ℕ} : pc ∈ c.gatePositions ↔ pc.1 < c.mult ∧ ∃ last, pc.2 = endIdx c.genus last := by
  unfold gatePositions
  simp only [List.mem_flatMap, List.mem_range, List.mem_cons, List.not_mem_nil, or_false]
  constructor
  · rintro ⟨p, hp, rfl | rfl⟩
    · exact ⟨hp, false, rfl⟩
    · exact ⟨hp, true, rfl⟩
  · rintro ⟨hp, last, hl⟩
    obtain ⟨a, b⟩ := pc
    simp only at hp hl
    subst hl
    cases last
    · exact ⟨a, hp, Or.inl rfl⟩
    · exact ⟨a, hp, Or.inr rfl⟩

theorem gatePositions_nodup (hG : 2 ≤ c.genus) : c.gatePositions.Nodup := by
  unfold gatePositions
  rw [List.nodup_flatMap]
  constructor
  · intro p _
    have : ¬ (0 = c.genus - 1) := by omega
    simp [this]
  · refine List.nodup_range.imp ?_
    intro a b hab
    simp only [Function.onFun, List.disjoint_left, List.mem_cons, List.not_mem_nil, or_false]
    rintro x (rfl | rfl) <;> simp [hab]

/-- Value of a dictionary used as a list. -/
theorem lookup_some_mem {α β : Type} [BEq α] [LawfulBEq α] {l : List (α × β)} {k : α} {v : β} (h : l.lookup k = some v) : (k, v) ∈ l := by
  induction l with
  | nil => simp at h
  | cons e l ih =>
    obtain ⟨a, w⟩ := e
    rw [List.lookup_cons] at h
    split at h
    · rename_i he
      cases h
      rw [beq_iff_eq] at he
      subst he
      exact List.mem_cons_self
    · exact List.mem_cons_of_mem _ (ih h)

theorem lookup_isSome_of_mem {α β : Type} [DecidableEq α] [BEq α] [LawfulBEq α] {l : List (α × β)} {k : α} (h : k ∈ l.map Prod.fst) : ∃ v, l.lookup k = some v := by
  cases hl : l.lookup k with
  | some v => exact ⟨v, rfl⟩
  | none =>
    rw [List.lookup_eq_none_iff] at hl
    obtain ⟨e, he, rfl⟩ := List.mem_map.1 h
    have := hl e he
    simp at this

theorem lookup_map_self {α β : Type} [DecidableEq α] [BEq α] [LawfulBEq α] (f : α → β) (l : List α) (k : α) :
    (l.map fun a => (a, f a)).lookup k = if k ∈ l then some (f k) else none := by
  induction l with
  | nil => simp
  | cons a l ih =>
    rw [List.map_cons, List.lookup_cons, ih]
    by_cases h : k = a
    · subst h; simp
    · have : (k == a) = false := by simpa using h
      simp [this, h]

theorem junctionTemplateSpecs_spec (hA : c.AllowedDefined) (hG : 2 ≤ c.genus) :
    ∃ T, c.junctionTemplateSpecs = some T ∧ (∀ t ∈ T, IsTemplate c t.1.1 t.1.2 t.2) ∧
      ∀ c', Possible c c' → ∀ p m, p < c.mult → m + 1 < c.genus → ∃ t ∈ T, t.1 = (p, m) ∧
        ∀ p' i' s, t.2.lookup (p', i') = some s → c'.spec? p' i' = some s := by
  have hAl : ∀ p i, p < c.mult → i < c.genus → c.genAllowedSpecs p i = some ((c.genAllowedSpecs p i).getD []) := by
    intro p i hp hi
    obtain ⟨l, hl, _⟩ := hA p hp i hi
    rw [hl]; rfl
  have hGp : 0 < c.genus := by omega
  have hvar : c.gatePositions.mapM (fun pc => c.genAllowedSpecs pc.1 pc.2) = some (c.gatePositions.map fun pc => (c.genAllowedSpecs pc.1 pc.2).getD []) := by
    apply mapM_eq_some_map
    intro pc hpc
    obtain ⟨h1, last, h2⟩ := c.mem_gatePositions.1 hpc
    exact hAl _ _ h1 (by rw [h2]; exact endIdx_lt hGp last)
  let PC : List (ℕ × ℕ) := (List.range c.mult).flatMap fun pnum => (List.range (c.genus - 1)).map fun cnum => (pnum, cnum)
  have hPC : ∀ pc, pc ∈ PC ↔ pc.1 < c.mult ∧ pc.2 + 1 < c.genus := by
    intro pc
    simp only [PC, List.mem_flatMap, List.mem_range, List.mem_map]
    constructor
    · rintro ⟨p, hp, i, hi, rfl⟩; exact ⟨hp, by simp only; omega⟩
    · rintro ⟨hp, hi⟩; exact ⟨_, hp, _, by omega, rfl⟩
  let A : ℕ × ℕ → List (Spec d) := fun pc => (c.genAllowedSpecs pc.1 pc.2).getD []
  let inner : List (Spec d) → ℕ × ℕ → List ((ℕ × ℕ) × List ((ℕ × ℕ) × Spec d)) := fun variant pc1 =>
    (A pc1).flatMap fun sp1 => (A (pc1.1, pc1.2 + 1)).filterMap fun sp2 =>
        if ((c.gateSpecs variant).lookup pc1).all (· == sp1) && ((c.gateSpecs variant).lookup (pc1.1, pc1.2 + 1)).all (· == sp2) then
          some (pc1, dictSet (pc1.1, pc1.2 + 1) sp2 (dictSet pc1 sp1 (c.gateSpecs variant)))
        else none
  have hres : c.junctionTemplateSpecs = some ((Itertools.product (c.gatePositions.map A)).map fun variant => (PC.map (inner variant)).flatten).flatten := by
    unfold junctionTemplateSpecs
    rw [hvar]
    simp only [Option.bind_eq_bind, Option.bind_some]
    rw [mapM_eq_some_map (g := fun variant => (PC.map (inner variant)).flatten)]
    · rfl
    · intro variant _
      rw [mapM_eq_some_map (g := inner variant)]
      · rfl
      · intro pc hpc
        obtain ⟨h1, h2⟩ := (hPC pc).1 hpc
        rw [hAl _ _ h1 (by omega), hAl _ _ h1 h2]
        rfl
  have hmemA : ∀ p i s, p < c.mult → i < c.genus → s ∈ A (p, i) → ∃ l, c.genAllowedSpecs p i = some l ∧ s ∈ l := by
    intro p i s hp hi hs
    exact ⟨_, hAl p i hp hi, hs⟩
  have hgate : ∀ variant ∈ Itertools.product (c.gatePositions.map A), ((c.gateSpecs variant).map Prod.fst).Nodup ∧
      (∀ x, x ∈ (c.gateSpecs variant).map Prod.fst ↔ x ∈ c.gatePositions) ∧ (∀ k, (c.gateSpecs variant).lookup k = (c.gatePositions.zip variant).lookup k) ∧
      ∀ k v, (c.gateSpecs variant).lookup k = some v → v ∈ A k := by
    intro variant hv
    have hf := Itertools.mem_product.1 hv
    have hlen : variant.length = c.gatePositions.length := by rw [hf.length_eq, List.length_map]
    obtain ⟨h1, h2, h3, h4⟩ := foldl_dictSet (c.gatePositions.zip variant) [] (by simp)
    have hfst : (c.gatePositions.zip variant).map Prod.fst = c.gatePositions := by
      rw [List.map_fst_zip]; omega
    refine ⟨h1, ?_, ?_, ?_⟩
    · intro x
      have := h2 x
      rw [hfst] at this
      simpa [gateSpecs] using this
    · intro k
      have := h3 (by rw [hfst]; exact gatePositions_nodup hG) k
      unfold gateSpecs
      rw [this]
      cases (c.gatePositions.zip variant).lookup k <;> rfl
    · intro k v hkv
      rcases h4 k v hkv with h | h
      · simp at h
      · obtain ⟨n, hn⟩ := List.mem_iff_getElem?.1 h
        rw [List.getElem?_zip_eq_some] at hn
        obtain ⟨s, e1, e2⟩ := forall₂_getElem? hf n (A k) (by rw [List.getElem?_map, hn.1]; rfl)
        simp only at hn
        rw [hn.2] at e1
        cases e1
        exact e2
  refine ⟨_, hres, ?_, ?_⟩
  · intro t ht
    rw [List.mem_flatten] at ht
    obtain ⟨L, hL, ht⟩ := ht
    obtain ⟨variant, hvar', rfl⟩ := List.mem_map.1 hL
    rw [List.mem_flatten] at ht
    obtain ⟨L, hL, ht⟩ := ht
    obtain ⟨pc1, hpc1, rfl⟩ := List.mem_map.1 hL
    obtain ⟨sp1, hsp1, ht⟩ := List.mem_flatMap.1 ht
    obtain ⟨sp2, hsp2, ht⟩ := List.mem_filterMap.1 ht
    split at ht
    · rename_i hcond
      cases ht
      obtain ⟨hp, hm⟩ := (hPC pc1).1 hpc1
      obtain ⟨g1, g2, g3, g4⟩ := hgate variant hvar'
      have hlook : ∀ k, (dictSet (pc1.1, pc1.2 + 1) sp2 (dictSet pc1 sp1 (c.gateSpecs variant))).lookup k =
          if k = (pc1.1, pc1.2 + 1) then some sp2 else if k = pc1 then some sp1 else (c.gateSpecs variant).lookup k := by
        intro k; rw [lookup_dictSet, lookup_dictSet]
      refine ⟨hp, hm, nodup_dictSet _ _ _ (nodup_dictSet _ _ _ g1), ?_, ?_, ?_, ?_, ?_⟩
      · intro e he
        have : e.1 ∈ (dictSet (pc1.1, pc1.2 + 1) sp2 (dictSet pc1 sp1 (c.gateSpecs variant))).map Prod.fst := List.mem_map.2 ⟨e, he, rfl⟩
        rw [mem_dictSet_keys, mem_dictSet_keys, g2] at this
        rcases this with h | h | h
        · rw [h]; exact ⟨hp, hm⟩
        · rw [h]; exact ⟨hp, by omega⟩
        · obtain ⟨h1, last, h2⟩ := c.mem_gatePositions.1 h
          exact ⟨h1, by rw [h2]; exact endIdx_lt hGp last⟩
      · intro q hq last
        apply lookup_isSome_of_mem
        rw [mem_dictSet_keys, mem_dictSet_keys, g2]
        exact Or.inr (Or.inr (c.mem_gatePositions.2 ⟨hq, last, rfl⟩))
      · apply lookup_isSome_of_mem
        rw [mem_dictSet_keys, mem_dictSet_keys]
        exact Or.inr (Or.inl rfl)
      · apply lookup_isSome_of_mem
        rw [mem_dictSet_keys]
        exact Or.inl rfl
      · intro p' i' s hs
        rw [hlook] at hs
        split at hs
        · rename_i he
          cases he; cases hs
          exact hmemA _ _ _ hp hm hsp2
        · split at hs
          · rename_i he
            cases he; cases hs
            exact hmemA _ _ _ hp (by simp only at hm; omega) hsp1
          · have hk : (p', i') ∈ (c.gateSpecs variant).map Prod.fst := List.mem_map.2 ⟨_, lookup_some_mem hs, rfl⟩
            rw [g2] at hk
            obtain ⟨h1, last, h2⟩ := c.mem_gatePositions.1 hk
            simp only at h1 h2
            exact hmemA _ _ _ h1 (by rw [h2]; exact endIdx_lt hGp last) (g4 _ _ hs)
    · cases ht
  · intro c' hposs p m hp hm
    have hspec : ∀ q i, q < c.mult → i < c.genus → ∃ s, c'.spec? q i = some s ∧ s ∈ A (q, i) := by
      intro q i hq hi
      obtain ⟨s, h1, h2⟩ := hposs.spec_allowed hq hi (hAl q i hq hi)
      exact ⟨s, h2, h1⟩
    let S : ℕ × ℕ → Spec d := fun pc => (c'.spec? pc.1 pc.2).getD ⟨1, 0⟩
    have hS : ∀ q i, q < c.mult → i < c.genus → c'.spec? q i = some (S (q, i)) ∧ S (q, i) ∈ A (q, i) := by
      intro q i hq hi
      obtain ⟨s, h1, h2⟩ := hspec q i hq hi
      simp only [S, h1, Option.getD_some]
      exact ⟨trivial, h2⟩
    let variant := c.gatePositions.map S
    have hv : variant ∈ Itertools.product (c.gatePositions.map A) := by
      rw [Itertools.mem_product, List.forall₂_map_left_iff, List.forall₂_map_right_iff, List.forall₂_same]
      intro pc hpc
      obtain ⟨h1, last, h2⟩ := c.mem_gatePositions.1 hpc
      exact (hS pc.1 pc.2 h1 (by rw [h2]; exact endIdx_lt hGp last)).2
    obtain ⟨g1, g2, g3, g4⟩ := hgate variant hv
    have hlook : ∀ k s, (c.gateSpecs variant).lookup k = some s → s = S k := by
      intro k s hk
      rw [g3] at hk
      have : c.gatePositions.zip variant = c.gatePositions.map fun pc => (pc, S pc) := by
        simp only [variant]
        generalize c.gatePositions = gp
        induction gp with
        | nil => rfl
        | cons a gp ih => simp [ih]
      rw [this, lookup_map_self] at hk
      split at hk
      · exact (Option.some.inj hk).symm
      · cases hk
    have hall : ∀ k, ((c.gateSpecs variant).lookup k).all (· == S k) = true := by
      intro k
      cases hk : (c.gateSpecs variant).lookup k with
      | none => rfl
      | some s => rw [hlook k s hk]; simp
    refine ⟨((p, m), dictSet (p, m + 1) (S (p, m + 1)) (dictSet (p, m) (S (p, m)) (c.gateSpecs variant))), ?_, rfl, ?_⟩
    · rw [List.mem_flatten]
      refine ⟨_, List.mem_map.2 ⟨variant, hv, rfl⟩, ?_⟩
      rw [List.mem_flatten]
      refine ⟨_, List.mem_map.2 ⟨(p, m), (hPC _).2 ⟨hp, hm⟩, rfl⟩, ?_⟩
      refine List.mem_flatMap.2 ⟨S (p, m), (hS p m hp (by omega)).2, List.mem_filterMap.2 ⟨S (p, m + 1), (hS p (m + 1) hp hm).2, ?_⟩⟩
      simp only
      rw [hall, hall]
      rfl
    · intro p' i' s hs
      simp only at hs
      rw [lookup_dictSet, lookup_dictSet] at hs
      split at hs
      · rename_i he
        cases he; cases hs
        exact (hS p (m + 1) hp hm).1
      · split at hs
        · rename_i he
          cases he; cases hs
          exact (hS p m hp (by omega)).1
        · have hk : (p', i') ∈ (c.gateSpecs variant).map Prod.fst := List.mem_map.2 ⟨_, lookup_some_mem hs, rfl⟩
          rw [g2] at hk
          obtain ⟨h1, last, h2⟩ := c.mem_gatePositions.1 hk
          simp only at h1 h2
          rw [hlook _ _ hs]
          exact (hS p' i' h1 (by rw [h2]; exact endIdx_lt hGp last)).1

/-- A template curve. -/
theorem template_curve (hs : c.Sized) {p m : ℕ} {D : List ((ℕ × ℕ) × Spec d)} (ht : IsTemplate c p m D) :
    ∃ t, c.specifyAllowed D = some t ∧ SameData c t ∧ (∀ p' i', t.raw p' i' = match D.lookup (p', i') with
        | some s => some (some s)
        | none => c.raw p' i') ∧
      (∀ e, Possible t e → Possible c e) ∧ (∀ e, Possible c e → ((∀ p' i' s, t.spec? p' i' = some s → e.spec? p' i' = some s) ↔
        ∀ p' i' s, D.lookup (p', i') = some s → e.spec? p' i' = some s)) := by
  obtain ⟨t, h1, h2, h3, h4, h5, h6, h7, h8⟩ := specifyAllowed_spec D ht.nodup hs ht.range
  have hsd : SameData c t := ⟨h2, h3, h4, h5, h6, h7⟩
  refine ⟨t, h1, hsd, h8, ?_, ?_⟩
  · intro e he
    refine ⟨he.kind, he.div.trans h2, he.pnum.trans h3, he.mult.trans h5, ?_, ?_⟩
    · intro q pat pat' e1 e2
      obtain ⟨pt, hpt⟩ := getElem?_of_lt (c := t) (p := q) (by rw [h5]; exact (List.getElem?_eq_some_iff.1 e1).1)
      obtain ⟨g1, g2⟩ := he.pattern q pt pat' hpt e2
      exact ⟨g1.trans (hsd.proto e1 hpt), g2.trans hsd.genus⟩
    · intro q hq j hj
      obtain ⟨l', s', k1, k2, k3⟩ := he.allowed q (by rw [h5]; exact hq) j (by rw [hsd.genus]; exact hj)
      cases hl : D.lookup (q, j) with
      | some s =>
        obtain ⟨l, g1, g2⟩ := ht.allowed q j s hl
        have hr := h8 q j
        rw [hl] at hr
        have := genAllowedSpecs_defined (by rw [h4]; exact genAllowedSpecs_kind g1) hr
        rw [k1] at this
        cases this
        cases List.mem_singleton.1 k2
        exact ⟨l, s', g1, g2, k3⟩
      | none =>
        have hr := h8 q j
        rw [hl] at hr
        rw [genAllowedSpecs_congr h4 hr] at k1
        exact ⟨l', s', k1, k2, k3⟩
  · intro e he
    constructor
    · intro h p' i' s hl
      apply h
      rw [spec?_eq_raw, h8, hl]
      rfl
    · intro h p' i' s hsp
      rw [spec?_eq_raw, h8] at hsp
      cases hl : D.lookup (p', i') with
      | some s' =>
        rw [hl] at hsp
        cases hsp
        exact h p' i' _ hl
      | none =>
        rw [hl] at hsp
        have hr : c.raw p' i' = some (some s) := Option.join_eq_some_iff.1 hsp
        have hp' : p' < c.mult := by
          unfold raw at hr
          rw [Option.bind_eq_some_iff] at hr
          obtain ⟨pat, e1, _⟩ := hr
          exact (List.getElem?_eq_some_iff.1 e1).1
        have hi' : i' < c.genus := by
          unfold raw at hr
          rw [Option.bind_eq_some_iff] at hr
          obtain ⟨pat, e1, e2⟩ := hr
          rw [← hs.specs_length pat (List.mem_of_getElem? e1)]
          exact (List.getElem?_eq_some_iff.1 e2).1
        obtain ⟨l', s', k1, k2, k3⟩ := he.allowed p' hp' i' hi'
        have := genAllowedSpecs_defined (genAllowedSpecs_kind k1) hr
        rw [k1] at this
        cases this
        cases List.mem_singleton.1 k2
        exact k3

theorem template_allowed (hA : c.AllowedDefined) (hne : ∀ p < c.mult, ∀ i < c.genus, c.genAllowedSpecs p i ≠ some []) {t : FCurve d}
    {D : List ((ℕ × ℕ) × Spec d)} {p m : ℕ} (ht : IsTemplate c p m D) (hsd : SameData c t) (hraw : ∀ p' i', t.raw p' i' = match D.lookup (p', i') with
        | some s => some (some s)
        | none => c.raw p' i') : t.AllowedDefined ∧ ∀ p < t.mult, ∀ i < t.genus, t.genAllowedSpecs p i ≠ some [] := by
  have key : ∀ q < c.mult, ∀ j < c.genus, (∃ s, t.genAllowedSpecs q j = some [s]) ∨ t.genAllowedSpecs q j = c.genAllowedSpecs q j := by
    intro q hq j hj
    have hr := hraw q j
    obtain ⟨l0, hl0, _⟩ := hA q hq j hj
    cases hl : D.lookup (q, j) with
    | some s =>
      rw [hl] at hr
      exact Or.inl ⟨s, genAllowedSpecs_defined (by rw [hsd.kind]; exact genAllowedSpecs_kind hl0) hr⟩
    | none =>
      rw [hl] at hr
      exact Or.inr (genAllowedSpecs_congr hsd.kind hr)
  constructor
  · intro q hq j hj
    rw [hsd.mult] at hq
    rw [hsd.genus] at hj
    rcases key q hq j hj with ⟨s, h⟩ | h
    · exact ⟨[s], h, by simp⟩
    · rw [h]; exact hA q hq j hj
  · intro q hq j hj
    rw [hsd.mult] at hq
    rw [hsd.genus] at hj
    rcases key q hq j hj with ⟨s, h⟩ | h
    · rw [h]; simp
    · rw [h]; exact hne q hq j hj

/-- Junctions of a template curve are those of any possible curve consistent with it. -/
theorem template_junctions (hs : c.Sized) {p m : ℕ} {D : List ((ℕ × ℕ) × Spec d)} (ht : IsTemplate c p m D) {t e : FCurve d} (hsd : SameData c t)
    (hraw : ∀ p' i', t.raw p' i' = match D.lookup (p', i') with
        | some s => some (some s)
        | none => c.raw p' i')
    (he : Possible c e) (hcons : ∀ p' i' s, D.lookup (p', i') = some s → e.spec? p' i' = some s) :
    t.getBaseJunction p m = e.getBaseJunction p m ∧ ∀ base, t.genJunctionsFromBase base = e.genJunctionsFromBase base := by
  have hspec : ∀ p' i' s, D.lookup (p', i') = some s → t.spec? p' i' = e.spec? p' i' := by
    intro p' i' s hl
    rw [hcons p' i' s hl, spec?_eq_raw, hraw, hl]
    rfl
  have hprotos : e.patterns.map Pattern.proto = c.patterns.map Pattern.proto := by
    apply List.ext_getElem?
    intro q
    rw [List.getElem?_map, List.getElem?_map]
    by_cases hq : q < c.mult
    · obtain ⟨p1, e1⟩ := getElem?_of_lt hq
      obtain ⟨p2, e2⟩ := getElem?_of_lt (c := e) (p := q) (by rw [he.mult]; exact hq)
      rw [e1, e2, Option.map_some, Option.map_some, (he.pattern q p1 p2 e1 e2).1]
    · have := he.mult
      unfold mult at this hq
      rw [List.getElem?_eq_none (by omega), List.getElem?_eq_none (by omega)]
  have hcube : ∀ p' i', t.cube? p' i' = e.cube? p' i' := by
    intro p' i'
    have h1 := hsd.protos
    rw [← hprotos] at h1
    have := congrArg (fun l => l[p']?) h1
    simp only [List.getElem?_map] at this
    unfold FCurve.cube?
    cases h1 : t.patterns[p']? <;> cases h2 : e.patterns[p']? <;> rw [h1, h2] at this <;> simp_all
  have hes : e.Sized := by
    constructor
    intro pat hpat
    obtain ⟨q, hq⟩ := List.mem_iff_getElem?.1 hpat
    obtain ⟨p1, e1⟩ := getElem?_of_lt (c := c) (p := q) (by rw [← he.mult]; exact (List.getElem?_eq_some_iff.1 hq).1)
    rw [(he.pattern q p1 pat e1 hq).2]
    unfold genus
    rw [he.div]
  obtain ⟨s1, hs1⟩ := ht.first
  obtain ⟨s2, hs2⟩ := ht.second
  refine ⟨?_, ?_⟩
  · unfold getBaseJunction
    rw [hspec _ _ _ hs1, hspec _ _ _ hs2, hcube, hcube]
  · intro base
    have hmult : t.mult = e.mult := hsd.mult.trans he.mult.symm
    have hgen : e.genus = c.genus := by unfold genus; rw [he.div]
    unfold genJunctionsFromBase junctionFuel
    rw [hmult]
    apply junctionsLoop_congr
    apply getDerivedJunction_congr (hsd.div.trans he.div.symm) hmult hes hsd.sized (hprotos.trans hsd.protos.symm)
    intro q hq last
    rw [hgen]
    rw [he.mult] at hq
    obtain ⟨s, hs⟩ := ht.gates q hq last
    exact hspec _ _ _ hs

/-- The dictionary of templates. -/
theorem getJunctionTemplates_spec (hs : c.Sized) (hA : c.AllowedDefined) (hne : ∀ p < c.mult, ∀ i < c.genus, c.genAllowedSpecs p i ≠ some [])
    (hG : 2 ≤ c.genus) (hfull : ∀ e, Possible c e → e.Full ∧ e.check = some true) :
    ∃ T, c.getJunctionTemplates = some T ∧ (T.map Prod.fst).Nodup ∧ (∀ j ts, (j, ts) ∈ T → ts ≠ [] ∧ ∀ t ∈ ts, ∃ c', Possible c c' ∧
        ∀ p i s, t.spec? p i = some s → c'.spec? p i = some s) ∧ ∀ c', Possible c c' → ∃ l, c'.genRegularJunctions = some l ∧
      ∀ j, j ∈ l.map Prod.fst ↔ ∃ ts, (j, ts) ∈ T ∧ ∃ t ∈ ts, ∀ p i s, t.spec? p i = some s → c'.spec? p i = some s := by
  obtain ⟨S, hS1, hS2, hS3⟩ := junctionTemplateSpecs_spec hA hG
  -- each template succeeds
  have hstep' : ∀ x ∈ S, ∃ t b l, c.specifyAllowed x.2 = some t ∧ t.getBaseJunction x.1.1 x.1.2 = some b ∧ t.genJunctionsFromBase [(b, none)] = some l ∧
      ∃ c', Possible c c' ∧ ∀ p i s, t.spec? p i = some s → c'.spec? p i = some s := by
    intro x hx
    have ht := hS2 x hx
    obtain ⟨t, h1, h2, h3, h4, h5⟩ := template_curve hs ht
    obtain ⟨hA', hne'⟩ := template_allowed hA hne ht h2 h3
    obtain ⟨e0, _, he⟩ := getCurveExample_spec h2.sized hA' hne'
    have hec := h4 _ he
    obtain ⟨hef, hechk⟩ := hfull _ hec
    have hcons : ∀ p' i' s, x.2.lookup (p', i') = some s → ({ e0 with kind := .curve } : FCurve d).spec? p' i' = some s := by
      intro p' i' s hl
      have hr := h3 p' i'
      rw [hl] at hr
      have hrange := ht.range _ (lookup_some_mem hl)
      obtain ⟨l', s', k1, k2, k3⟩ := he.allowed p' (by rw [h2.mult]; exact hrange.1) i' (by rw [h2.genus]; exact hrange.2)
      have := genAllowedSpecs_defined (genAllowedSpecs_kind k1) hr
      rw [k1] at this
      cases this
      cases List.mem_singleton.1 k2
      exact k3
    obtain ⟨e1, e2⟩ := template_junctions hs ht h2 h3 hec hcons
    have hp : x.1.1 < ({ e0 with kind := .curve } : FCurve d).mult := by rw [hec.mult]; exact ht.hp
    have hm : x.1.2 + 1 < ({ e0 with kind := .curve } : FCurve d).genus := by
      have hgen : ({ e0 with kind := .curve } : FCurve d).genus = c.genus := by unfold genus; rw [hec.div]
      rw [hgen]; exact ht.hm
    have hb := hef.getBaseJunction_eq hp hm
    obtain ⟨l, hl, _⟩ := hef.closure hec.kind hechk [(_, none)] (by simp) (by
      intro y hy
      cases List.mem_singleton.1 hy
      exact ⟨_, _, hp, hm, hb⟩)
    exact ⟨t, _, l, h1, e1.trans hb, (e2 _).trans hl, _, hec, (h5 _ hec).2 hcons⟩
  have hstep : ∀ x ∈ S, ∃ t b l, c.specifyAllowed x.2 = some t ∧ t.getBaseJunction x.1.1 x.1.2 = some b ∧ t.genJunctionsFromBase [(b, none)] = some l := by
    intro x hx
    obtain ⟨t, b, l, h1, h2, h3, _⟩ := hstep' x hx
    exact ⟨t, b, l, h1, h2, h3⟩
  -- the fold
  have hfold : ∀ (S' : List ((ℕ × ℕ) × List ((ℕ × ℕ) × Spec d))), (∀ x ∈ S', x ∈ S) → ∀ acc : List (Junction d × List (FCurve d)),
      (acc.map Prod.fst).Nodup → (∀ e ∈ acc, e.2 ≠ []) →
      ∃ T, S'.foldlM (fun dict t => do
        let curve ← c.specifyAllowed t.2
        let base ← curve.getBaseJunction t.1.1 t.1.2
        let juncs ← curve.genJunctionsFromBase [(base, none)]
        return juncs.foldl (fun dict junc => dictAppend junc.1 curve dict) dict) acc = some T ∧ (T.map Prod.fst).Nodup ∧ (∀ e ∈ T, e.2 ≠ []) ∧
        ∀ j t, (∃ ts, (j, ts) ∈ T ∧ t ∈ ts) ↔ (∃ ts, (j, ts) ∈ acc ∧ t ∈ ts) ∨ ∃ x ∈ S', ∃ b l, c.specifyAllowed x.2 = some t ∧
          t.getBaseJunction x.1.1 x.1.2 = some b ∧ t.genJunctionsFromBase [(b, none)] = some l ∧ j ∈ l.map Prod.fst := by
    intro S'
    induction S' with
    | nil => intro _ acc hacc hacc'; exact ⟨acc, rfl, hacc, hacc', by simp⟩
    | cons x S' ih =>
      intro hsub acc hacc hacc'
      obtain ⟨t, b, l, h1, h2, h3⟩ := hstep x (hsub x List.mem_cons_self)
      have hin : ∀ (l : List (Junction d × Option ℕ)) (acc : List (Junction d × List (FCurve d))), (acc.map Prod.fst).Nodup → (∀ e ∈ acc, e.2 ≠ []) →
          ((l.foldl (fun dict junc => dictAppend junc.1 t dict) acc).map Prod.fst).Nodup ∧
          (∀ e ∈ l.foldl (fun dict junc => dictAppend junc.1 t dict) acc, e.2 ≠ []) ∧
          ∀ j t', (∃ ts, (j, ts) ∈ l.foldl (fun dict junc => dictAppend junc.1 t dict) acc ∧ t' ∈ ts) ↔
            (∃ ts, (j, ts) ∈ acc ∧ t' ∈ ts) ∨ (j ∈ l.map Prod.fst ∧ t' = t) := by
        intro l
        induction l with
        | nil => intro acc hacc hacc'; exact ⟨hacc, hacc', by simp⟩
        | cons y l ih =>
          intro acc hacc hacc'
          obtain ⟨g1, g1', g2⟩ := ih (dictAppend y.1 t acc) (nodup_dictAppend _ _ _ hacc) (dictAppend_ne_nil _ _ _ hacc')
          refine ⟨g1, g1', ?_⟩
          intro j t'
          rw [List.foldl_cons, g2, mem_dictAppend, List.map_cons, List.mem_cons, or_assoc, or_and_right]
      obtain ⟨g1, g1', g2⟩ := hin l acc hacc hacc'
      obtain ⟨T, k1, k2, k2', k3⟩ := ih (fun y hy => hsub y (List.mem_cons_of_mem _ hy)) _ g1 g1'
      refine ⟨T, ?_, k2, k2', ?_⟩
      · rw [List.foldlM_cons]
        simp only [h1, h2, h3, Option.bind_eq_bind, Option.bind_some, Option.pure_def]
        exact k1
      · intro j t'
        rw [k3, g2]
        constructor
        · rintro ((h | ⟨h, rfl⟩) | ⟨y, hy, h⟩)
          · exact Or.inl h
          · exact Or.inr ⟨x, List.mem_cons_self, b, l, h1, h2, h3, h⟩
          · exact Or.inr ⟨y, List.mem_cons_of_mem _ hy, h⟩
        · rintro (h | ⟨y, hy, b', l', e1, e2, e3, e4⟩)
          · exact Or.inl (Or.inl h)
          · rcases List.mem_cons.1 hy with rfl | hy
            · rw [h1] at e1
              cases e1
              rw [h2] at e2
              cases e2
              rw [h3] at e3
              cases e3
              exact Or.inl (Or.inr ⟨e4, rfl⟩)
            · exact Or.inr ⟨y, hy, b', l', e1, e2, e3, e4⟩
  obtain ⟨T, hT1, hT2, hT2', hT3⟩ := hfold S (fun x hx => hx) [] (by simp) (by simp)
  refine ⟨T, ?_, hT2, ?_, ?_⟩
  · unfold getJunctionTemplates
    rw [hS1]
    exact hT1
  · intro j ts hts
    refine ⟨hT2' _ hts, ?_⟩
    intro t ht
    rcases (hT3 j t).1 ⟨ts, hts, ht⟩ with ⟨_, h, _⟩ | ⟨x, hx, b, l, h1, _⟩
    · simp at h
    · obtain ⟨t', _, _, h1', _, _, h⟩ := hstep' x hx
      rw [h1] at h1'
      cases h1'
      exact h
  · intro c' hposs
    obtain ⟨hf, hchk⟩ := hfull _ hposs
    obtain ⟨l, hl1, hl2⟩ := hf.regular_closure hposs.kind hchk
    have hgen : c'.genus = c.genus := by unfold genus; rw [hposs.div]
    refine ⟨l, hl1, ?_⟩
    intro j
    rw [hl2]
    constructor
    · rintro ⟨p, m, b, hp, hm, hb, hr⟩
      rw [hposs.mult] at hp
      rw [hgen] at hm
      obtain ⟨x, hx, hx1, hx2⟩ := hS3 c' hposs p m hp hm
      have ht := hS2 x hx
      obtain ⟨t, b', l', h1, h2, h3⟩ := hstep x hx
      obtain ⟨t', k1, k2, k3, k4, k5⟩ := template_curve hs ht
      rw [h1] at k1
      cases k1
      obtain ⟨e1, e2⟩ := template_junctions hs ht k2 k3 hposs hx2
      rw [hx1] at h2 e1
      rw [e1] at h2
      have h2' : c'.getBaseJunction p m = some b' := h2
      rw [hb] at h2'
      cases h2'
      obtain ⟨l'', hl''1, _, hl''2⟩ := hf.closure hposs.kind hchk [(b, none)] (by simp) (by
        intro y hy
        cases List.mem_singleton.1 hy
        exact ⟨p, m, by rw [hposs.mult]; exact hp, by rw [hgen]; exact hm, hb⟩)
      have hj : j ∈ l''.map Prod.fst := (hl''2 j).2 ⟨(b, none), by simp, hr⟩
      obtain ⟨ts, q1, q2⟩ := (hT3 j t).2 (Or.inr ⟨x, hx, b, l'', h1, by rw [hx1, e1]; exact hb, by rw [e2]; exact hl''1, hj⟩)
      exact ⟨ts, q1, t, q2, (k5 c' hposs).2 hx2⟩
    · rintro ⟨ts, q1, t, q2, hcons⟩
      rcases (hT3 j t).1 ⟨ts, q1, q2⟩ with ⟨_, h, _⟩ | ⟨x, hx, b, l', h1, h2, h3, h4⟩
      · simp at h
      · have ht := hS2 x hx
        obtain ⟨t', k1, k2, k3, k4, k5⟩ := template_curve hs ht
        rw [h1] at k1
        cases k1
        have hx2 := (k5 c' hposs).1 hcons
        obtain ⟨e1, e2⟩ := template_junctions hs ht k2 k3 hposs hx2
        have hb : c'.getBaseJunction x.1.1 x.1.2 = some b := by rw [← e1]; exact h2
        have hp : x.1.1 < c'.mult := by rw [hposs.mult]; exact ht.hp
        have hm : x.1.2 + 1 < c'.genus := by rw [hgen]; exact ht.hm
        obtain ⟨l'', hl''1, _, hl''2⟩ := hf.closure hposs.kind hchk [(b, none)] (by simp) (by
          intro y hy
          cases List.mem_singleton.1 hy
          exact ⟨_, _, hp, hm, hb⟩)
        rw [e2, hl''1] at h3
        cases h3
        obtain ⟨y, hy, hr⟩ := (hl''2 j).1 h4
        cases List.mem_singleton.1 hy
        exact ⟨_, _, b, hp, hm, hb, hr⟩

end FCurve
end Peano
