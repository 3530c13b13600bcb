import Mathlib.Data.List.Basic
import Mathlib.Logic.Basic
import Mathlib.Tactic.Common
import Verif.Model.Caches

/- Invariant of the caches. -/
namespace Peano.Caches

/-- value of a base map reference -/
def bmVal (st : State) (i : ℕ) : Option RawBaseMap := (st.objs[i]?).map Obj.key

/-- value of a spec reference -/
def specVal (st : State) (s : ℕ) : Option RawSpec := do
  let o ← st.specs[s]?
  let b ← bmVal st o.baseMap
  return ⟨b, o.pnum⟩

theorem lookup_mem {α β : Type*} [BEq α] [LawfulBEq α] {l : List (α × β)} {a : α} {b : β} (h : l.lookup a = some b) : (a, b) ∈ l := by
  induction l with
  | nil => simp at h
  | cons p l ih =>
    obtain ⟨x, y⟩ := p
    rw [List.lookup_cons] at h
    by_cases hx : a == x
    · rw [hx] at h
      simp only [Option.some.injEq] at h
      rw [eq_of_beq hx, ← h]; exact List.mem_cons_self
    · have : (a == x) = false := by simpa using hx
      rw [this] at h
      exact List.mem_cons_of_mem _ (ih h)

structure Inv (st : State) : Prop where
  obj : ∀ key i, (key, i) ∈ st.objCache → bmVal st i = some key
  cons : ∀ i key, bmVal st i = some key → st.objCache.lookup key = some i
  ids : ∀ dim i, (dim, i) ∈ st.idCache → bmVal st i = some (RawBaseMap.idMap dim)
  mul : ∀ (i : ℕ) (o : Obj) k v, st.objs[i]? = some o → (k, v) ∈ o.mulCache → ∃ r, o.key.mul k = some r ∧ bmVal st v = some r
  inv : ∀ (i : ℕ) (o : Obj) v, st.objs[i]? = some o → o.invCache = some v → ∃ r, o.key.inverse = some r ∧ bmVal st v = some r
  spec : ∀ s key p, specVal st s = some ⟨key, p⟩ → st.specCache.lookup (key, p) = some s
  specRef : ∀ (s : ℕ) (o : SpecObj), st.specs[s]? = some o → (bmVal st o.baseMap).isSome
  specCache : ∀ key p s, ((key, p), s) ∈ st.specCache → specVal st s = some ⟨key, p⟩

theorem inv_init : Inv init := by
  constructor <;> simp [init, bmVal, specVal]

/-- existing references keep their values -/
structure Ext (st st' : State) : Prop where
  bm : ∀ i v, bmVal st i = some v → bmVal st' i = some v
  spec : ∀ s v, specVal st s = some v → specVal st' s = some v

theorem Ext.refl (st : State) : Ext st st := ⟨fun _ _ h => h, fun _ _ h => h⟩
theorem Ext.trans {a b c : State} (h : Ext a b) (h' : Ext b c) : Ext a c :=
  ⟨fun i v x => h'.bm i v (h.bm i v x), fun i v x => h'.spec i v (h.spec i v x)⟩

theorem newBM_spec {st : State} (h : Inv st) (key : RawBaseMap) : Inv (newBM st key).2 ∧ Ext st (newBM st key).2 ∧
    bmVal (newBM st key).2 (newBM st key).1 = some key ∧ (newBM st key).2.specs = st.specs := by
  unfold newBM
  split
  · rename_i i hi
    exact ⟨h, Ext.refl _, h.obj _ _ (lookup_mem hi), rfl⟩
  · rename_i hi
    simp only
    set st' : State := { st with objs := st.objs ++ [⟨key, [], none⟩], objCache := (key, st.objs.length) :: st.objCache } with hst'
    have hbm : ∀ i v, bmVal st i = some v → bmVal st' i = some v := by
      intro i v hv
      simp only [bmVal, Option.map_eq_some_iff] at hv ⊢
      obtain ⟨o, ho, hov⟩ := hv
      refine ⟨o, ?_, hov⟩
      have := (List.getElem?_eq_some_iff.1 ho).1
      simp only [hst']
      rw [List.getElem?_append_left this, ho]
    have hnew : bmVal st' st.objs.length = some key := by simp [bmVal, hst']
    have hcase : ∀ i o, st'.objs[i]? = some o → st.objs[i]? = some o ∨ (i = st.objs.length ∧ o = ⟨key, [], none⟩) := by
      intro i o ho
      simp only [hst'] at ho
      rcases lt_trichotomy i st.objs.length with hlt | heq | hgt
      · rw [List.getElem?_append_left hlt] at ho; exact Or.inl ho
      · subst heq; simp at ho; exact Or.inr ⟨rfl, ho.symm⟩
      · rw [List.getElem?_eq_none (by simp; omega)] at ho; simp at ho
    have hbmback : ∀ i v, bmVal st' i = some v → bmVal st i = some v ∨ (i = st.objs.length ∧ v = key) := by
      intro i v hv
      simp only [bmVal, Option.map_eq_some_iff] at hv ⊢
      obtain ⟨o, ho, hov⟩ := hv
      rcases hcase i o ho with h1 | ⟨h1, h2⟩
      · exact Or.inl ⟨o, h1, hov⟩
      · subst h2; exact Or.inr ⟨h1, hov.symm⟩
    have hspec : ∀ s v, specVal st s = some v → specVal st' s = some v := by
      intro s v hv
      simp only [specVal, Option.bind_eq_bind, Option.bind_eq_some_iff, Option.pure_def, Option.some.injEq] at hv ⊢
      obtain ⟨o, ho, b, hb, hv⟩ := hv
      exact ⟨o, ho, b, hbm _ _ hb, hv⟩
    have hspecback : ∀ s v, specVal st' s = some v → specVal st s = some v := by
      intro s v hv
      simp only [specVal, Option.bind_eq_bind, Option.bind_eq_some_iff, Option.pure_def, Option.some.injEq] at hv ⊢
      obtain ⟨o, ho, b, hb, hv⟩ := hv
      have ho' : st.specs[s]? = some o := ho
      obtain ⟨b', hb'⟩ := Option.isSome_iff_exists.1 (h.specRef s o ho')
      have := hbm _ _ hb'
      rw [hb] at this
      simp at this
      exact ⟨o, ho', b, this ▸ hb', hv⟩
    refine ⟨⟨?_, ?_, ?_, ?_, ?_, ?_, ?_, ?_⟩, ⟨hbm, hspec⟩, hnew, trivial⟩
    · intro k i hki
      rcases List.mem_cons.1 hki with h1 | h1
      · simp only [Prod.mk.injEq] at h1
        rw [h1.1, h1.2]; exact hnew
      · exact hbm _ _ (h.obj k i h1)
    · intro i k hik
      simp only [hst', List.lookup_cons]
      rcases hbmback i k hik with h1 | ⟨h1, h2⟩
      · have h2 := h.cons i k h1
        have hne : (k == key) = false := by
          rw [beq_eq_false_iff_ne]
          rintro rfl
          rw [hi] at h2; simp at h2
        rw [hne]; exact h2
      · subst h2; simp [h1]
    · intro dim i hd; exact hbm _ _ (h.ids dim i hd)
    · intro i o k v ho hk
      rcases hcase i o ho with h1 | ⟨_, h2⟩
      · obtain ⟨r, hr, hv⟩ := h.mul i o k v h1 hk
        exact ⟨r, hr, hbm _ _ hv⟩
      · subst h2; simp at hk
    · intro i o v ho hk
      rcases hcase i o ho with h1 | ⟨_, h2⟩
      · obtain ⟨r, hr, hv⟩ := h.inv i o v h1 hk
        exact ⟨r, hr, hbm _ _ hv⟩
      · subst h2; simp at hk
    · intro s k p hs; exact h.spec s k p (hspecback _ _ hs)
    · intro s o ho
      obtain ⟨b', hb'⟩ := Option.isSome_iff_exists.1 (h.specRef s o ho)
      rw [hbm _ _ hb']; rfl
    · intro k p s hs; exact hspec _ _ (h.specCache k p s hs)

theorem idMap_spec {st : State} (h : Inv st) (dim : ℕ) : Inv (idMap st dim).2 ∧ Ext st (idMap st dim).2 ∧
    bmVal (idMap st dim).2 (idMap st dim).1 = some (RawBaseMap.idMap dim) := by
  unfold idMap
  split
  · rename_i i hi
    exact ⟨h, Ext.refl _, h.ids _ _ (lookup_mem hi)⟩
  · obtain ⟨h1, h2, h3, _⟩ := newBM_spec h (RawBaseMap.idMap dim)
    refine ⟨⟨h1.obj, h1.cons, ?_, h1.mul, h1.inv, h1.spec, h1.specRef, h1.specCache⟩, ⟨h2.bm, h2.spec⟩, h3⟩
    intro dim' i hi
    rcases List.mem_cons.1 hi with h4 | h4
    · simp only [Prod.mk.injEq] at h4
      rw [h4.1, h4.2]; exact h3
    · exact h1.ids dim' i h4

theorem bmVal_modify {st : State} {i : ℕ} {f : Obj → Obj} (hf : ∀ o, (f o).key = o.key) (j : ℕ) :
    bmVal { st with objs := st.objs.modify i f } j = bmVal st j := by
  simp only [bmVal, List.getElem?_modify]
  split
  · cases st.objs[j]? <;> simp [hf]
  · simp

theorem specVal_modify {st : State} {i : ℕ} {f : Obj → Obj} (hf : ∀ o, (f o).key = o.key) (s : ℕ) :
    specVal { st with objs := st.objs.modify i f } s = specVal st s := by
  simp only [specVal, bmVal_modify hf]

theorem setMul_spec {st : State} (h : Inv st) {i v : ℕ} {self k r : RawBaseMap} (hself : bmVal st i = some self) (hr : self.mul k = some r)
    (hv : bmVal st v = some r) : Inv (setMul st i k v) ∧ Ext st (setMul st i k v) := by
  have hb : ∀ j, bmVal (setMul st i k v) j = bmVal st j := bmVal_modify (fun _ => rfl)
  have hs : ∀ j, specVal (setMul st i k v) j = specVal st j := specVal_modify (fun _ => rfl)
  refine ⟨⟨?_, ?_, ?_, ?_, ?_, ?_, ?_, ?_⟩, ⟨fun j v hv => by rw [hb, hv], fun s v hv => by rw [hs, hv]⟩⟩
  · intro k j hk; rw [hb]; exact h.obj k j hk
  · intro j k hk; rw [hb] at hk; exact h.cons j k hk
  · intro dim j hj; rw [hb]; exact h.ids dim j hj
  · intro j o k' v' ho hk'
    simp only [hb]
    simp only [setMul, List.getElem?_modify] at ho
    cases hj : st.objs[j]? with
    | none => rw [hj] at ho; simp at ho
    | some o' =>
      rw [hj] at ho
      by_cases hij : i = j
      · subst hij
        simp only [if_true, Option.map_eq_map, Option.map_some, Option.some.injEq] at ho
        subst ho
        simp only at hk'
        rcases List.mem_cons.1 hk' with h4 | h4
        · simp only [Prod.mk.injEq] at h4
          rw [h4.1, h4.2]
          have : o'.key = self := by
            simp only [bmVal, hj, Option.map_some, Option.some.injEq] at hself; exact hself
          exact ⟨r, by simpa [this] using hr, hv⟩
        · exact h.mul i o' k' v' hj h4
      · simp only [hij, if_false, Option.map_eq_map, Option.map_some, Option.some.injEq] at ho
        subst ho
        exact h.mul j o' k' v' hj hk'
  · intro j o v' ho hk'
    simp only [hb]
    simp only [setMul, List.getElem?_modify] at ho
    cases hj : st.objs[j]? with
    | none => rw [hj] at ho; simp at ho
    | some o' =>
      rw [hj] at ho
      by_cases hij : i = j
      · subst hij
        simp only [if_true, Option.map_eq_map, Option.map_some, Option.some.injEq] at ho
        subst ho
        exact h.inv i o' v' hj hk'
      · simp only [hij, if_false, Option.map_eq_map, Option.map_some, Option.some.injEq] at ho
        subst ho
        exact h.inv j o' v' hj hk'
  · intro s k p hsp; rw [hs] at hsp; exact h.spec s k p hsp
  · intro s o ho; rw [hb]; exact h.specRef s o ho
  · intro k p s hk; rw [hs]; exact h.specCache k p s hk

theorem setInv_spec {st : State} (h : Inv st) {i v : ℕ} {self r : RawBaseMap} (hself : bmVal st i = some self) (hr : self.inverse = some r)
    (hv : bmVal st v = some r) : Inv (setInv st i v) ∧ Ext st (setInv st i v) := by
  have hb : ∀ j, bmVal (setInv st i v) j = bmVal st j := bmVal_modify (fun _ => rfl)
  have hs : ∀ j, specVal (setInv st i v) j = specVal st j := specVal_modify (fun _ => rfl)
  refine ⟨⟨?_, ?_, ?_, ?_, ?_, ?_, ?_, ?_⟩, ⟨fun j v hv => by rw [hb, hv], fun s v hv => by rw [hs, hv]⟩⟩
  · intro k j hk; rw [hb]; exact h.obj k j hk
  · intro j k hk; rw [hb] at hk; exact h.cons j k hk
  · intro dim j hj; rw [hb]; exact h.ids dim j hj
  · intro j o k' v' ho hk'
    simp only [hb]
    simp only [setInv, List.getElem?_modify] at ho
    cases hj : st.objs[j]? with
    | none => rw [hj] at ho; simp at ho
    | some o' =>
      rw [hj] at ho
      by_cases hij : i = j
      · subst hij
        simp only [if_true, Option.map_eq_map, Option.map_some, Option.some.injEq] at ho
        subst ho
        exact h.mul i o' k' v' hj hk'
      · simp only [hij, if_false, Option.map_eq_map, Option.map_some, Option.some.injEq] at ho
        subst ho
        exact h.mul j o' k' v' hj hk'
  · intro j o v' ho hk'
    simp only [hb]
    simp only [setInv, List.getElem?_modify] at ho
    cases hj : st.objs[j]? with
    | none => rw [hj] at ho; simp at ho
    | some o' =>
      rw [hj] at ho
      by_cases hij : i = j
      · subst hij
        simp only [if_true, Option.map_eq_map, Option.map_some, Option.some.injEq] at ho
        subst ho
        simp only [Option.some.injEq] at hk'
        subst hk'
        have : o'.key = self := by
          simp only [bmVal, hj, Option.map_some, Option.some.injEq] at hself; exact hself
        exact ⟨r, by simpa [this] using hr, hv⟩
      · simp only [hij, if_false, Option.map_eq_map, Option.map_some, Option.some.injEq] at ho
        subst ho
        exact h.inv j o' v' hj hk'
  · intro s k p hsp; rw [hs] at hsp; exact h.spec s k p hsp
  · intro s o ho; rw [hb]; exact h.specRef s o ho
  · intro k p s hk; rw [hs]; exact h.specCache k p s hk

/-- The uncached semantics of an operation returning a base map. -/
theorem mul_spec {st : State} (h : Inv st) (i j : ℕ) :
    (match mul st i j with
     | some (r, st') => Inv st' ∧ Ext st st' ∧ st'.specs = st.specs ∧ ∃ v, bmVal st' r = some v ∧
        (do let a ← bmVal st i; let b ← bmVal st j; a.mul b) = some v
     | none => (do let a ← bmVal st i; let b ← bmVal st j; a.mul b) = none) := by
  unfold mul bmVal
  cases hi : st.objs[i]? with
  | none => simp
  | some self =>
    cases hj : st.objs[j]? with
    | none => simp
    | some other =>
      simp only [Option.bind_eq_bind, Option.bind_some, Option.map_some]
      split
      · rename_i x hx
        split at hx
        · rename_i v hv
          simp only [Option.pure_def, Option.some.injEq] at hx
          obtain ⟨r, hr1, hr2⟩ := h.mul i self _ _ hi (lookup_mem hv)
          rw [Prod.ext_iff] at hx
          simp only at hx
          rw [← hx.2]
          refine ⟨h, Ext.refl _, rfl, r, ?_, hr1⟩
          rw [← hx.1]; exact hr2
        · cases hk : self.key.mul other.key with
          | none => rw [hk] at hx; simp at hx
          | some key =>
            rw [hk] at hx
            simp only [Option.bind_some, Option.pure_def, Option.some.injEq] at hx
            obtain ⟨h1, h2, h3, h4⟩ := newBM_spec h key
            have hself : bmVal st i = some self.key := by simp [bmVal, hi]
            obtain ⟨h5, h6⟩ := setMul_spec h1 (h2.bm _ _ hself) hk h3
            rw [Prod.ext_iff] at hx
            simp only at hx
            rw [← hx.2]
            refine ⟨h5, h2.trans h6, h4, key, ?_, rfl⟩
            rw [← hx.1]; exact h6.bm _ _ h3
      · rename_i hx
        split at hx
        · simp at hx
        · cases hk : self.key.mul other.key with
          | none => rfl
          | some key => rw [hk] at hx; simp at hx

theorem inverse_spec {st : State} (h : Inv st) (i : ℕ) :
    (match inverse st i with
     | some (r, st') => Inv st' ∧ Ext st st' ∧ ∃ v, bmVal st' r = some v ∧
        (do let a ← bmVal st i; a.inverse) = some v
     | none => (do let a ← bmVal st i; a.inverse) = none) := by
  unfold inverse bmVal
  cases hi : st.objs[i]? with
  | none => simp
  | some self =>
    simp only [Option.bind_eq_bind, Option.bind_some, Option.map_some]
    split
    · rename_i x hx
      split at hx
      · rename_i v hv
        simp only [Option.pure_def, Option.some.injEq] at hx
        obtain ⟨r, hr1, hr2⟩ := h.inv i self _ hi hv
        rw [Prod.ext_iff] at hx
        simp only at hx
        rw [← hx.2]
        refine ⟨h, Ext.refl _, r, ?_, hr1⟩
        rw [← hx.1]; exact hr2
      · cases hk : self.key.inverse with
        | none => rw [hk] at hx; simp at hx
        | some key =>
          rw [hk] at hx
          simp only [Option.bind_some, Option.pure_def, Option.some.injEq] at hx
          obtain ⟨h1, h2, h3, h4⟩ := newBM_spec h key
          have hself : bmVal st i = some self.key := by simp [bmVal, hi]
          obtain ⟨h5, h6⟩ := setInv_spec h1 (h2.bm _ _ hself) hk h3
          rw [Prod.ext_iff] at hx
          simp only at hx
          rw [← hx.2]
          refine ⟨h5, h2.trans h6, key, ?_, rfl⟩
          rw [← hx.1]; exact h6.bm _ _ h3
    · rename_i hx
      split at hx
      · simp at hx
      · cases hk : self.key.inverse with
        | none => rfl
        | some key => rw [hk] at hx; simp at hx

theorem newSpec_spec {st : State} (h : Inv st) (bm pnum : ℕ) :
    (match newSpec st bm pnum with
     | some (r, st') => Inv st' ∧ Ext st st' ∧ ∃ v, bmVal st bm = some v ∧ specVal st' r = some ⟨v, pnum⟩
     | none => bmVal st bm = none) := by
  unfold newSpec
  cases hi : st.objs[bm]? with
  | none => simp [bmVal, hi]
  | some o =>
    have hself : bmVal st bm = some o.key := by simp [bmVal, hi]
    simp only [Option.bind_eq_bind, Option.bind_some]
    split
    · rename_i x hx
      split at hx
      · rename_i s hs
        simp only [Option.pure_def, Option.some.injEq, Prod.ext_iff] at hx
        rw [← hx.2]
        refine ⟨h, Ext.refl _, o.key, hself, ?_⟩
        rw [← hx.1]; exact h.specCache _ _ _ (lookup_mem hs)
      · rename_i hs
        simp only [Option.pure_def, Option.some.injEq, Prod.ext_iff] at hx
        rw [← hx.2, ← hx.1]
        set st' : State := { st with specs := st.specs ++ [⟨bm, pnum⟩], specCache := ((o.key, pnum), st.specs.length) :: st.specCache } with hst'
        have hb : ∀ j, bmVal st' j = bmVal st j := fun j => rfl
        have hnew : specVal st' st.specs.length = some ⟨o.key, pnum⟩ := by
          have h1 : st'.specs[st.specs.length]? = some ⟨bm, pnum⟩ := by simp [hst']
          have h2 : bmVal st' bm = some o.key := hself
          simp only [specVal, h1, h2, Option.bind_eq_bind, Option.bind_some, Option.pure_def]
        have hold : ∀ s v, specVal st s = some v → specVal st' s = some v := by
          intro s v hv
          simp only [specVal, Option.bind_eq_bind, Option.bind_eq_some_iff, Option.pure_def, Option.some.injEq] at hv ⊢
          obtain ⟨q, hq, b, hb', hv⟩ := hv
          refine ⟨q, ?_, b, hb', hv⟩
          have := (List.getElem?_eq_some_iff.1 hq).1
          simp only [hst']
          rw [List.getElem?_append_left this, hq]
        have hcase : ∀ s q, st'.specs[s]? = some q → st.specs[s]? = some q ∨ (s = st.specs.length ∧ q = ⟨bm, pnum⟩) := by
          intro i o ho
          simp only [hst'] at ho
          rcases lt_trichotomy i st.specs.length with hlt | heq | hgt
          · rw [List.getElem?_append_left hlt] at ho; exact Or.inl ho
          · subst heq; simp at ho; exact Or.inr ⟨rfl, ho.symm⟩
          · rw [List.getElem?_eq_none (by simp; omega)] at ho; simp at ho
        refine ⟨⟨h.obj, h.cons, h.ids, h.mul, h.inv, ?_, ?_, ?_⟩, ⟨fun _ _ hv => hv, hold⟩, o.key, hself, hnew⟩
        · intro s k p hsp
          simp only [hst', List.lookup_cons]
          have hsp0 := hsp
          simp only [specVal, Option.bind_eq_bind, Option.bind_eq_some_iff, Option.pure_def, Option.some.injEq] at hsp
          obtain ⟨q, hq, b, hb', hv⟩ := hsp
          rcases hcase s q hq with h1 | ⟨h1, h2⟩
          · have : specVal st s = some ⟨k, p⟩ := by
              simp only [specVal, Option.bind_eq_bind, Option.bind_eq_some_iff, Option.pure_def, Option.some.injEq]
              exact ⟨q, h1, b, hb', hv⟩
            have h2 := h.spec s k p this
            have hne : ((k, p) == (o.key, pnum)) = false := by
              rw [beq_eq_false_iff_ne]
              intro heq
              rw [heq, hs] at h2; simp at h2
            rw [hne]; exact h2
          · subst h2
            have hbk : b = o.key := by
              have : bmVal st bm = some b := hb'
              rw [hself] at this; simpa using this.symm
            simp only [RawSpec.mk.injEq] at hv
            rw [← hv.1, ← hv.2, hbk, h1]; simp
        · intro s q hq
          rcases hcase s q hq with h1 | ⟨h1, h2⟩
          · exact h.specRef s q h1
          · subst h2; simp only [hb, hself]; rfl
        · intro k p s hk
          rcases List.mem_cons.1 hk with h1 | h1
          · simp only [Prod.mk.injEq] at h1
            rw [h1.1.1, h1.1.2, h1.2]; exact hnew
          · exact hold _ _ (h.specCache k p s h1)
    · rename_i hx
      split at hx <;> simp at hx

/-- Value of the result of an operation. -/
inductive Val
  | bm (v : RawBaseMap)
  | spec (v : RawSpec)

/-- Uncached meaning of an operation, given the values of the operands. -/
def uncached (bm : ℕ → Option RawBaseMap) (sp : ℕ → Option RawSpec) : Op → Option Val
  | .newBM key => some (.bm key)
  | .idMap dim => some (.bm (RawBaseMap.idMap dim))
  | .mul i j => do let a ← bm i; let b ← bm j; let r ← a.mul b; return .bm r
  | .inverse i => do let a ← bm i; let r ← a.inverse; return .bm r
  | .invert i => do let a ← bm i; return .bm a.invert
  | .cubeMap i => do let a ← bm i; return .bm ⟨a.coords, false⟩
  | .newSpec i pnum => do let a ← bm i; return .spec ⟨a, pnum⟩
  | .specMul s t => do let a ← sp s; let b ← sp t; let r ← a.baseMap.mul b.baseMap; return .spec ⟨r, a.pnum⟩
  | .bmSpecMul i s => do let b ← sp s; let a ← bm i; let r ← a.mul b.baseMap; return .spec ⟨r, b.pnum⟩

/-- Value the returned reference denotes in the state after the operation. -/
def resultVal (st : State) (r : ℕ) : Op → Option Val
  | .newSpec .. | .specMul .. | .bmSpecMul .. => (specVal st r).map .spec
  | _ => (bmVal st r).map .bm

theorem specVal_eq {st : State} {s : ℕ} {o : SpecObj} (ho : st.specs[s]? = some o) {b : RawBaseMap} (hb : bmVal st o.baseMap = some b) :
    specVal st s = some ⟨b, o.pnum⟩ := by
  simp only [specVal, ho, hb, Option.bind_eq_bind, Option.bind_some, Option.pure_def]

theorem step_spec {st : State} (h : Inv st) (op : Op) :
    (match step st op with
     | some (r, st') => Inv st' ∧ Ext st st' ∧ ∃ v, resultVal st' r op = some v ∧ uncached (bmVal st) (specVal st) op = some v
     | none => uncached (bmVal st) (specVal st) op = none) := by
  cases op with
  | newBM key =>
    obtain ⟨h1, h2, h3, _⟩ := newBM_spec h key
    exact ⟨h1, h2, _, congrArg (Option.map Val.bm) h3, rfl⟩
  | idMap dim =>
    obtain ⟨h1, h2, h3⟩ := idMap_spec h dim
    exact ⟨h1, h2, _, congrArg (Option.map Val.bm) h3, rfl⟩
  | mul i j =>
    have := mul_spec h i j
    simp only [step, uncached]
    cases hm : mul st i j with
    | none =>
      rw [hm] at this
      cases ha : bmVal st i <;> cases hb : bmVal st j <;> simp_all
    | some p =>
      rw [hm] at this
      obtain ⟨r, st'⟩ := p
      obtain ⟨h1, h2, -, v, h3, h4⟩ := this
      refine ⟨h1, h2, .bm v, by simp only [resultVal, h3]; rfl, ?_⟩
      cases ha : bmVal st i <;> cases hb : bmVal st j <;> simp_all
  | inverse i =>
    have := inverse_spec h i
    simp only [step, uncached]
    cases hm : inverse st i with
    | none =>
      rw [hm] at this
      cases ha : bmVal st i <;> simp_all
    | some p =>
      rw [hm] at this
      obtain ⟨r, st'⟩ := p
      obtain ⟨h1, h2, v, h3, h4⟩ := this
      refine ⟨h1, h2, .bm v, by simp only [resultVal, h3]; rfl, ?_⟩
      cases ha : bmVal st i <;> simp_all
  | invert i =>
    simp only [step, uncached, invert, bmVal]
    cases hi : st.objs[i]? with
    | none => simp
    | some o =>
      obtain ⟨h1, h2, h3, _⟩ := newBM_spec h o.key.invert
      exact ⟨h1, h2, _, congrArg (Option.map Val.bm) h3, rfl⟩
  | cubeMap i =>
    simp only [step, uncached, cubeMap, bmVal]
    cases hi : st.objs[i]? with
    | none => simp
    | some o =>
      obtain ⟨h1, h2, h3, _⟩ := newBM_spec h ⟨o.key.coords, false⟩
      exact ⟨h1, h2, _, congrArg (Option.map Val.bm) h3, rfl⟩
  | newSpec bm pnum =>
    have := newSpec_spec h bm pnum
    simp only [step, uncached]
    cases hm : newSpec st bm pnum with
    | none => rw [hm] at this; simp_all
    | some p =>
      rw [hm] at this
      obtain ⟨r, st'⟩ := p
      obtain ⟨h1, h2, v, h3, h4⟩ := this
      exact ⟨h1, h2, .spec ⟨v, pnum⟩, by simp only [resultVal, h4]; rfl, by simp [h3]⟩
  | specMul s t =>
    simp only [step, uncached, specMul]
    cases hs : st.specs[s]? with
    | none => simp [specVal, hs]
    | some a =>
      cases ht : st.specs[t]? with
      | none => simp [specVal, ht]
      | some b =>
        obtain ⟨ka, hka⟩ := Option.isSome_iff_exists.1 (h.specRef s a hs)
        obtain ⟨kb, hkb⟩ := Option.isSome_iff_exists.1 (h.specRef t b ht)
        rw [specVal_eq hs hka, specVal_eq ht hkb]
        have hm := mul_spec h a.baseMap b.baseMap
        rw [hka, hkb] at hm
        simp only [Option.bind_eq_bind, Option.bind_some] at hm ⊢
        cases hmul : mul st a.baseMap b.baseMap with
        | none => rw [hmul] at hm; simp only at hm; simp [hm]
        | some p =>
          rw [hmul] at hm
          obtain ⟨m, st1⟩ := p
          obtain ⟨h1, h2, -, v, h3, h4⟩ := hm
          have hn := newSpec_spec h1 m a.pnum
          simp only [Option.bind_some]
          cases hns : newSpec st1 m a.pnum with
          | none => rw [hns] at hn; simp only at hn; rw [hn] at h3; simp at h3
          | some q =>
            rw [hns] at hn
            obtain ⟨r, st2⟩ := q
            obtain ⟨h5, h6, w, h7, h8⟩ := hn
            rw [h3] at h7
            simp only [Option.some.injEq] at h7
            subst h7
            exact ⟨h5, h2.trans h6, .spec ⟨v, a.pnum⟩, by simp only [resultVal, h8]; rfl, by simp [h4]⟩
  | bmSpecMul i s =>
    simp only [step, uncached, bmSpecMul]
    cases hs : st.specs[s]? with
    | none => simp [specVal, hs]
    | some b =>
      obtain ⟨kb, hkb⟩ := Option.isSome_iff_exists.1 (h.specRef s b hs)
      rw [specVal_eq hs hkb]
      have hm := mul_spec h i b.baseMap
      rw [hkb] at hm
      simp only [Option.bind_eq_bind, Option.bind_some] at hm ⊢
      cases hmul : mul st i b.baseMap with
      | none =>
        rw [hmul] at hm; simp only at hm
        cases ha : bmVal st i <;> simp_all
      | some p =>
        rw [hmul] at hm
        obtain ⟨m, st1⟩ := p
        obtain ⟨h1, h2, -, v, h3, h4⟩ := hm
        have hn := newSpec_spec h1 m b.pnum
        simp only [Option.bind_some]
        cases hns : newSpec st1 m b.pnum with
        | none => rw [hns] at hn; simp only at hn; rw [hn] at h3; simp at h3
        | some q =>
          rw [hns] at hn
          obtain ⟨r, st2⟩ := q
          obtain ⟨h5, h6, w, h7, h8⟩ := hn
          rw [h3] at h7
          simp only [Option.some.injEq] at h7
          subst h7
          refine ⟨h5, h2.trans h6, .spec ⟨v, b.pnum⟩, by simp only [resultVal, h8]; rfl, ?_⟩
          cases ha : bmVal st i <;> simp_all

theorem inv_run (ops : List Op) {st : State} (h : Inv st) : Inv (run ops st) := by
  induction ops generalizing st with
  | nil => exact h
  | cons op ops ih =>
    apply ih
    have := step_spec h op
    cases hs : step st op with
    | none => simpa using h
    | some p =>
      rw [hs] at this
      exact this.1

end Peano.Caches
