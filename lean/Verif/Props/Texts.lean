import Verif.Lemmas.CurveTexts
import Verif.Props.Search

set_option autoImplicit false

/-
Properties C67, C68, C69: texts of gates, the command line of the search script, texts of curves.
-/
namespace Peano
variable {d : ℕ}

/-! ### C67 -/

/-- C67, a point is read back from its text, with any spaces around. -/
theorem C67_point_roundtrip (hd : 1 ≤ d) (p : Point d) {w1 w2 : List Char} (h1 : ∀ c ∈ w1, isPySpace c = true) (h2 : ∀ c ∈ w2, isPySpace c = true) :
    Point.parse d (w1 ++ p.text ++ w2) = some p := Point.parse_text hd p h1 h2

/-- C67, the same for gates. -/
theorem C67_gates_roundtrip (hd : 1 ≤ d) (l : Link (Point d)) {w1 w2 : List Char} (h1 : ∀ c ∈ w1, isPySpace c = true)
    (h2 : ∀ c ∈ w2, isPySpace c = true) : Link.parseGates d (w1 ++ l.text ++ w2) = some l := Link.parseGates_text hd l h1 h2

/-- C67, the texts of different points and of different gates are different. -/
theorem C67_text_injective (hd : 1 ≤ d) : (∀ p q : Point d, p.text = q.text → p = q) ∧ ∀ l m : Link (Point d), l.text = m.text → l = m := by
  constructor
  · intro p q h
    have h1 := C67_point_roundtrip hd p (w1 := []) (w2 := []) (by simp) (by simp)
    have h2 := C67_point_roundtrip hd q (w1 := []) (w2 := []) (by simp) (by simp)
    rw [h, h2] at h1
    exact (Option.some.inj h1).symm
  · intro p q h
    have h1 := C67_gates_roundtrip hd p (w1 := []) (w2 := []) (by simp) (by simp)
    have h2 := C67_gates_roundtrip hd q (w1 := []) (w2 := []) (by simp) (by simp)
    rw [h, h2] at h1
    exact (Option.some.inj h1).symm

/-- Some texts. -/
example : Point.text (d := 2) ![0, 1 / 2] = "(0,1/2)".toList ∧ Point.text (d := 3) ![1, -2 / 6, 7] = "(1,-1/3,7)".toList ∧
    Link.text ⟨(![0, 1 / 2] : Point 2), ![1, 1]⟩ = "(0,1/2) -> (1,1)".toList := by
  refine ⟨?_, ?_, ?_⟩ <;> decide +kernel

example : Point.parse 2 " (0, 2/4) ".toList = some ![0, 1 / 2] ∧ Point.parse 2 "0,1/2".toList = some ![0, 1 / 2] ∧ Point.parse 2 "(0,1/0)".toList = none := by
  refine ⟨?_, ?_, ?_⟩ <;> decide +kernel

namespace Search
variable {n : ℕ} (Q : HeapQ (HNode (BoundedPair (n + 1))) HNode.lt)
  (H : HeapQ (Dilation.SeqItem (n + 1)) Dilation.SeqItem.lt) (S : SatSolver) (hash : Hashes n) (nextSat : ℕ → ℕ)

/-- The arguments of `run_search` when the checks are passed. -/
theorem mainArgs_eq (a : Args) (hm : ¬(a.dim % 2 = 1 ∧ a.metric = some .l2)) (ho : ¬(a.outputGates = false ∧ a.metric = none))
    {fromFile gl : Option (List (GateTuple (n + 1)))} {u : Option ℚ}
    (h1 : fileGates a = some fromFile)
    (h2 : lineGates a fromFile = some gl)
    (h3 : upperArg a = some u) :
    mainArgs (n := n) nextSat a = some (a.metric.map Metric.ratio,
      paramsOf nextSat a gl u) := by
  unfold mainArgs
  rw [if_neg hm, if_neg ho, h1]
  show Option.bind _ _ = _
  rw [Option.bind_some, h2]
  show Option.bind _ _ = _
  rw [Option.bind_some, h3]
  rfl

theorem mainArgs_inv (a : Args) {x : Option Ratio × Params n} (h : mainArgs nextSat a = some x) :
    ¬(a.dim % 2 = 1 ∧ a.metric = some .l2) ∧ ¬(a.outputGates = false ∧ a.metric = none) ∧ ∃ (fromFile gl : Option (List (GateTuple (n + 1)))) (u : Option ℚ),
      fileGates a = some fromFile ∧
      lineGates a fromFile = some gl ∧
      upperArg a = some u ∧ x.1 = a.metric.map Metric.ratio ∧ x.2 =
      paramsOf nextSat a gl u := by
  unfold mainArgs at h
  by_cases h1 : a.dim % 2 = 1 ∧ a.metric = some .l2
  · rw [if_pos h1] at h; cases h
  by_cases h2 : a.outputGates = false ∧ a.metric = none
  · rw [if_neg h1, if_pos h2] at h; cases h
  rw [if_neg h1, if_neg h2] at h
  obtain ⟨ff, hff, h⟩ := Option.bind_eq_some_iff.1 h
  obtain ⟨gl, hgl, h⟩ := Option.bind_eq_some_iff.1 h
  obtain ⟨u, hu, h⟩ := Option.bind_eq_some_iff.1 h
  cases h
  exact ⟨h1, h2, ff, gl, u, hff, hgl, hu, rfl, rfl⟩

/-- C67, the gates that are printed with `--output-gates` may be used later as `--gates-file`: if the search with some arguments (without given
gates) makes its own list of gates, then with `--output-gates` these gates are printed, and the search with the printed text as the file of
gates goes in the same way as the initial one. -/
theorem C67_output_then_file (a : Args) (hg : a.gates = none) (hf : a.gatesFile = none) (hdiv : 2 ≤ a.div) (hpos : 0 < a.mult)
    (hn : a.facetGated = true → 1 ≤ n) : ∃ gl : List (GateTuple (n + 1)),
      (∀ fuel, main Q S H hash nextSat fuel { a with outputGates := true, metric := none, upperBound := none } = some (gl.map Printed.gates, .finished)) ∧
      ∀ fuel, main Q S H hash nextSat fuel { a with gatesFile := some (gatesOutput gl) } = main Q S H hash nextSat fuel a := by
  obtain ⟨gl, hgl, -, hgood, -⟩ := gateList_generated hash ({ div := a.div, mult := a.mult, facetGated := a.facetGated } : Params n) hdiv hpos hn rfl
  have hne : ∀ g ∈ gl, g ≠ [] := by
    intro g hg e
    have := (hgood g hg).1
    rw [e] at this
    simp at this
    omega
  refine ⟨gl, fun fuel => ?_, fun fuel => ?_⟩
  · unfold main
    show Option.bind (mainArgs nextSat _) _ = _
    rw [mainArgs_eq nextSat _ (by simp) (by simp) (fromFile := none) (gl := none) (u := none) (by simp [fileGates, hf]) (by simp [lineGates, hg]) (by simp [upperArg])]
    rw [Option.bind_some]
    show Option.bind (gateList hash _) _ = _
    have : gateList hash (paramsOf nextSat { a with outputGates := true, metric := none, upperBound := none } none none : Params n) = some gl := hgl
    simp only
    rw [this]
    rfl
  · cases hma : mainArgs (n := n) nextSat a with
    | none =>
      have : mainArgs (n := n) nextSat { a with gatesFile := some (gatesOutput gl) } = none := by
        by_contra hc
        obtain ⟨x, hx⟩ := Option.ne_none_iff_exists'.1 hc
        obtain ⟨h1, h2, ff, gl', u, -, -, h3, -, -⟩ := mainArgs_inv nextSat _ hx
        have := mainArgs_eq (n := n) nextSat a h1 h2 (fromFile := none) (gl := none) (u := u) (by simp [fileGates, hf]) (by simp [lineGates, hg]) h3
        rw [hma] at this
        cases this
      unfold main
      rw [this, hma]
    | some x =>
      obtain ⟨h1, h2, ff, gl', u, h4, h5, h3, h6, h7⟩ := mainArgs_inv nextSat _ hma
      unfold fileGates at h4
      unfold lineGates at h5
      rw [hf] at h4
      rw [hg] at h5
      cases h4
      cases h5
      have hp : (fileLines (gatesOutput gl)).mapM (parseGatesLine (n + 1)) = some gl := parse_output (by omega) gl hne
      have e2 := mainArgs_eq (n := n) nextSat { a with gatesFile := some (gatesOutput gl) } h1 h2 (fromFile := some gl) (gl := some gl) (u := u)
        (by simp [fileGates, hp]) (by simp [lineGates, hg]) h3
      unfold main
      rw [hma, e2]
      obtain ⟨x1, x2⟩ := x
      simp only at h6 h7
      subst h6
      subst h7
      show Option.bind (gateList hash _) _ = Option.bind (gateList hash _) _
      have e3 : gateList hash (paramsOf nextSat { a with gatesFile := some (gatesOutput gl) } (some gl) u) = some gl :=
        gateList_given hash (paramsOf nextSat { a with gatesFile := some (gatesOutput gl) } (some gl) u) (gl := gl) rfl fun T hT => (hgood T hT).1
      rw [e3]
      have : gateList hash (paramsOf nextSat a none u : Params n) = some gl := hgl
      rw [this]
      have hl : ∀ (B : Dilation.Key (n + 1) → Option (PairBounds (n + 1))) (p : Params n) (o : Option (List (GateTuple (n + 1)))) (cnt : ℕ) gens,
          loop (m := Option) Q B S H hash fuel p cnt gens = loop (m := Option) Q B S H hash fuel { p with gateList := o } cnt gens := by
        intro B p o cnt gens
        induction gens with
        | nil => rfl
        | cons g gens ih =>
          obtain ⟨g1, g2⟩ := g
          unfold loop
          rw [ih]
          rfl
      simp only [Option.bind_some]
      by_cases hog : a.outputGates = true
      · have h1 : (paramsOf nextSat { a with gatesFile := some (gatesOutput gl) } (some gl) u : Params n).outputGates = true := hog
        have h2 : (paramsOf nextSat a none u : Params n).outputGates = true := hog
        rw [if_pos h1, if_pos h2]
      · have h1 : ¬ (paramsOf nextSat { a with gatesFile := some (gatesOutput gl) } (some gl) u : Params n).outputGates = true := hog
        have h2 : ¬ (paramsOf nextSat a none u : Params n).outputGates = true := hog
        rw [if_neg h1, if_neg h2]
        rw [hl _ (paramsOf nextSat a none u) (some gl)]
        rfl

/-! ### C68 -/

theorem ratio_ok {a : Args} {m : Metric} (hdim : a.dim = n + 1) (hm : ¬(a.dim % 2 = 1 ∧ a.metric = some .l2)) (ha : a.metric = some m) :
    m.ratio.Ok (n + 1) := by
  cases m with
  | l1 => trivial
  | l2 =>
    have : ¬ (n + 1) % 2 = 1 := fun h => hm ⟨by rw [hdim]; exact h, ha⟩
    show (n + 1) % 2 = 0
    omega
  | l2Squared => trivial
  | linf => exact Nat.succ_pos n

/-- C68, the search from the command line without given gates: `metric` is one of the four choices, with its ratio; `l2` may be used in even
dimensions only; `upper_bound`, if given, is the text of a fraction.  The run takes finite time.  Either it prints one report, which is right
for all curves with the given parameters; or it ends with AttributeError, and no such curve meets the upper bound. -/
theorem C68_search (a : Args) (m : Metric) (r : Ratio) (hmr : (m, r) ∈ [(Metric.l1, Ratio.l1), (.l2, .l2), (.l2Squared, .l2sq), (.linf, .linf)])
    (hdim : a.dim = n + 1) (ham : a.metric = some m) (heven : m = .l2 → Even (n + 1)) (u : Option ℚ) (hu : a.upperBound = u.map fractionText)
    (hdiv : 2 ≤ a.div) (hpos : 0 < a.mult) (htol : 0 < a.relTolInv.getD 1000) (hmult : 2 ≤ a.relTolInvMult.getD 4)
    (hn : a.facetGated = true → 2 ≤ a.dim) (hg : a.gates = none) (hf : a.gatesFile = none) (hgroup : a.groupByGates = false) (ho : a.outputGates = false) :
    ∃ p : Params n, p.div = a.div ∧ p.mult = a.mult ∧ p.maxCdist = a.maxCdist ∧ p.upperBound = u ∧ p.relTolInv = a.relTolInv ∧
      p.relTolInvMult = a.relTolInvMult ∧ ∃ fuel0, ∀ fuel, fuel0 ≤ fuel →
      (∃ lo up idxs cnt cs, main Q S H hash nextSat fuel a = some ([.found .allGates lo up idxs cnt cs], .finished) ∧
        RightReport r p (fun c => if a.facetGated then c.FacetGated else c.BoundaryGates) lo up cs) ∨
      (main Q S H hash nextSat fuel a = some ([], .attributeError) ∧ Absent r p fun c => if a.facetGated then c.FacetGated else c.BoundaryGates) := by
  have h1 : ¬(a.dim % 2 = 1 ∧ a.metric = some .l2) := by
    rintro ⟨h1, h2⟩
    rw [ham] at h2
    have := heven (Option.some.inj h2)
    rw [hdim] at h1
    rw [Nat.even_iff] at this
    omega
  have h2 : ¬(a.outputGates = false ∧ a.metric = none) := by rw [ham]; simp
  have hr : m.ratio = r := by
    simp only [List.mem_cons, Prod.mk.injEq, List.not_mem_nil, or_false] at hmr
    rcases hmr with ⟨rfl, rfl⟩ | ⟨rfl, rfl⟩ | ⟨rfl, rfl⟩ | ⟨rfl, rfl⟩ <;> rfl
  have h3 : upperArg a = some u := by
    unfold upperArg
    rw [hu]
    cases u with
    | none => rfl
    | some q =>
      have := fractionParse_text q (w1 := []) (w2 := []) (by simp) (by simp)
      simp only [List.nil_append, List.append_nil] at this
      simp [this]
  have e := mainArgs_eq (n := n) nextSat a h1 h2 (fromFile := none) (gl := none) (u := u) (by simp [fileGates, hf]) (by simp [lineGates, hg]) h3
  rw [ham, Option.map_some, hr] at e
  have hok := ratio_ok hdim h1 ham
  rw [hr] at hok
  obtain ⟨p, hp⟩ : ∃ p : Params n, p = paramsOf nextSat a none u := ⟨_, rfl⟩
  rw [← hp] at e
  have em : ∀ fuel, main Q S H hash nextSat fuel a = runSearch (m := Option) Q (Dilation.keyBounds r) S H hash fuel p := by
    intro fuel
    unfold main
    rw [e]
    rfl
  have ew : p.Wanted = fun c => if a.facetGated then c.FacetGated else c.BoundaryGates := by rw [hp]; rfl
  refine ⟨p, by rw [hp]; rfl, by rw [hp]; rfl, by rw [hp]; rfl, by rw [hp]; rfl, by rw [hp]; rfl, by rw [hp]; rfl, ?_⟩
  simp only [em]
  rw [← ew]
  exact generated_gates r Q H S hash p hok (by rw [hp]; exact hdiv) (by rw [hp]; exact hpos) (by rw [hp]; exact htol) (by rw [hp]; exact hmult)
    (by rw [hp]; intro h; have := hn h; omega) (by rw [hp]; rfl) (by rw [hp]; exact hgroup) (by rw [hp]; exact ho)

/-- C68, the search from the command line with `--gates`: the text is a tuple of gates, separated with bars, with any spaces around.  (The file
of gates, if given, does not matter as soon as it can be read.) -/
theorem C68_search_gates (a : Args) (m : Metric) (r : Ratio) (hmr : (m, r) ∈ [(Metric.l1, Ratio.l1), (.l2, .l2), (.l2Squared, .l2sq), (.linf, .linf)])
    (hdim : a.dim = n + 1) (ham : a.metric = some m) (heven : m = .l2 → Even (n + 1)) (u : Option ℚ) (hu : a.upperBound = u.map fractionText)
    (hdiv : 2 ≤ a.div) (hpos : 0 < a.mult) (htol : 0 < a.relTolInv.getD 1000) (hmult : 2 ≤ a.relTolInvMult.getD 4)
    (gates : GateTuple (n + 1)) (hlen : gates.length = a.mult) (hin : GateTuple.InCube gates) {w1 w2 : List Char} (hw1 : ∀ c ∈ w1, isPySpace c = true)
    (hw2 : ∀ c ∈ w2, isPySpace c = true) (hg : a.gates = some (w1 ++ pyJoin " | ".toList (gates.map Link.text) ++ w2))
    (other : Option (List (GateTuple (n + 1)))) (hothers : ∀ l, other = some l → ∀ g ∈ l, g ≠ []) (hf : a.gatesFile = other.map gatesOutput)
    (hgroup : a.groupByGates = false) (ho : a.outputGates = false) :
    ∃ p : Params n, p.div = a.div ∧ p.mult = a.mult ∧ p.maxCdist = a.maxCdist ∧ p.upperBound = u ∧ p.relTolInv = a.relTolInv ∧
      p.relTolInvMult = a.relTolInvMult ∧ ∃ fuel0, ∀ fuel, fuel0 ≤ fuel →
      (∃ lo up idxs cs, main Q S H hash nextSat fuel a = some ([.found .allGates lo up idxs 1 cs], .finished) ∧
        RightReport r p (FCurve.GatesIn [gates]) lo up cs) ∨
      (main Q S H hash nextSat fuel a = some ([], .attributeError) ∧ Absent r p (FCurve.GatesIn [gates])) := by
  have h1 : ¬(a.dim % 2 = 1 ∧ a.metric = some .l2) := by
    rintro ⟨h1, h2⟩
    rw [ham] at h2
    have := heven (Option.some.inj h2)
    rw [hdim] at h1
    rw [Nat.even_iff] at this
    omega
  have h2 : ¬(a.outputGates = false ∧ a.metric = none) := by rw [ham]; simp
  have hr : m.ratio = r := by
    simp only [List.mem_cons, Prod.mk.injEq, List.not_mem_nil, or_false] at hmr
    rcases hmr with ⟨rfl, rfl⟩ | ⟨rfl, rfl⟩ | ⟨rfl, rfl⟩ | ⟨rfl, rfl⟩ <;> rfl
  have h3 : upperArg a = some u := by
    unfold upperArg
    rw [hu]
    cases u with
    | none => rfl
    | some q =>
      have := fractionParse_text q (w1 := []) (w2 := []) (by simp) (by simp)
      simp only [List.nil_append, List.append_nil] at this
      simp [this]
  have hne : gates ≠ [] := by
    rintro rfl
    simp at hlen
    omega
  have h4 : fileGates a = some other := by
    unfold fileGates
    rw [hf]
    cases other with
    | none => rfl
    | some l =>
      have := parse_output (Nat.succ_pos n) l (hothers l rfl)
      simp [this]
  have h5 : lineGates a other = some (some [gates]) := by
    unfold lineGates
    rw [hg]
    have := parseGatesLine_line (Nat.succ_pos n) gates hne hw1 hw2
    simp only
    rw [this]
    rfl
  have e := mainArgs_eq (n := n) nextSat a h1 h2 h4 h5 h3
  rw [ham, Option.map_some, hr] at e
  have hok := ratio_ok hdim h1 ham
  rw [hr] at hok
  obtain ⟨p, hp⟩ : ∃ p : Params n, p = paramsOf nextSat a (some [gates]) u := ⟨_, rfl⟩
  rw [← hp] at e
  have em : ∀ fuel, main Q S H hash nextSat fuel a = runSearch (m := Option) Q (Dilation.keyBounds r) S H hash fuel p := by
    intro fuel
    unfold main
    rw [e]
    rfl
  refine ⟨p, by rw [hp]; rfl, by rw [hp]; rfl, by rw [hp]; rfl, by rw [hp]; rfl, by rw [hp]; rfl, by rw [hp]; rfl, ?_⟩
  simp only [em]
  exact C64_given_gates r Q H S hash p hok (by rw [hp]; exact hdiv) (by rw [hp]; exact hpos) (by rw [hp]; exact htol) (by rw [hp]; exact hmult)
    [gates] (by rw [hp]; rfl) (by intro T hT; rw [List.mem_singleton.1 hT, hp]; exact ⟨hlen, hin⟩) (by rw [hp]; exact hgroup) (by rw [hp]; exact ho)

/-- C68, wrong arguments: `l2` in odd dimensions, or no metric without `--output-gates`, is an exception, whatever the other arguments are. -/
theorem C68_wrong_metric (a : Args) (h : (Odd a.dim ∧ a.metric = some .l2) ∨ (a.outputGates = false ∧ a.metric = none)) (fuel : ℕ) :
    main (n := n) Q S H hash nextSat fuel a = none := by
  have : mainArgs (n := n) nextSat a = none := by
    unfold mainArgs
    rcases h with ⟨h1, h2⟩ | h
    · rw [if_pos ⟨Nat.odd_iff.1 h1, h2⟩]
    · by_cases h1 : a.dim % 2 = 1 ∧ a.metric = some .l2
      · rw [if_pos h1]
      · rw [if_neg h1, if_pos h]
  unfold main
  rw [this]
  rfl

/-- A command line where the hypotheses hold: `--dim 2 --mult 2 --div 2 --metric l2 --upper-bound 16/3`. -/
example (hash2 : Hashes 1) : ∃ p : Params 1, p.upperBound = some (16 / 3) ∧ ∃ fuel0, ∀ fuel, fuel0 ≤ fuel →
    (∃ lo up idxs cnt cs, main (n := 1) (sortedHeapQ _) Sat.choiceSolver (Dilation.sortedSeqHeap 2) hash2 (fun k => k + 1) fuel
      { dim := 2, mult := 2, div := 2, metric := some .l2, upperBound := some "16/3".toList } = some ([.found .allGates lo up idxs cnt cs], .finished) ∧
      RightReport Ratio.l2 p FCurve.BoundaryGates lo up cs) ∨
    (main (n := 1) (sortedHeapQ _) Sat.choiceSolver (Dilation.sortedSeqHeap 2) hash2 (fun k => k + 1) fuel
      { dim := 2, mult := 2, div := 2, metric := some .l2, upperBound := some "16/3".toList } = some ([], .attributeError) ∧ Absent Ratio.l2 p FCurve.BoundaryGates) := by
  obtain ⟨p, -, -, -, h1, -, -, h2⟩ := C68_search (n := 1) (sortedHeapQ _) (Dilation.sortedSeqHeap 2) Sat.choiceSolver hash2 (fun k => k + 1)
    { dim := 2, mult := 2, div := 2, metric := some .l2, upperBound := some "16/3".toList } .l2 .l2 (by simp) rfl rfl (by decide) (some (16 / 3))
    (by decide +kernel) (by decide) (by decide) (by decide) (by decide) (by decide) rfl rfl rfl rfl
  exact ⟨p, h1, h2⟩

/-- Gates from the command line: the gates of the Hilbert curve. -/
example : parseGatesLine 2 " (0,0) -> (1,0)\n".toList = some [⟨![0, 0], ![1, 0]⟩] ∧
    parseGatesLine 2 "(0,1/3)->(1/3,0) | (0,1/3)->(0,2/3)".toList = some [⟨![0, 1 / 3], ![1 / 3, 0]⟩, ⟨![0, 1 / 3], ![0, 2 / 3]⟩] ∧
    parseGatesLine 2 "(0,0)".toList = none := by
  refine ⟨?_, ?_, ?_⟩ <;> decide +kernel

end Search

/-! ### C69 -/
namespace FCurve

/-- C69, the text of a curve can be read back: it consists of lines `@number: chain | specs`, and `Curve.parse` of the pairs (chain, specs) gives
the same curve (with `pnum = 0`). -/
theorem C69_text_roundtrip (c : FCurve d) (h : c.Full) (hfill : c.FillsGrid) (hc : c.check = some true) (hd1 : 1 ≤ d) (hd6 : d ≤ 6) (hpos : 0 < c.mult)
    (hm : c.mult ≤ 10) : ∃ parts : List (List Char × List Char), parts.length = c.mult ∧
      c.text = some (pyJoin ['\n'] (parts.zipIdx.map fun e => ['@'] ++ decimal e.2 ++ ": ".toList ++ e.1.1 ++ " | ".toList ++ e.1.2)) ∧
      (∀ e ∈ parts, (∀ x ∈ e.1, x ≠ '|' ∧ x ≠ '\n') ∧ ∀ x ∈ e.2, x ≠ '\n') ∧
      parse d (parts.map fun e => (String.ofList e.1, String.ofList e.2)) = some { c with pnum := 0, kind := .curve } := by
  have key : ∀ p, ∃ e : List Char × List Char, p < c.mult → ∃ pat, c.patterns[p]? = some pat ∧ pat.text = some (e.1 ++ " | ".toList ++ e.2) ∧
      (∀ x ∈ e.1, x ≠ '|' ∧ x ≠ '\n') ∧ (∀ x ∈ e.2, x ≠ '\n') ∧ parsePattern d e.1 (pySplitComma e.2) = some (c.rawProto p, pat) := by
    intro p
    by_cases hp : p < c.mult
    · obtain ⟨pat, chain, specs, h1, h2, h3, h4, h5⟩ := h.pattern_text hfill hc hd1 hd6 hm hp
      exact ⟨(chain, specs), fun _ => ⟨pat, h1, h2, h3, h4, h5⟩⟩
    · exact ⟨([], []), fun h => absurd h hp⟩
  choose e he using key
  have hget : ∀ p (hp : p < c.mult), ∃ pat, c.patterns[p]'hp = pat ∧ pat.text = some ((e p).1 ++ " | ".toList ++ (e p).2) ∧
      (∀ x ∈ (e p).1, x ≠ '|' ∧ x ≠ '\n') ∧ (∀ x ∈ (e p).2, x ≠ '\n') ∧ parsePattern d (e p).1 (pySplitComma (e p).2) = some (c.rawProto p, pat) := by
    intro p hp
    obtain ⟨pat, h1, h2⟩ := he p hp
    rw [List.getElem?_eq_getElem hp] at h1
    exact ⟨pat, Option.some.inj h1, h2⟩
  refine ⟨(List.range c.mult).map e, by simp, ?_, ?_, ?_⟩
  · have e1 : c.patterns.zipIdx.mapM (fun e => e.1.text.map fun t => ['@'] ++ decimal e.2 ++ ": ".toList ++ t) =
        some (c.patterns.zipIdx.map fun x => ['@'] ++ decimal x.2 ++ ": ".toList ++ ((e x.2).1 ++ " | ".toList ++ (e x.2).2)) := by
      refine mapM_eq_some_map ?_
      rintro ⟨pat, p⟩ hx
      rw [List.mk_mem_zipIdx_iff_getElem?] at hx
      obtain ⟨hp, rfl⟩ := List.getElem?_eq_some_iff.1 hx
      obtain ⟨_, rfl, h2, _⟩ := hget p hp
      simp only [h2]
      rfl
    unfold text
    show Option.bind _ _ = _
    rw [e1, Option.bind_some]
    show some _ = some _
    congr 2
    apply List.ext_getElem
    · simp [mult]
    · intro p h1 h2
      simp
  · intro x hx
    obtain ⟨p, hp, rfl⟩ := List.mem_map.1 hx
    obtain ⟨_, -, -, h3, h4, -⟩ := hget p (List.mem_range.1 hp)
    exact ⟨h3, h4⟩
  · have e2 : (((List.range c.mult).map e).map fun e => (String.ofList e.1, String.ofList e.2)).mapM
        (fun e => parsePattern d e.1.toList (pySplitComma e.2.toList)) =
        some ((List.range c.mult).map fun p => (c.rawProto p, c.patterns.getD p ⟨[], []⟩)) := by
      rw [List.mapM_map, List.mapM_map]
      refine mapM_eq_some_map ?_
      intro p hp
      have hp := List.mem_range.1 hp
      obtain ⟨_, rfl, -, -, -, h5⟩ := hget p hp
      simp only [Function.comp_apply, String.toList_ofList]
      rw [h5]
      have hp' : p < c.patterns.length := hp
      rw [List.getD_eq_getElem?_getD, List.getElem?_eq_getElem hp']
      rfl
    unfold parse
    show Option.bind _ _ = _
    rw [e2, Option.bind_some]
    have hh : ((List.range c.mult).map fun p => (c.rawProto p, c.patterns.getD p ⟨[], []⟩)).head? = some (c.rawProto 0, c.patterns.getD 0 ⟨[], []⟩) := by
      obtain ⟨k, hk⟩ : ∃ k, c.mult = k + 1 := ⟨c.mult - 1, by omega⟩
      rw [hk, List.range_succ_eq_map]
      rfl
    show Option.bind _ _ = _
    rw [hh, Option.bind_some, if_pos]
    · show some _ = some _
      congr 1
      have e3 : ((List.range c.mult).map fun p => (c.rawProto p, c.patterns.getD p ⟨[], []⟩)).map Prod.snd = c.patterns := by
        apply List.ext_getElem
        · simp [mult]
        · intro p h1 h2
          simp [List.getD_eq_getElem?_getD, h2]
      rw [e3]
      rfl
    · rw [List.all_eq_true]
      intro x hx
      obtain ⟨p, -, rfl⟩ := List.mem_map.1 hx
      simp [rawProto]

/-- C69, different curves have different texts. -/
theorem C69_text_injective (c c' : FCurve d) (h : c.Full) (hfill : c.FillsGrid) (hc : c.check = some true) (h' : c'.Full) (hfill' : c'.FillsGrid)
    (hc' : c'.check = some true) (hd1 : 1 ≤ d) (hd6 : d ≤ 6) (hpos : 0 < c.mult) (hm : c.mult ≤ 10) (hpos' : 0 < c'.mult) (hm' : c'.mult ≤ 10)
    (ht : c.text = c'.text) : c.div = c'.div ∧ c.patterns = c'.patterns := by
  obtain ⟨p1, a1, a2, a3, a4⟩ := C69_text_roundtrip c h hfill hc hd1 hd6 hpos hm
  obtain ⟨p2, b1, b2, b3, b4⟩ := C69_text_roundtrip c' h' hfill' hc' hd1 hd6 hpos' hm'
  rw [a2, b2] at ht
  have hsplit : ∀ ps : List (List Char × List Char), ps ≠ [] → (∀ e ∈ ps, (∀ x ∈ e.1, x ≠ '|' ∧ x ≠ '\n') ∧ ∀ x ∈ e.2, x ≠ '\n') →
      pySplitOn '\n' (pyJoin ['\n'] (ps.zipIdx.map fun e => ['@'] ++ decimal e.2 ++ ": ".toList ++ e.1.1 ++ " | ".toList ++ e.1.2)) =
        ps.zipIdx.map fun e => ['@'] ++ decimal e.2 ++ ": ".toList ++ e.1.1 ++ " | ".toList ++ e.1.2 := by
    intro ps hne hps
    refine pySplitOn_join (by simpa using hne) ?_
    intro t ht
    obtain ⟨⟨e, i⟩, hx, rfl⟩ := List.mem_map.1 ht
    obtain ⟨k1, k2⟩ := hps e (by
      rw [List.mk_mem_zipIdx_iff_getElem?] at hx
      exact List.mem_of_getElem? hx)
    intro hn
    simp only [List.mem_append] at hn
    rcases hn with ((((hn | hn) | hn) | hn) | hn) | hn
    · revert hn; decide
    · have := (decimal_facts i).2.1 _ hn
      revert this; decide
    · revert hn; decide
    · exact (k1 _ hn).2 rfl
    · revert hn; decide
    · exact k2 _ hn rfl
  have n1 : p1 ≠ [] := by rintro rfl; simp at a1; omega
  have n2 : p2 ≠ [] := by rintro rfl; simp at b1; omega
  have e1 := hsplit p1 n1 a3
  rw [Option.some.inj ht, hsplit p2 n2 b3] at e1
  have hlen : p2.length = p1.length := by
    have := congrArg List.length e1
    simpa using this
  have hp : p1 = p2 := by
    apply List.ext_getElem hlen.symm
    intro i k1 k2
    have := congrArg (fun l : List (List Char) => l[i]?) e1
    simp only [List.getElem?_map, List.getElem?_zipIdx, List.getElem?_eq_getElem k1, List.getElem?_eq_getElem k2, Option.map_some, Option.some.injEq,
      List.append_assoc] at this
    have := List.append_cancel_left (List.append_cancel_left (List.append_cancel_left this))
    have hb : ∀ (s t s' t' : List Char), (∀ x ∈ s, x ≠ '|') → (∀ x ∈ s', x ≠ '|') → s ++ (" | ".toList ++ t) = s' ++ (" | ".toList ++ t') → s = s' ∧ t = t' := by
      intro s t s' t' hs hs' he
      have hw : ∀ (s t : List Char), (∀ x ∈ s, x ≠ '|') → (s ++ (" | ".toList ++ t)).takeWhile (fun x => x ≠ '|') = s ++ [' '] := by
        intro s t hs
        have e0 : s ++ (" | ".toList ++ t) = (s ++ [' ']) ++ '|' :: (' ' :: t) := by simp
        rw [e0, List.takeWhile_append_of_pos]
        · simp
        · intro x hx
          rcases List.mem_append.1 hx with hx | hx
          · simpa using hs x hx
          · rw [List.mem_singleton.1 hx]; decide
      have e0 := congrArg (List.takeWhile fun x => x ≠ '|') he
      rw [hw s t hs, hw s' t' hs'] at e0
      have e0 := List.append_cancel_right e0
      subst e0
      exact ⟨rfl, List.append_cancel_left (List.append_cancel_left he)⟩
    obtain ⟨q1, q2⟩ := hb _ _ _ _ (fun x hx => ((b3 _ (List.getElem_mem k2)).1 x hx).1) (fun x hx => ((a3 _ (List.getElem_mem k1)).1 x hx).1) this
    exact Prod.ext q1.symm q2.symm
  rw [hp, b4] at a4
  have := Option.some.inj a4
  exact ⟨(congrArg FCurve.div this).symm, (congrArg FCurve.patterns this).symm⟩

/-- The text of the Hilbert curve. -/
example : Zoo.hilbert.text = some "@0: jiJ | 0ji,0ij,0ij,0JI".toList := by decide +kernel

/-- The hypotheses hold, for example, for the curves of the zoo. -/
example : ∃ parts : List (String × String), parse 2 parts = some { Zoo.betaOmega with pnum := 0, kind := .curve } := by
  obtain ⟨h1, h2, h3, h4⟩ := Zoo.C57_zoo2 Zoo.betaOmega (by simp [Zoo.curves2])
  obtain ⟨parts, -, -, -, h⟩ := C69_text_roundtrip Zoo.betaOmega h2 h3 h4 (by decide) (by decide) (by decide +kernel) (by decide +kernel)
  exact ⟨_, h⟩

end FCurve
end Peano
