import Verif.Spec.Results
import Verif.Model.ChainCode

set_option autoImplicit false

/-
What is printed in `logs/ye-proof.log`, the output of `YE-proof.py`.
-/
namespace Peano

/-- The report of a search for plane curves with one pattern, for the ratio function `l2`. -/
structure YeReport where
  /-- the grid -/
  div : ℕ
  /-- the category of gates (`none`: any gates) -/
  gates : Option GateKind
  /-- `max_cdist` -/
  maxCdist : Option ℤ
  /-- `rel_tol_inv` -/
  tol : ℕ
  lo : ℚ
  up : ℚ
  /-- the curves: chain code and specs -/
  curves : List (String × String)

/-- The curves of the search. -/
def YeReport.Searched (e : YeReport) (c : FCurve 2) : Prop := c.IsCandidate e.div 1 e.maxCdist ∧ ∀ g, e.gates = some g → g.Has c

/-- The report is right, and better than the search promises:
* no curve of the search has dilation below `lo`;
* the bounds are as close as the tolerance demands;
* some curve is printed, and the text of every printed curve describes a curve of the search of dilation at most `up`, such that no curve of the search has less dilation. -/
structure YeReport.Right (e : YeReport) : Prop where
  lower : ∀ (c : FCurve 2) (D : ℝ), e.Searched c → c.IsDilation .l2 D → e.lo ≤ D
  close : e.up ≤ e.lo * (1 + 1 / e.tol)
  present : e.curves ≠ []
  printed : ∀ t ∈ e.curves, ∃ (c : FCurve 2) (D : ℝ), FCurve.parse 2 [t] = some c ∧ e.Searched c ∧ c.IsDilation .l2 D ∧ D ≤ e.up ∧
    ∀ (c' : FCurve 2) (D' : ℝ), e.Searched c' → c'.IsDilation .l2 D' → D ≤ D'

/-- The seven reports of searches, logs/ye-proof.log:12-213. -/
def yeLog : List YeReport := [
  -- lines 12-31
  ⟨2, none, none, 1000, 258129460 / 43046721, 775043740 / 129140163, [("ijI", "0jI~,0ij,0ij,0JI")]⟩,
  -- lines 40-61
  ⟨3, none, none, 1000, 2194465195 / 387420489, 732056377 / 129140163, [("iijIIjii", "0ij,0Ji,0ji,0Ij,0JI,0jI,0ij,0Ji,0ji"),
    ("jiJijjII", "0ij,0ji,0jI~,0Ij~,0ij,0iJ~,0iJ~,0JI,0Ji~")]⟩,
  -- lines 70-89
  ⟨4, none, none, 1000, 26188302920 / 4433812263, 78633066200 / 13301436789, [("jjiJJiijIjijIII", "0ij,0iJ~,0ji,0jI~,0Ij~,0Ij~,0ji,0ij,0iJ~,0Ji~,0ji,0ij,0iJ~,0Ji~,0Ji~,0Ji~")]⟩,
  -- lines 103-122
  ⟨6, some .side, some 1, 200, 82589944 / 14703201, 9207608 / 1633689, [("ijIjiijIIjjiJijiJijiJJJIjIJJIJiijiJ", "0ij,0Ji~,0ji,0IJ,0ij,0ij,0Ji~,0ji,0iJ~,0IJ,0Ji~,0Ij~,0ij,0JI,0Ji~,0Ij~,0ij,0JI,0Ji~,0Ij~,0ij,0jI~,0JI,0iJ~,0IJ,0ji,0jI~,0JI,0iJ~,0jI~,0jI~,0ij,0Ji~,0ij,0ij,0jI~")]⟩,
  -- lines 131-152
  ⟨6, some .median, some 1, 200, 10464842 / 1594323, 17494822 / 2657205, [("jiJijjIIjiijIIjiiiJijiJJIIJJJiijIji", "0ji,0JI~,0Ji,0jI~,0ji,0JI~,0Ij,0ij~,0jI,0JI~,0iJ,0IJ~,0Ij,0ij~,0jI,0JI~,0iJ,0IJ~,0Ji,0jI~,0ji,0JI~,0Ji,0jI~,0IJ,0iJ~,0JI,0jI~,0JI,0jI~,0ij,0IJ~,0Ij,0iJ~,0ij,0IJ~"),
    ("jiJijjIIjiijIIjiiiJijiJJIIJJJiijIji", "0ji,0JI~,0Ji,0jI~,0ji,0JI~,0Ij,0ij~,0jI,0JI~,0iJ,0IJ~,0Ij,0ij~,0jI,0JI~,0iJ,0IJ~,0Ji,0jI~,0ji,0JI~,0Ji,0jI~,0IJ,0iJ~,0JI,0ji~,0Ji,0jI~,0ij,0IJ~,0Ij,0iJ~,0ij,0IJ~")]⟩,
  -- lines 162-183
  ⟨5, some .diag, some 1, 200, 9543280 / 1594323, 3192016 / 531441, [("iijIIjjjiJJiiJJijjjIIjii", "0ij,0Ji,0ij,0jI,0IJ,0jI,0ij,0jI,0ij,0Ji,0IJ,0Ji,0ij,0Ji,0IJ,0Ji,0ij,0jI,0ij,0jI,0IJ,0jI,0ij,0Ji,0ij"),
    ("iiiijIIjjIJJIjjjiiiJJijj", "0JI~,0Ji,0ji,0Ji,0ji,0Ij,0ji~,0iJ~,0IJ~,0Ji~,0JI,0Ij~,0IJ,0iJ~,0ij,0Ij,0ij,0jI~,0ji,0Ji,0IJ,0iJ,0IJ~,0iJ~,0ij")]⟩,
  -- lines 192-213
  ⟨5, some .median, some 1, 200, 27740299 / 4251528, 83470753 / 12754584, [("ijIjijIjiiiiJIIJiJIJiijj", "0ij,0IJ~,0Ij,0iJ~,0ij,0IJ~,0Ij,0iJ~,0ij,0Ij~,0ij,0IJ~,0Ji,0ji~,0Ij,0ij~,0iJ,0Ij~,0IJ,0ij~,0iJ,0Ij~,0ji,0Ji~,0ij"),
    ("ijIjijIjiiiiJIIJiJIJiijj", "0ij,0IJ~,0Ij,0iJ~,0ij,0IJ~,0Ij,0iJ~,0ij,0IJ~,0iJ,0IJ~,0Ji,0ji~,0Ij,0ij~,0iJ,0Ij~,0IJ,0ij~,0iJ,0Ij~,0ji,0Ji~,0ij")]⟩]

end Peano
