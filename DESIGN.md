# Formal model of malykhin-yuri/peano in Lean 4

Layout of `/verif/lean/Verif`:

* `Model/*.lean` – executable model of the Python modules, one file per module; every definition cites file and lines.
* `Spec/*.lean` – small independent specifications (what a multifractal curve, a dilation, a touched face, ... *is*).
* `Lemmas/*.lean` – helper lemmas and proofs.
* `Props/*.lean` – the property theorems (named `Cxx_...`) with non-vacuity examples next to them.

## Modelling conventions

* A Python tuple of length `dim` is a function `Fin d → α` (same data, dimension mismatch excluded by typing).
* `Fraction` is `ℚ`; real curves live over `ℝ`.
* A raised exception is `none` / `Except.error`; the comment at each definition says which exception.
* A `while` loop that is not structurally bounded takes fuel; separate theorems show that enough fuel exists
  (termination) or the theorem quantifies over every fuel with which the model returns a value (partial correctness).
* Generators are lists (in generation order).
* `BaseMap` exists twice: a literal list-level model (`Model/RawBaseMap.lean`, incl. parsing, invalid coords,
  caches) and the typed model used by everything else; refinement theorems connect them.
* A class hierarchy `FuzzyCurve/Curve/PathFuzzyCurve` is one structure with a `kind` field.
* The independent spec of a curve: a family `f : pattern → [0,1] → [0,1]^d` *realizes* a multifractal if on the i-th
  fraction of time it is the scaled, shifted, base-mapped copy of the pattern named by the i-th spec (README definition).

## Plan per property

* C01–C03, C05, C08: typed model, group laws by extensionality; power by strong induction, with a separate proof that
  exponent 0 never returns (fuel model).
* C04, C07: raw model; round trip by induction on the list of coords; caches as a state machine, invariant by induction
  over operation histories.
* C06: group/flip enumeration modelled literally; exactness by counting argument on groups.
* C09–C11: Spec model, curve action by extensionality on patterns; deep specs by induction on the cnum list against `Realizes`.
* C12–C16: `Spec/Realizes.lean`; contraction argument, existence by limit of approximations, continuity by a
  modulus-of-continuity induction, surjectivity by compactness.
* C17: model of the tuple expression; negation with witness, partial theorem.
* C18–C20, C56: PathFuzzyCurve model over pointed links.
* C21–C24: junction model; soundness/completeness by induction over depth; termination by finiteness of the state space.
* C25–C30: utils.
* C31–C35: subsets; facet subsets against real point sets.
* C36, C37: Proto, Path.
* C38–C40: CubePathTree with an arbitrary hash function, PathsGenerator on top.
* C41: heap as a state machine; heapq is modelled by its contract.
* C42, C43: CNF model with the SAT solver as a parameter assumed sound and complete.
* C44–C50, C54, C55, C58–C62: estimator model against the dilation of a realization.
* C51, C52: gates generator (`Model/Gates.lean`, `Model/FacetGates.lean`).
* C53: model of `run_search`; negation, and what holds instead.
* C57: `decide` over the finite zoo table.
* C63: product of the lists of paths, on top of C39/C40.
* C65: facet links and parent paths; facets act as open sets, so two subsets either meet or not; bidirectional tree as in C38, placement and
  symmetries of facet subsets.
* C66: every refinement step of `_gen_facet_gates` keeps a facet tuple covering the gates; the narrowed paths of the curve itself are among the
  generated ones (C65); the exact gates come out of `_check_and_std`.
* C64: `run_search` end to end (all modes): gates generator, paths generator, fuzzy curves and the estimator for sequences composed.
* C67: texts as lists of characters; a fraction is read back from its digits (induction over the decimal digits), the separators do not occur in
  texts of the parts.  Then the printed list of gates, read line by line, is the same list.
* C68: the arguments of `run_search` are computed from the command line; composed with C64.
* C69: text of a pattern = chain code (C36) and texts of specs (C09), the separators do not occur in the parts.
* C70: the tables of gates, moments, depths and counts are checked by the kernel with the modelled functions; their meaning comes
  from C14, C15, C21, C23. The depth is exact: all junctions of depth below it are enumerated (`Lemmas/Depth`).
* C71: the paths of a curve are images of generated paths (C63), so filtering by prototypes splits the curves; the continuous paths with the order of
  cubes of YE are enumerated completely by the kernel (there is one), so every curve with this order has the links of YE, and differs from YE in
  a spec; the order of cubes of YE has no symmetries, so other specs mean another function. Then C50, C62.
* C72: the picture is modelled as axes with lists of texts and lines with exact coordinates; invariant of the loop over fractions; the lines are
  compared with the centres of the cubes of `get_subdivision(k + 1)` (refinement of C16 read from the coarse side).
* C73: `Spec/ZooDilation.lean` states the dilation as a supremum of quotients of real lengths and times.  Upper bounds: for two pieces of the curve at
  the same depth let the excess be `|x|^d - v t`; the excess of a pair is the largest excess of its sub-pairs divided by the genus, so if a finite list of pairs of
  pieces is closed (each sub-pair is so far in time that it has no excess, or has no more excess than a pair of the list, up to isometries), then there is no excess.
  The lists are generated (files `Lemmas/ZooDil/*.lean`), and the kernel checks that they are closed (`Lemmas/DilCheck.lean` and, for plane curves, the faster `Lemmas/DilFast.lean`, both proved sound); what generated them is not trusted.
  Lower bounds: two points with periodic sequences of fractions, checked exactly.  Besides the declared bounds C73_exact gives exact values.
* C74: a path with one kind of gates is a sequence of cells and points between them.  A middle cell has both gates on its boundary, hence the gates are on the
  boundary (any dimension).  In the plane: both gates inside sides: parallel sides keep the path in one row, perpendicular ones make it turn in every
  cell, which contradicts the count of even and odd columns; a vertex and a point inside a side at the same vertex: stuck in the corner; the opposite
  side: nodes with even coordinates unless the point is the middle, then the corner cells give a contradiction; opposite vertices: parity of nodes.
  C71_main_searches uses it (no condition on gates is left when gates are generated), and C71_main_covers states what the whole script covers.
* C75: the comment of `gen_gates` about internal curves.  The end of a fraction that is strictly inside its cell is in no other cell, so it is not
  shared with a neighbour fraction: it is an end of the whole pattern.  A middle fraction (there are at least four fractions) uses a pattern that is not
  internal; this pattern replaces all internal ones, and the ratios of the new curve are among the ratios of the old one.
* C76: the table of plane curves with one pattern in `results.md`.  Upper side: the best curve of each row is written down (`MinCerts/Curves.lean`) and
  its exact dilation is certified as in C73.  Lower side: `Lemmas/MinCert.lean` defines a small checker of search trees.  A tree for one order of cubes
  branches over the orientations of cubes; a leaf is a pair of times (two junction points or vertices, given by addresses) whose ratio is at least the
  value.  `Lemmas/MinEnum.lean` enumerates the orders of cubes; `Lemmas/MinBound.lean` proves that an accepted tree gives the bound for every curve of the
  class, whatever the other orientations are.  The trees (found by a program outside, `MinCerts/*.lean`) are checked by the kernel with
  `decide +kernel`: the set of orders of cubes is finite and is exhausted, and each tree covers all choices of orientations, so nothing is sampled.
* C77: the same with an exception: the trees for grid 5 refute 96/17 for all curves with the order of cubes of YE except two, the images of YE, and
  75/13 for the other orders of cubes; certificates for two curves (`MinCerts/Dil/YeNext.lean`) show that both values are attained.  With C76 for the other grids, C74
  for the kinds of gates and C71 for the script this gives the theorem behind `YE-proof.py`, with the success of the script.
* C78: the table of plane curves with two patterns on the grid 2×2 in `results.md`.  Gates: the pairs of gates up to symmetry are classified by an
  exhaustive check run by the kernel (`MinCerts/BiGates.lean`), sound by `Lemmas/BiGates.lean`, so the nine rows are all the pairs there are.  Values: as
  for C76, by refutation trees, now over pairs of paths (`Lemmas/MinTwo.lean`, `MinCerts/Bi2*.lean`), and certificates for the best curves
  (`MinCerts/Dil/Bi.lean`).
* C79: `Lemmas/OnePattern.lean`: from a vertex only a fraction with an end at a vertex can start, by induction along the fractions all specs refer to the
  pattern itself; the curve with this one pattern is then bounded by C76.  Rows: with this, or with trees as for C78 (`MinCerts/Bi3.lean`).
* C80, C81 (optimality of the Spring curve among facet-gated curves with two patterns; rows 4-6 of the table of curves in space with one pattern): stated and proved on the
  branch `space` of this repository (commit cb47894) and left out here, as their certificates make the build and the replay too slow. They are not claimed in `MANIFEST.json`.
* All trees of choices (C76-C79) are checked with `Run.runF` (`Lemmas/MinRun.lean`), a version of `MinCert.run` with recursors that the kernel evaluates
  faster; `Run.runF_sound` proves that it is enough.
* C82: the reports of `logs/ye-proof.log` (`Spec/YeLog.lean`).  The least dilations are those of C76; for each printed curve a certificate as in C73 shows that its
  dilation is exactly this least value (`MinCerts/Dil/Log.lean`), so the printed curves are optimal, which is more than the search promises.  Not covered: the
  statistics and the numbers of paths (the numbers of gates of the first three searches are right by C84).  The bounds of the two checks of side curves on the grid 5 are right by C77.
* C83: `heappush`, `heappop` of CPython (`Model/Heapq.lean`), position by position; by induction on the position the only violation of the heap property is at the hole,
  and its children are not smaller than its parent.
* C84: the list is `planeGates` (`Spec/PlaneGates.lean`). That nothing else is emitted: C74 (parity excludes the diagonal on even grids) and, for the median on the grids 2 and 3, C76_no_median,
  as emitted gates are the gates of some curve (C51, C19). That these are emitted: C52, as the curves of C76 have these gates. `gates_count` by induction on the loop over the generators.

## Trusted base

* Lean's kernel (4.33.0), and Mathlib for the statements' vocabulary (`ℝ`, `ℚ`, `Finset` sums, `Continuous`, `List`).
* Axioms, as printed by `#print axioms` for all theorems of MANIFEST.json: `propext`, `Classical.choice`, `Quot.sound` for almost all of them;
  `C01_mul_assoc_unit`, `C27_lcm`: `propext`, `Quot.sound`; `C25_lru_cache_transparent`: `propext`; `C17_eq_always_true`, `C17_eq_partial`: none.
  No axioms are added; no `sorry`, `native_decide`, `bv_decide`.
* The correspondence between the Python text and the definitions of `Verif/Model`.  It is by reading only: the code is not run.
* Contracts of libraries, as parameters of the theorems (not axioms; each has an inhabitant in the development, so the theorems are not vacuous):
  * `HeapQ` (`Model/Heap.lean`): `heapq.heappush`, `heappop` keep the multiset of nodes, the first element is a minimum;
    instances `sortedHeapQ` and, with the algorithm of CPython, `Heapq.heapq` (C83);
  * `SatSolver` (`Model/SAT.lean`): `solve` says whether the clauses are satisfiable, and then `get_model` is a satisfying assignment;
    instance `choiceSolver`;
  * hash functions are arbitrary functions (so all theorems hold with collisions);
  * `functools.lru_cache` (`Model/Memo.lean`): a memory of arguments and values with arbitrary eviction.
* Python semantics used by hand: unbounded integers, exact `Fraction`s, tuples compared lexicographically, dictionaries keep insertion order,
  generators are evaluated to lists.  Sets whose iteration order matters (`std_exits` in `PathsGenerator`, `std_pairs` in `GatesGenerator`) are lists without
  repetitions in the order of insertion; theorems about generators say which elements occur, not in which order.

## What is modelled

| file of /repo | modelled | not modelled |
| --- | --- | --- |
| `peano/base_maps.py` | all of `BaseMap` and `Spec`, twice (typed and literal), caches | `__repr__`, pickling |
| `peano/utils.py` | all functions; `get_lcm`, `combinations_product`, ratios, memoized functions | – |
| `peano/subsets.py` | `Point`, `FacetDivSubset`, `Link` | `str` of facet subsets |
| `peano/paths.py` | `Proto` (with chain codes), `Path`, `PathsGenerator` (with links, parents, `std`, `max_cdist`) | logging |
| `peano/_cube_path_trees.py` | all | `__str__`, logging |
| `peano/curves.py` | `Pattern`, `FuzzyCurve`, `Curve`, `PathFuzzyCurve`, junctions, `CurvePoint` | `repr` |
| `peano/_bounded_items_heap.py` | all | statistics |
| `peano/_sat_adapters.py` | all but `get_stats` | pysat internals |
| `peano/dilation.py` | `Estimator`: bounds, trees, regular, bisect, fuzzy and sequence estimates, cache of bounds | statistics, logging, `sat_iter_multiplier` as float (the schedule of SAT calls is an arbitrary function) |
| `peano/gates.py` | all | logging |
| `peano/zoo.py` | the table of curves; dilations, moments, gates, depths, counts of junctions | `SpecValue.spec` (arguments for the tests) |
| `search.py` | `run_search`, the command line after `argparse`, the format of printed gates | `argparse`, the format of printed reports, logging |
| `YE-proof.py` | the three checks and the parameters of the searches, with `get_ye_curve` of `zoo.py` | printing |
| `plots.py` | axes with titles, texts, lines with coordinates and colors | rendering (matplotlib), ticks, limits, line widths; floats are exact rationals |
| tests | – | all |
| `results.md` | the table of plane curves with one pattern: 26 of its numbers (C76); the table of plane curves with two patterns, div=2: all its dilations (C78); div=3: five of its rows (C79) | the other tables and rows; the numbers of paths; 10.66 and 5.77 of row "5 diag 1"; rows "5 side *", "5 diag *" |
| `paper-search.md`, `logs/search-spring.log` | - | everything (Computation 1 only on the branch `space`) |
| `logs/ye-proof.log` | bounds and curves of the seven searches, the bounds of the two checks of side curves, the check of YE (C82) | the statistics, the numbers of gates and paths |

## Findings: where the code differs from the expected property

* C03: `bm ** 0` recurses forever.
* C09: `Spec.parse(str(spec))` fails or gives another spec for pattern numbers of two digits and more: only one digit is read.
* C17: `Curve.__eq__` returns a non-empty tuple, so any two curves are equal; `!=` is always false.
* C23: junctions are explored in depth (`to_derive.pop()` takes the last one), so `depth` of a junction and `get_depth()` may exceed the real depth.
* C53: `run_search` calls `result.update` on `None` when nothing is found: AttributeError; the branch printing NOT FOUND is unreachable.
  With `group_by_gates` one group without curves aborts the whole run (C64_grouped).
* C38: `CubePathTree.grow` yields nothing on the grid of one cube.
* C21: `RegularJunction` is not canonical when both patterns are equal and exactly one spec reverses time: a junction may be listed twice.
* `Curve.forget`, `CurveSATAdapter.get_model_curve` reset `pnum` to 0; `get_curve_example` of a `PathFuzzyCurve` is not a `Curve`.
* `estimate_dilation_regular` ignores `curve.pnum` (the dilation is over all patterns).
* `_get_pos_bounds`: the first pair of points replaces the lower bound, even by a smaller one (still sound).
* `estimate_dilation_sequence`: the docstring says that curves have the dilation in `[lo, up]`; the returned curves are only known to have it at most
  `up * (1 + 1 / rel_tol_inv_mult)`; with an upper bound that is not positive the examples are `None`; with `max_iter` the loop may never stop;
  `rel_tol_inv_mult = 0` raises ZeroDivisionError.
* `estimate_dilation_fuzzy` with `start_upper_bound` and without `start_curve` may return no curve.
* `Path.is_continuous` for facet subsets raises NotImplementedError (`FacetDivSubset` has no `transform`).
* `PathFuzzyCurve.init_from_paths` with a generator as the group consumes it at the first use.
* `get_periodic_sum` in dimension 0 (genus 1) raises ZeroDivisionError.
* `plot_curve` fails with IndexError for more than four patterns (C72_too_many_patterns).
* `GatesGenerator`: nothing is emitted for `mult = 0`; `only_facet` with `dim = 1` raises TypeError, with `mult = 0` IndexError.
* `Proto.parse('')` raises.
* `YE-proof.py` imports `tests.examples`, which does not exist: ImportError.
* `gen_gates` "Generate all gates such that there is at least one path with them": not for gates inside the cube, which exist for `mult >= 2`
  (`C75_internal_exists`); harmless for the search by C75.
* The text of a curve with more than 10 patterns cannot be read back (C09), so C69 is stated for at most 10 patterns.
* `generate_paths_generic` with a parent: `parent.proto[next_cnum]` is out of range for the last cube (and wraps around for the first one), but the search
  never continues a path there: no exception leaves it (the functions of the model may raise, see `TreeE` and `C38_no_exceptions`).
* results.md (C76): in the rows "5 side *" and "5 diag *" the only number stands in the column `l1`, though 5.589 and 6.0 are the values of `l2` in the
  rows above; the value of `l1` proved in every other row is at least 9.
* results.md (C79): in the table for two patterns, div=3, the row "(0,0)->(0,1), (0,0)->(0,1)" shows 6.25 for `l2` and 9.8 for `linf`, but two copies of
  the best curves with one pattern have 17/3 and 9/2 (`C79_wrong_row`).
* `README.md` says that the genus of a curve is `d^s`; the code uses `div**dim`, that is `s^d`.
* `paper-search.md` refers to `tests/examples.py`, which does not exist (the curves are in `peano/zoo.py`).

## Tests of the theorems

`seeded/LOG.jsonl`: for each edit of a model definition (a realistic bug), which theorems failed.  Theorems that survived an edit were tightened.
