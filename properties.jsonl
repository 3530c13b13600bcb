{"id": "C01", "title": "Base map product is composition", "statement": "For base maps A, B of the same dimension, applying A*B to a point of the cube, a vector, a sub-cube, a time or a cube number equals applying B and then A; the product is associative and BaseMap.id_map(dim) is its two-sided unit.", "quantifier": "every dimension, every pair/triple of base maps, every point, vector, sub-cube, div, time", "why_tests_cant": "There are infinitely many points and dimensions; tests sample a few maps.", "anchors": ["peano/base_maps.py:BaseMap.__mul__", "peano/base_maps.py:BaseMap.apply_x", "peano/base_maps.py:BaseMap.apply_t", "peano/base_maps.py:BaseMap.apply_vec", "peano/base_maps.py:BaseMap.apply_cube", "peano/base_maps.py:BaseMap.apply_cnum", "peano/base_maps.py:BaseMap.id_map"]}
{"id": "C02", "title": "Group inverse is two-sided", "statement": "For every base map B, B.get_inverse() (also B**(-1)) X satisfies B*X = X*B = id, so applying X undoes the effect of B on points, vectors, cubes and times; ~ is a time reversal that is an involution and commutes with composition.", "quantifier": "every dimension and every base map (signed permutation with or without time reversal)", "why_tests_cant": "The test enumerates dimensions 2..5 only.", "anchors": ["peano/base_maps.py:BaseMap.get_inverse", "peano/base_maps.py:BaseMap.__invert__", "peano/base_maps.py:BaseMap.conjugate_by"]}
{"id": "C03", "title": "Integer powers", "statement": "For every base map B and every integer n, B**n is the n-fold product of B (of its inverse for negative n; the identity for n=0).", "quantifier": "every base map and every integer exponent", "why_tests_cant": "The exponent is unbounded and the recursion has to terminate for each of them.", "anchors": ["peano/base_maps.py:BaseMap.__pow__"]}
{"id": "C04", "title": "Base map text form round-trips", "statement": "For every base map B of dimension 1..6, BaseMap.parse(str(B)) == B, and the k-th letter of the text names the image of the k-th basis vector (upper case = negated), a trailing ~ meaning time reversal; surrounding white space is ignored.", "quantifier": "every base map of every dimension 1..6 and every amount of surrounding white space", "why_tests_cant": "92160 maps in dimension 6 alone; tests check one string.", "anchors": ["peano/base_maps.py:BaseMap.parse", "peano/base_maps.py:BaseMap.__str__"]}
{"id": "C05", "title": "Enumeration of base maps is exact", "statement": "BaseMap.gen_base_maps(dim, time_rev) yields every isometry of the cube (with the requested time reversal, or both) exactly once; there are dim! * 2**dim per time direction.", "quantifier": "every dimension and each of the three settings of time_rev", "why_tests_cant": "Dimension is unbounded.", "anchors": ["peano/base_maps.py:BaseMap.gen_base_maps"]}
{"id": "C06", "title": "Constrained enumeration is exact", "statement": "BaseMap.gen_constraint_fast(src, dst) yields exactly the base maps without time reversal that send src to dst, each once.", "quantifier": "every dimension and every pair of rational points", "why_tests_cant": "The tests use four pairs of points.", "anchors": ["peano/base_maps.py:BaseMap.gen_constraint_fast"]}
{"id": "C07", "title": "Object and result caches are transparent", "statement": "Whatever sequence of base-map and spec constructions, products, inverses and identity requests has been made before, each operation returns the value the uncached formula gives.", "quantifier": "every finite history of cached operations", "why_tests_cant": "Caches are process-global; the property is about every history.", "anchors": ["peano/base_maps.py:BaseMap.__new__", "peano/base_maps.py:BaseMap.__mul__", "peano/base_maps.py:BaseMap.get_inverse", "peano/base_maps.py:BaseMap.id_map", "peano/base_maps.py:Spec.__new__"]}
{"id": "C08", "title": "Base maps act by isometries of the cube", "statement": "apply_x maps the cube [0,mx]^d onto itself and preserves the l1, l2 and linf distances; apply_vec is its linear part; apply_cube/apply_cube_start send a sub-cube to exactly the sub-cube that is the image of its points; apply_cnum/apply_t act compatibly on fractions of time.", "quantifier": "every base map, every point and every sub-cube of every grid", "why_tests_cant": "Continuum of points.", "anchors": ["peano/base_maps.py:BaseMap.apply_x", "peano/base_maps.py:BaseMap.apply_vec", "peano/base_maps.py:BaseMap.apply_cube", "peano/base_maps.py:BaseMap.apply_cube_start", "peano/base_maps.py:BaseMap.apply_cnum"]}
{"id": "C09", "title": "Spec algebra", "statement": "Specs and base maps compose as actions: (S1*S2)*curve = S1*(S2*curve), (bm*S)*curve = bm*(S*curve), (S*bm)*curve = S*(bm*curve); the product of specs is associative and the pattern number of a product is that of its leftmost spec. Spec.parse(str(S)) == S.", "quantifier": "all specs, base maps and curves; all pattern numbers for the text form", "why_tests_cant": "Infinite domain; tests use a few curves.", "anchors": ["peano/base_maps.py:Spec.__mul__", "peano/base_maps.py:Spec.__rmul__", "peano/base_maps.py:Spec.parse", "peano/base_maps.py:Spec.__str__"]}
{"id": "C10", "title": "Base maps act on curves", "statement": "id*curve = curve, (A*B)*curve = A*(B*curve), ~~curve = curve, also for partially specified curves and path-fuzzy curves (including their allowed specs), so applying a sequence of base maps with unit product changes nothing.", "quantifier": "all curves (full, fuzzy, path-fuzzy), all base maps", "why_tests_cant": "Tests check a few products on the zoo.", "anchors": ["peano/curves.py:FuzzyCurve.__rmul__", "peano/curves.py:FuzzyCurve._apply_cube_map", "peano/curves.py:FuzzyCurve.__invert__", "peano/curves.py:PathFuzzyCurve.__invert__", "peano/curves.py:PathFuzzyCurve._apply_cube_map"]}
{"id": "C11", "title": "Deep specs describe the actual sub-curves", "statement": "For every curve, pattern and nested sequence of cube numbers, get_deep_spec returns the spec X such that the curve restricted to that time fraction is the image of X*curve scaled to the fraction; in particular C.specs[cnum]*C == (composed spec)*curve for C = spec*curve.", "quantifier": "all curves, all specs, all nested sequences of any depth", "why_tests_cant": "Depth is unbounded.", "anchors": ["peano/curves.py:FuzzyCurve._compose_specs", "peano/curves.py:FuzzyCurve.get_deep_spec"]}
{"id": "C12", "title": "check() decides whether the patterns define curves", "statement": "For a fully specified curve with div >= 2, check() succeeds if and only if there is a tuple of maps f_p:[0,1]->[0,1]^d satisfying the self-similarity equations given by prototypes and specs; that tuple is then unique and every f_p is continuous.", "quantifier": "all fully specified multifractal curves of every dimension, div and multiplicity", "why_tests_cant": "The statement is about maps on a continuum and about all curves.", "anchors": ["peano/curves.py:Curve.check", "peano/curves.py:Curve.get_paths", "peano/paths.py:Path.is_continuous"]}
{"id": "C13", "title": "Curves fill the cube", "statement": "If check() succeeds and every prototype visits all div**dim cubes, then each f_p is a surjection of [0,1] onto [0,1]^d.", "quantifier": "all checked curves with full prototypes", "why_tests_cant": "Continuum of target points.", "anchors": ["peano/curves.py:Curve", "peano/curves.py:Curve.check"]}
{"id": "C14", "title": "Entrance and exit are f(0) and f(1)", "statement": "get_entrance(pnum) and get_exit(pnum) terminate and return exactly f_pnum(0) and f_pnum(1).", "quantifier": "all fully specified curves with div >= 2, all patterns", "why_tests_cant": "The period of the orbit of specs is not bounded by a small constant.", "anchors": ["peano/curves.py:FuzzyCurve.get_entrance", "peano/curves.py:FuzzyCurve.get_exit", "peano/curves.py:FuzzyCurve._get_cube_limit"]}
{"id": "C15", "title": "Face moments are exact", "statement": "get_face_moment(face) is the least (last=True: greatest) time at which the curve touches the face, with find_point the returned point is the curve point at that time and lies on the face; get_vertex_moments gives, for each vertex, the only time at which the curve is at that vertex.", "quantifier": "all realizable curves with full prototypes, all faces, both directions", "why_tests_cant": "First-touch is a statement about all earlier real times.", "anchors": ["peano/curves.py:FuzzyCurve.get_face_moment", "peano/curves.py:FuzzyCurve._get_face_cnum", "peano/curves.py:FuzzyCurve.get_vertex_moments"]}
{"id": "C16", "title": "Subdivision keeps the curve", "statement": "get_subdivision(k) has div N**(k+1), is realized by exactly the same maps f_p as the original, keeps full prototypes full, and get_subdivision(a).get_subdivision(b) has the same patterns as get_subdivision((a+1)*(b+1)-1).", "quantifier": "all curves and all k", "why_tests_cant": "k is unbounded; moreover the unit test compares with an == that cannot fail.", "anchors": ["peano/curves.py:Curve.get_subdivision"]}
{"id": "C17", "title": "Curve equality", "statement": "Two Curve objects compare equal with == exactly when they have the same patterns and the same selected pattern.", "quantifier": "all pairs of curves", "why_tests_cant": "Universal over pairs.", "anchors": ["peano/curves.py:Curve.__eq__"]}
{"id": "C18", "title": "Allowed specs are exactly those matching the links", "statement": "For a path-fuzzy curve built from continuous pointed paths and a group of base maps, gen_allowed_specs(pnum, cnum) at an undefined position yields exactly the specs (bm, pn) with bm in the group and bm*(global link of pn) equal to the link of the fraction, each exactly once and at least one; this stays true after applying base maps to the curve.", "quantifier": "all tuples of paths whose fraction links are images of the global links, all positions, all subgroups of base maps", "why_tests_cant": "Links are arbitrary rational points.", "anchors": ["peano/curves.py:PathFuzzyCurve.gen_allowed_specs", "peano/curves.py:PathFuzzyCurve.init_from_paths"]}
{"id": "C19", "title": "Possible curves of a path-fuzzy curve", "statement": "gen_possible_curves yields, without repetition, exactly the full curves with the same prototypes whose specs are allowed; count_possible_curves is their number; every one of them passes check() and has the prescribed entrances and exits; get_curve_example is one of them.", "quantifier": "all path-fuzzy curves built from continuous paths", "why_tests_cant": "The number of curves is exponential in the genus.", "anchors": ["peano/curves.py:FuzzyCurve.gen_possible_curves", "peano/curves.py:FuzzyCurve.count_possible_curves", "peano/curves.py:FuzzyCurve.get_curve_example"]}
{"id": "C20", "title": "specify narrows the class", "statement": "specify(pnum, cnum, spec) raises ValueError iff the spec is not allowed; otherwise the possible curves of the result are exactly the possible curves of the original that have this spec at this position.", "quantifier": "all path-fuzzy curves, positions, specs", "why_tests_cant": "Universal over classes of curves.", "anchors": ["peano/curves.py:FuzzyCurve.specify", "peano/curves.py:FuzzyCurve._specify_allowed"]}
{"id": "C21", "title": "Regular junctions are generated exactly", "statement": "For a checked curve gen_regular_junctions terminates and yields, without repetition, standardized junctions (spec1, spec2, delta_x) which, up to isometry and time reversal, are exactly the pairs of fractions adjacent in time in some subdivision (of any depth) of some pattern. Two junctions describing the same pair coincide unless both fractions use one pattern and exactly one is reversed in time.", "quantifier": "all checked curves; subdivisions of every depth", "why_tests_cant": "Depth is unbounded.", "anchors": ["peano/curves.py:Curve.gen_regular_junctions", "peano/curves.py:FuzzyCurve._gen_junctions_from_base", "peano/curves.py:FuzzyCurve._get_derived_junction", "peano/curves.py:RegularJunction"]}
{"id": "C22", "title": "Junction fractions touch", "statement": "For a checked curve every generated regular junction has delta_x a non-zero vector with entries in {-1,0,1}, first spec with trivial cube map, pnum1 <= pnum2, and the exit point of the first fraction equals the shifted entrance of the second.", "quantifier": "all checked curves with prototypes without repeated cubes, all junctions", "why_tests_cant": "Universal over curves and depth.", "anchors": ["peano/curves.py:RegularJunction.__init__", "peano/curves.py:FuzzyCurve._get_base_junction"]}
{"id": "C23", "title": "Junction depth", "statement": "The depth reported for each junction (and get_depth) is the least k such that the junction occurs in the k-th subdivision.", "quantifier": "all curves", "why_tests_cant": "Universal over curves; the order of exploration matters only on unusual junction graphs.", "anchors": ["peano/curves.py:FuzzyCurve._gen_junctions_from_base", "peano/curves.py:Curve.get_depth"]}
{"id": "C24", "title": "Junction templates characterize junctions", "statement": "For a fuzzy curve, a possible full curve has a regular junction if and only if it is consistent with one of the templates listed for it by get_junction_templates.", "quantifier": "all fuzzy curves with independent allowed specs, all possible full curves, all junctions", "why_tests_cant": "Exponentially many curves.", "anchors": ["peano/curves.py:FuzzyCurve.get_junction_templates"]}
{"id": "C25", "title": "Integer coordinates of nested fractions", "statement": "For nested cubes/cnums of any depth, the integer cube and integer time returned are the base-div / base-genus positional values, i.e. the fraction occupies exactly [x/div**l,(x+1)/div**l] and [t/genus**l,(t+1)/genus**l]; the values stay in range; caching does not change results.", "quantifier": "all dimensions, divs, depths", "why_tests_cant": "Depth is unbounded.", "anchors": ["peano/utils.py:get_int_cube_with_cache", "peano/utils.py:get_int_time_with_cache", "peano/dilation.py:_PiecePosition.get_int_coords"]}
{"id": "C26", "title": "Periodic sums", "statement": "get_periodic_sum(start, period, d) is the sum of the infinite series with digits start followed by period repeated forever, for base d >= 2 and non-empty period.", "quantifier": "all digit lists and all bases", "why_tests_cant": "Value of an infinite series.", "anchors": ["peano/utils.py:get_periodic_sum"]}
{"id": "C27", "title": "Least common multiple", "statement": "get_lcm(xs) is the least common multiple of the numbers.", "quantifier": "all finite sequences of positive integers", "why_tests_cant": "Unbounded sequences.", "anchors": ["peano/utils.py:get_lcm"]}
{"id": "C28", "title": "Faces are enumerated exactly", "statement": "gen_faces(dim, face_dim) yields exactly the tuples in {0,1,None}^dim with face_dim None entries, each once.", "quantifier": "all dim and face_dim <= dim", "why_tests_cant": "Unbounded dimension.", "anchors": ["peano/utils.py:gen_faces"]}
{"id": "C29", "title": "Product of combinations", "statement": "combinations_product(ids, pools) yields each choice of one element per position, from the pool of the position id, exactly once up to permuting the positions with equal ids, and nothing else.", "quantifier": "all id sequences and pools without repetitions", "why_tests_cant": "Unbounded sequences.", "anchors": ["peano/utils.py:combinations_product"]}
{"id": "C30", "title": "Ratio functions", "statement": "ratio_l1, ratio_linf, ratio_l2 (even d) and ratio_l2_squared are invariant under scaling space by k and time by k**d, monotone in the absolute values of coordinates, antitone in the time difference, and invariant under cube isometries.", "quantifier": "all vectors, times, scale factors, dimensions", "why_tests_cant": "Continuum of arguments.", "anchors": ["peano/utils.py:ratio_l1", "peano/utils.py:ratio_l2", "peano/utils.py:ratio_l2_squared", "peano/utils.py:ratio_linf"]}
{"id": "C31", "title": "Neighbours and fractions of a point", "statement": "Point.gen_neighbours yields exactly the unit cubes other than the base one that contain the point, with its relative position in each; Point.divide(div) yields exactly the cubes of the div-grid of the unit cube that contain the point, with its relative position; map_to_cube inverts divide.", "quantifier": "all rational points (of the unit cube for divide), all div", "why_tests_cant": "Continuum of points.", "anchors": ["peano/subsets.py:Point.gen_neighbours", "peano/subsets.py:Point.divide", "peano/subsets.py:Point._gen_integer_cubes", "peano/subsets.py:Point.map_to_cube"]}
{"id": "C32", "title": "Standard form of a point", "statement": "Point.std() is the lexicographic minimum of bm*point over all base maps, and argstd() yields exactly the base maps without time reversal that attain it.", "quantifier": "all rational points of every dimension", "why_tests_cant": "Continuum of points.", "anchors": ["peano/subsets.py:Point.std", "peano/subsets.py:Point.argstd"]}
{"id": "C33", "title": "Standard form of a gate", "statement": "For pointed links, Link.std() equals the minimum of bm*link over all base maps, so it is equal for two links iff one is the image of the other.", "quantifier": "all pairs of rational points", "why_tests_cant": "Continuum of points.", "anchors": ["peano/subsets.py:Link.std", "peano/subsets.py:Link.__rmul__"]}
{"id": "C34", "title": "Facet subsets denote sets", "statement": "For FacetDivSubset: two of them intersect (intersects) iff the point sets they denote intersect, in which case one contains the other; bm*S, map_to_cube, divide and gen_neighbours denote the image, the placement, the non-empty fractions and the neighbouring portion of the set.", "quantifier": "all dims, divs, facets, nested cube sequences", "why_tests_cant": "Continuum of points, unbounded nesting.", "anchors": ["peano/subsets.py:FacetDivSubset.intersects", "peano/subsets.py:FacetDivSubset.__rmul__", "peano/subsets.py:FacetDivSubset.map_to_cube", "peano/subsets.py:FacetDivSubset.divide", "peano/subsets.py:FacetDivSubset.gen_neighbours"]}
{"id": "C35", "title": "Intersecting base maps", "statement": "Link.argmul_intersect(other) yields exactly the base maps bm (with and without time reversal) such that bm*link intersects other, each once.", "quantifier": "all links of points or facet subsets", "why_tests_cant": "Infinite domain.", "anchors": ["peano/subsets.py:Link.argmul_intersect", "peano/subsets.py:Subset.argmul_intersect", "peano/subsets.py:FacetDivSubset.argmul_intersect"]}
{"id": "C36", "title": "Chain code round-trips", "statement": "For every full prototype of dimension 1..6 whose consecutive cubes are neighbours (differ by at most 1 in each coordinate) Proto.parse(str(proto)) == proto; in particular parsing normalizes the position so that the lowest cube is at the origin.", "quantifier": "all such prototypes", "why_tests_cant": "Infinitely many prototypes.", "anchors": ["peano/paths.py:Proto.parse", "peano/paths.py:Proto.__str__"]}
{"id": "C37", "title": "Base maps act on paths", "statement": "For pointed paths, (bm*path).link == bm*(path.link), bm*path is continuous iff path is, (A*B)*path = A*(B*path), ~~path = path.", "quantifier": "all paths, all base maps", "why_tests_cant": "Infinite domain.", "anchors": ["peano/paths.py:Path.__rmul__", "peano/paths.py:Path.__invert__", "peano/paths.py:Path.is_continuous", "peano/paths.py:Proto.__rmul__"]}
{"id": "C38", "title": "Cube path search is exact", "statement": "CubePathTree.grow(start, finish) yields exactly the sequences of (cube, state) nodes that visit every cube of the grid once, begin at a start node, end at a finish node and follow next_func, each once, whatever the tuning limits and whatever the hash function does (grids with at least two cubes, prev_func the reverse of next_func).", "quantifier": "all dims, divs, transition relations, start/finish sets, limits, hash functions", "why_tests_cant": "Search space is exponential and hash collisions cannot be provoked in tests.", "anchors": ["peano/_cube_path_trees.py:CubePathTree.grow", "peano/_cube_path_trees.py:CubePathTree._width_search", "peano/_cube_path_trees.py:CubePathTree._depth_search", "peano/_cube_path_trees.py:CubePathTree._check_glue", "peano/_cube_path_trees.py:CubePathTree._glue_paths"]}
{"id": "C39", "title": "Path generation is exact", "statement": "For pointed links generate_paths_generic(link) yields exactly the continuous paths that visit every cube once, whose fraction links are images of the given links or their reverses, whose steps respect max_cdist and whose global link is the requested one, each once.", "quantifier": "all dims, divs with at least two cubes, link sets, max_cdist, limits", "why_tests_cant": "Exponential search space.", "anchors": ["peano/paths.py:PathsGenerator.generate_paths_generic", "peano/paths.py:PathsGenerator._init_exit2next", "peano/paths.py:PathsGenerator._init_entr2links"]}
{"id": "C40", "title": "Standardized path generation", "statement": "With std=True the generated paths are pairwise inequivalent under the base maps preserving the requested link, and every path produced without std is equivalent to exactly one of them.", "quantifier": "all pointed link sets", "why_tests_cant": "Universal over link sets.", "anchors": ["peano/paths.py:PathsGenerator.generate_paths_generic"]}
{"id": "C41", "title": "Bounded heap bookkeeping", "statement": "After any sequence of push / pop / update_good_threshold / pop_bad_items, the heap holds exactly the pushed items that were neither good nor bad nor popped; top/pop return an item with the greatest upper bound; every dropped item has up <= good threshold, every bad item has lo >= bad threshold; active items have up > good threshold; max_lo_item has the greatest lo among all items ever pushed; lowering the good threshold is rejected.", "quantifier": "all operation sequences", "why_tests_cant": "History dependent.", "anchors": ["peano/_bounded_items_heap.py:BoundedItemsHeap"]}
{"id": "C42", "title": "CNF encoding is faithful", "statement": "The clauses loaded for a fuzzy curve are satisfied exactly by the assignments describing a possible full curve: one true spec variable per position and junction variables true exactly for the junctions of that curve; add_forbid_clause excludes exactly the curves that have the junction and are consistent with the sub-curve. The integer clauses handed to the solver are equivalent to the symbolic ones.", "quantifier": "all fuzzy curves, all sequences of forbid clauses", "why_tests_cant": "Exponentially many assignments.", "anchors": ["peano/_sat_adapters.py:CurveSATAdapter._load_curve", "peano/_sat_adapters.py:CurveSATAdapter._make_only", "peano/_sat_adapters.py:CurveSATAdapter._make_curve_var", "peano/_sat_adapters.py:CurveSATAdapter._make_junc_var", "peano/_sat_adapters.py:CurveSATAdapter.add_forbid_clause", "peano/_sat_adapters.py:CurveSATAdapter._append_clause"]}
{"id": "C43", "title": "Model curves", "statement": "If the solver returns a model, get_model_curve returns a possible full curve of the loaded fuzzy curve that violates none of the forbidden (junction, sub-curve) configurations; it never raises; if the solver reports no model then every possible curve violates one.", "quantifier": "all fuzzy curves, all forbid sequences, every correct solver", "why_tests_cant": "Depends on the solver choice of model.", "anchors": ["peano/_sat_adapters.py:CurveSATAdapter.get_model_curve", "peano/_sat_adapters.py:CurveSATAdapter.solve"]}
{"id": "C44", "title": "Pair bounds are sound", "statement": "For every pair of fractions kept by the estimator, the computed lo is attained or exceeded by some pair of points of the two fractions and up is not exceeded by any pair of points; computing them never divides by zero and never hits the Unbalanced positions error.", "quantifier": "all checked full curves, all junctions, all pairs reached by any number of divisions, all four ratio functions", "why_tests_cant": "Continuum of points and unbounded depth.", "anchors": ["peano/dilation.py:Estimator._get_pos_bounds", "peano/dilation.py:Estimator._get_bounds"]}
{"id": "C45", "title": "Division of pairs covers", "statement": "Dividing a pair of fractions yields pairs whose point pairs are, for every full curve consistent with the pair, exactly the point pairs of the divided one; depths stay balanced (equal or first one deeper by one).", "quantifier": "all fuzzy curves, all pairs, all consistent full curves", "why_tests_cant": "Universal over classes of curves.", "anchors": ["peano/dilation.py:_CurvePiece.divide", "peano/dilation.py:_CurvePiecePair.divide_balanced"]}
{"id": "C46", "title": "estimate_dilation_regular is sound", "statement": "Whenever it returns, lo <= dilation <= up, where dilation is the supremum over all patterns and all times s<t of ||f(s)-f(t)||^d/(t-s); with the relative tolerance as the only stopping rule up <= lo*(1+1/rel_tol_inv).", "quantifier": "all checked full curves with full prototypes, all parameters, all four ratio functions", "why_tests_cant": "Supremum over a continuum; any number of iterations.", "anchors": ["peano/dilation.py:Estimator.estimate_dilation_regular", "peano/dilation.py:Estimator._create_tree", "peano/dilation.py:Estimator._divide_tree"]}
{"id": "C47", "title": "bisect_dilation_fuzzy is sound", "statement": "If it returns a curve, that curve is possible for the fuzzy curve and its dilation is <= good_threshold; if it returns None, every possible curve has dilation >= bad_threshold.", "quantifier": "all fuzzy curves with independent specs whose possible curves are checked, all thresholds, all iteration limits, every correct SAT solver, every schedule of SAT calls", "why_tests_cant": "Exponentially many curves; depends on solver.", "anchors": ["peano/dilation.py:Estimator.bisect_dilation_fuzzy", "peano/dilation.py:Estimator._forbid"]}
{"id": "C48", "title": "bisect_dilation_fuzzy terminates", "statement": "With 0 < bad_threshold < good_threshold and no iteration limit the subdivision loop stops after finitely many iterations.", "quantifier": "all fuzzy curves as in C47, all thresholds", "why_tests_cant": "Non-termination is not observable by tests.", "anchors": ["peano/dilation.py:Estimator.bisect_dilation_fuzzy"]}
{"id": "C49", "title": "estimate_dilation_fuzzy is sound", "statement": "The returned lo, up satisfy lo <= min dilation over possible curves <= up and the returned curve is possible with dilation <= up, given sound optional starting bounds.", "quantifier": "all fuzzy curves as in C47, all parameters", "why_tests_cant": "As C47.", "anchors": ["peano/dilation.py:Estimator.estimate_dilation_fuzzy"]}
{"id": "C50", "title": "estimate_dilation_sequence is sound", "statement": "The returned lo, up bound the minimal dilation over all possible curves of all fuzzy curves in the sequence (if the a-priori upper bound, when given, is true for some curve or absent), the listed indices are valid and distinct, every curve not listed has all its dilations above up, each listed example belongs to the fuzzy curve at its index and (without iteration limit) has dilation in [lo, up*(1+1/rel_tol_inv_mult)]; None is returned only if every curve exceeds the a-priori bound or there are no curves.", "quantifier": "all finite sequences of fuzzy curves, all parameters, all numbers of epochs", "why_tests_cant": "As C47.", "anchors": ["peano/dilation.py:Estimator.estimate_dilation_sequence"]}
{"id": "C51", "title": "Emitted gates are valid", "statement": "Every gate tuple emitted by GatesGenerator.gen_gates is a sorted tuple of standard gates lying on the cube boundary (facet interiors with only_facet), is emitted once, and for each gate there is a continuous full path built from images of these gates.", "quantifier": "all dim, div, mult", "why_tests_cant": "Infinite configurations.", "anchors": ["peano/gates.py:GatesGenerator._check_and_std", "peano/gates.py:GatesGenerator.gen_gates"]}
{"id": "C52", "title": "Gate generation is complete", "statement": "The gates (in standard form, sorted) of every checked multifractal curve of the given dim, div, mult whose entrances and exits all lie on the cube boundary are emitted by gen_gates.", "quantifier": "all such curves", "why_tests_cant": "Infinitely many curves to compare with.", "anchors": ["peano/gates.py:GatesGenerator._gen_all_gates", "peano/gates.py:GatesGenerator._check_variants"]}
{"id": "C53", "title": "Search script reports absence", "statement": "run_search reports NOT FOUND when no curve meets the upper bound.", "quantifier": "all configurations where the estimate returns None", "why_tests_cant": "Universal over configurations.", "anchors": ["search.py:run_search"]}
{"id": "C54", "title": "Bounds cache is transparent", "statement": "The estimator results do not depend on the contents or size of the memoized pair-bounds cache left by earlier estimates of any curves.", "quantifier": "all call histories and cache sizes", "why_tests_cant": "History dependent.", "anchors": ["peano/dilation.py:Estimator.__init__", "peano/dilation.py:Estimator._get_pos_bounds"]}
{"id": "C55", "title": "argmax attains lo", "statement": "With use_face_moments the returned argmax is a pair of points on the graph of the junction configuration, and the ratio at it equals the returned lo.", "quantifier": "all checked curves and parameters", "why_tests_cant": "Continuum.", "anchors": ["peano/dilation.py:Estimator._get_pos_bounds", "peano/dilation.py:Estimator.estimate_dilation_regular"]}
{"id": "C56", "title": "forget keeps the curve", "statement": "For a checked curve whose gates determine its links, the curve itself is one of the possible curves of curve.forget() and all possible curves of forget() have the same prototypes, entrances and exits.", "quantifier": "all checked curves", "why_tests_cant": "Universal.", "anchors": ["peano/curves.py:Curve.forget", "peano/curves.py:Curve.get_paths"]}
{"id": "C57", "title": "The zoo is valid", "statement": "Every curve of the zoo has full prototypes, valid specs and passes check(), so that all theorems about checked curves apply to it.", "quantifier": "the finite table of zoo curves", "why_tests_cant": "A finite table, but the notion of validity is about real curves.", "anchors": ["peano/zoo.py:get_all_curves"]}
{"id": "C58", "title": "Dilation is attained", "statement": "For a checked curve the supremum defining the dilation is attained at some pair of times (as README states).", "quantifier": "all checked curves, all four ratios", "why_tests_cant": "Continuum.", "anchors": ["README.md", "peano/dilation.py:Estimator"]}
{"id": "C59", "title": "estimate_dilation_regular terminates", "statement": "With a positive rel_tol_inv (and any other parameters) estimate_dilation_regular returns after finitely many iterations; with max_iter it returns after at most max_iter divisions.", "quantifier": "all checked full curves, all parameters, all four ratio functions", "why_tests_cant": "Non-termination is not observable by tests.", "anchors": ["peano/dilation.py:Estimator.estimate_dilation_regular"]}
{"id": "C60", "title": "max_depth gives exact lower bounds", "statement": "If max_depth is the only stopping rule of estimate_dilation_regular, the returned lo is not below the lower bound of any pair of fractions of depth <= max_depth; so if one of these bounds is the dilation then lo is exact.", "quantifier": "all checked full curves, all max_depth, all pairs of fractions up to this depth, also those that the estimator has discarded", "why_tests_cant": "Universal over curves and depth; the estimator drops most pairs.", "anchors": ["peano/dilation.py:Estimator.estimate_dilation_regular"]}
{"id": "C61", "title": "estimate_dilation_fuzzy terminates", "statement": "With a positive rel_tol_inv, a non-negative start_lower_bound (if given) and a start_upper_bound (if given) reached by some possible curve, estimate_dilation_fuzzy returns after finitely many bisections, each of finitely many iterations.", "quantifier": "all fuzzy curves as in C47, all parameters, every correct SAT solver and schedule of calls", "why_tests_cant": "Non-termination is not observable by tests.", "anchors": ["peano/dilation.py:Estimator.estimate_dilation_fuzzy", "peano/dilation.py:Estimator.bisect_dilation_fuzzy"]}
{"id": "C62", "title": "estimate_dilation_sequence terminates", "statement": "Without an iteration limit, with a positive rel_tol_inv and rel_tol_inv_mult >= 2, estimate_dilation_sequence returns after finitely many epochs.", "quantifier": "all finite sequences of fuzzy curves as in C47, every upper bound, every correct SAT solver and schedule of calls", "why_tests_cant": "Non-termination is not observable by tests.", "anchors": ["peano/dilation.py:Estimator.estimate_dilation_sequence"]}
{"id": "C63", "title": "generate_paths yields every tuple of paths", "statement": "PathsGenerator.generate_paths(std=False) yields, without repetition, exactly the tuples of valid continuous paths for the tuple of links; with std=True it yields valid tuples only, without repetition, and exactly one tuple from every class of tuples that differ by symmetries of the links and by permutations of paths with equal links.", "quantifier": "all dim, div, max_cdist, all tuples of links with point ends, all limits of the tree search", "why_tests_cant": "Universal over the exponentially many paths.", "anchors": ["peano/paths.py:PathsGenerator.generate_paths"]}
{"id": "C64", "title": "The search covers all curves", "statement": "run_search without explicit gates: the reported lo is not greater than the dilation of any checked curve with full prototypes of the given dim, div, mult (and max_cdist, if given) whose entrances and exits lie on the cube boundary; with explicit gates, the same for curves with these gates; with facet_gated, the same for curves with entrances and exits strictly inside facets; the printed curves are such curves; the reported up is the dilation bound of one such curve (or the given upper bound); up <= lo*(1+1/rel_tol_inv); if the estimate finds nothing then all such curves exceed the upper bound.", "quantifier": "all dim, div, mult, tolerances, ratio functions, every correct SAT solver; all curves with boundary gates, whatever their orientation and numbering of patterns", "why_tests_cant": "Universal over infinite families of curves.", "anchors": ["search.py:run_search", "peano/gates.py:GatesGenerator.gen_gates", "peano/paths.py:PathsGenerator.generate_paths", "peano/dilation.py:Estimator.estimate_dilation_sequence"]}
{"id": "C65", "title": "Paths with facet links and refinements of a parent path", "statement": "For links given by facets (or nested cubes of facets), PathsGenerator.generate_paths_generic and generate_paths never raise and yield, each once, exactly the paths through all cubes whose fraction links are images of the given links, whose consecutive fractions have a common boundary point and which agree with the requested global link; with a parent path they yield exactly the paths with the same cubes whose links are compatible with those of the parent; with std=True exactly one of each class under the symmetries of the link or parent; get_paths_example returns None exactly if some restriction has no path.", "quantifier": "all dim, div, max_cdist, facet links, parent paths, limits of the tree search", "why_tests_cant": "Universal over the exponentially many paths.", "anchors": ["peano/paths.py:PathsGenerator.generate_paths_generic", "peano/paths.py:PathsGenerator.generate_paths", "peano/paths.py:PathsGenerator.get_paths_example"]}
{"id": "C66", "title": "The facet gates are complete", "statement": "In dimension at least 2 GatesGenerator(dim, div, mult, only_facet=True).gen_gates() emits the gates of every valid curve of the configuration whose entrances and exits are strictly inside facets: exactly one emitted tuple equals them up to order and symmetries, and it is the tuple emitted with only_facet=False.", "quantifier": "all dim >= 2, div, mult; all checked full curves of the configuration with gates inside facets", "why_tests_cant": "The curves form an infinite family; a missed refinement of a facet link would silently lose gates.", "anchors": ["peano/gates.py:GatesGenerator.gen_gates", "peano/gates.py:GatesGenerator._gen_facet_gates", "peano/gates.py:GatesGenerator._gen_narrow_links"]}
{"id": "C67", "title": "Texts of points and gates can be read back", "statement": "Point.parse(str(p)) == p and Link.parse_gates(str(link)) == link, with any white space around; so what search.py prints with --output-gates, used as --gates-file, gives the same search as without it.", "quantifier": "all points and gates with rational coordinates in dimension >= 1; all configurations of the search", "why_tests_cant": "Infinitely many rationals and configurations.", "anchors": ["peano/subsets.py:Point.parse", "peano/subsets.py:Point.__str__", "peano/subsets.py:Link.parse_gates", "peano/subsets.py:Link.__str__", "search.py"]}
{"id": "C68", "title": "The command line means what it says", "statement": "search.py --dim D --mult M --div N --metric X [--upper-bound U] [--max-cdist ...] [--facet-gated | --gates ...] ends, and reports bounds that are right (in the sense of C64) for the metric X, the bound U and these parameters; l2 in odd dimension and a missing metric are refused; --gates overrides --gates-file.", "quantifier": "all values of the arguments", "why_tests_cant": "Universal over configurations; the report is about infinite families of curves.", "anchors": ["search.py"]}
{"id": "C69", "title": "Printed curves can be read back", "statement": "str(curve) consists of lines \"@number: chain | specs\", and Curve.parse of the pairs (chain, specs) gives a curve with the same prototypes and specs; different curves have different texts.", "quantifier": "all checked full curves of dimension 1..6 with at most 10 patterns", "why_tests_cant": "Universal over curves.", "anchors": ["peano/curves.py:FuzzyCurve.__str__", "peano/curves.py:Pattern.__str__", "peano/curves.py:Pattern.parse", "peano/curves.py:Curve.parse"]}
{"id": "C70", "title": "The information in the zoo is right", "statement": "The gates declared in the zoo are the points where the curves start and end; the declared moments are the first (last) times when the curve is on the faces of the given dimension; the declared depth is the least depth of a subdivision where all pairs of neighbouring fractions are met; the declared number of junctions is the number of these pairs up to isometry and time reversal.", "quantifier": "the table of zoo curves; all times, all subdivisions of these curves", "why_tests_cant": "The table is finite, but the claims are about real functions of real time and about subdivisions of all depths.", "anchors": ["peano/zoo.py:get_all_curves", "peano/zoo.py:CurveInfo"]}
{"id": "C71", "title": "YE-proof.py proves what it prints", "statement": "check_genus5_non_ye always returns bounds lo, up that are right for all curves with gates (0,0)->(1,0), grid 5x5, one pattern, without diagonal steps, whose order of cubes is not that of YE up to symmetry; check_genus5_ye_proto never fails its assertion and returns bounds that are right for all such curves with the order of cubes of YE that are not YE itself as functions up to symmetry; so any such curve but YE has a dilation of at least the smaller lo; check_ye returns bounds of the dilation of YE, lo being attained; the other searches of the script are right in the sense of C64.", "quantifier": "all curves of these kinds, every correct SAT solver, heap, hash and schedule of calls; all four ratio functions", "why_tests_cant": "The claim is about all curves of a family; the correctness of the filtering by prototypes and of the list of test curves is a mathematical statement.", "anchors": ["YE-proof.py:check_genus5_non_ye", "YE-proof.py:check_genus5_ye_proto", "YE-proof.py:check_ye", "YE-proof.py:main"]}
{"id": "C72", "title": "Pictures show the curve", "statement": "plot_curve of a curve of dimension 2 or 3 with at most four patterns does not fail, for every value of subdivision and separate; the axes have different places in the figure; the line of each pattern passes through the centres of the cubes of the subdivided curve in the order of the curve, is drawn in the colors of the patterns that the fractions are copies of, connected between fractions, and ends with an arrow; the prototype is drawn through the centres of its cubes; names and titles of patterns are shown where they belong. With more than four patterns it raises IndexError.", "quantifier": "all full curves of dimension 2 and 3, all numbers of subdivisions", "why_tests_cant": "Universal over curves and depths; pictures are usually checked by eye.", "anchors": ["plots.py:plot_curve", "plots.py:draw_lines", "plots.py:get_arr"]}
{"id": "C73", "title": "The dilations in the zoo are right", "statement": "For every curve of the zoo and every declared metric, the supremum of |f_p(s)-f_p(t)|^d/|s-t| over all patterns p and all pairs of times s < t is the declared number, or lies between the two declared numbers. The values in the comments are right as well: 1533*sqrt(6)/221 for the spring curve, and 1920/31 (in the source with a question mark) for the 4d curve.", "quantifier": "the table of zoo curves; all real pairs of times of all patterns", "why_tests_cant": "The table is finite, but the dilation is a supremum over a continuum of pairs of times; tests only see bounds with a relative error.", "anchors": ["peano/zoo.py:get_all_curves", "peano/zoo.py:CurveInfo", "peano/zoo.py:get_spring_curve", "peano/zoo.py:get_4d_facet_gated_curve"]}
{"id": "C74", "title": "Gates of curves with one pattern", "statement": "In dimension at least two the entrance and the exit of every curve with one pattern are on the boundary of the cube, so the search with generated gates loses no curve. Every plane curve with one pattern, on a grid of any size, has up to symmetry exactly one of the gates (0,0)->(1,0), (0,0)->(1,1), (0,0)->(1,1/2), and the second one occurs on grids with odd side only, as the script YE-proof.py prints; the generator of gates emits nothing else.", "quantifier": "all grids, all plane curves with one pattern (all dimensions for the first part), with and without diagonal steps", "why_tests_cant": "The claim is about infinitely many curves on grids of all sizes; a script can only list gates for a few sizes.", "anchors": ["YE-proof.py:main", "gates.py:GatesGenerator.gen_gates", "search.py:run_search"]}
{"id": "C75", "title": "Curves with gates inside the cube are not needed", "statement": "A pattern whose entrance or exit is strictly inside the cube can be used only by patterns of the same kind, in their first or last fraction. Hence in dimension at least two for every curve there is a curve with the same number of patterns, made of its patterns, with all gates on the boundary and with dilation not greater, in any metric. So the search with generated gates gives a lower bound for all curves, although curves with gates inside the cube (which exist for two patterns and more) are not considered; and if nothing is found, no curve at all meets the upper bound.", "quantifier": "every full curve with every number of patterns, grid and dimension at least two; every run of the search without given gates and every command line without gates", "why_tests_cant": "The restriction to gates on the boundary is justified by a comment in the code; curves with gates inside the cube are never generated, so no run can show that nothing better is lost.", "anchors": ["peano/gates.py:GatesGenerator.gen_gates", "search.py:run_search"]}
{"id": "C76", "title": "The table of least dilations", "statement": "The numbers in the table of plane curves with one pattern in results.md are right: for each given grid (2 to 6), kind of gates, restriction on steps and metric, some curve of the row has the least dilation among all curves of the row, and the shown decimal is its value with the further digits cut off (26 of the entries; the exact values are rationals such as 408/73, 90/17, 183/28). There are no curves from a vertex to the middle of a side on grids 2 and 3. The search for a row, with the gate given and without an upper bound, ends and prints one interval, which contains this value.", "quantifier": "all plane curves with one pattern on these grids, with all choices of orientations; all pairs of times; every correct SAT solver, heap, hash, tolerance", "why_tests_cant": "The numbers were found by runs of an approximate search; that no curve does better is a claim about all curves, and the exact values are suprema over a continuum.", "anchors": ["results.md", "search.py:run_search", "peano/dilation.py:Estimator.estimate_dilation_sequence"]}
{"id": "C77", "title": "YE is the best plane curve", "statement": "The Euclidean dilation of YE is 408/73, and every other plane curve with one pattern on a grid up to 6x6 (without diagonal steps on grids 5 and 6) that is not YE up to symmetry has dilation at least 45/8, which is more; this bound is attained. For side curves on grid 5 without diagonal steps, the least dilation of the curves with another order of cubes than YE is 75/13, and the least dilation of the other curves with the order of YE is 96/17. So YE-proof.py always succeeds: all its searches print a report, its checks never fail, every lower bound printed for the other curves is greater than 408/73, and the bounds printed by the two checks are on both sides of 75/13 and of 96/17.", "quantifier": "all plane curves with one pattern on these grids; every correct SAT solver, heap, hash and schedule of calls", "why_tests_cant": "The script is a computer-assisted proof; that it succeeds whatever the solver and the order of work are cannot be seen from one run.", "anchors": ["YE-proof.py:main", "YE-proof.py:check_genus5_non_ye", "YE-proof.py:check_genus5_ye_proto", "peano/zoo.py:get_ye_curve"]}
{"id": "C78", "title": "The table of curves with two patterns", "statement": "The table of plane curves with two patterns on the grid 2x2 in results.md is right and complete: GatesGenerator emits exactly the gates of its nine rows, so every such curve with gates on the boundary belongs to exactly one row up to symmetries; for each row and metric (l1, l2, linf) some curve of the row has the least dilation, and the shown decimal is this value with the further digits cut off. The least dilations of all plane curves with two patterns on this grid, wherever they start and end, are 9, 5 and 5. The search reports bounds on both sides of these values, close to them.", "quantifier": "all plane curves with two patterns on the grid 2x2, with all choices of paths and orientations; all pairs of times; every correct SAT solver, heap, hash, tolerance", "why_tests_cant": "The numbers were found by runs of an approximate search; completeness of the rows and minimality are claims about all curves, and the exact values are suprema over a continuum.", "anchors": ["results.md", "search.py:run_search", "peano/gates.py:GatesGenerator.gen_gates", "peano/dilation.py:Estimator.estimate_dilation_sequence"]}
{"id": "C79", "title": "Patterns that are curves by themselves; curves with two patterns on the grid 3x3", "statement": "If the entrance and the exit of a pattern of a curve are vertices of the cube and no entrance or exit of another pattern is a vertex, then every spec of the pattern refers to the pattern itself, so the pattern alone is a valid curve with the same gates and its dilation is at most that of the whole curve. The rows of results.md (2D bifractals, div=3) with gates (0,1/3)->.. and (0,1/4)->.. show the least dilations over all curves with these gates; the row with the gate (0,0)->(0,1) twice is wrong (its numbers 6.25 and 9.8 are not least dilations).", "quantifier": "all curves of any dimension, grid and number of patterns; for the rows: all plane curves with two patterns on the grid 3x3 with the given gates", "why_tests_cant": "The statements range over all curves, paths and orientations, and dilations are suprema over a continuum.", "anchors": ["results.md", "search.py:run_search", "peano/curves.py:Curve", "peano/curves.py:FuzzyCurve.get_entrance", "peano/gates.py:GatesGenerator"]}
{"id": "C82", "title": "The log of the computer-assisted proof is right", "statement": "Each of the seven reports of searches in logs/ye-proof.log is right: no curve of the search (plane curves with one pattern on the given grid, with the given gates and steps) has Euclidean dilation below the printed lo; up is close to lo as the tolerance demands; and each of the eleven printed curves, read from its printed text, is a curve of the search with dilation at most up. Moreover each of them is optimal: no curve of the search has less dilation. For the two checks of side curves on grid 5: the printed lo and up are on both sides of the least dilation of the checked curves and close as the tolerance demands. For the check of YE: at the printed times 13/75 and 5/12 the curve is at the printed points, their ratio is exactly the printed lo = 408/73, and no pair of times has a greater ratio.", "quantifier": "all curves of the seven searches; all pairs of times of the printed curves", "why_tests_cant": "The log is the output of one run of an approximate search; that its bounds are right and its curves are optimal is a claim about all curves and a continuum of times.", "anchors": ["logs/ye-proof.log", "YE-proof.py:main", "YE-proof.py:check_ye", "search.py:run_search", "peano/curves.py:Curve.parse"]}
{"id": "C83", "title": "The heaps of the standard library meet the contract", "statement": "heappush and heappop of CPython keep the heap property, add and remove exactly the given item, and heappop returns an item that no other item of the heap is less than; so items that are pushed and then popped come out sorted, each once. This holds for the nodes of BoundedItemsHeap and for the items of estimate_dilation_sequence, whose comparison is a strict weak order; so everything proved for heaps that meet the contract holds for these heaps.", "quantifier": "every heap and item, every strict weak order", "why_tests_cant": "Universal over histories of pushes and pops.", "anchors": ["peano/_bounded_items_heap.py:BoundedItemsHeap", "peano/dilation.py:Estimator.estimate_dilation_sequence"]}
{"id": "C84", "title": "Exact list of gates of plane curves with one pattern", "statement": "For dim=2, mult=1 on the grids from 2x2 to 6x6 GatesGenerator.gen_gates returns exactly these gates, each once: (0,0)->(0,1) always, (0,0)->(1,1) on the odd grids 3 and 5, (0,0)->(1/2,1) on the grids 4, 5, 6. So gates_count in every report of run_search without given gates is 1, 2, 2, 3, 2 on these grids (the first three are the numbers in logs/ye-proof.log), grouped by gates or not; and with output_gates exactly these gates are printed.", "quantifier": "the grids from 2x2 to 6x6, every order of the sets, every max_cdist, solver, heap and fuel", "why_tests_cant": "The sets are ordered by hashes; completeness is a statement about all curves, not only about those tried.", "anchors": ["peano/gates.py:GatesGenerator.gen_gates", "search.py:run_search", "logs/ye-proof.log"]}
