{
 "claims": [
  {
   "property": "C01",
   "status": "proved",
   "theorems": [
    "Peano.BaseMap.C01_mul_is_composition",
    "Peano.BaseMap.C01_mul_assoc_unit",
    "Peano.BaseMap.C01_raw_refinement"
   ],
   "note": ""
  },
  {
   "property": "C02",
   "status": "proved",
   "theorems": [
    "Peano.BaseMap.C02_inverse",
    "Peano.BaseMap.C02_time_reversal",
    "Peano.BaseMap.C02_conjugate"
   ],
   "note": ""
  },
  {
   "property": "C03",
   "status": "partial",
   "theorems": [
    "Peano.BaseMap.C03_pow_partial",
    "Peano.BaseMap.C03_pow_zero_diverges"
   ],
   "note": "All non-zero exponents. For exponent 0 the code recurses forever; C03_pow_zero_diverges proves that."
  },
  {
   "property": "C04",
   "status": "proved",
   "theorems": [
    "Peano.BaseMap.C04_parse_str",
    "Peano.BaseMap.C04_letters"
   ],
   "note": ""
  },
  {
   "property": "C05",
   "status": "proved",
   "theorems": [
    "Peano.BaseMap.C05_gen_base_maps_complete",
    "Peano.BaseMap.C05_gen_base_maps_once",
    "Peano.BaseMap.C05_gen_base_maps_isometries"
   ],
   "note": ""
  },
  {
   "property": "C06",
   "status": "proved",
   "theorems": [
    "Peano.BaseMap.C06_gen_constraint_fast_exact"
   ],
   "note": ""
  },
  {
   "property": "C07",
   "status": "proved",
   "theorems": [
    "Peano.Caches.C07_caches_transparent",
    "Peano.Caches.C07_hash_consing"
   ],
   "note": ""
  },
  {
   "property": "C08",
   "status": "proved",
   "theorems": [
    "Peano.BaseMap.C08_cube_onto",
    "Peano.BaseMap.C08_isometry",
    "Peano.BaseMap.C08_linear_part",
    "Peano.BaseMap.C08_apply_cube",
    "Peano.BaseMap.C08_apply_cube_start",
    "Peano.BaseMap.C08_apply_cnum"
   ],
   "note": ""
  },
  {
   "property": "C09",
   "status": "partial",
   "theorems": [
    "Peano.Spec.C09_act_mul",
    "Peano.Spec.C09_act_rmul",
    "Peano.Spec.C09_act_mul_baseMap",
    "Peano.Spec.C09_mul_assoc",
    "Peano.Spec.C09_act_meaning",
    "Peano.Spec.C09_parse_str_partial",
    "Peano.Spec.C09_parse_str_fails"
   ],
   "note": "Text round trip: proved for pattern numbers below 10, refuted for larger ones (C09_parse_str_fails)."
  },
  {
   "property": "C10",
   "status": "proved",
   "theorems": [
    "Peano.FCurve.C10_action",
    "Peano.FCurve.C10_unit_product",
    "Peano.FCurve.C10_act_meaning",
    "Peano.FCurve.C10_allowed_specs"
   ],
   "note": ""
  },
  {
   "property": "C11",
   "status": "proved",
   "theorems": [
    "Peano.FCurve.C11_compose",
    "Peano.FCurve.C11_deep_spec"
   ],
   "note": ""
  },
  {
   "property": "C12",
   "status": "proved",
   "theorems": [
    "Peano.FCurve.C12_check_iff",
    "Peano.FCurve.C12_unique",
    "Peano.FCurve.C12_continuous"
   ],
   "note": ""
  },
  {
   "property": "C13",
   "status": "proved",
   "theorems": [
    "Peano.FCurve.C13_surjective"
   ],
   "note": ""
  },
  {
   "property": "C14",
   "status": "proved",
   "theorems": [
    "Peano.FCurve.C14_entrance_exit"
   ],
   "note": ""
  },
  {
   "property": "C15",
   "status": "proved",
   "theorems": [
    "Peano.FCurve.C15_first_moment",
    "Peano.FCurve.C15_last_moment",
    "Peano.FCurve.C15_vertex_moments"
   ],
   "note": ""
  },
  {
   "property": "C16",
   "status": "proved",
   "theorems": [
    "Peano.FCurve.C16_subdivision",
    "Peano.FCurve.C16_same_maps",
    "Peano.FCurve.C16_composition"
   ],
   "note": ""
  },
  {
   "property": "C17",
   "status": "partial",
   "theorems": [
    "Peano.FCurve.C17_eq_always_true",
    "Peano.FCurve.C17_counterexample",
    "Peano.FCurve.C17_eq_partial"
   ],
   "note": "The property is violated by the code: __eq__ builds a tuple, which is always true. C17_eq_always_true and C17_counterexample prove the negation; C17_eq_partial the direction that holds."
  },
  {
   "property": "C18",
   "status": "proved",
   "theorems": [
    "Peano.FCurve.C18_init_iff",
    "Peano.FCurve.C18_allowed_specs",
    "Peano.FCurve.C18_after_map"
   ],
   "note": ""
  },
  {
   "property": "C19",
   "status": "proved",
   "theorems": [
    "Peano.FCurve.C19_possible_curves",
    "Peano.FCurve.C19_gates",
    "Peano.FCurve.C19_checked",
    "Peano.FCurve.C19_example"
   ],
   "note": ""
  },
  {
   "property": "C20",
   "status": "proved",
   "theorems": [
    "Peano.FCurve.C20_value_error",
    "Peano.FCurve.C20_specify"
   ],
   "note": ""
  },
  {
   "property": "C21",
   "status": "proved",
   "theorems": [
    "Peano.FCurve.C21_junctions_exact",
    "Peano.FCurve.C21_auto_junctions",
    "Peano.FCurve.C21_standardized"
   ],
   "note": ""
  },
  {
   "property": "C22",
   "status": "proved",
   "theorems": [
    "Peano.FCurve.C22_junctions_touch"
   ],
   "note": ""
  },
  {
   "property": "C23",
   "status": "partial",
   "theorems": [
    "Peano.FCurve.C23_depth_partial",
    "Peano.FCurve.C23_depth_false"
   ],
   "note": "The property is violated by the code: to_derive.pop() explores in depth, so reported depths and get_depth may be too large. C23_depth_false proves the negation for a concrete checked curve; C23_depth_partial proves that reported depths are real depths and that all junctions occur up to depth get_depth()."
  },
  {
   "property": "C24",
   "status": "proved",
   "theorems": [
    "Peano.FCurve.C24_templates"
   ],
   "note": ""
  },
  {
   "property": "C25",
   "status": "proved",
   "theorems": [
    "Peano.C25_int_cube",
    "Peano.C25_int_time",
    "Peano.C25_lru_cache_transparent"
   ],
   "note": ""
  },
  {
   "property": "C26",
   "status": "proved",
   "theorems": [
    "Peano.C26_periodic_sum",
    "Peano.C26_periodic_sum_error"
   ],
   "note": ""
  },
  {
   "property": "C27",
   "status": "proved",
   "theorems": [
    "Peano.C27_lcm"
   ],
   "note": ""
  },
  {
   "property": "C28",
   "status": "proved",
   "theorems": [
    "Peano.C28_gen_faces"
   ],
   "note": ""
  },
  {
   "property": "C29",
   "status": "proved",
   "theorems": [
    "Peano.C29_valid_choices",
    "Peano.C29_each_class_once"
   ],
   "note": ""
  },
  {
   "property": "C30",
   "status": "proved",
   "theorems": [
    "Peano.C30_ratio_formulas",
    "Peano.C30_scaling",
    "Peano.C30_monotone",
    "Peano.C30_isometry",
    "Peano.C30_exact"
   ],
   "note": ""
  },
  {
   "property": "C31",
   "status": "proved",
   "theorems": [
    "Peano.C31_gen_neighbours",
    "Peano.C31_divide",
    "Peano.C31_map_to_cube"
   ],
   "note": ""
  },
  {
   "property": "C32",
   "status": "proved",
   "theorems": [
    "Peano.C32_std",
    "Peano.C32_std_eq_iff",
    "Peano.C32_argstd"
   ],
   "note": ""
  },
  {
   "property": "C33",
   "status": "proved",
   "theorems": [
    "Peano.C33_link_std",
    "Peano.C33_link_std_generic",
    "Peano.C33_link_std_eq_iff"
   ],
   "note": ""
  },
  {
   "property": "C34",
   "status": "proved",
   "theorems": [
    "Peano.FacetDivSubset.C34_intersects",
    "Peano.FacetDivSubset.C34_act",
    "Peano.FacetDivSubset.C34_map_to_cube",
    "Peano.FacetDivSubset.C34_gen_neighbours",
    "Peano.FacetDivSubset.C34_divide"
   ],
   "note": ""
  },
  {
   "property": "C35",
   "status": "proved",
   "theorems": [
    "Peano.C35_argmul_intersect_points",
    "Peano.C35_argmul_intersect_facets"
   ],
   "note": ""
  },
  {
   "property": "C36",
   "status": "proved",
   "theorems": [
    "Peano.RawProto.C36_roundtrip"
   ],
   "note": ""
  },
  {
   "property": "C37",
   "status": "proved",
   "theorems": [
    "Peano.Path.C37_act_link",
    "Peano.Path.C37_act_fractions",
    "Peano.Path.C37_is_continuous",
    "Peano.Path.C37_act_continuous",
    "Peano.Path.C37_act_mul",
    "Peano.Path.C37_act_id",
    "Peano.Path.C37_invert"
   ],
   "note": ""
  },
  {
   "property": "C38",
   "status": "proved",
   "theorems": [
    "Peano.CubeTree.Tree.C38_grow_exact",
    "Peano.CubeTree.Tree.C38_grow_once",
    "Peano.CubeTree.Tree.C38_grow_limits",
    "Peano.CubeTree.Tree.C38_one_cube",
    "Peano.CubeTree.C38_no_exceptions"
   ],
   "note": ""
  },
  {
   "property": "C39",
   "status": "proved",
   "theorems": [
    "Peano.PathsGen.C39_generate_paths",
    "Peano.PathsGen.C39_example"
   ],
   "note": ""
  },
  {
   "property": "C40",
   "status": "proved",
   "theorems": [
    "Peano.PathsGen.C40_generate_std"
   ],
   "note": ""
  },
  {
   "property": "C41",
   "status": "proved",
   "theorems": [
    "Peano.ItemsHeap.C41_bookkeeping",
    "Peano.ItemsHeap.C41_push",
    "Peano.ItemsHeap.C41_top_pop",
    "Peano.ItemsHeap.C41_max_lo_item",
    "Peano.ItemsHeap.C41_update",
    "Peano.ItemsHeap.C41_copy",
    "Peano.ItemsHeap.C41_distinct_counters"
   ],
   "note": ""
  },
  {
   "property": "C42",
   "status": "proved",
   "theorems": [
    "Peano.Sat.C42_load",
    "Peano.Sat.C42_sound",
    "Peano.Sat.C42_complete"
   ],
   "note": ""
  },
  {
   "property": "C43",
   "status": "proved",
   "theorems": [
    "Peano.Sat.C43_model",
    "Peano.Sat.C43_no_model"
   ],
   "note": ""
  },
  {
   "property": "C44",
   "status": "proved",
   "theorems": [
    "Peano.FCurve.C44_full_curves",
    "Peano.FCurve.C44_path_fuzzy_curves",
    "Peano.FCurve.C44_bounds",
    "Peano.FCurve.C44_ratios",
    "Peano.FCurve.C44_forgotten_curves"
   ],
   "note": ""
  },
  {
   "property": "C45",
   "status": "proved",
   "theorems": [
    "Peano.FCurve.C45_divide",
    "Peano.FCurve.C45_cubes"
   ],
   "note": ""
  },
  {
   "property": "C46",
   "status": "proved",
   "theorems": [
    "Peano.Dilation.C46_regular"
   ],
   "note": ""
  },
  {
   "property": "C47",
   "status": "proved",
   "theorems": [
    "Peano.Dilation.C47_bisect"
   ],
   "note": ""
  },
  {
   "property": "C48",
   "status": "proved",
   "theorems": [
    "Peano.Dilation.C48_terminates"
   ],
   "note": ""
  },
  {
   "property": "C49",
   "status": "proved",
   "theorems": [
    "Peano.Dilation.C49_fuzzy"
   ],
   "note": ""
  },
  {
   "property": "C50",
   "status": "proved",
   "theorems": [
    "Peano.Dilation.C50_sequence"
   ],
   "note": ""
  },
  {
   "property": "C51",
   "status": "proved",
   "theorems": [
    "Peano.GatesGen.C51_gen_gates",
    "Peano.GatesGen.C51_facet_dim1_raises",
    "Peano.GatesGen.C51_all_gates"
   ],
   "note": "Both modes. only_facet=True needs dim >= 2 and mult >= 1 (C51_facet_dim1_raises)."
  },
  {
   "property": "C52",
   "status": "proved",
   "theorems": [
    "Peano.GatesGen.C52_complete",
    "Peano.GatesGen.C52_emitted_form"
   ],
   "note": ""
  },
  {
   "property": "C53",
   "status": "partial",
   "theorems": [
    "Peano.Search.C53_never_not_found",
    "Peano.Search.C53_absence_partial",
    "Peano.Search.C53_attribute_error"
   ],
   "note": "The property is violated by the code: result.update is applied to None. C53_never_not_found proves that NOT FOUND is never printed, C53_attribute_error gives a concrete run, C53_absence_partial proves that absence ends the run with AttributeError and no report."
  },
  {
   "property": "C54",
   "status": "proved",
   "theorems": [
    "Peano.Dilation.C54_regular",
    "Peano.Dilation.C54_bisect",
    "Peano.Dilation.C54_fuzzy",
    "Peano.Dilation.C54_sequence",
    "Peano.Dilation.C54_size"
   ],
   "note": ""
  },
  {
   "property": "C55",
   "status": "proved",
   "theorems": [
    "Peano.Dilation.C55_argmax"
   ],
   "note": ""
  },
  {
   "property": "C56",
   "status": "proved",
   "theorems": [
    "Peano.FCurve.C56_forget",
    "Peano.FCurve.C56_forget_checked"
   ],
   "note": ""
  },
  {
   "property": "C57",
   "status": "proved",
   "theorems": [
    "Peano.Zoo.C57_zoo2",
    "Peano.Zoo.C57_zoo3",
    "Peano.Zoo.C57_zoo4"
   ],
   "note": "Finite table, evaluated by the kernel; the notions of validity are those of C12/C13."
  },
  {
   "property": "C58",
   "status": "proved",
   "theorems": [
    "Peano.FCurve.C58_attained",
    "Peano.FCurve.C58_dilation"
   ],
   "note": ""
  },
  {
   "property": "C59",
   "status": "proved",
   "theorems": [
    "Peano.Dilation.C59_terminates",
    "Peano.Dilation.C59_max_iter"
   ],
   "note": ""
  },
  {
   "property": "C60",
   "status": "proved",
   "theorems": [
    "Peano.Dilation.C60_max_depth"
   ],
   "note": ""
  },
  {
   "property": "C61",
   "status": "proved",
   "theorems": [
    "Peano.Dilation.C61_terminates"
   ],
   "note": ""
  },
  {
   "property": "C62",
   "status": "proved",
   "theorems": [
    "Peano.Dilation.C62_terminates"
   ],
   "note": ""
  },
  {
   "property": "C63",
   "status": "proved",
   "theorems": [
    "Peano.PathsGen.C63_all_tuples",
    "Peano.PathsGen.C63_std_tuples"
   ],
   "note": ""
  },
  {
   "property": "C64",
   "status": "proved",
   "theorems": [
    "Peano.Search.C64_given_gates",
    "Peano.Search.C64_grouped",
    "Peano.Search.C64_boundary_gates",
    "Peano.Search.C64_facet_gates",
    "Peano.Search.C64_generated_grouped",
    "Peano.Search.C64_output_gates"
   ],
   "note": "Given gates, generated boundary gates and generated facet gates (dim >= 2); with and without group_by_gates, output_gates and max_cdist."
  },
  {
   "property": "C65",
   "status": "proved",
   "theorems": [
    "Peano.PathsGen.C65_link",
    "Peano.PathsGen.C65_link_std",
    "Peano.PathsGen.C65_parent",
    "Peano.PathsGen.C65_parent_std",
    "Peano.PathsGen.C65_tuples",
    "Peano.PathsGen.C65_tuples_std",
    "Peano.PathsGen.C65_parent_tuples",
    "Peano.PathsGen.C65_parent_tuples_std",
    "Peano.PathsGen.C65_parent_example"
   ],
   "note": ""
  },
  {
   "property": "C66",
   "status": "proved",
   "theorems": [
    "Peano.GatesGen.C66_facet_complete",
    "Peano.GatesGen.C66_modes_agree"
   ],
   "note": ""
  },
  {
   "property": "C67",
   "status": "proved",
   "theorems": [
    "Peano.C67_point_roundtrip",
    "Peano.C67_gates_roundtrip",
    "Peano.C67_text_injective",
    "Peano.Search.C67_output_then_file"
   ],
   "note": ""
  },
  {
   "property": "C68",
   "status": "proved",
   "theorems": [
    "Peano.Search.C68_search",
    "Peano.Search.C68_search_gates",
    "Peano.Search.C68_wrong_metric"
   ],
   "note": ""
  },
  {
   "property": "C69",
   "status": "proved",
   "theorems": [
    "Peano.FCurve.C69_text_roundtrip",
    "Peano.FCurve.C69_text_injective"
   ],
   "note": ""
  },
  {
   "property": "C70",
   "status": "proved",
   "theorems": [
    "Peano.Zoo.C70_zoo2",
    "Peano.Zoo.C70_zoo3"
   ],
   "note": ""
  },
  {
   "property": "C71",
   "status": "proved",
   "theorems": [
    "Peano.YeProof.C71_other_protos",
    "Peano.YeProof.C71_same_proto",
    "Peano.YeProof.C71_all_side_curves",
    "Peano.YeProof.C71_check_ye",
    "Peano.YeProof.C71_main_searches",
    "Peano.YeProof.C71_main_covers"
   ],
   "note": ""
  },
  {
   "property": "C72",
   "status": "proved",
   "theorems": [
    "Peano.Plot.C72_picture",
    "Peano.Plot.C72_too_many_patterns"
   ],
   "note": ""
  },
  {
   "property": "C73",
   "status": "proved",
   "theorems": [
    "Peano.Zoo.C73_zoo2",
    "Peano.Zoo.C73_zoo3",
    "Peano.Zoo.C73_zoo4",
    "Peano.Zoo.C73_comments",
    "Peano.Zoo.C73_exact"
   ],
   "note": ""
  },
  {
   "property": "C74",
   "status": "proved",
   "theorems": [
    "Peano.C74_boundary",
    "Peano.C74_three_categories",
    "Peano.C74_diag_odd",
    "Peano.C74_gen_gates",
    "Peano.Search.C74_search"
   ],
   "note": ""
  },
  {
   "property": "C75",
   "status": "proved",
   "theorems": [
    "Peano.C75_internal_users",
    "Peano.C75_boundary_enough",
    "Peano.Search.C75_search",
    "Peano.Search.C75_command_line",
    "Peano.C75_internal_exists"
   ],
   "note": ""
  },
  {
   "property": "C76",
   "status": "proved",
   "theorems": [
    "Peano.C76_side2",
    "Peano.C76_side3",
    "Peano.C76_diag3",
    "Peano.C76_side4_adjacent",
    "Peano.C76_side4",
    "Peano.C76_side5_adjacent",
    "Peano.C76_side6_adjacent",
    "Peano.C76_median4",
    "Peano.C76_median5",
    "Peano.C76_median5_adjacent",
    "Peano.C76_diag5_adjacent",
    "Peano.C76_median6_adjacent",
    "Peano.C76_table",
    "Peano.C76_no_median",
    "Peano.C76_all2",
    "Peano.C76_all3",
    "Peano.C76_all4",
    "Peano.C76_report",
    "Peano.C76_search"
   ],
   "note": ""
  },
  {
   "property": "C77",
   "status": "proved",
   "theorems": [
    "Peano.C77_ye",
    "Peano.C77_other_side",
    "Peano.C77_other_protos",
    "Peano.C77_same_proto",
    "Peano.C77_ye_best",
    "Peano.C77_ye_unique",
    "Peano.C77_script",
    "Peano.C77_checks",
    "Peano.C77_second"
   ],
   "note": ""
  },
  {
   "property": "C78",
   "status": "proved",
   "theorems": [
    "Peano.C78_gen_gates",
    "Peano.C78_rows",
    "Peano.C78_least",
    "Peano.C78_search_row",
    "Peano.C78_search",
    "Peano.C78_row1",
    "Peano.C78_row2",
    "Peano.C78_row3",
    "Peano.C78_row4",
    "Peano.C78_row5",
    "Peano.C78_row6",
    "Peano.C78_row7",
    "Peano.C78_row8",
    "Peano.C78_row9",
    "Peano.C78_table"
   ],
   "note": ""
  },
  {
   "property": "C79",
   "status": "proved",
   "theorems": [
    "Peano.C79_lone_pattern",
    "Peano.C79_row1",
    "Peano.C79_row2",
    "Peano.C79_row3",
    "Peano.C79_row4",
    "Peano.C79_row5",
    "Peano.C79_table",
    "Peano.C79_wrong_row"
   ],
   "note": ""
  },
  {
   "property": "C82",
   "status": "proved",
   "theorems": [
    "Peano.C82_reports",
    "Peano.C82_checks",
    "Peano.C82_check_ye"
   ],
   "note": ""
  },
  {
   "property": "C83",
   "status": "proved",
   "theorems": [
    "Peano.Heapq.C83_push",
    "Peano.Heapq.C83_first",
    "Peano.Heapq.C83_pop",
    "Peano.Heapq.C83_sorted",
    "Peano.Heapq.C83_script"
   ],
   "note": ""
  },
  {
   "property": "C84",
   "status": "proved",
   "theorems": [
    "Peano.C84_gates",
    "Peano.C84_count"
   ],
   "note": ""
  }
 ]
}