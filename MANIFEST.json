{
 "claims": [
  {
   "property": "C01",
   "status": "proved",
   "theorems": [
    "Sg.Props.C01_box_roundtrip_index",
    "Sg.Props.C01_past_end",
    "Sg.Props.C01_negative_refuted"
   ],
   "note": "All dimension counts; checked 32-bit arithmetic. Outside the range of flat indices nothing is checked: C01_past_end, C01_negative_refuted."
  },
  {
   "property": "C02",
   "status": "proved",
   "theorems": [
    "Sg.Props.C02_box_roundtrip_tuple"
   ],
   "note": ""
  },
  {
   "property": "C03",
   "status": "proved",
   "theorems": [
    "Sg.Props.C03_box_lex_order"
   ],
   "note": ""
  },
  {
   "property": "C04",
   "status": "proved",
   "theorems": [
    "Sg.Props.C04_box_count",
    "Sg.Props.C04_box_overflow"
   ],
   "note": ""
  },
  {
   "property": "C05",
   "status": "partial",
   "theorems": [
    "Sg.Props.C05_box_empty_partial",
    "Sg.Props.C05_box_positive_count_iff",
    "Sg.Props.C05_zero_extent",
    "Sg.Props.C05_box_empty_refuted"
   ],
   "note": "False in general: an even number (>=2) of reversed axes gives a positive count. Exact characterisation proved."
  },
  {
   "property": "C06",
   "status": "proved",
   "theorems": [
    "Sg.Props.C06_side_visits_all",
    "Sg.Props.C06_side_next_code"
   ],
   "note": ""
  },
  {
   "property": "C07",
   "status": "proved",
   "theorems": [
    "Sg.Props.C07_side_reset"
   ],
   "note": ""
  },
  {
   "property": "C08",
   "status": "proved",
   "theorems": [
    "Sg.Props.C08_simplex_points",
    "Sg.Props.C08_simplex_bounds",
    "Sg.Props.C08_simplex_edges",
    "Sg.Props.C08_tetra_directions"
   ],
   "note": ""
  },
  {
   "property": "C09",
   "status": "partial",
   "theorems": [
    "Sg.Props.C09_tetra_faces_partial",
    "Sg.Props.C09_tetra_faces_refuted",
    "Sg.Props.C09_tetra_faces_repaired"
   ],
   "note": "Incidence proved; consistent orientation is false of the code (face [3,1,2]); the repaired table is proved closed for all coordinates."
  },
  {
   "property": "C10",
   "status": "partial",
   "theorems": [
    "Sg.Props.C10_square_solve_partial",
    "Sg.Props.C10_zero_refuted"
   ],
   "note": "Proved for every matrix that is not zero, relative to the dgels contract, exact arithmetic. False for the zero matrix: dgels returns zeros and reports success."
  },
  {
   "property": "C11",
   "status": "proved",
   "theorems": [
    "Sg.Props.C11_residual"
   ],
   "note": "Exact arithmetic."
  },
  {
   "property": "C12",
   "status": "partial",
   "theorems": [
    "Sg.Props.C12_square_partial",
    "Sg.Props.C12_wide_refuted",
    "Sg.Props.C12_tall_refuted",
    "Sg.Props.C12_tall_computes"
   ],
   "note": "False for nrow != ncol: refuted for every wide system and by a witness for tall systems, with the exact result for every tall size and matrix that is not zero. Proved for square systems."
  },
  {
   "property": "C13",
   "status": "partial",
   "theorems": [
    "Sg.Props.C13_history_partial",
    "Sg.Props.C13_resolve_refuted"
   ],
   "note": "Square systems: history independent. Re-solving without setMatrix reports success with a wrong vector (relative to a contract-meeting library)."
  },
  {
   "property": "C14",
   "status": "proved",
   "theorems": [
    "Sg.Props.C14_key_shape"
   ],
   "note": "Any arithmetic."
  },
  {
   "property": "C15",
   "status": "proved",
   "theorems": [
    "Sg.Props.C15_box_contains_point",
    "Sg.Props.C15_box_contains_domain_point",
    "Sg.Props.C15_points",
    "Sg.Props.C15_domain_tight",
    "Sg.Props.C15_no_axes",
    "Sg.Props.C15_short_memory"
   ],
   "note": "Exact arithmetic. C15_points is the C function on a flat array: one stored key per point."
  },
  {
   "property": "C16",
   "status": "proved",
   "theorems": [
    "Sg.Props.C16_key_prefix"
   ],
   "note": "Any arithmetic."
  },
  {
   "property": "C17",
   "status": "proved",
   "theorems": [
    "Sg.Props.C17_stored_keys",
    "Sg.Props.C17_child_is_half",
    "Sg.Props.C17_children_cover",
    "Sg.Props.C17_children_disjoint"
   ],
   "note": "Exact arithmetic for the geometry, any arithmetic for the set of stored keys."
  },
  {
   "property": "C18",
   "status": "proved",
   "theorems": [
    "Sg.Props.C18_outside_clamped"
   ],
   "note": "Exact arithmetic, every axis of positive length."
  },
  {
   "property": "C19",
   "status": "partial",
   "theorems": [
    "Sg.Props.C19_unknown_rejected",
    "Sg.Props.C19_reachable",
    "Sg.Props.C19_plain_refuted"
   ],
   "note": "Proved for plain text (codes below 128). With other bytes after a dash isdigit gets a negative char, which is undefined. Numbers that do not fit their type are undefined as well (C23_range_refuted): parse returns true exactly if all numeric values can be converted."
  },
  {
   "property": "C20",
   "status": "proved",
   "theorems": [
    "Sg.Props.C20_last_wins_double",
    "Sg.Props.C20_last_wins_int",
    "Sg.Props.C20_last_wins_string",
    "Sg.Props.C20_cases"
   ],
   "note": "atof and atoi are parameters, which may be undefined for numbers that do not fit."
  },
  {
   "property": "C21",
   "status": "proved",
   "theorems": [
    "Sg.Props.C21_switch"
   ],
   "note": ""
  },
  {
   "property": "C22",
   "status": "proved",
   "theorems": [
    "Sg.Props.C22_get_after_set",
    "Sg.Props.C22_help_always"
   ],
   "note": ""
  },
  {
   "property": "C23",
   "status": "partial",
   "theorems": [
    "Sg.Props.C23_double_list",
    "Sg.Props.C23_int_list_partial",
    "Sg.Props.C23_int_list_refuted",
    "Sg.Props.C23_range_refuted",
    "Sg.Props.C23_split_exists"
   ],
   "note": "Doubles proved. For ints the last piece goes through atof: proved as is, and the uniform conversion refuted."
  },
  {
   "property": "C24",
   "status": "proved",
   "theorems": [
    "Sg.Props.C24_rectangular",
    "Sg.Props.C24_rectangular_corners"
   ],
   "note": "Exact arithmetic."
  },
  {
   "property": "C25",
   "status": "partial",
   "theorems": [
    "Sg.Props.C25_polar_partial",
    "Sg.Props.C25_polar_refuted"
   ],
   "note": "Center at the origin proved; refuted for every center with a non zero second coordinate."
  },
  {
   "property": "C26",
   "status": "proved",
   "theorems": [
    "Sg.Props.C26_rotation_orthogonal",
    "Sg.Props.C26_on_sphere",
    "Sg.Props.C26_latitudes",
    "Sg.Props.C26_no_displacement",
    "Sg.Props.C26_products",
    "Sg.Props.C26_points",
    "Sg.Props.C26_pole"
   ],
   "note": "Real arithmetic."
  },
  {
   "property": "C27",
   "status": "proved",
   "theorems": [
    "Sg.Props.C27_tripolar_fill",
    "Sg.Props.C27_linear_below_cap",
    "Sg.Props.C27_negative_cap_undefined"
   ],
   "note": "Filling for any arithmetic; linearity in real arithmetic; a negative cap index is undefined behaviour."
  },
  {
   "property": "C28",
   "status": "proved",
   "theorems": [
    "Sg.Props.C28_partition_of_unity"
   ],
   "note": "Exact arithmetic, any number of axes."
  },
  {
   "property": "C29",
   "status": "proved",
   "theorems": [
    "Sg.Props.C29_indices_valid",
    "Sg.Props.C29_indices_are_corners"
   ],
   "note": ""
  },
  {
   "property": "C30",
   "status": "proved",
   "theorems": [
    "Sg.Props.C30_node_exact",
    "Sg.Props.C30_multilinear_exact"
   ],
   "note": ""
  },
  {
   "property": "C31",
   "status": "proved",
   "theorems": [
    "Sg.Props.C31_search_stops",
    "Sg.Props.C31_more_calls"
   ],
   "note": "Any arithmetic, any library."
  },
  {
   "property": "C32",
   "status": "proved",
   "theorems": [
    "Sg.Props.C32_status_code",
    "Sg.Props.C32_outside"
   ],
   "note": "Any arithmetic; the meaning of -3 for the bounding box in exact arithmetic."
  },
  {
   "property": "C33",
   "status": "proved",
   "theorems": [
    "Sg.Props.C33_history_free"
   ],
   "note": "Any arithmetic; the library keeps array sizes."
  },
  {
   "property": "C34",
   "status": "proved",
   "theorems": [
    "Sg.Props.C34_indices_in_grid"
   ],
   "note": ""
  },
  {
   "property": "C35",
   "status": "proved",
   "theorems": [
    "Sg.Props.C35_affine_exact",
    "Sg.Props.C35_affine_exact_reused",
    "Sg.Props.C35_affine_exact_reused"
   ],
   "note": "Any number of axes; with nitermax 1 the code is -1 although the position is exact."
  },
  {
   "property": "C36",
   "status": "partial",
   "theorems": [
    "Sg.Props.C36_new_grid_partial",
    "Sg.Props.C36_new_grid_refuted",
    "Sg.Props.C36_new_period_refuted"
   ],
   "note": "False in general: bounds and periodicity of earlier grids are kept. Proved when the new grid covers the old bounds and periods."
  },
  {
   "property": "C37",
   "status": "proved",
   "theorems": [
    "Sg.Props.C37_range"
   ],
   "note": ""
  },
  {
   "property": "C38",
   "status": "proved",
   "theorems": [
    "Sg.Props.C38_apply",
    "Sg.Props.C38_linear",
    "Sg.Props.C38_table",
    "Sg.Props.C38_constant"
   ],
   "note": "Exact arithmetic; C38_table also shows that computing the weights is free of undefined behaviour for any two grids."
  },
  {
   "property": "C39",
   "status": "proved",
   "theorems": [
    "Sg.Props.C39_affine_exact"
   ],
   "note": "Exact arithmetic, library meeting the dgels contract, two iterations at least, positive tolerance."
  },
  {
   "property": "C40",
   "status": "proved",
   "theorems": [
    "Sg.Props.C40_fresh",
    "Sg.Props.C40_twice"
   ],
   "note": "Any arithmetic, any history of destination grids and computations."
  },
  {
   "property": "C41",
   "status": "partial",
   "theorems": [
    "Sg.Props.C41_found_partial",
    "Sg.Props.C41_found_refuted"
   ],
   "note": "False: a node found by a restart from a side gets no weights. Proved: exactly the nodes found at the first try get weights."
  },
  {
   "property": "C42",
   "status": "proved",
   "theorems": [
    "Sg.Props.C42_valid_box",
    "Sg.Props.C42_access"
   ],
   "note": "Exact arithmetic, polygons with at least one vertex, any earlier use."
  },
  {
   "property": "C43",
   "status": "partial",
   "theorems": [
    "Sg.Props.C43_cover_partial",
    "Sg.Props.C43_cover_hull_partial",
    "Sg.Props.C43_cover_refuted"
   ],
   "note": "False when all vertices lie on the upper boundary of an axis (empty box); proved otherwise: cells of the vertices on any grid, and of every point of their convex hull on affine grids with at least 3 nodes along the second axis."
  },
  {
   "property": "C44",
   "status": "partial",
   "theorems": [
    "Sg.Props.C44_numbering_partial",
    "Sg.Props.C44_numbering_refuted"
   ],
   "note": "False: the numbers are those of the low corner nodes; right for the first row only."
  },
  {
   "property": "C45",
   "status": "proved",
   "theorems": [
    "Sg.Props.C45_hull_area",
    "Sg.Props.C45_hull_area_returned"
   ],
   "note": "Real arithmetic, Lebesgue measure; every order std::sort may leave; distances and areas zero or above 1e-12."
  },
  {
   "property": "C46",
   "status": "partial",
   "theorems": [
    "Sg.Props.C46_convex_position_partial",
    "Sg.Props.C46_any_points_refuted"
   ],
   "note": "False: five points with two inside give 9 instead of 6. Proved for convex position."
  },
  {
   "property": "C47",
   "status": "proved",
   "theorems": [
    "Sg.Props.C47_order_repetition",
    "Sg.Props.C47_one_area"
   ],
   "note": ""
  },
  {
   "property": "C48",
   "status": "partial",
   "theorems": [
    "Sg.Props.C48_safe_partial",
    "Sg.Props.C48_line_refuted",
    "Sg.Props.C48_repeated_refuted"
   ],
   "note": "False: three different points on a line always read past the end; repeated points read the removed tail of the vector."
  },
  {
   "property": "C49",
   "status": "proved",
   "theorems": [
    "Sg.Props.C49_degenerate"
   ],
   "note": ""
  },
  {
   "property": "C50",
   "status": "proved",
   "theorems": [
    "Sg.Props.C50_box_exact",
    "Sg.Props.C50_box_symmetric",
    "Sg.Props.C50_box_keeps_overlaps"
   ],
   "note": ""
  },
  {
   "property": "C51",
   "status": "partial",
   "theorems": [
    "Sg.Props.C51_triangle_exact",
    "Sg.Props.C51_triangle_closed",
    "Sg.Props.C51_triangle_degenerate_partial",
    "Sg.Props.C51_point_refuted"
   ],
   "note": "Exact arithmetic, dgels contract, any history of the object. False for a triangle whose three nodes are equal: it accepts every point."
  },
  {
   "property": "C52",
   "status": "proved",
   "theorems": [
    "Sg.Props.C52_cell_accepts",
    "Sg.Props.C52_cell_rejects",
    "Sg.Props.C52_cell_exact",
    "Sg.Props.C52_collapsed_refuted"
   ],
   "note": "Convex quadrilaterals. Outside of the claim, a cell with three equal nodes accepts every point (C52_collapsed_refuted). An accepted point is within 3e-12 times the diameter of the cell."
  },
  {
   "property": "C53",
   "status": "proved",
   "theorems": [
    "Sg.Props.C53_points_in_both",
    "Sg.Props.C53_points_exact"
   ],
   "note": "Tolerance clean pairs; all pairs with integer nodes up to 1000 are."
  },
  {
   "property": "C54",
   "status": "proved",
   "theorems": [
    "Sg.Props.C54_hull_is_intersection"
   ],
   "note": "Tolerance clean pairs; all pairs with integer nodes up to 1000 are."
  },
  {
   "property": "C55",
   "status": "partial",
   "theorems": [
    "Sg.Props.C55_reuse_partial",
    "Sg.Props.C55_accumulates",
    "Sg.Props.C55_reuse_refuted"
   ],
   "note": "False through the C interface: points of earlier pairs are kept. Proved after reset()."
  },
  {
   "property": "C56",
   "status": "proved",
   "theorems": [
    "Sg.Props.C56_weight",
    "Sg.Props.C56_listed"
   ],
   "note": "Real arithmetic, Lebesgue measure, dgels contract, any order std::sort may leave; cells convex and clear of the tolerance (all convex cells with integer nodes between 0 and 20 are)."
  },
  {
   "property": "C57",
   "status": "proved",
   "theorems": [
    "Sg.Props.C57_sum_one",
    "Sg.Props.C57_constant"
   ],
   "note": "Same conditions as C56."
  },
  {
   "property": "C58",
   "status": "proved",
   "theorems": [
    "Sg.Props.C58_total",
    "Sg.Props.C58_conserved"
   ],
   "note": "Same conditions as C56. For C58_total destination cells without overlap must hold 0 before."
  },
  {
   "property": "C59",
   "status": "proved",
   "theorems": [
    "Sg.Props.C59_table",
    "Sg.Props.C59_apply",
    "Sg.Props.C59_linear"
   ],
   "note": "Every object reachable by calls; apply for every arithmetic, linearity in exact arithmetic."
  },
  {
   "property": "C60",
   "status": "partial",
   "theorems": [
    "Sg.Props.C60_caches_partial",
    "Sg.Props.C60_caches_clear",
    "Sg.Props.C60_refuted"
   ],
   "note": "False near the tolerance: a remembered crossing may be one that the second cell, going along the edge the other way, would reject. Proved for every arithmetic if the result does not depend on directions, and in exact arithmetic for pairs clear of the tolerance."
  },
  {
   "property": "C61",
   "status": "partial",
   "theorems": [
    "Sg.Props.C61_iteration_partial",
    "Sg.Props.C61_end_refuted"
   ],
   "note": "False by the letter of the standard: reporting the end dereferences the end iterator. Proved if that is tolerated."
  },
  {
   "property": "C62",
   "status": "partial",
   "theorems": [
    "Sg.Props.C62_tolerated_partial",
    "Sg.Props.C62_refuted"
   ],
   "note": "False: next without weights increments an invalid iterator; constructor and reset dereference the end iterator."
  },
  {
   "property": "C63",
   "status": "partial",
   "theorems": [
    "Sg.Props.C63_weights_partial",
    "Sg.Props.C63_keeps_old",
    "Sg.Props.C63_refuted"
   ],
   "note": "False: destination cells that already have weights keep them. Proved: exactly which cells have which weights."
  },
  {
   "property": "C64",
   "status": "proved",
   "theorems": [
    "Sg.Props.C64_dst_cells",
    "Sg.Props.C64_src_cells"
   ],
   "note": ""
  },
  {
   "property": "C65",
   "status": "partial",
   "theorems": [
    "Sg.Props.C65_safe_partial",
    "Sg.Props.C65_only_triangulation",
    "Sg.Props.C65_refuted",
    "Sg.Props.C65_equal_cells_refuted"
   ],
   "note": "False: cells touching along a part of an edge make the triangulation read past its points. Proved: nothing else can go wrong, and nothing does if overlaps have interior or are single points and the vector keeps its buffer."
  },
  {
   "property": "C66",
   "status": "proved",
   "theorems": [
    "Sg.Props.C66_sorted_on_line"
   ],
   "note": "Every shape, library and history."
  },
  {
   "property": "C67",
   "status": "proved",
   "theorems": [
    "Sg.Props.C67_clip",
    "Sg.Props.C67_nothing_lost",
    "Sg.Props.C67_reset"
   ],
   "note": "Exact when no decision is closer than the tolerance; nothing inside is lost in any case."
  },
  {
   "property": "C68",
   "status": "proved",
   "theorems": [
    "Sg.Props.C68_potential",
    "Sg.Props.C68_real",
    "Sg.Props.C68_no_line",
    "Sg.Props.C68_getProjection",
    "Sg.Props.C68_not_computed",
    "Sg.Props.C68_parallelogram"
   ],
   "note": ""
  },
  {
   "property": "C69",
   "status": "partial",
   "theorems": [
    "Sg.Props.C69_reverse",
    "Sg.Props.C69_additive_potential",
    "Sg.Props.C69_additive_partial",
    "Sg.Props.C69_additive_refuted"
   ],
   "note": "Reversal for every quadrilateral; additivity for potential data on every quadrilateral, of the projections themselves on parallelograms; false for other quadrilaterals."
  },
  {
   "property": "C70",
   "status": "partial",
   "theorems": [
    "Sg.Props.C70_cells",
    "Sg.Props.C70_chain",
    "Sg.Props.C70_parallelograms",
    "Sg.Props.C70_tensor",
    "Sg.Props.C70_loop",
    "Sg.Props.C70_closed_refuted"
   ],
   "note": "Proved for the line as stored; loops closed by the caller are opened by the perturbation of the nodes, and their flow is not zero."
  },
  {
   "property": "C71",
   "status": "proved",
   "theorems": [
    "Sg.Props.C71_own_edges",
    "Sg.Props.C71_linear"
   ],
   "note": "Own edges and order of operations for every arithmetic; linearity in exact arithmetic."
  },
  {
   "property": "C72",
   "status": "partial",
   "theorems": [
    "Sg.Props.C72_reuse_partial",
    "Sg.Props.C72_times",
    "Sg.Props.C72_stale",
    "Sg.Props.C72_refuted"
   ],
   "note": "False: m calls of computeWeights give m times the flow, and weights of an earlier longer line make apply write beyond the array. Proved for histories without an earlier computeWeights."
  },
  {
   "property": "C73",
   "status": "proved",
   "theorems": [
    "Sg.Props.C73_guards",
    "Sg.Props.C73_native_order",
    "Sg.Props.C73_arrays"
   ],
   "note": ""
  },
  {
   "property": "C74",
   "status": "partial",
   "theorems": [
    "Sg.Props.C74_fresh_partial",
    "Sg.Props.C74_stale_refuted"
   ],
   "note": "False: setDstGrid after computeWeights keeps the old weights. Histories with one computeWeights after the last grid change proved."
  },
  {
   "property": "C75",
   "status": "partial",
   "theorems": [
    "Sg.Props.C75_exact",
    "Sg.Props.C75_released_partial",
    "Sg.Props.C75_flow_refuted",
    "Sg.Props.C75_conserve_refuted",
    "Sg.Props.C75_one_address"
   ],
   "note": "False: flow and conservative interpolators leave blocks behind on every use, finders when their grid is set again. The number of blocks left is proved for every program, and nothing is deleted twice."
  },
  {
   "property": "C76",
   "status": "proved",
   "theorems": [
    "Sg.Props.C76_box_exact",
    "Sg.Props.C76_box_keeps",
    "Sg.Props.C76_unset"
   ],
   "note": ""
  },
  {
   "property": "C77",
   "status": "partial",
   "theorems": [
    "Sg.Props.C77_reuse_partial",
    "Sg.Props.C77_reuse_refuted"
   ],
   "note": "False: the C interface never resets. Proved after reset."
  },
  {
   "property": "C78",
   "status": "partial",
   "theorems": [
    "Sg.Props.C78_inside_partial",
    "Sg.Props.C78_kept_partial",
    "Sg.Props.C78_outside_refuted"
   ],
   "note": "False: segments outside the grid keep what was in the array. Proved for segments with more than a point in some cell; proved that segments without a point in any cell, clear of the tolerance, keep it."
  },
  {
   "property": "C79",
   "status": "partial",
   "theorems": [
    "Sg.Props.C79_integral_partial",
    "Sg.Props.C79_ends_partial",
    "Sg.Props.C79_along_partial",
    "Sg.Props.C79_across_partial",
    "Sg.Props.C79_shared_edge_refuted",
    "Sg.Props.C79_perturbed_refuted"
   ],
   "note": "False: a line along an edge between two cells is counted twice, also with the perturbation the code makes. Proved, for parallelogram cells: the flow is the sum over cells of the integral of the edge field over the part inside, so parts in one cell count once. For cells of any convex shape: the sum over cells of what belongs to the first and last point of the part inside, by a rule that does not depend on the line or the data. On sheared product grids the exact count: a segment along a grid line has twice the sum of its edges (each by its share) if the line is inside the grid, and that sum once if it is on the boundary (C79_along_partial, C79_across_partial)."
  },
  {
   "property": "C80",
   "status": "partial",
   "theorems": [
    "Sg.Props.C80_data_partial",
    "Sg.Props.C80_potential_partial",
    "Sg.Props.C80_small_move_refuted"
   ],
   "note": "False: two parts of the code use different tolerances. Proved for any edge data (Lipschitz with a bound that depends on grid and data only) and for potentials, on sheared product grids, away from the tolerances."
  },
  {
   "property": "C81",
   "status": "partial",
   "theorems": [
    "Sg.Props.C81_error_history",
    "Sg.Props.C81_observable",
    "Sg.Props.C81_pointer",
    "Sg.Props.C81_negative",
    "Sg.Props.C81_no_step_refuted",
    "Sg.Props.C81_pointer_refuted"
   ],
   "note": "The history is as stated. False for reading it: before the first step front() of an empty vector is taken, and with more steps than the iteration limit the storage moves while the caller holds the pointer. Proved valid while the search is used as intended."
  },
  {
   "property": "C82",
   "status": "partial",
   "theorems": [
    "Sg.Props.C82_wrap_partial",
    "Sg.Props.C82_seam_refuted"
   ],
   "note": "False: crossing the seam forwards is never found, for any iteration limit. Proved: reported positions are in range and agree with the Newton iterate modulo the period."
  },
  {
   "property": "C83",
   "status": "proved",
   "theorems": [
    "Sg.Props.C83_weight_range",
    "Sg.Props.C83_partial_cover",
    "Sg.Props.C83_range",
    "Sg.Props.C83_monotone"
   ],
   "note": "For cells clear of the tolerances."
  },
  {
   "property": "C84",
   "status": "partial",
   "theorems": [
    "Sg.Props.C84_regions",
    "Sg.Props.C84_affine",
    "Sg.Props.C84_rigid",
    "Sg.Props.C84_transposed",
    "Sg.Props.C84_unit_refuted"
   ],
   "note": "False for changes of the unit of length: tolerances are absolute. Proved for rigid motions, and for all invertible affine maps while the cells of both pairs are clear of the tolerances."
  },
  {
   "property": "C85",
   "status": "partial",
   "theorems": [
    "Sg.Props.C85_history",
    "Sg.Props.C85_domain_partial",
    "Sg.Props.C85_refuted"
   ],
   "note": "False after a second setGrid: bounds of earlier grids are kept. What is reported after any history is proved, and the claim for one grid."
  },
  {
   "property": "C86",
   "status": "partial",
   "theorems": [
    "Sg.Props.C86_rectangular_partial",
    "Sg.Props.C86_weight",
    "Sg.Props.C86_safe_partial",
    "Sg.Props.C86_apply",
    "Sg.Props.C86_refuted",
    "Sg.Props.C86_standard_refuted"
   ],
   "note": "False in general: reads past the end when an edge of one grid lies inside an edge of the other (2 x 1 and 2 x 3 cells). Proved: weights, constants and mean for every run; no undefined behaviour if the numbers of cells along each axis have no common factor and the units are larger than the tolerances, for the triangulation with erased elements readable."
  },
  {
   "property": "C87",
   "status": "proved",
   "theorems": [
    "Sg.Props.C87_help",
    "Sg.Props.C87_texts"
   ],
   "note": "The layout of numbers by operator<< is not modelled."
  },
  {
   "property": "C88",
   "status": "proved",
   "theorems": [
    "Sg.Props.C88_bilinear",
    "Sg.Props.C88_same_nodes"
   ],
   "note": "Least-squares solver by its contract."
  },
  {
   "property": "C89",
   "status": "proved",
   "theorems": [
    "Sg.Props.C89_node_careful",
    "Sg.Props.C89_node_unset",
    "Sg.Props.C89_overlap_unset"
   ],
   "note": "Source grids of 2 to 2^30 nodes per axis. The cell search after a grid was set is C42."
  },
  {
   "property": "C90",
   "status": "proved",
   "theorems": [
    "Sg.Props.C90_flow_careful",
    "Sg.Props.C90_flow_unset"
   ],
   "note": "Source grids of at least two nodes per axis and at most 2^30 nodes: beyond, the code multiplies a node index by 2 as an int, which overflows. Arrays that are too short after a longer line are C72."
  },
  {
   "property": "C91",
   "status": "partial",
   "theorems": [
    "Sg.Props.C91_reverse_convex_partial",
    "Sg.Props.C91_split_convex_partial",
    "Sg.Props.C91_reverse_partial",
    "Sg.Props.C91_split_partial",
    "Sg.Props.C91_caller_refuted"
   ],
   "note": "Proved for the line as stored and segments clear of the tolerance: reversal for cells of any convex shape and all data, splitting for any convex cells and potentials, and for parallelograms and all data. False for lines reversed by the caller: the perturbation of the nodes depends on their place in the list."
  },
  {
   "property": "C92",
   "status": "proved",
   "theorems": [
    "Sg.Props.C92_conserve",
    "Sg.Props.C92_node",
    "Sg.Props.C92_flow"
   ],
   "note": "For weights as stored; rounding errors of the weights are not covered. No infinities or NaN."
  },
  {
   "property": "C93",
   "status": "partial",
   "theorems": [
    "Sg.Props.C93_order",
    "Sg.Props.C93_error",
    "Sg.Props.C93_last_refuted"
   ],
   "note": "False for the last node: with 53 digits the last of 50 nodes from 0 to 1 is 1 - 2^-53. The rest is proved."
  },
  {
   "property": "C94",
   "status": "partial",
   "theorems": [
    "Sg.Props.C94_dst_partial",
    "Sg.Props.C94_src_partial",
    "Sg.Props.C94_copies",
    "Sg.Props.C94_strided_refuted",
    "Sg.Props.C94_short_refuted"
   ],
   "note": "Proved for contiguous arrays of the same shape. False for transposed or sliced views (strides are ignored) and for a second array of another shape (read past its end)."
  },
  {
   "property": "C95",
   "status": "partial",
   "theorems": [
    "Sg.Props.C95_apply_partial",
    "Sg.Props.C95_same_array",
    "Sg.Props.C95_kept_refuted",
    "Sg.Props.C95_own_refuted"
   ],
   "note": "Proved for contiguous source arrays other than the result array. False for kept results: every call returns the same array. False for a source array that is an earlier result."
  },
  {
   "property": "C96",
   "status": "proved",
   "theorems": [
    "Sg.Props.C96_values",
    "Sg.Props.C96_constant",
    "Sg.Props.C96_total",
    "Sg.Props.C96_conserved",
    "Sg.Props.C96_runs"
   ],
   "note": "Exact arithmetic over the reals; LAPACK replaced by its contract; float64 arrays."
  },
  {
   "property": "C97",
   "status": "partial",
   "theorems": [
    "Sg.Props.C97_joins",
    "Sg.Props.C97_range",
    "Sg.Props.C97_rises",
    "Sg.Props.C97_poles",
    "Sg.Props.C97_fold_partial",
    "Sg.Props.C97_fold_refuted",
    "Sg.Props.C97_one_row_refuted"
   ],
   "note": "Real arithmetic, caps from row 1 to the last but one. The halves meet up to 1e-8 degrees (caps in the northern hemisphere) and not exactly, and a cap of one row divides by zero."
  },
  {
   "property": "C98",
   "status": "partial",
   "theorems": [
    "Sg.Props.C98_convex",
    "Sg.Props.C98_no_overlap",
    "Sg.Props.C98_covers",
    "Sg.Props.C98_area",
    "Sg.Props.C98_area_sum",
    "Sg.Props.C98_from_polar",
    "Sg.Props.C98_constant",
    "Sg.Props.C98_to_polar_partial",
    "Sg.Props.C98_standard_refuted"
   ],
   "note": "Exact real arithmetic, centre (0,0) (C25 fails for others). With a polar destination grid the cells at the pole have two equal nodes, and by the C++ standard the triangulation of the first cell reads a removed element, for every source grid; C98_to_polar_partial speaks of the runs that return."
  },
  {
   "property": "C99",
   "status": "partial",
   "theorems": [
    "Sg.Props.C99_found_partial",
    "Sg.Props.C99_step",
    "Sg.Props.C99_nodal_partial",
    "Sg.Props.C99_found_refuted",
    "Sg.Props.C99_nodal_refuted"
   ],
   "note": "Exact real arithmetic. Proved for perpendicular axes when the spacing along an axis varies by a factor r with r(r-1)^2 <= 1 (r up to about 1.75), with explicit iteration count. Without such a bound it is false of the code: with nodes 0,1,4,5 the search for 5/2 from 1/2 oscillates for ever, and a grid with one long cell leaves interior points without weights."
  },
  {
   "property": "C100",
   "status": "proved",
   "theorems": [
    "Sg.Props.C100_linear",
    "Sg.Props.C100_lipschitz",
    "Sg.Props.C100_smooth"
   ],
   "note": "Exact real arithmetic, any grids and any solver that keeps the sizes of its arrays. Speaks of the nodes that have weights; which nodes have them is C39 and C99."
  },
  {
   "property": "C101",
   "status": "proved",
   "theorems": [
    "Sg.Props.C101_found",
    "Sg.Props.C101_unique",
    "Sg.Props.C101_nodal"
   ],
   "note": "Exact real arithmetic. The deviation is measured against perpendicular axes, as in polar or other orthogonal coordinates; larger deviations are covered by the refutations of C99."
  },
  {
   "property": "C102",
   "status": "proved",
   "theorems": [
    "Sg.Props.C102_amount",
    "Sg.Props.C102_exact",
    "Sg.Props.C102_value",
    "Sg.Props.C102_total"
   ],
   "note": "Exact real arithmetic, cells as in C56 (CleanCells). The interpolation is of first order: the bound is the variation of the density over a cell."
  },
  {
   "property": "C103",
   "status": "proved",
   "theorems": [
    "Sg.Props.C103_flow",
    "Sg.Props.C103_exact",
    "Sg.Props.C103_rigid"
   ],
   "note": "Exact real arithmetic, first call of computeWeights, line as stored (after the perturbation of its nodes). Segments along an inner grid line are counted twice (C79_shared_edge_refuted), which is why they are excluded."
  },
  {
   "property": "C104",
   "status": "proved",
   "theorems": [
    "Sg.Props.C104_setGrid",
    "Sg.Props.C104_no_axes",
    "Sg.Props.C104_too_many",
    "Sg.Props.C104_short_array",
    "Sg.Props.C104_negative",
    "Sg.Props.C104_empty",
    "Sg.Props.C104_new"
   ],
   "note": "Refinement: `Model/FindPointRaw` keeps vectors of changing size, `int` products and `size_t` products modulo 2^64, and agrees with `Model/FindPoint`, which the other properties use. Running out of memory is not modelled. `hcast` says that a count converted through `int` or directly gives the same number."
  },
  {
   "property": "C105",
   "status": "partial",
   "theorems": [
    "Sg.Props.C105_weights_partial",
    "Sg.Props.C105_get_partial",
    "Sg.Props.C105_undefined",
    "Sg.Props.C105_empty_refuted",
    "Sg.Props.C105_get_refuted"
   ],
   "note": "Holds for grids with at least one node along each axis and fewer than 2^59 nodes (weights) and at most 2^31 cells (get). Refuted: a grid with no nodes such as 0 x 0 is accepted, its number of cells wraps around to a positive number and computeWeights reads past the end of an empty vector; beyond 2^31 destination cells get reports a negative index. Running out of memory is not modelled."
  },
  {
   "property": "C106",
   "status": "partial",
   "theorems": [
    "Sg.Props.C106_contains_partial",
    "Sg.Props.C106_tiling_partial",
    "Sg.Props.C106_contains_refuted"
   ],
   "note": "The boxes tile exactly below the first level; points are in their box up to u(9(b-a)+|a|) along an axis from a to b, u the relative error of one operation. Exact containment is refuted in 53 bit arithmetic: the greatest point can lie outside of the box of its key, and so outside of every box. Underflow, overflow and NaN are not represented."
  },
  {
   "property": "C107",
   "status": "proved",
   "theorems": [
    "Sg.Props.C107_weights",
    "Sg.Props.C107_interp",
    "Sg.Props.C107_range",
    "Sg.Props.C107_constant"
   ],
   "note": "Underflow, overflow and NaN are not represented: the rounding has a relative error for all numbers."
  },
  {
   "property": "C108",
   "status": "proved",
   "theorems": [
    "Sg.Props.C108_table",
    "Sg.Props.C108_range",
    "Sg.Props.C108_constant"
   ],
   "note": "Solver results, coordinates and intermediate values are taken finite (no overflow, NaN or underflow)."
  },
  {
   "property": "C109",
   "status": "proved",
   "theorems": [
    "Sg.Props.C109_hull_area",
    "Sg.Props.C109_hull_area_returned",
    "Sg.Props.C109_same_mesh",
    "Sg.Props.C109_double"
   ],
   "note": "Repeated points need the vector to keep its buffer, as for C45. For at most 24 double precision points that spread by 16 the error of the area A is at most 4e-12 + 3e-15 A. Overflow, infinities and NaN are not represented."
  },
  {
   "property": "C110",
   "status": "proved",
   "theorems": [
    "Sg.Props.C110_points",
    "Sg.Props.C110_area",
    "Sg.Props.C110_area_exists",
    "Sg.Props.C110_double"
   ],
   "note": "Backward stability of dgels on two equations (GelsStable) is assumed, as the exact contract is elsewhere; Cramer's rule with a rounded result meets it. Parallel edges on a common line that is not parallel to an axis are excluded (rounding may create or miss a crossing there). In double precision, for quadrilaterals of size 2 at coordinates up to 16: points within 2.7e-14, area within 7e-12 + 3e-15 A. Underflow, overflow, infinities and NaN are not represented."
  },
  {
   "property": "C111",
   "status": "proved",
   "theorems": [
    "Sg.Props.C111_weights",
    "Sg.Props.C111_listed",
    "Sg.Props.C111_exists",
    "Sg.Props.C111_sum_one",
    "Sg.Props.C111_apply",
    "Sg.Props.C111_conserved",
    "Sg.Props.C111_double"
   ],
   "note": "For weights that are returned, with the buffer reading of the triangulation defect (C46); they are returned if any two cells have a positive area in common or boxes that are apart (C111_exists). Backward stability of dgels on two equations is assumed as in C110. In double precision, cells of size 2 at coordinates up to 16 and area A of at least 1/1000: weights within 3e-11 / A + 1e-13. Underflow, overflow, infinities and NaN are not represented."
  },
  {
   "property": "C112",
   "status": "partial",
   "theorems": [
    "Sg.Props.C112_dst_partial",
    "Sg.Props.C112_src_partial",
    "Sg.Props.C112_weights_partial",
    "Sg.Props.C112_src_too_many",
    "Sg.Props.C112_dst_short",
    "Sg.Props.C112_dst_negative",
    "Sg.Props.C112_dst_both_negative_refuted",
    "Sg.Props.C112_dst_empty",
    "Sg.Props.C112_src_empty",
    "Sg.Props.C112_both_grids"
   ],
   "note": "Agreement holds for at least one node along each axis, source grids of at most 2^31 - 1 nodes and destination grids of fewer than 2^59 nodes. Beyond, the source count overflows (undefined). One negative count throws std::length_error, arrays that are too short are read past their end, and a grid without nodes gives no weights. Refuted: two negative destination counts are accepted and mean the grid with the signs dropped. Two negative source counts are in C133. Running out of memory is not modelled."
  },
  {
   "property": "C113",
   "status": "partial",
   "theorems": [
    "Sg.Props.C113_dst_partial",
    "Sg.Props.C113_src_partial",
    "Sg.Props.C113_dst_negative",
    "Sg.Props.C113_dst_empty_refuted",
    "Sg.Props.C113_src_negative",
    "Sg.Props.C113_src_empty_refuted",
    "Sg.Props.C113_src_both_negative_refuted",
    "Sg.Props.C113_large_refuted"
   ],
   "note": "Agreement holds for at least one node along each axis. Negative numbers of nodes throw std::length_error. Refuted: a line of zero nodes, a source grid of 0 x 0 nodes and one with two negative counts are accepted and computeWeights is then undefined; a source grid of more than 2^30 nodes is accepted and computeWeights overflows an int. Running out of memory is not modelled."
  },
  {
   "property": "C114",
   "status": "proved",
   "theorems": [
    "Sg.Props.C114_clip",
    "Sg.Props.C114_found",
    "Sg.Props.C114_double"
   ],
   "note": "Backward stability of dgels on two equations (GelsStable) is assumed. No margin is asked of the decisions: parameters that rounding adds or drops are within the bound of the ends. In double precision with shape 1/2 the parameters are within 4e-13. Underflow, overflow, infinities and NaN are not represented."
  },
  {
   "property": "C115",
   "status": "partial",
   "theorems": [
    "Sg.Props.C115_parallelogram_partial",
    "Sg.Props.C115_potential",
    "Sg.Props.C115_double",
    "Sg.Props.C115_flow_refuted"
   ],
   "note": "False in general: the test that a point is in the box of a cell has the absolute tolerance 2.2e-14, so for coordinates of 128 and more a point of an edge may be off by more in its last digit; the search then stops at the middle of the cell and the flow interpolator ignores the code (C115_flow_refuted: 2712 instead of 3712, computed in double precision arithmetic with ties to even). Proved for parallelograms with coordinates so small that the tolerance covers rounding (50 in C115_double), and for every quadrilateral in terms of the index positions found (C115_potential). Missing: accuracy of the searches in quadrilaterals that are not parallelograms. The whole flow interpolator is C116. Backward stability of dgels on two equations (GelsStable) is assumed; underflow, overflow, infinities and NaN are not represented."
  },
  {
   "property": "C116",
   "status": "proved",
   "theorems": [
    "Sg.Props.C116_integral",
    "Sg.Props.C116_potential",
    "Sg.Props.C116_double",
    "Sg.Props.C116_potential_double"
   ],
   "note": "The hypothesis on a segment is FairFlow for each cell of the grid (Spec/RoundedFlowLine): cells and segment have size at most L, the area of a cell is at least L^2/2 and an edge that is crossed makes a turn of at least L^2/2 with the segment, so the segment has about the length of the cell sides. The nodes are those stored, after the perturbation. At least one cell must contain a part longer than 100 machine epsilons (otherwise nothing is written); for a covered segment this is proved. In double precision coordinates are at most 40, 0.01 <= L <= 1 (the tolerances are absolute: see C115). Backward stability of dgels on two equations (GelsStable) is assumed; underflow, overflow, infinities and NaN are not represented."
  },
  {
   "property": "C117",
   "status": "proved",
   "theorems": [
    "Sg.Props.C117_projections",
    "Sg.Props.C117_flow",
    "Sg.Props.C117_potential",
    "Sg.Props.C117_turns",
    "Sg.Props.C117_polar",
    "Sg.Props.C117_polar_line"
   ],
   "note": "Exact arithmetic. In C117_flow the potential along the segment is followed cell by cell up to a constant of the cell, so that it can be many-valued, as the angle round the pole is. No two cells may share more than a point of the segment (a segment along a grid line counts twice), and no decision may be closer than the tolerance of the intersector. Turns are measured on the chords of the polygon (polyTurns, within 1/n of the angle over 2 pi and one more after each turn). A closed line is one whose first and last nodes are at the same angle but for whole turns. examples/polarFlow.py makes its grid in Python; the grid here is that of utils/createGrids2D, with the same nodes."
  },
  {
   "property": "C118",
   "status": "proved",
   "theorems": [
    "Sg.Props.C118_position",
    "Sg.Props.C118_projections",
    "Sg.Props.C118_potential",
    "Sg.Props.C118_line",
    "Sg.Props.C118_refuted"
   ],
   "note": "Exact arithmetic. FairQuad (Spec/FairQuad) is the condition on the cells; C118_refuted is a strictly convex cell that is not fair, where the search for a node stops after ten steps and the flow is wrong by more than 1/2000 of the potential difference. No two cells may share more than a point of a segment, and no decision may be closer than the tolerance of the intersector."
  },
  {
   "property": "C119",
   "status": "proved",
   "theorems": [
    "Sg.Props.C119_part",
    "Sg.Props.C119_segment",
    "Sg.Props.C119_line",
    "Sg.Props.C119_rectangular",
    "Sg.Props.C119_outside_refuted"
   ],
   "note": "Exact arithmetic. BendsOn (Spec/Curvature) bounds the second derivatives without derivatives; C119_rectangular has them as derivatives. C119_outside_refuted: the ends of a line that leaves the grid cannot be used, as the default line of the example program streamFlow does."
  },
  {
   "property": "C120",
   "status": "proved",
   "theorems": [
    "Sg.Props.C120_rectangular",
    "Sg.Props.C120_polar",
    "Sg.Props.C120_rotated",
    "Sg.Props.C120_octree",
    "Sg.Props.C120_flat_outside_refuted"
   ],
   "note": "Spec/Ieee: an ordered field with infinities and NaN under the rules of IEEE 754, no rounding, zero unsigned. The clauses on one node and on flat domains record what the code does, which is not what a caller would want; see DESIGN section 5."
  },
  {
   "property": "C121",
   "status": "proved",
   "theorems": [
    "Sg.Props.C121_collapsed",
    "Sg.Props.C121_refuted"
   ],
   "note": "In the arithmetic of Spec/Ieee. The user expects finite values for finite data; C121_refuted shows cells that get infinity and NaN."
  },
  {
   "property": "C122",
   "status": "proved",
   "theorems": [
    "Sg.Props.C122_rectangular",
    "Sg.Props.C122_polar",
    "Sg.Props.C122_rotated"
   ],
   "note": "The functions as they take their arguments (Model/GridsRaw). Arrays hold at most 2^60-1 numbers."
  },
  {
   "property": "C123",
   "status": "proved",
   "theorems": [
    "Sg.Props.C123_new",
    "Sg.Props.C123_positive",
    "Sg.Props.C123_cap",
    "Sg.Props.C123_negative_refuted"
   ],
   "note": "The functions as they take their arguments (Model/GridsRaw). C123_negative_refuted: two negative counts are accepted."
  },
  {
   "property": "C124",
   "status": "proved",
   "theorems": [
    "Sg.Props.C124_careful",
    "Sg.Props.C124_unset"
   ],
   "note": "Any arithmetic. The begin of the vector at the end of an empty table, taken by the constructor and by reset, is tolerated (C62); the triangulation's own undefined behaviour is C48 and C65."
  },
  {
   "property": "C125",
   "status": "partial",
   "theorems": [
    "Sg.Props.C125_history",
    "Sg.Props.C125_cells",
    "Sg.Props.C125_negative_points",
    "Sg.Props.C125_short_points",
    "Sg.Props.C125_refused",
    "Sg.Props.C125_no_points",
    "Sg.Props.C125_no_points_refuted"
   ],
   "note": "Everything but the last sentence proved. A polygon without points on a x b nodes gets (a-2)*(b-2) numbers, the first one of no cell. Source grids whose counts are both negative are in C134."
  },
  {
   "property": "C126",
   "status": "proved",
   "theorems": [
    "Sg.Props.C126_new",
    "Sg.Props.C126_history",
    "Sg.Props.C126_short_matrix",
    "Sg.Props.C126_short_rhs",
    "Sg.Props.C126_empty"
   ],
   "note": "Memory is unlimited in the model: sizes that exhaust it are not told apart."
  },
  {
   "property": "C127",
   "status": "proved",
   "theorems": [
    "Sg.Props.C127_new",
    "Sg.Props.C127_negative",
    "Sg.Props.C127_short",
    "Sg.Props.C127_queries",
    "Sg.Props.C127_short_element",
    "Sg.Props.C127_roundtrip"
   ],
   "note": ""
  },
  {
   "property": "C128",
   "status": "proved",
   "theorems": [
    "Sg.Props.C128_new",
    "Sg.Props.C128_area",
    "Sg.Props.C128_negative",
    "Sg.Props.C128_many",
    "Sg.Props.C128_short"
   ],
   "note": "The area clause is for the convention that a shrunken vector keeps its buffer, as C45; see C48 for the other."
  },
  {
   "property": "C129",
   "status": "proved",
   "theorems": [
    "Sg.Props.C129_history",
    "Sg.Props.C129_queries",
    "Sg.Props.C129_short_reset",
    "Sg.Props.C129_no_grid",
    "Sg.Props.C129_many_axes",
    "Sg.Props.C129_overflow"
   ],
   "note": "Refinement with equal outcomes, including the kind of undefined behaviour. Number of calls after setGrid bounded by INT_MAX (the step counter is an int; C129_overflow is what happens beyond). Allocation of the vector of corners is taken to succeed."
  },
  {
   "property": "C130",
   "status": "proved",
   "theorems": [
    "Sg.Props.C130_pair",
    "Sg.Props.C130_line",
    "Sg.Props.C130_flows",
    "Sg.Props.C130_points_moved",
    "Sg.Props.C130_line_points_moved",
    "Sg.Props.C130_count"
   ],
   "note": "The library is assumed to keep the sizes of its arrays. Pointers into the object's own vectors are not covered, and memory for these vectors is unlimited."
  },
  {
   "property": "C131",
   "status": "proved",
   "theorems": [
    "Sg.Props.C131_new",
    "Sg.Props.C131_queries",
    "Sg.Props.C131_no_axes",
    "Sg.Props.C131_negative_axes",
    "Sg.Props.C131_negative_levels",
    "Sg.Props.C131_many_axes",
    "Sg.Props.C131_too_many_axes",
    "Sg.Props.C131_reused"
   ],
   "note": "Memory and stack are unlimited apart from the largest size of a vector; fuel counts rounds of the recursion. C131_reused is over an ordered field, the others over any type of numbers without laws."
  },
  {
   "property": "C132",
   "status": "partial",
   "theorems": [
    "Sg.Props.C132_weight",
    "Sg.Props.C132_copy",
    "Sg.Props.C132_safe_partial",
    "Sg.Props.C132_rectangular_partial",
    "Sg.Props.C132_ties_refuted",
    "Sg.Props.C132_standard_refuted"
   ],
   "note": "Identity table and copy in full whenever the run completes. Completion is partial: it needs a sort that keeps ties of at most 16 elements in order (libstdc++ and libc++ sort so few by insertion) and readable erased elements; both needs are shown by counterexamples."
  },
  {
   "property": "C133",
   "status": "proved",
   "theorems": [
    "Sg.Props.C133_history",
    "Sg.Props.C133_negative_source"
   ],
   "note": "Source grids of at most 2^31 - 1 nodes, destination grids of fewer than 2^59 nodes, at most 2^31 - 1 iterations; other counts are C112. Running out of memory is not modelled."
  },
  {
   "property": "C134",
   "status": "partial",
   "theorems": [
    "Sg.Props.C134_history",
    "Sg.Props.C134_negative_source",
    "Sg.Props.C134_negative_source_refuted"
   ],
   "note": "All but the last sentence proved, for grids of at most 2^31 - 1 nodes. Refuted for two negative counts: -a x -b nodes are accepted, and whenever the calls return, (a+1)*(b+1) numbers are reported whatever the grid and the polygon, among them a*b+b. Running out of memory is not modelled."
  },
  {
   "property": "C135",
   "status": "partial",
   "theorems": [
    "Sg.Props.C135_listed",
    "Sg.Props.C135_spread",
    "Sg.Props.C135_self",
    "Sg.Props.C135_neighbour_refuted"
   ],
   "note": "False: a source cell that only has a corner in the destination cell is listed with weight zero, as each such corner is collected several times, and 0*NaN is NaN. Proved: NaN reaches every destination cell of which the source cell covers a part, and also those in which it only has a corner; an infinite value of the latter gives NaN too; cells all of whose meeting source cells are finite get the right sum (or have no weights and are left alone). For a rectangular grid of any size regridded to itself a missing value spoils all (up to eight) neighbours, and cells with finite surroundings are copied. Missing: the exact set of listed cells for cells that meet along sides without a corner of the source cell in the destination cell. Weights in exact real arithmetic, data in arithmetic with NaN and infinities; the refutation runs wholly in the latter."
  },
  {
   "property": "C136",
   "status": "partial",
   "theorems": [
    "Sg.Props.C136_listed",
    "Sg.Props.C136_cell",
    "Sg.Props.C136_self",
    "Sg.Props.C136_neighbour_refuted"
   ],
   "note": "False: the four corners of the cell are always listed, be their weight zero, and 0*NaN is NaN. Proved for affine source grids: a destination node gets NaN exactly when (with no infinities) one of the four corners of its cell is NaN, NaN also for an infinite value with weight zero, and the bilinear interpolant if the four values are finite, whatever the others are; for a grid interpolated to itself a node is copied if the cell beginning at it (the last cell at the end of an axis) has finite corners and is NaN if one of them is. Weights in exact arithmetic, data in arithmetic with NaN and infinities; the refutation runs wholly in the latter. For any grids: NaN if a listed source node is NaN, or infinite with weight zero, the value of exact arithmetic if the listed ones are finite. Missing: which nodes are listed, for source grids that are not affine."
  },
  {
   "property": "C137",
   "status": "partial",
   "theorems": [
    "Sg.Props.C137_destination",
    "Sg.Props.C137_destination_others",
    "Sg.Props.C137_source",
    "Sg.Props.C137_source_last",
    "Sg.Props.C137_source_refuted"
   ],
   "note": "First sentence proved for source grids without infinite coordinates (a missing destination node is taken for one outside, at no risk). The second sentence is false: NaN in the source coordinates makes the bounding box forget the nodes before it, so that destination nodes left or right of all later nodes get no weights (all of them if the last node is missing), and a search through a cell with a missing corner converts NaN to int. Arithmetic with NaN and infinities, no rounding."
  },
  {
   "property": "C138",
   "status": "partial",
   "theorems": [
    "Sg.Props.C138_destination_partial",
    "Sg.Props.C138_refuted"
   ],
   "note": "False: points with NaN coordinates fail every comparison and are dropped, so that a destination cell with a missing corner counts as the triangle of the others, or has area zero, or a vector is read past its end, and a source cell with a missing corner gives a weight for a part of it. Proved for destination cells of which the last corner misses a coordinate: no weights, value left alone, since the bounds of its box are NaN."
  },
  {
   "property": "C139",
   "status": "proved",
   "theorems": [
    "Sg.Props.C139_pair",
    "Sg.Props.C139_line"
   ],
   "note": "The arrays are modelled with entries that may be uninitialised, filled entry by entry in the order of the code; reading one that was not written is undefined behaviour. The answers are those of the specification of C130."
  },
  {
   "property": "C140",
   "status": "partial",
   "theorems": [
    "Sg.Props.C140_cells_partial",
    "Sg.Props.C140_refuted"
   ],
   "note": "False: a weight of zero still multiplies the value, so that a segment along the bottom edge of a cell is NaN if only the top edge misses its value. Proved with cells in place of edges: NaN on any edge of a cell with more than a point of the segment gives NaN; finite values on the edges of all cells with a point of the segment give the flow of exact arithmetic, whatever the other edges hold (weights in real numbers, decisions not closer than the tolerance)."
  },
  {
   "property": "C141",
   "status": "partial",
   "theorems": [
    "Sg.Props.C141_segment_partial",
    "Sg.Props.C141_refuted"
   ],
   "note": "False near the tolerances: the search keeps the box of all cells it was used for, so that a node just outside of its cell is found or not depending on the segments before; the flow is 0 or 1/2 in the witness. Proved for cells of any convex shape, all data and segments clear of the tolerance of the intersector."
  },
  {
   "property": "C142",
   "status": "partial",
   "theorems": [
    "Sg.Props.C142_affine_partial",
    "Sg.Props.C142_axes_partial",
    "Sg.Props.C142_turned_partial",
    "Sg.Props.C142_refuted"
   ],
   "note": "False near the tolerances: that of the intersector goes with the size of the cell, that of the search is an absolute length, so that a change of unit turns a flow of 0 into 1/2 in the witness. Proved for cells that are parallelograms and segments clear of the tolerance of the intersector (clearness need only be assumed before the affine map; for the renumberings it is assumed for both)."
  },
  {
   "property": "C143",
   "status": "proved",
   "theorems": [
    "Sg.Props.C143_path",
    "Sg.Props.C143_cell",
    "Sg.Props.C143_grid",
    "Sg.Props.C143_rectangle"
   ],
   "note": "Closed means closed as stored, that is after the perturbation of the nodes: a line closed only by the caller need not have total zero (C70_closed_refuted). C143_path and C143_grid need sheared product grids and segments in the grid; C143_rectangle evaluates the share for rectangles along the axes; C143_cell needs segments with no more than a point in other cells."
  },
  {
   "property": "C144",
   "status": "proved",
   "theorems": [
    "Sg.Props.C144_destination",
    "Sg.Props.C144_source",
    "Sg.Props.C144_parts",
    "Sg.Props.C144_two_steps"
   ],
   "note": "For runs that complete (see C65 and C132 for when they do). The grids are to be clean with each other: no decision closer than the tolerance."
  },
  {
   "property": "C145",
   "status": "proved",
   "theorems": [
    "Sg.Props.C145_parts"
   ],
   "note": "The conditions on the segment are those of C79; along an edge between two cells a segment is counted twice (C79), so that the parts would give another flow."
  },
  {
   "property": "C146",
   "status": "proved",
   "theorems": [
    "Sg.Props.C146_two_steps",
    "Sg.Props.C146_back"
   ],
   "note": "Exact arithmetic in any ordered field with a floor."
  },
  {
   "property": "C147",
   "status": "proved",
   "theorems": [
    "Sg.Props.C147_search",
    "Sg.Props.C147_nodal"
   ],
   "note": "Exact arithmetic in any ordered field with a floor. The coordinates of the first node are in the range of finite numbers (the box of the grid starts from the largest number), before and after."
  },
  {
   "property": "C148",
   "status": "proved",
   "theorems": [
    "Sg.Props.C148_conservative",
    "Sg.Props.C148_conservative_result",
    "Sg.Props.C148_flows"
   ],
   "note": "Exact arithmetic in any ordered field. Unlike C84 and C142, nothing is assumed about the geometry. For flows the coordinates of the source grid are in the range of finite numbers, before and after."
  },
  {
   "property": "C149",
   "status": "partial",
   "theorems": [
    "Sg.Props.C149_cells_partial",
    "Sg.Props.C149_cells_refuted"
   ],
   "note": "Proved for grids of at least three nodes along the second axis, exact arithmetic, nothing assumed about the geometry. False for two nodes along the second axis: the search then starts outside the grid, where the weights do not sum to one; on a ring moved by 100 the cell that holds the point is missed."
  },
  {
   "property": "C150",
   "status": "proved",
   "theorems": [
    "Sg.Props.C150_units"
   ],
   "note": "Exact arithmetic. The points are within the range of finite numbers in both coordinates, and do not all agree on an axis (the code then divides by zero)."
  },
  {
   "property": "C151",
   "status": "proved",
   "theorems": [
    "Sg.Props.C151_sum",
    "Sg.Props.C151_one_iff"
   ],
   "note": "Exact arithmetic. Completes C28, which is about positions in the grid. It is the cause of the failure in C149: the search of candidate cells may start outside."
  },
  {
   "property": "C152",
   "status": "proved",
   "theorems": [
    "Sg.Props.C152_valid_box",
    "Sg.Props.C152_cover"
   ],
   "note": "C42 and C43 for rounded numbers; no infinities or NaN. The condition of C152_cover about the upper boundary is needed already in exact arithmetic (C43_cover_refuted)."
  },
  {
   "property": "C153",
   "status": "proved",
   "theorems": [
    "Sg.Props.C153_more_vertices",
    "Sg.Props.C153_same_vertices",
    "Sg.Props.C153_rounded"
   ],
   "note": "Same vertices: the same cells, each once (a permutation)."
  },
  {
   "property": "C154",
   "status": "proved",
   "theorems": [
    "Sg.Props.C154_safe",
    "Sg.Props.C154_error",
    "Sg.Props.C154_codes",
    "Sg.Props.C154_outside",
    "Sg.Props.C154_double"
   ],
   "note": "C32 and C28 for rounded numbers; no overflow, underflow, infinities or NaN. Code -3 needs coordinates that are numbers of the arithmetic."
  },
  {
   "property": "C155",
   "status": "proved",
   "theorems": [
    "Sg.Props.C155_linear",
    "Sg.Props.C155_smooth",
    "Sg.Props.C155_double"
   ],
   "note": "C100 for rounded numbers; no overflow, underflow, infinities or NaN. Speaks of the nodes that have weights."
  },
  {
   "property": "C156",
   "status": "proved",
   "theorems": [
    "Sg.Props.C156_amount",
    "Sg.Props.C156_value",
    "Sg.Props.C156_total"
   ],
   "note": "C102 for rounded numbers, with the conditions of C111: backward stability of dgels is assumed, no overflow, underflow, infinities or NaN; for weights that are returned, with the buffer reading of the triangulation defect (C46)."
  },
  {
   "property": "C157",
   "status": "proved",
   "theorems": [
    "Sg.Props.C157_search",
    "Sg.Props.C157_weights",
    "Sg.Props.C157_double",
    "Sg.Props.C157_values"
   ],
   "note": "C35 and C39 for rounded numbers, two axes, not periodic; no overflow, underflow, infinities or NaN. Targets are numbers of the arithmetic and lie in the box of the coordinates."
  },
  {
   "property": "C158",
   "status": "proved",
   "theorems": [
    "Sg.Props.C158_away",
    "Sg.Props.C158_double"
   ],
   "note": "Two axes; no overflow, underflow, infinities or NaN. Says nothing about nodes outside the grid that no straight line separates from it (in a bay of a grid that is not convex)."
  },
  {
   "property": "C159",
   "status": "proved",
   "theorems": [
    "Sg.Props.C159_beside",
    "Sg.Props.C159_double"
   ],
   "note": "No overflow, underflow, infinities or NaN. The segment is the one with its ends moved by setDstGrid, as stored."
  },
  {
   "property": "C160",
   "status": "proved",
   "theorems": [
    "Sg.Props.C160_apart"
   ],
   "note": "No overflow, infinities or NaN. The weights are assumed computed (no error status or undefined behaviour on the way: C111 says when)."
  },
  {
   "property": "C161",
   "status": "proved",
   "theorems": [
    "Sg.Props.C161_nodes",
    "Sg.Props.C161_cells",
    "Sg.Props.C161_flows",
    "Sg.Props.C161_interp"
   ],
   "note": "No overflow, underflow, infinities or NaN. Powers of two only: with other factors the data themselves are rounded."
  },
  {
   "property": "C162",
   "status": "proved",
   "theorems": [
    "Sg.Props.C162_interp",
    "Sg.Props.C162_apply",
    "Sg.Props.C162_double"
   ],
   "note": "No overflow, underflow, infinities or NaN."
  },
  {
   "property": "C163",
   "status": "proved",
   "theorems": [
    "Sg.Props.C163_nodes",
    "Sg.Props.C163_cells",
    "Sg.Props.C163_flows"
   ],
   "note": "No overflow, infinities or NaN; zeros have no sign."
  },
  {
   "property": "C164",
   "status": "proved",
   "theorems": [
    "Sg.Props.C164_nearest",
    "Sg.Props.C164_linear",
    "Sg.Props.C164_away",
    "Sg.Props.C164_order",
    "Sg.Props.C164_found",
    "Sg.Props.C164_weights",
    "Sg.Props.C164_flows",
    "Sg.Props.C164_potential"
   ],
   "note": "No overflow, underflow, infinities or NaN."
  }
 ]
}