{"claims": [
{"property": "C01", "status": "proved", "theorems": ["Rampack.C01_history_safe", "Rampack.C01_cell_lists_stored", "Rampack.C01_cell_at_position"], "note": "identifiers below the number given to the constructor; the number of cells fits in 64 bits; exact real arithmetic for positions"},
{"property": "C02", "status": "proved", "theorems": ["Rampack.C02_enumeration_complete"], "note": ""},
{"property": "C03", "status": "proved", "theorems": ["Rampack.C03_half_enumeration"], "note": ""},
{"property": "C04", "status": "proved", "theorems": ["Rampack.C04_numbering", "Rampack.C04_positions", "Rampack.C04_neighbours"], "note": ""},
{"property": "C05", "status": "proved", "theorems": ["Rampack.C05_correction"], "note": ""},
{"property": "C06", "status": "proved", "theorems": ["Rampack.C06_translation"], "note": ""},
{"property": "C07", "status": "partial", "theorems": ["Rampack.C07_distance2_partial", "Rampack.C07_sheared_counterexample"], "note": "holds for rectangular boxes; a sheared box violates it (counterexample proved)"},
{"property": "C08", "status": "proved", "theorems": ["Rampack.C08_particle_count", "Rampack.C08_trial_detects", "Rampack.C08_images_eq_nearest"], "note": "over all histories of public operations; exact real arithmetic; sequential use (parallel sweeps are C21-C23)"},
{"property": "C09", "status": "proved", "theorems": ["Rampack.C09_counts_add_up"], "note": "over all histories of public operations; exact real arithmetic; sequential use (parallel sweeps are C21-C23)"},
{"property": "C10", "status": "proved", "theorems": ["Rampack.C10_operations_safe", "Rampack.C10_cached_eq_recount"], "note": "over all histories of public operations; exact real arithmetic; sequential use (parallel sweeps are C21-C23); walls are switched only while counting is off, re-setups bring at most as many interaction centres (or no grid exists) and do not go from an interaction with a hard part to one without; what goes wrong otherwise is C59-C61"},
{"property": "C11", "status": "proved", "theorems": ["Rampack.C11_trials_invisible"], "note": "over all histories of public operations; exact real arithmetic; sequential use (parallel sweeps are C21-C23)"},
{"property": "C12", "status": "proved", "theorems": ["Rampack.C12_revert_restores"], "note": "over all histories of public operations; exact real arithmetic; sequential use (parallel sweeps are C21-C23)"},
{"property": "C13", "status": "proved", "theorems": ["Rampack.C13_early_exit", "Rampack.C13_full_count", "Rampack.C13_schedules_exist"], "note": "all schedules of the parallel loops"},
{"property": "C14", "status": "proved", "theorems": ["Rampack.C14_move_energy", "Rampack.C14_scaling_energy"], "note": "over all histories of public operations; exact real arithmetic; sequential use (parallel sweeps are C21-C23)"},
{"property": "C15", "status": "partial", "theorems": ["Rampack.C15_no_overlaps_partial", "Rampack.C15_zero_violated"], "note": "Missing: scaling of shapes claimed to be convex, where the code is wrong (see C18), and random numbers which are exactly zero, for which the code violates the property (C15_zero_violated)."},
{"property": "C16", "status": "proved", "theorems": ["Rampack.C16_inside"], "note": "over all histories of public operations; exact real arithmetic; sequential use (parallel sweeps are C21-C23)"},
{"property": "C17", "status": "proved", "theorems": ["Rampack.C17_centres", "Rampack.C17_grid"], "note": "over all histories of public operations; exact real arithmetic; sequential use (parallel sweeps are C21-C23)"},
{"property": "C18", "status": "partial", "theorems": ["Rampack.C18_convex_partial", "Rampack.C18_balls_partial", "Rampack.C18_balls_violated", "Rampack.C18_rods_violated"], "note": "Proved for isotropic expansion of convex bodies and for expansion of rectangular boxes with balls. The two _violated theorems are concrete cases (balls in a sheared box, rods in a rectangular one) in which the check is skipped although overlaps appear."},
{"property": "C19", "status": "partial", "theorems": ["Rampack.C19_walls_partial", "Rampack.C19_thin_box_violated", "Rampack.C19_left_handed_violated"], "note": "Proved for right-handed boxes thick enough for one wall at a time; the two theorems ending in _violated give concrete boxes outside those conditions in which a wall overlap is missed or invented."},
{"property": "C20", "status": "partial", "theorems": ["Rampack.C20_renormalize_partial", "Rampack.C20_allow_overlaps_no_effect", "Rampack.C20_allow_overlaps_violated"], "note": "Proved without permission for overlaps (the code's default). With permission the code copies the shapes before fixing them and so changes nothing, which C20_allow_overlaps_no_effect proves for all packings."},
{"property": "C21", "status": "proved", "theorems": ["Rampack.C21_domains_apart", "Rampack.C21_domains_nonempty", "Rampack.C21_molecules", "Rampack.C21_no_interaction"], "note": "for all reachable packings, divisions, grids and origins for which the decomposition is made; orientations orthogonal for the interaction part"},
{"property": "C22", "status": "proved", "theorems": ["Rampack.C22_cells_disjoint"], "note": "for molecules anywhere in the active domains (orthogonal orientations) and the packing's own grid; the list links of the grid are per molecule"},
{"property": "C23", "status": "proved", "theorems": ["Rampack.C23_equivalent", "Rampack.C23_progress", "Rampack.C23_ends", "Rampack.C23_exact", "Rampack.C23_begins"], "note": "Threads interleave by trials and acceptances in any order; each of these two is a single step of the model (the grid cells which different threads touch are disjoint: C22). The data race on sampler step limits (the same value is written) is not an issue in the model."},
{"property": "C24", "status": "partial", "theorems": ["Rampack.C24_division_partial", "Rampack.C24_ends", "Rampack.C24_no_grid_violated", "Rampack.C24_flip_violated"], "note": "Proved: the division used is, along each axis, the greatest possible one not above the requested one; exactly one sweep is done with it; failed attempts leave no trace; the search ends in every state. Missing: sweeps with domains when the packing has no neighbour grid (the code dereferences an empty optional, C24_no_grid_violated) and when a flip group asks for more molecules than a domain's share (the code throws inside the parallel region, C24_flip_violated)."},
{"property": "C25", "status": "partial", "theorems": ["Rampack.C25_schedule", "Rampack.C25_numbers", "Rampack.C25_uninterrupted", "Rampack.C25_interrupted", "Rampack.C25_relaxation", "Rampack.C25_zero_period_violated"], "note": "The schedule is exact for all legal parameters. The code accepts a zero snapshot period, although it is used as a divisor (C25_zero_period_violated)."},
{"property": "C26", "status": "proved", "theorems": ["Rampack.C26_adjustment", "Rampack.C26_averaging", "Rampack.C26_relaxation"], "note": ""},
{"property": "C27", "status": "partial", "theorems": ["Rampack.C27_positive", "Rampack.C27_rotation_partial", "Rampack.C27_reported", "Rampack.C27_undo_partial", "Rampack.C27_max_partial", "Rampack.C27_scaler", "Rampack.C27_sampled_translation", "Rampack.C27_sampled_rotation", "Rampack.C27_violation_pi", "Rampack.C27_violation_undo", "Rampack.C27_violation_max", "Rampack.C27_violation_rototranslation"], "note": "The code violates the full statement: the constructor accepts rotation steps above pi, a decrease does not undo a capped increase, a translation step may exceed the maximum by a tenth, and the stored rotation step of a rototranslation sampler is not capped (C27_violation_*)."},
{"property": "C28", "status": "proved", "theorems": ["Rampack.C28_statistics", "Rampack.C28_relaxation"], "note": ""},
{"property": "C29", "status": "proved", "theorems": ["Rampack.C29_combine", "Rampack.C29_complete", "Rampack.C29_refused", "Rampack.C29_setters"], "note": ""},
{"property": "C30", "status": "proved", "theorems": ["Rampack.C30_round_trip"], "note": "For all lists of recordable snapshots and all sequences of visits. Doubles are 64-bit words, so boxes and positions come back as the same bits; orientations come back as the rotation computed from the recorded Euler angles (the conversion itself is C54). The hypothesis Fits64 says that file sizes and cycle numbers fit in their C++ types."},
{"property": "C31", "status": "proved", "theorems": ["Rampack.C31_crash", "Rampack.C31_complete"], "note": "Every byte written is a step of the trace; the crash point is any prefix of the trace, including the rewriting of the header on closing. The operating system is assumed to write bytes in the order of the calls."},
{"property": "C32", "status": "proved", "theorems": ["Rampack.C32_append", "Rampack.C32_refused"], "note": "Bytewise equality with a single session, for any number of sessions."},
{"property": "C33", "status": "proved", "theorems": ["Rampack.C33_truncated", "Rampack.C33_refused"], "note": "For every player presenting some snapshots, hence also for nested truncations."},
{"property": "C34", "status": "partial", "theorems": ["Rampack.C34_round_trip_partial", "Rampack.C34_old_format", "Rampack.C34_no_entries_violated", "Rampack.C34_leading_space_violated", "Rampack.C34_empty_value_violated", "Rampack.C34_any_order"], "note": "Proved for all packings of finite numbers and all maps, with at least one entry, of words to non-empty lines not beginning with white space (these are the maps written by the program). The full statement is false for other maps: an empty map or an empty last value makes the file unreadable, leading white space of values is lost. The conversion of doubles to 17 digits and back is a hypothesis (Printable)."},
{"property": "C35", "status": "partial", "theorems": ["Rampack.C35_backwards_partial", "Rampack.C35_first_empty_violated", "Rampack.C35_position", "Rampack.C35_position_first", "Rampack.C35_observables", "Rampack.C35_observables_torn", "Rampack.C35_xyz", "Rampack.C35_xyz_torn_violated"], "note": "Proved for every text whose first line is not empty; missing: a first line that is empty (the reader never returns it, C35_first_empty_violated). The last cycle is recovered for every observables and XYZ output; a torn last row of observables is detected, a torn last XYZ snapshot is not (C35_xyz_torn_violated)."},
{"property": "C36", "status": "partial", "theorems": ["Rampack.C36_all_done", "Rampack.C36_scratch", "Rampack.C36_next", "Rampack.C36_thermalization", "Rampack.C36_averaging", "Rampack.C36_broken", "Rampack.C36_order", "Rampack.C36_engine", "Rampack.C36_campaign_partial", "Rampack.C36_completed_partial", "Rampack.C36_near_end_violated", "Rampack.C36_averaging_violated", "Rampack.C36_relaxation_violated"], "note": "Resuming with .auto: from which run, packing, step sizes and cycle it starts for every consistent set of files, and that broken or inconsistent sets are refused. A campaign of any number of attempts, each interrupted or killed at any point outside averaging, performs an initial part of all cycles in order, none twice and none omitted, and all of them once an attempt is not disturbed. Missing: attempts interrupted within averaging, where the code re-runs averaging and may skip it afterwards (C36_averaging_violated); interrupted relaxations count as done (C36_relaxation_violated) and a run with fewer cycles left than the snapshot period cannot be resumed (C36_near_end_violated)."},
{"property": "C37", "status": "partial", "theorems": ["Rampack.C37_checked", "Rampack.C37_together_partial", "Rampack.C37_xyz_fresh", "Rampack.C37_xyz_append_violated"], "note": "Continuing is allowed exactly if all outputs end at the last multiple of the period; RAMTRJ and observables of any number of resumed parts equal those of one run. For XYZ files the property fails: continuing overwrites the last snapshot (C37_xyz_append_violated)."},
{"property": "C38", "status": "proved", "theorems": ["Rampack.C38_value", "Rampack.C38_rejects", "Rampack.C38_range"], "note": "cycle numbers and starts below 2^63 (larger starts become negative shifts); the value of a piece is an outcome: a nested piecewise parameter may reject the length of its piece"},
{"property": "C39", "status": "proved", "theorems": ["Rampack.C39_shifted"], "note": ""},
{"property": "C40", "status": "partial", "theorems": ["Rampack.C40_index", "Rampack.C40_generate", "Rampack.C40_create", "Rampack.C40_modify", "Rampack.C40_unit", "Rampack.C40_box", "Rampack.C40_many_violated"], "note": "Proved for every lattice with fewer than 2^31 cells; C40_many_violated shows that with more cells the `int` product in the code loses the count. Aliasing of the cell box between copies of a Lattice object is not modelled."},
{"property": "C41", "status": "proved", "theorems": ["Rampack.C41_normalize"], "note": "Over exact reals, for molecules at most 2^30 or so cells away (the code's static_cast<int> is undefined beyond; the hypothesis Moderate)."},
{"property": "C42", "status": "proved", "theorems": ["Rampack.C42_axes", "Rampack.C42_serial", "Rampack.C42_random", "Rampack.C42_random_all"], "note": "std::shuffle is an arbitrary permutation."},
{"property": "C43", "status": "proved", "theorems": ["Rampack.C43_create", "Rampack.C43_dividers", "Rampack.C43_position", "Rampack.C43_index"], "note": "Coordinates are exact reals; the numbers of bins are below 2^64."},
{"property": "C44", "status": "proved", "theorems": ["Rampack.C44_build", "Rampack.C44_threads", "Rampack.C44_clear", "Rampack.C44_refused", "Rampack.C44_initial_violated"], "note": "Proved for the initial value 0, which is the one used everywhere in the program; C44_initial_violated shows that another initial value is added once per thread and snapshot. Values are exact reals, so sums do not depend on the order."},
{"property": "C45", "status": "proved", "theorems": ["Rampack.C45_canonical", "Rampack.C45_parses_partial", "Rampack.C45_accepts_partial", "Rampack.C45_ends", "Rampack.C45_refuses", "Rampack.C45_trailing", "Rampack.C45_unambiguous", "Rampack.C45_long_float_violated", "Rampack.C45_binary_violated"], "note": "The canonical form of every expressible value is parsed back; every text of the grammar, with gaps and comments anywhere between tokens, is taken with its only meaning, provided that floating-point literals do not begin with an integer out of the 64-bit range (C45_long_float_violated: they are refused); what is taken belongs to the grammar, except for 0b followed by white space or a sign (C45_binary_violated); everything else is refused by an exception and the parser always ends. The rounding of decimal literals to double is a parameter; strtol and strtod are modelled after the C standard."},
{"property": "C46", "status": "proved", "theorems": ["Rampack.C46_binds", "Rampack.C46_unique", "Rampack.C46_kind", "Rampack.C46_refuses", "Rampack.C46_access", "Rampack.C46_default", "Rampack.C46_declared", "Rampack.C46_same_names_violated"], "note": "A class matches exactly the invocations whose arguments bind (positionally, by name, or by default), uniquely; the four kinds of wrong arguments are refused with a truthful report. Distinct names of declared arguments are needed: C46_same_names_violated shows that repeated names are noticed only when matching. Texts of reports are not modelled."},
{"property": "C47", "status": "partial", "theorems": ["Rampack.C47_parse", "Rampack.C47_lines", "Rampack.C47_sections", "Rampack.C47_sub", "Rampack.C47_root_violated", "Rampack.C47_fields"], "note": "Parsing, sections and sub-configurations are characterised for all texts. What is missing: a root section which has only subsections has no sub-configuration, so 'a sub-configuration contains the fields under the given root' fails for it (C47_root_violated). Conversions of values to numbers are not modelled. C47_fields is about lists of fields in values."},
{"property": "C48", "status": "partial", "theorems": ["Rampack.C48_order", "Rampack.C48_parse", "Rampack.C48_roundtrip", "Rampack.C48_negative_violated"], "note": "C48_parse gives exactly the accepted strings. Missing: malformed strings with minus signs are accepted (C48_negative_violated)."},
{"property": "C49", "status": "partial", "theorems": ["Rampack.C49_total", "Rampack.C49_width", "Rampack.C49_words", "Rampack.C49_words_exist", "Rampack.C49_chars", "Rampack.C49_margin_partial", "Rampack.C49_margin_no_ends", "Rampack.C49_margin_violated", "Rampack.C49_blank_line"], "note": "Missing: lines inside the last part of a text have no margin (C49_margin_violated)."},
{"property": "C50", "status": "proved", "theorems": ["Rampack.C50_split_join", "Rampack.C50_join_split", "Rampack.C50_trim", "Rampack.C50_ends", "Rampack.C50_replace", "Rampack.C50_replace_none", "Rampack.C50_lastIndexOf", "Rampack.C50_quoted", "Rampack.C50_empty_violated"], "note": "Characters outside ASCII are never white space. Replacing an empty text never ends (C50_empty_violated); it is not part of the property, which is about occurrences of a text to be replaced."},
{"property": "C51", "status": "proved", "theorems": ["Rampack.C51_rotation", "Rampack.C51_moves", "Rampack.C51_run", "Rampack.C51_relaxation"], "note": "Exact arithmetic; random numbers which are exactly zero are excluded."},
{"property": "C52", "status": "partial", "theorems": ["Rampack.C52_scaled_box", "Rampack.C52_all_directions", "Rampack.C52_one_direction", "Rampack.C52_every_direction", "Rampack.C52_log_total", "Rampack.C52_delta_partial", "Rampack.C52_delta_sheared_violated", "Rampack.C52_delta_negative_violated", "Rampack.C52_directions", "Rampack.C52_triclinic_together", "Rampack.C52_triclinic_one", "Rampack.C52_alternatives"], "note": "The volume change of the delta V scaler is exact in rectangular boxes only, and it may turn the box inside out (C52_delta_*_violated)."},
{"property": "C53", "status": "partial", "theorems": ["Rampack.C53_attained", "Rampack.C53_minimal_partial", "Rampack.C53_near_parallel_violated", "Rampack.C53_short_violated", "Rampack.C53_point_violated"], "note": "The value is always attained by points of the segments (so it is never too small). Minimality is proved up to an explicit error bound for segments which are parallel or not nearly parallel at the scale 10^-10; it fails for nearly parallel segments (squared distance 1/4 for crossing unit segments), for short segments and for a point as the second segment."},
{"property": "C54", "status": "partial", "theorems": ["Rampack.C54_quaternion", "Rampack.C54_rotation", "Rampack.C54_axis", "Rampack.C54_euler_partial", "Rampack.C54_gimbal_violated", "Rampack.C54_reflection_violated"], "note": "Quaternions are proved for all rotation matrices. Euler angles are proved except for the gimbal lock, where the branch for it is never taken and the angles do not reproduce the matrix (C54_gimbal_violated)."},
{"property": "C55", "status": "proved", "theorems": ["Rampack.C55_pair", "Rampack.C55_contact", "Rampack.C55_axes", "Rampack.C55_shrink"], "note": "Over exact reals. C55_shrink covers whole packings: for every reachable packing and order of axes."},
{"property": "C56", "status": "proved", "theorems": ["Rampack.C56_mean", "Rampack.C56_error", "Rampack.C56_few"], "note": "Over the reals."},
{"property": "C57", "status": "proved", "theorems": ["Rampack.C57_snapshots", "Rampack.C57_averages", "Rampack.C57_groups", "Rampack.C57_bulk", "Rampack.C57_on_the_fly"], "note": "For every list of observables and every history of snapshots, averaging, parameter changes and clearing."},
{"property": "C58", "status": "proved", "theorems": ["Rampack.C58_history_independence"], "note": "over all histories of public operations; exact real arithmetic; sequential use (parallel sweeps are C21-C23)"},
{"property": "C59", "status": "partial", "theorems": ["Rampack.C59_reset_partial", "Rampack.C59_growing_reset_violated"], "note": "Proved when the new shapes bring no more interaction sites (or no grid is used); with more sites the grid is indexed out of bounds, which C59_growing_reset_violated proves for a concrete packing."},
{"property": "C60", "status": "partial", "theorems": ["Rampack.C60_walls_partial", "Rampack.C60_walls_violated"], "note": "Proved while overlap counting is off; C60_walls_violated is a concrete packing whose cached overlap number is wrong after walls are switched."},
{"property": "C61", "status": "partial", "theorems": ["Rampack.C61_reset_partial", "Rampack.C61_stale_difference_violated"], "note": "Proved unless a reset drops the hard part; C61_stale_difference_violated is a concrete history after which the cached number is wrong."},
{"property": "C62", "status": "proved", "theorems": ["Rampack.C62_relaxation_end", "Rampack.Input.C62_run"], "note": ""},
{"property": "C63", "status": "proved", "theorems": ["Rampack.C63_completes", "Rampack.C63_relaxation_completes"], "note": ""},
{"property": "C64", "status": "partial", "theorems": ["Rampack.C64_move", "Rampack.C64_scaling_partial"], "note": "The rule for volume changes assumes that the shortcut for convex shapes (C18), when taken, is right; C18 proves when it is and that it is not always."},
{"property": "C65", "status": "proved", "theorems": ["Rampack.C65_reverse", "Rampack.C65_flip"], "note": "Equal probability is stated as mirroring of random numbers at a set of places at which they may be changed freely."},
{"property": "C66", "status": "partial", "theorems": ["Rampack.C66_torn_partial", "Rampack.C66_torn_violated"], "note": "Proved for all cuts which leave no character of the last number, and for the missing last line end. The full statement is false: a cut inside the last number goes unnoticed (C66_torn_violated)."},
{"property": "C67", "status": "proved", "theorems": ["Rampack.C67_kinds", "Rampack.C67_molecules", "Rampack.C24_division_partial"], "note": "Numbers of moves in sweeps are a part of C24_division_partial."},
{"property": "C68", "status": "partial", "theorems": ["Rampack.C68_spheres", "Rampack.C68_polyspheres", "Rampack.C68_rods_sound", "Rampack.C68_rods_partial", "Rampack.C68_polyrods_sound", "Rampack.C68_polyrods_partial", "Rampack.C68_rods_violated", "Rampack.C68_order_violated"], "note": "Exact for spheres and molecules made of them. For spherocylinders a reported overlap is always right; overlaps of rods made slightly thinner (explicit bound) are reported unless the rods are short or nearly parallel, for which the property fails: C68_rods_violated, C68_order_violated."},
{"property": "C69", "status": "proved", "theorems": ["Rampack.C69_spheres", "Rampack.C69_polyspheres", "Rampack.C69_rods", "Rampack.C69_polyrods"], "note": "For unit wall normals."},
{"property": "C70", "status": "partial", "theorems": ["Rampack.C70_spheres", "Rampack.C70_polyspheres", "Rampack.C70_rods", "Rampack.C70_polyrods", "Rampack.C70_molecules", "Rampack.C70_rectangular", "Rampack.C70_rods_violated", "Rampack.C70_sheared_violated"], "note": "All of it holds for spheres and molecules made of them, except that in sheared boxes overlapping spheres may not be reported (C70_sheared_violated). For spherocylinders ranges are right, but the overlap depends on the order for short rods (C70_rods_violated)."},
{"property": "C71", "status": "partial", "theorems": ["Rampack.C71_disjoint", "Rampack.C71_refused", "Rampack.C71_rods_partial", "Rampack.C71_overlapping_rods_violated", "Rampack.C71_disjoint_rods_violated"], "note": "Proved for spheres, up to the relative tolerance 10^-12 of the code. For spherocylinders the code compares the squared distance with a length, so overlapping rods may be counted twice and disjoint ones refused (both proved)."},
{"property": "C72", "status": "proved", "theorems": ["Rampack.C72_balances", "Rampack.C72_normalised", "Rampack.C72_idempotent"], "note": ""},
{"property": "C73", "status": "partial", "theorems": ["Rampack.C73_lennardJones", "Rampack.C73_lennardJones_well", "Rampack.C73_repulsive", "Rampack.C73_repulsive_range", "Rampack.C73_squareInverse", "Rampack.C73_range_partial", "Rampack.C73_range_violated"], "note": "All of it is proved for the repulsive and square-inverse interactions. The Lennard-Jones formula is proved, but its energy is not zero beyond the range 3 sigma (C73_range_violated); it is bounded by 4 epsilon/729 there."},
{"property": "C74", "status": "proved", "theorems": ["Rampack.C74_parts", "Rampack.C74_contract", "Rampack.C74_convex"], "note": ""},
{"property": "C75", "status": "partial", "theorems": ["Rampack.C75_segment", "Rampack.C75_rectangle", "Rampack.C75_cuboid", "Rampack.C75_sphere", "Rampack.C75_ellipsoid", "Rampack.C75_football_partial", "Rampack.C75_football_violated", "Rampack.C75_disk_partial", "Rampack.C75_disk_violated", "Rampack.C75_ellipse_partial", "Rampack.C75_saucer_partial", "Rampack.C75_saucer_violated", "Rampack.C75_thickness_violated", "Rampack.C75_point_partial", "Rampack.C75_point_violated", "Rampack.C75_sum_partial", "Rampack.C75_sum_violated", "Rampack.C75_difference_partial", "Rampack.C75_hull_partial", "Rampack.C75_hull_violated", "Rampack.C75_points_violated"], "note": "Proved for segments, rectangles, cuboids, balls and ellipsoids without conditions. Footballs: for length > diameter (division by zero otherwise). Disks, ellipses, saucers: the support point is wrong for directions shorter than the threshold 1e-12 (bounds given). Points: the circumsphere radius is 0 wherever the point is, so hulls of points never overlap. Sums, differences and hulls: proved when each part contains its own origin, otherwise the insphere radius is wrong; hulls of two bodies at one position away from the origin have a wrong insphere radius."},
{"property": "C76", "status": "partial", "theorems": ["Rampack.C76_miss", "Rampack.C76_overlap_miss", "Rampack.C76_hit_partial", "Rampack.C76_overlap_hit_partial", "Rampack.C76_hit_violated", "Rampack.C76_one_answer", "Rampack.C76_wall", "Rampack.C76_range"], "note": "Negative answers, walls and range: proved. Positive answers: proved (up to 1e-6) when the search meets no tie; with a tie the search reports two cuboids more than 1/2 apart as overlapping (C76_hit_violated). Termination of the search is not claimed: the theorems are about searches which end."},
{"property": "C77", "status": "partial", "theorems": ["Rampack.C77_accepted", "Rampack.C77_stack", "Rampack.C77_furthest", "Rampack.C77_circumsphere_partial", "Rampack.C77_insphere_partial", "Rampack.C77_describes_partial", "Rampack.C77_alone_violated"], "note": "Acceptance and furthest points by induction over all expressions. A block alone loses its position and orientation (C77_alone_violated); radii need the conditions whose failure is shown in C75_points_violated, C75_sum_violated and C75_hull_violated."},
{"property": "C78", "status": "proved", "theorems": ["Rampack.C78_array", "Rampack.C78_index", "Rampack.C78_dictionary", "Rampack.C78_order", "Rampack.C78_numbers", "Rampack.C78_literals", "Rampack.C78_kinds"], "note": "All matchers of literals and collections; texts of reports and outlines are not modelled."},
{"property": "C79", "status": "partial", "theorems": ["Rampack.C79_first_partial", "Rampack.C79_associative", "Rampack.C79_recursive_violated"], "note": "Proved for options which are classes or do not take classes. Missing: options which take classes without being classes; for them the claim is false (C79_recursive_violated: a recursive matcher attached to a class is never tried for class invocations)."},
{"property": "C80", "status": "partial", "theorems": ["Rampack.C80_scratch", "Rampack.C80_preceding", "Rampack.C80_thermalization", "Rampack.C80_averaging", "Rampack.C80_over", "Rampack.C80_relaxation", "Rampack.C80_refused", "Rampack.C80_absent", "Rampack.C80_more_violated", "Rampack.C80_special_violated", "Rampack.C80_no_output_violated"], "note": "Proved for runs with RAMSNAP output and with the argument of --continue read as the total number of cycles. The documentation describes the argument as the number of cycles to be added (C80_more_violated) and names .start and .end instead of .first and .last (C80_special_violated); a run without RAMSNAP output to start from gives undefined behaviour (C80_no_output_violated)."},
{"property": "C81", "status": "partial", "theorems": ["Rampack.Input.C81_input", "Rampack.Input.C81_unique", "Rampack.Input.C81_moves", "Rampack.Input.C81_scalers", "Rampack.Input.C81_runs", "Rampack.Input.C81_later_violated", "Rampack.Input.C81_periods_violated"], "note": "Proved for the whole file, with matchers of shapes, arrangements, observables and trackers as parameters which are assumed to read one value from an expression; C114 puts the modelled matchers in their places. Not everything accepted can be run: environments of later runs are not checked (C81_later_violated) and periods longer than the run are accepted, averaging_every = -1 too (C81_periods_violated); C81_runs says that these periods are all that can fail."},
{"property": "C82", "status": "partial", "theorems": ["Rampack.Input.C82_value", "Rampack.Input.C82_short_violated"], "note": "Proved for parameters of which all pieces begin by the end of the run. Otherwise the value is an exception in all cycles (C82_short_violated)."},
{"property": "C83", "status": "proved", "theorems": ["Rampack.C83_integration", "Rampack.C83_relaxation", "Rampack.Input.C83_verified", "Rampack.Input.C83_runs", "Rampack.Input.C83_given"], "note": "Proved for the loop over runs of the casino mode, with any traits, engines and interruptions. Samplers and scalers shared between environments are modelled by copying them back after each run."},
{"property": "C84", "status": "partial", "theorems": ["Rampack.C84_restored_partial", "Rampack.C84_steps", "Rampack.C84_auto_violated", "Rampack.C84_twice_violated", "Rampack.C84_each"], "note": "Proved for moves of different kinds, with given rotation steps. Missing: a rototranslation with the automatic rotation step, for which the behaviour is undefined (C84_auto_violated), and two moves of the same kind, which share an entry (C84_twice_violated). Printing and reading of numbers is assumed to give back the step sizes which occur."},
{"property": "C85", "status": "partial", "theorems": ["Rampack.C85_flip", "Rampack.C85_auxiliary", "Rampack.C85_has_partial", "Rampack.C85_moved", "Rampack.C85_points", "Rampack.C85_registered", "Rampack.C85_made_partial", "Rampack.C85_secondary_violated", "Rampack.C85_obtuse_violated", "Rampack.C85_accepted_partial"], "note": "Proved for shapes with perpendicular unit axes, which polyspheres and polyspherocylinders made with perpendicular axes have. Missing: polyspherocylinders with the primary axis only, for which looking for the flip axis throws (C85_secondary_violated), and axes at an obtuse angle, which are accepted in the input (C85_obtuse_violated)."},
{"property": "C86", "status": "proved", "theorems": ["Rampack.C86_rotate", "Rampack.C86_refused"], "note": "Proved for cells whose layers can be told apart (coordinates within 1e-10 of each other are a transitive relation in the cell); for others layers are not defined."},
{"property": "C87", "status": "proved", "theorems": ["Rampack.C87_columns", "Rampack.C87_refused"], "note": "Proved for cells whose columns can be told apart. Displacements are arbitrary; how they are drawn is not modelled."},
{"property": "C88", "status": "partial", "theorems": ["Rampack.C88_flips", "Rampack.C88_flips_refused", "Rampack.C88_rotations", "Rampack.C88_rotations_refused", "Rampack.C88_primary_refused"], "note": "Flips are proved for shapes with perpendicular unit axes, geometric origins which are not farther than about 2^29 cell heights, and at most 2^30 cells in a direction. Polyspherocylinders with the primary axis only are refused (see C85). Distributions of random numbers are not modelled."},
{"property": "C89", "status": "proved", "theorems": ["Rampack.C89_sc", "Rampack.C89_bcc", "Rampack.C89_fcc", "Rampack.C89_hcp", "Rampack.C89_hexagonal", "Rampack.C89_zero", "Rampack.C89_layers"], "note": "Over the reals."},
{"property": "C90", "status": "partial", "theorems": ["Rampack.C90_eigenvalues", "Rampack.C90_order_partial", "Rampack.C90_axes", "Rampack.C90_invariant", "Rampack.C90_isotropic_violated", "Rampack.NematicOrder.C90_clamped"], "note": "When the mean Q-tensor is exactly zero (three perpendicular particles, for example) the code throws an assertion instead of giving 0."},
{"property": "C91", "status": "proved", "theorems": ["Rampack.C91_drift"], "note": "Over the reals."},
{"property": "C92", "status": "partial", "theorems": ["Rampack.C92_search", "Rampack.C92_images", "Rampack.C92_shift", "Rampack.C92_calculate", "Rampack.C92_accepted", "Rampack.C92_normalisation_violated", "Rampack.C92_stale_violated"], "note": "The code divides by the volume of the box and not by the number of particles; if all values are zero, the wave vector of the previous snapshot is printed. Everything else is proved."},
{"property": "C93", "status": "partial", "theorems": ["Rampack.C93_nearest", "Rampack.C93_frame", "Rampack.C93_value", "Rampack.C93_range", "Rampack.C93_perfect", "Rampack.C93_direction", "Rampack.C93_calculate", "Rampack.C93_few_violated", "Rampack.C93_negative_violated", "Rampack.C93_plane_violated"], "note": "Missing neighbours are replaced with the first particle, so particles with too few neighbours are not skipped; indices along a negative axis give no value; indices (0, 0, 1) do not put all particles in one layer. Independence of the direction in the plane holds if no neighbour is exactly above the particle. Everything else is proved."},
{"property": "C94", "status": "partial", "theorems": ["Rampack.C94_pairs", "Rampack.C94_functions", "Rampack.C94_average_partial", "Rampack.C94_s221_violated", "Rampack.C94_self_violated"], "note": "Pairs of a particle with itself are among the averaged ones: they are counted in the first bin, and with S221 nothing can be calculated. The average over all visited pairs is proved."},
{"property": "C95", "status": "partial", "theorems": ["Rampack.C95_expected", "Rampack.C95_density", "Rampack.C95_linear_violated"], "note": "With linear binning the expected number of particles is half of the right one, so that the value is twice as large; for the other binnings proved as stated."},
{"property": "C96", "status": "proved", "theorems": ["Rampack.ProbabilityEvolution.C96_total", "Rampack.ProbabilityEvolution.C96_values", "Rampack.ProbabilityEvolution.C96_normalised"], "note": ""},
{"property": "C97", "status": "partial", "theorems": ["Rampack.DensityHistogram.C97_create", "Rampack.DensityHistogram.C97_values", "Rampack.DensityHistogram.C97_bin", "Rampack.DensityHistogram.C97_total", "Rampack.DensityHistogram.C97_unit", "Rampack.DensityHistogram.C97_drift", "Rampack.DensityHistogram.C97_clear", "Rampack.DensityHistogram.C97_scaled_violated"], "note": "everything is proved for boxes which do not change; scaling the box smears the density (C97_scaled_violated)"},
{"property": "C98", "status": "partial", "theorems": ["Rampack.BinAveraged.C98_values_partial", "Rampack.BinAveraged.C98_race_violated"], "note": "holds if iterations are not interleaved (one thread); with many threads the shared shape function is overwritten (C98_race_violated)"},
{"property": "C99", "status": "partial", "theorems": ["Rampack.C99_create", "Rampack.C99_expansion", "Rampack.C99_maximum", "Rampack.C99_nearest", "Rampack.C99_follow", "Rampack.C99_reset", "Rampack.C99_space_partial", "Rampack.C99_space_violated"], "note": "proved for one and two non-zero wavenumbers; with three, maxima in quarters of the period along z are missed (C99_space_violated), and C99_space_partial assumes a maximum elsewhere, a polynomial which is not zero and a solver which finds all its roots; the nearest maximum is not proved for three"},
{"property": "C100", "status": "partial", "theorems": ["Rampack.C100_state", "Rampack.C100_box", "Rampack.C100_energy", "Rampack.C100_fluctuations", "Rampack.C100_names", "Rampack.C100_documented_violated", "Rampack.C100_factor_violated"], "note": "documented meanings of E and varE are wrong: E is a half of the average energy of a particle with the rest (C100_energy), varE is a half of the standard deviation (C100_fluctuations); Z may be less than 1 (C100_factor_violated)"},
{"property": "C101", "status": "partial", "theorems": ["Rampack.C101_cell", "Rampack.C101_regular_violated"], "note": "the documented requirement (a regular lattice) is not enough: C101_regular_violated. That the cell after adding the spacing has no overlaps is not claimed: a skewed cell may get some"},
{"property": "C102", "status": "partial", "theorems": ["Rampack.C102_layers", "Rampack.C102_tangent_violated"], "note": "layers do not become tangent, as documented, when there are three of them or more: C102_tangent_violated. That the result has no overlaps is not claimed: each layer is moved back by 10^-12 without a check"},
{"property": "C103", "status": "partial", "theorems": ["Rampack.C103_kmer", "Rampack.C103_wedge", "Rampack.C103_lollipop", "Rampack.C103_lollipop_violated", "Rampack.C103_polysphere"], "note": "proved for k-mers, wedges and polyspheres; for lollipops the volume is right exactly if the condition in C103_lollipop holds, and wrong otherwise: C103_lollipop_violated"},
{"property": "C104", "status": "partial", "theorems": ["Rampack.C104_smooth", "Rampack.C104_polyhedral", "Rampack.C104_sphere", "Rampack.C104_rod", "Rampack.C104_placed", "Rampack.C104_divided_violated", "Rampack.C104_negative_violated"], "note": "proved with exact conditions of success; two conditions differ from the documented ones: a smooth wedge with balls touching from inside cannot be divided (C104_divided_violated), and the constructor of polyhedral wedges lets negative sizes in, which only the matcher refuses (C104_negative_violated)"},
{"property": "C105", "status": "partial", "theorems": ["Rampack.C105_spheres_partial", "Rampack.C105_polyspheres_partial", "Rampack.C105_small_violated", "Rampack.C105_long_violated"], "note": "proved for balls when the neighbour grid is used, or when the box is rectangular and not thinner than the diameter; for molecules made of balls also if the box is not thinner than the total range of the molecule. Without these conditions the claim is false, because images of a molecule are never compared with the molecule itself (C105_small_violated, C105_long_violated). Skewed boxes without the grid are excluded, see C07; rods and numeric convex shapes are not covered"},
{"property": "C106", "status": "partial", "theorems": ["Rampack.C106_spheres", "Rampack.C106_rods_partial", "Rampack.C106_centre_violated", "Rampack.C106_input_violated", "Rampack.C106_two_violated"], "note": "full for spheres, with the exact volume. For rods the volume is proved for arcs not longer than a half of the circle whose segments do not reach the centre of the arc; longer arcs, which the input does not let in, are missing. Two segments may reach the centre, and then the volume is wrong (C106_two_violated); the point cm is given also for spheres which overlap (C106_centre_violated); the input lets in parameters which the constructor refuses (C106_input_violated)"},
{"property": "C107", "status": "partial", "theorems": ["Rampack.C107_dimensions_partial", "Rampack.C107_automatic_partial", "Rampack.C107_manual", "Rampack.C107_in_box", "Rampack.C107_fill", "Rampack.C107_axes", "Rampack.C107_cube", "Rampack.C107_refused", "Rampack.C107_automatic_refused", "Rampack.C107_flat_violated", "Rampack.C107_hangs_violated", "Rampack.C107_number_violated"], "note": "full for given numbers of cells. For a given number of molecules it holds for boxes which are not too flat, and then there are at least as many molecules as requested; exactly as many in cubic boxes for numbers which fill cubic lattices. Otherwise there are too many molecules (C107_number_violated), and for flat boxes the program never ends (C107_flat_violated, C107_hangs_violated). Lattices have fewer than 2^31 cells"},
{"property": "C108", "status": "partial", "theorems": ["Rampack.C108_replay", "Rampack.C108_accepted", "Rampack.C108_parameters", "Rampack.C108_piecewise_violated", "Rampack.C108_last_cycle_violated"], "note": "full for temperatures and pressures which have values for the number of replayed cycles (all but piecewise ones are such). For a piecewise parameter observables cannot be replayed if the trajectory ends before the start of the last piece (C108_piecewise_violated), and averaging cannot start from the last snapshot (C108_last_cycle_violated). Of formats of stored trajectories only RAMTRJ is modelled; different names are taken to denote different files"},
{"property": "C109", "status": "partial", "theorems": ["Rampack.C109_sphere", "Rampack.C109_mesh", "Rampack.C109_outward", "Rampack.C109_printer", "Rampack.C109_obj", "Rampack.C109_wolfram", "Rampack.C109_volume", "Rampack.C109_volume_violated"], "note": "full but for the volume: it changes when a mesh with the centre away from the origin is rotated (C109_volume_violated). QuickHull is assumed to give a convex hull (Spec.IsHull, Spec.OneSided); numbers in output are not rounded in the model"},
{"property": "C110", "status": "partial", "theorems": ["Rampack.Observ.C110_observable", "Rampack.Observ.C110_bulk", "Rampack.Observ.C110_unique", "Rampack.Observ.C110_scope", "Rampack.Observ.C110_one_bin_violated", "Rampack.Observ.C110_wrapped_violated", "Rampack.Observ.C110_large_violated"], "note": "full for the conditions which the code has; the documentation differs from the code in the points of the violations. Named points of shapes are only names here: whether a shape has such a point is decided when the observable is computed"},
{"property": "C111", "status": "proved", "theorems": ["Rampack.ShapeExpr.C111_geometry", "Rampack.ShapeExpr.C111_unique", "Rampack.ShapeExpr.C111_depth", "Rampack.ShapeExpr.C111_builds", "Rampack.ShapeExpr.C111_every", "Rampack.ShapeExpr.C111_body_partial"], "note": "`C111_body_partial` joins it with C77: what is built is the body which is meant, for directions and outermost blocks for which C77 is proved"},
{"property": "C112", "status": "partial", "theorems": ["Rampack.ShapeExpr.C112_shape", "Rampack.ShapeExpr.C112_unique", "Rampack.ShapeExpr.C112_made", "Rampack.ShapeExpr.C112_axes_violated", "Rampack.ShapeExpr.C112_names_violated"], "note": "all is proved but the last two conditions, which do not hold: opposite axes are taken and names of own points are refused"},
{"property": "C113", "status": "partial", "theorems": ["Rampack.ArrangeExpr.C113_arrangement", "Rampack.ArrangeExpr.C113_unique", "Rampack.ArrangeExpr.C113_manual", "Rampack.ArrangeExpr.C113_in_box", "Rampack.ArrangeExpr.C113_automatic_partial", "Rampack.ArrangeExpr.C113_hex_violated", "Rampack.ArrangeExpr.C113_flat_violated"], "note": "all is proved but the last sentence, which does not hold: the class hex is refused and the program hangs for flat boxes"},
{"property": "C114", "status": "proved", "theorems": ["Rampack.WholeInput.C114_parts", "Rampack.WholeInput.C114_input", "Rampack.WholeInput.C114_unique", "Rampack.WholeInput.C114_made"], "note": "C81 without its parameters: the matchers of C110, C112 and C113 are put in their places. That some accepted inputs cannot be run is in C81."},
{"property": "C115", "status": "partial", "theorems": ["Rampack.Wolfram.C115_standard_partial", "Rampack.Wolfram.C115_affine_partial", "Rampack.Wolfram.C115_small_violated"], "note": "Proved if numbers are written with digits, a point and a sign. This is so after std::fixed, but the printer of spheres does not set it: small numbers are written with an exponent as C++ writes it, which Mathematica does not read as a number (violated). What is shown is meant for the values which are written, before they are rounded to six digits, and tubes are taken to have round ends. Drawings of other shapes are meshes (C109)."},
{"property": "C116", "status": "partial", "theorems": ["Rampack.PreviewFile.C116_preview_partial", "Rampack.PreviewFile.C116_number", "Rampack.PreviewFile.C116_rest_violated", "Rampack.PreviewFile.C116_negative_violated"], "note": "Which texts are accepted is given exactly. The property fails for the number of subdivisions: anything may follow it, and negative numbers are accepted as very large ones."},
{"property": "C117", "status": "proved", "theorems": ["Rampack.Orthorhombic.C117_possible", "Rampack.Orthorhombic.C117_lattice", "Rampack.Orthorhombic.C117_inside", "Rampack.Orthorhombic.C117_rotation", "Rampack.Orthorhombic.C117_box_possible", "Rampack.Orthorhombic.C117_box"], "note": "Real numbers are used for floating point ones, so the cubic root is exact."},
{"property": "C118", "status": "proved", "theorems": ["Rampack.Orthorhombic.C118_asked", "Rampack.Orthorhombic.C118_all", "Rampack.Orthorhombic.C118_spacing"], "note": "Numbers are those read from the text, whose reading is not modelled; the search of minimal distances is C55, here they are any positive numbers. Real numbers are used for floating point ones."}
]}
