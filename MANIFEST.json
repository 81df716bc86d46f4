{
 "claims": [
  {
   "property": "C01",
   "status": "proved",
   "theorems": [
    "Verif.Core.C01_update_takes",
    "Verif.Core.C01_update_keeps",
    "Verif.Core.C01_update_private",
    "Verif.Core.C01_update_nested",
    "Verif.Core.C01_update_idempotent"
   ],
   "note": "Path-level specification of Data.update for arbitrary nested trees: leaf/wholesale, silent, private keys, nested, idempotent."
  },
  {
   "property": "C02",
   "status": "proved",
   "theorems": [
    "Verif.Core.C02_update_keys",
    "Verif.Core.C02_update_wf",
    "Verif.Core.C02_update_error"
   ],
   "note": "Key order, key uniqueness at every level and the TypeError branch."
  },
  {
   "property": "C03",
   "status": "proved",
   "theorems": [
    "Verif.Core.C03_deepGet_iff",
    "Verif.Core.C03_deepSet_spec",
    "Verif.Core.C03_deepSet_error",
    "Verif.Core.C03_deepSet_twice"
   ],
   "note": "deep_get agrees with attribute access; deep_set read-back, frame, last-write-wins and error branch."
  },
  {
   "property": "C04",
   "status": "partial",
   "theorems": [
    "Verif.Core.C04_indexed_get_fails",
    "Verif.Core.C04_counterexample",
    "Verif.Core.C04_indexed_set_partial"
   ],
   "note": "False of the code: deep_get never understands an index suffix (C04_indexed_get_fails, C04_counterexample). The write itself is characterised for 1-d arrays (C04_indexed_set_partial)."
  },
  {
   "property": "C05",
   "status": "proved",
   "theorems": [
    "Verif.Core.C05_append_spec",
    "Verif.Core.C05_append_noTag",
    "Verif.Core.C05_append_history",
    "Verif.Core.C05_norm_idempotent"
   ],
   "note": "One-append specification, arbitrary histories, idempotent normalisation."
  },
  {
   "property": "C06",
   "status": "proved",
   "theorems": [
    "Verif.Core.C06_containerAppend_spec",
    "Verif.Core.C06_container_history",
    "Verif.Core.C06_container_nodup",
    "Verif.Core.C06_container_some_draw",
    "Verif.Core.C06_container_draw_can_fail"
   ],
   "note": "For every random draw: no loss, fresh name, only the tag changes; some draw always succeeds for up to 1000 entries; a concrete history shows that a bad draw raises KeyError (element not stored, container unchanged)."
  },
  {
   "property": "C07",
   "status": "proved",
   "theorems": [
    "Verif.Core.C07_pack_length",
    "Verif.Core.C07_unpack_pack",
    "Verif.Core.C07_pack_unpack",
    "Verif.Core.C07_unpack_surplus"
   ],
   "note": "Vector mode: both round trips, packed length, surplus. Array mode is not modelled."
  },
  {
   "property": "C08",
   "status": "proved",
   "theorems": [
    "Verif.Ordered.C08_refines",
    "Verif.Ordered.C08_keys_nodup",
    "Verif.Ordered.C08_key_order",
    "Verif.Ordered.C08_index"
   ],
   "note": "Linked-list model refined to an ordered association list for every history (set, delete, update, clear); keys, values, items, len, access by name and by index."
  },
  {
   "property": "C09",
   "status": "partial",
   "theorems": [
    "Verif.Ordered.C09_append_overwrites",
    "Verif.Ordered.C09_counterexample",
    "Verif.Ordered.C09_append_history_partial"
   ],
   "note": "False of the code: the duplicate check looks in the wrong dictionary and never fires, so a repeated tag silently replaces the element (C09_append_overwrites, C09_counterexample). Proved for pairwise different tags."
  },
  {
   "property": "C10",
   "status": "proved",
   "theorems": [
    "Verif.Core.C10_store_pull",
    "Verif.Core.C10_store_pull_vehicle",
    "Verif.Core.C10_broadcast_counterexample"
   ],
   "note": "Exact round trip under exact leaf comparison; C10_broadcast_counterexample shows the hypothesis is needed because of NumPy broadcasting."
  },
  {
   "property": "C11",
   "status": "proved",
   "theorems": [
    "Verif.Core.C11_base_edit_propagates",
    "Verif.Core.C11_override_survives",
    "Verif.Core.C11_addition_survives"
   ],
   "note": "Undiverged leaves follow the edited base, diverged and added leaves keep the configuration value."
  },
  {
   "property": "C12",
   "status": "partial",
   "theorems": [
    "Verif.Core.C12_deletion_never_survives",
    "Verif.Core.C12_deletion_becomes_none"
   ],
   "note": "False of the code: proved that a deleted public entry always comes back (as None)."
  },
  {
   "property": "C13",
   "status": "proved",
   "theorems": [
    "Verif.Nexus.C13_transparent",
    "Verif.Nexus.C13_skip_iff",
    "Verif.Nexus.C13_count"
   ],
   "note": "Simulation against a Nexus without a cache; exact skip condition over all histories including exceptions; evaluation count."
  },
  {
   "property": "C14",
   "status": "partial",
   "theorems": [
    "Verif.Nexus.C14_counterexample",
    "Verif.Nexus.C14_rerun_partial",
    "Verif.Nexus.C14_force"
   ],
   "note": "False of the code: C14_counterexample. Proved: any evaluation with other inputs or fidelity, or forced, re-runs and is right."
  },
  {
   "property": "C15",
   "status": "proved",
   "theorems": [
    "Verif.Nexus.C15_unpack",
    "Verif.Nexus.C15_length_error",
    "Verif.Nexus.C15_none",
    "Verif.Nexus.C15_idempotent"
   ],
   "note": "Scale, bounds, unit conversion, unchanged columns, length error, idempotence. Exact arithmetic."
  },
  {
   "property": "C16",
   "status": "partial",
   "theorems": [
    "Verif.Nexus.C16_inequality_meaning",
    "Verif.Nexus.C16_inequality_partial",
    "Verif.Nexus.C16_equality_meaning",
    "Verif.Nexus.C16_equality_partial",
    "Verif.Nexus.C16_counterexample"
   ],
   "note": "False of the code unless the scale is one (C16_counterexample): the bound is not divided by the scale. Exact meaning proved for all positive scales, and the claim itself for unit scale."
  },
  {
   "property": "C17",
   "status": "partial",
   "theorems": [
    "Verif.Nexus.C17_setValues_partial",
    "Verif.Nexus.C17_star",
    "Verif.Nexus.C17_getValues_partial",
    "Verif.Nexus.C17_write_read",
    "Verif.Nexus.C17_two_rows_counterexample",
    "Verif.Nexus.C17_missing_row_counterexample",
    "Verif.Nexus.C17_read_counterexample"
   ],
   "note": "False of the code when a name has zero or several alias rows (counterexamples). Proved for exactly one row per name, with any number of plain paths; starred paths; reading; write-then-read."
  },
  {
   "property": "C18",
   "status": "proved",
   "theorems": [
    "Verif.Nexus.C18_difference_quotient",
    "Verif.Nexus.C18_affine_exact"
   ],
   "note": "Difference quotient per coordinate and exactness on affine models, over any field. Exact arithmetic."
  },
  {
   "property": "C19",
   "status": "proved",
   "theorems": [
    "Verif.Optim.C19_value",
    "Verif.Optim.C19_gradient_fd",
    "Verif.Optim.C19_gradient_deriv"
   ],
   "note": "Value and first-order consistency of the corrected surrogate at the centre for both correction types (finite-difference gradients, and the true derivative)."
  },
  {
   "property": "C20",
   "status": "partial",
   "theorems": [
    "Verif.Optim.C20_decision",
    "Verif.Optim.C20_decision_total",
    "Verif.Optim.C20_box",
    "Verif.Optim.C20_box_nonempty",
    "Verif.Optim.C20_iteration",
    "Verif.Optim.C20_run_partial",
    "Verif.Optim.C20_fallback_counterexample"
   ],
   "note": "Decision table, box nesting and one-iteration invariants proved. The whole-run claim is proved except for the SLSQP feasibility fallback, for which C20_fallback_counterexample shows a step outside the trust region."
  },
  {
   "property": "C21",
   "status": "partial",
   "theorems": [
    "Verif.Optim.C21_bounds",
    "Verif.Optim.C21_monotone",
    "Verif.Optim.C21_reported_partial",
    "Verif.Optim.C21_reported",
    "Verif.Optim.C21_sentinel_counterexample"
   ],
   "note": "Bounds and monotonicity proved for all runs; reported value proved when some evaluated point is feasible with objective below the sentinel; C21_sentinel_counterexample otherwise."
  },
  {
   "property": "C22",
   "status": "partial",
   "theorems": [
    "Verif.Optim.C22_all_evaluate_last",
    "Verif.Optim.C22_single_partial",
    "Verif.Optim.C22_same_quantity_partial",
    "Verif.Optim.C22_counterexample",
    "Verif.Optim.C22_equality_first",
    "Verif.Optim.C22_equality_counterexample"
   ],
   "note": "False of the code with two or more constraint rows: every closure evaluates the last row (C22_all_evaluate_last, C22_counterexample). Proved for one row."
  },
  {
   "property": "C23",
   "status": "proved",
   "theorems": [
    "Verif.Optim.C23_structure",
    "Verif.Optim.C23_values"
   ],
   "note": "Sparsity structure and values of the IPOPT Jacobian."
  },
  {
   "property": "C24",
   "status": "proved",
   "theorems": [
    "Verif.Num.C24_stratified",
    "Verif.Num.C24_within",
    "Verif.Num.C24_center",
    "Verif.Num.C24_errors"
   ],
   "note": "Every permutation and every random draw."
  },
  {
   "property": "C25",
   "status": "proved",
   "theorems": [
    "Verif.Num.C25_constants",
    "Verif.Num.C25_identity",
    "Verif.Num.C25_nodes",
    "Verif.Num.C25_nodes_increasing"
   ],
   "note": "All N at least 2, exact arithmetic (cosines as reals)."
  },
  {
   "property": "C26",
   "status": "proved",
   "theorems": [
    "Verif.Num.C26_chebyshev_exists",
    "Verif.Num.C26_first",
    "Verif.Num.C26_integrate_derivative",
    "Verif.Num.C26_derivative_integral",
    "Verif.Num.C26_time_scaled",
    "Verif.Num.C26_exact_integral"
   ],
   "note": "Exact arithmetic; the integration operator as the inverse of the reduced differentiation operator."
  },
  {
   "property": "C27",
   "status": "proved",
   "theorems": [
    "Verif.Num.C27_exact"
   ],
   "note": "All N, all polynomials of degree below N."
  },
  {
   "property": "C28",
   "status": "proved",
   "theorems": [
    "Verif.Num.C28_bilinear",
    "Verif.Num.C28_node",
    "Verif.Num.C28_between",
    "Verif.Num.C28_fill",
    "Verif.Num.C28_grid_line"
   ],
   "note": "Bilinear formula, nodes, between neighbours, fill value, grid lines."
  },
  {
   "property": "C29",
   "status": "proved",
   "theorems": [
    "Verif.Num.C29_outside",
    "Verif.Num.C29_range",
    "Verif.Num.C29_antitone",
    "Verif.Num.C29_derivative",
    "Verif.Num.C29_flat_ends",
    "Verif.Num.C29_continuous"
   ],
   "note": "Range, end values, monotone, derivative, flat ends, continuity for the cubic blend."
  },
  {
   "property": "C30",
   "status": "proved",
   "theorems": [
    "Verif.Num.C30_ge_max",
    "Verif.Num.C30_le_max_add",
    "Verif.Num.C30_sharp",
    "Verif.Num.C30_symmetric",
    "Verif.Num.C30_monotone"
   ],
   "note": "Bounds, symmetry and monotonicity of the soft maximum."
  },
  {
   "property": "C31",
   "status": "proved",
   "theorems": [
    "Verif.Physics.C31_layer",
    "Verif.Physics.C31_breaks",
    "Verif.Physics.C31_outside",
    "Verif.Physics.C31_inside",
    "Verif.Physics.C31_continuous",
    "Verif.Physics.C31_continuous_altitude",
    "Verif.Physics.C31_positive",
    "Verif.Physics.C31_pressure_at_break"
   ],
   "note": "Any usable break table, instantiated for the 1976 table; constant gamma option."
  },
  {
   "property": "C32",
   "status": "proved",
   "theorems": [
    "Verif.Mission.C32_sequential",
    "Verif.Mission.C32_results",
    "Verif.Mission.C32_calls"
   ],
   "note": "A process is a fold over its steps in order, each called exactly once with the threaded segment."
  },
  {
   "property": "C33",
   "status": "proved",
   "theorems": [
    "Verif.Mission.C33_shift",
    "Verif.Mission.C33_first",
    "Verif.Mission.C33_chain",
    "Verif.Mission.C33_length",
    "Verif.Mission.C33_functions",
    "Verif.Mission.C33_throttle_climb",
    "Verif.Mission.C33_ground_track"
   ],
   "note": "The vertical join is obtained by overwriting the previous segment's last altitude; see C63."
  },
  {
   "property": "C34",
   "status": "partial",
   "theorems": [
    "Verif.Mission.Merge.C34_merged_partial",
    "Verif.Mission.Merge.C34_merged_missing_partial",
    "Verif.Mission.Merge.C34_rows",
    "Verif.Mission.Merge.C34_merged_counterexample",
    "Verif.Mission.Merge.C34_shape_counterexample",
    "Verif.Mission.Merge.C34_container_partial",
    "Verif.Mission.Merge.C34_container_counterexample",
    "Verif.Mission.Merge.C34_unpack_partial",
    "Verif.Mission.Merge.C34_roundtrip_partial",
    "Verif.Mission.Merge.C34_columns_counterexample"
   ],
   "note": "Every field of every segment appears once, in order, when all segments hold it (C34_rows, C34_merged_partial). False in general: a field missing from one segment misaligns rows, a swallowed shape mismatch replaces the whole group, fields only in later segments are dropped by the container merge, two-column unknowns are sliced wrongly (counterexamples)."
  },
  {
   "property": "C35",
   "status": "proved",
   "theorems": [
    "Verif.Mission.C35_mass",
    "Verif.Mission.C35_two_fuels",
    "Verif.Mission.C35_exact",
    "Verif.Mission.C35_decreasing"
   ],
   "note": "Mass history is the initial mass minus the integrated mass rate; exact for polynomial rates (Chebyshev integration)."
  },
  {
   "property": "C36",
   "status": "partial",
   "theorems": [
    "Verif.Energy.C36_soc",
    "Verif.Energy.C36_capacity_partial",
    "Verif.Energy.C36_start",
    "Verif.Energy.C36_discharge_counterexample",
    "Verif.Energy.C36_mixed_counterexample"
   ],
   "note": "State of charge always in [0,1]; energy within capacity for pure charging. False for histories with discharge (C36_discharge_counterexample, C36_mixed_counterexample)."
  },
  {
   "property": "C37",
   "status": "partial",
   "theorems": [
    "Verif.Geometry.C37_trapezoid_partial",
    "Verif.Geometry.C37_location_partial",
    "Verif.Geometry.C37_location_counterexample",
    "Verif.Geometry.C37_flap"
   ],
   "note": "Areas, chords and sweeps for every wing; location of the aerodynamic centre for symmetric wings. False for one-sided wings, where the formula of a half span is used (C37_location_counterexample)."
  },
  {
   "property": "C38",
   "status": "proved",
   "theorems": [
    "Verif.Geometry.C38_area_mac",
    "Verif.Geometry.C38_centre"
   ],
   "note": "Any number of stations."
  },
  {
   "property": "C39",
   "status": "partial",
   "theorems": [
    "Verif.Geometry.C39_panel_partial",
    "Verif.Geometry.C39_total_partial",
    "Verif.Geometry.C39_counterexample",
    "Verif.Geometry.C39_root_flap_counterexample",
    "Verif.Geometry.C39_all_surfaces"
   ],
   "note": "False for surfaces that begin exactly at a station and end beyond the next one (C39_counterexample); proved otherwise."
  },
  {
   "property": "C40",
   "status": "proved",
   "theorems": [
    "Verif.Mission.Frames.C40_rotation",
    "Verif.Mission.Frames.C40_transpose",
    "Verif.Mission.Frames.C40_compose",
    "Verif.Mission.Frames.C40_length",
    "Verif.Mission.Frames.C40_single"
   ],
   "note": "Every axis sequence of any length."
  },
  {
   "property": "C41",
   "status": "proved",
   "theorems": [
    "Verif.Vehicle.C41_extremes",
    "Verif.Vehicle.C41_masses"
   ],
   "note": "Tanks of non-negative capacity, fuel mass positive and at most the total; attained and extremal over all distributions."
  },
  {
   "property": "C42",
   "status": "partial",
   "theorems": [
    "Verif.Vehicle.C42_mass_partial",
    "Verif.Vehicle.C42_cg_partial",
    "Verif.Vehicle.C42_range_partial",
    "Verif.Vehicle.C42_position",
    "Verif.Vehicle.C42_nested_counterexample"
   ],
   "note": "Proved for any nesting of containers; components stored inside other components are not counted (C42_nested_counterexample)."
  },
  {
   "property": "C43",
   "status": "partial",
   "theorems": [
    "Verif.IO.C43_round_trip_partial",
    "Verif.IO.C43_numpy_scalar_counterexample",
    "Verif.IO.C43_tuple_counterexample",
    "Verif.IO.C43_empty_counterexample",
    "Verif.IO.C43_list_of_arrays_counterexample"
   ],
   "note": "Proved for the JSON-representable values; numpy scalars and tuples silently become None, empty matrices lose their width, a list of arrays cannot be saved (counterexamples)."
  },
  {
   "property": "C44",
   "status": "partial",
   "theorems": [
    "Verif.IO.Xml.C44_trimmed",
    "Verif.IO.Xml.C44_round_trip_partial",
    "Verif.IO.Xml.C44_stable",
    "Verif.IO.Xml.C44_counterexample",
    "Verif.IO.Xml.C44_from_dict"
   ],
   "note": "Content is stripped of surrounding white space (C44_trimmed, C44_counterexample); exact round trip for stripped contents."
  },
  {
   "property": "C45",
   "status": "partial",
   "theorems": [
    "Verif.Units.C45_multiply",
    "Verif.Units.C45_round_trip_partial",
    "Verif.Units.C45_divide_again",
    "Verif.Units.C45_compose",
    "Verif.Units.C45_offset",
    "Verif.Units.C45_reuse_counterexample",
    "Verif.Units.C45_kelvin_counterexample",
    "Verif.Units.C45_delta_counterexample"
   ],
   "note": "False when a unit object is reused, for kelvin products and for Fahrenheit differences (counterexamples); proved otherwise."
  },
  {
   "property": "C46",
   "status": "proved",
   "theorems": [
    "Verif.Units.C46_layers",
    "Verif.Units.C46_terminates"
   ],
   "note": ""
  },
  {
   "property": "C47",
   "status": "proved",
   "theorems": [
    "Verif.Units.C47_shortest"
   ],
   "note": ""
  },
  {
   "property": "C48",
   "status": "partial",
   "theorems": [
    "Verif.IO.Redirect.C48_restored_partial",
    "Verif.IO.Redirect.C48_scoped",
    "Verif.IO.Redirect.C48_reentered_counterexample",
    "Verif.IO.Redirect.C48_reused_counterexample",
    "Verif.IO.Redirect.C48_closed_counterexample"
   ],
   "note": "Proved for a new object per block, any nesting and exceptions; false for re-entered or reused objects and for streams closed inside (counterexamples)."
  },
  {
   "property": "C49",
   "status": "partial",
   "theorems": [
    "Verif.Performance.C49_positive",
    "Verif.Performance.C49_user_partial",
    "Verif.Performance.C49_user_categories",
    "Verif.Performance.C49_negative",
    "Verif.Performance.C49_heavy_counterexample",
    "Verif.Performance.C49_light_counterexample",
    "Verif.Performance.C49_sign_counterexample"
   ],
   "note": "Regulatory bounds proved; the user limit is ignored for heavy aircraft and cut for light ones (counterexamples, exact condition in C49_user_partial)."
  },
  {
   "property": "C50",
   "status": "partial",
   "theorems": [
    "Verif.Performance.C50_corners_partial",
    "Verif.Performance.C50_small_tanks_counterexample",
    "Verif.Performance.C50_zero_range_counterexample"
   ],
   "note": "Proved when the tanks hold the fuel that fits beside the maximum payload; false for smaller tanks and at the added zero-range point (counterexamples)."
  },
  {
   "property": "C51",
   "status": "partial",
   "theorems": [
    "Verif.IO.History.C51_text",
    "Verif.IO.History.C51_round_trip_partial",
    "Verif.IO.History.C51_scale_counterexample",
    "Verif.IO.History.C51_unconstrained_counterexample"
   ],
   "note": "The text round trip is proved; the writer divides by the upper bound instead of the scale, and files without constraints cannot be read (counterexamples)."
  },
  {
   "property": "C52",
   "status": "partial",
   "theorems": [
    "Verif.Nexus.C52_translate_constraint",
    "Verif.Nexus.C52_translate_objective_meaning",
    "Verif.Nexus.C52_translate_objective_partial",
    "Verif.Nexus.C52_translate_objective_counterexample"
   ],
   "note": "Constraints proved; for the objective false unless the unit is one (C52_translate_objective_counterexample)."
  },
  {
   "property": "C53",
   "status": "partial",
   "theorems": [
    "Verif.Nexus.C53_cost",
    "Verif.Nexus.C53_design_point_moved"
   ],
   "note": "Cost bound proved. The design point is not restored: C53_design_point_moved proves that the last perturbed point stays stored."
  },
  {
   "property": "C54",
   "status": "partial",
   "theorems": [
    "Verif.Ordered.C54_class_names_counterexample"
   ],
   "note": "False of the code: C54_class_names_counterexample proves that such an element is stored and counted but never listed, and that deleting it raises."
  },
  {
   "property": "C55",
   "status": "partial",
   "theorems": [
    "Verif.Optim.C55_returns_rejected_counterexample",
    "Verif.Optim.C55_converged_partial"
   ],
   "note": "False of the code: C55_returns_rejected_counterexample; proved for the converged exits."
  },
  {
   "property": "C56",
   "status": "partial",
   "theorems": [
    "Verif.Optim.C56_violation_zero_iff",
    "Verif.Optim.C56_forms_agree_partial",
    "Verif.Optim.C56_counterexample"
   ],
   "note": "False unless the scale is one (C56_counterexample); C56_violation_zero_iff characterises the violation measure."
  },
  {
   "property": "C57",
   "status": "partial",
   "theorems": [
    "Verif.Optim.C57_best_seen_partial",
    "Verif.Optim.C57_counterexample"
   ],
   "note": "False when the swarm starts infeasible (C57_counterexample); proved otherwise."
  },
  {
   "property": "C58",
   "status": "partial",
   "theorems": [
    "Verif.Optim.C58_pyopt",
    "Verif.Optim.C58_ipopt_partial",
    "Verif.Optim.C58_ipopt_counterexample",
    "Verif.Optim.C58_negative_scale_counterexample",
    "Verif.Optim.C58_surrogate_drops_equality",
    "Verif.Optim.C58_surrogate_inequality"
   ],
   "note": "pyOpt/pyOptSparse proved for positive scale; IPOPT uses the unscaled bound, surrogate applies units twice and drops equalities (counterexamples)."
  },
  {
   "property": "C59",
   "status": "partial",
   "theorems": [
    "Verif.Optim.C59_objective_partial",
    "Verif.Optim.C59_constraints_ignored",
    "Verif.Optim.C59_counterexample"
   ],
   "note": "Objective proved; constraints are never looked at (C59_counterexample)."
  },
  {
   "property": "C60",
   "status": "partial",
   "theorems": [
    "Verif.Num.C60_linear_partial",
    "Verif.Num.C60_counterexample"
   ],
   "note": "Exact for linear functions only; false for N=4 (C60_counterexample)."
  },
  {
   "property": "C61",
   "status": "proved",
   "theorems": [
    "Verif.Physics.C61_hydrostatic",
    "Verif.Physics.C61_decreasing",
    "Verif.Physics.C61_gravity"
   ],
   "note": "Any usable break table."
  },
  {
   "property": "C62",
   "status": "partial",
   "theorems": [
    "Verif.Mission.C62_compile_finalize_partial",
    "Verif.Mission.C62_initialize_counterexample"
   ],
   "note": "compile and finalize proved; Container.initialize iterates over the bound method self.items and always raises (C62_initialize_counterexample)."
  },
  {
   "property": "C63",
   "status": "partial",
   "theorems": [
    "Verif.Mission.C63_earlier_partial",
    "Verif.Mission.C63_counterexample"
   ],
   "note": "False: the last altitude of the previous segment is overwritten (C63_counterexample); everything else is unchanged (C63_earlier_partial)."
  },
  {
   "property": "C64",
   "status": "proved",
   "theorems": [
    "Verif.Mission.C64_climb",
    "Verif.Mission.C64_descent",
    "Verif.Mission.C64_duration",
    "Verif.Mission.C64_linear_altitude"
   ],
   "note": "On the real Chebyshev grid for every number of control points; square-root arguments non-negative."
  },
  {
   "property": "C65",
   "status": "partial",
   "theorems": [
    "Verif.Mission.C65_constant_partial",
    "Verif.Mission.C65_integrated_partial",
    "Verif.Mission.C65_counterexample"
   ],
   "note": "All constant-rate, constant-angle, hover, throttle and optimized segments; false for constant Mach with given distance (C65_counterexample)."
  },
  {
   "property": "C66",
   "status": "proved",
   "theorems": [
    "Verif.Mission.C66_cruise",
    "Verif.Mission.C66_loiter",
    "Verif.Mission.C66_hover_climb"
   ],
   "note": ""
  },
  {
   "property": "C67",
   "status": "partial",
   "theorems": [
    "Verif.Mission.C67_loiter_partial",
    "Verif.Mission.C67_loiter_counterexample",
    "Verif.Mission.C67_angle_partial",
    "Verif.Mission.C67_stale_partial",
    "Verif.Mission.C67_counterexample"
   ],
   "note": "Constant-angle segment proved; the other two read the density at the altitude the state held before (C67_counterexample)."
  },
  {
   "property": "C68",
   "status": "partial",
   "theorems": [
    "Verif.Mission.C68_accelerate_partial",
    "Verif.Mission.C68_throttle_partial",
    "Verif.Mission.C68_nudge",
    "Verif.Mission.C68_climbout_partial",
    "Verif.Mission.C68_counterexample"
   ],
   "note": "False for the climb-out with a given airspeed (C68_counterexample)."
  },
  {
   "property": "C69",
   "status": "partial",
   "theorems": [
    "Verif.Mission.C69_pitch_partial",
    "Verif.Mission.C69_climbout_partial",
    "Verif.Mission.C69_counterexample"
   ],
   "note": "Absolute time is used: false when the segment starts at a non-zero time (C69_counterexample)."
  },
  {
   "property": "C70",
   "status": "proved",
   "theorems": [
    "Verif.Mission.C70_residuals",
    "Verif.Mission.C70_pitch"
   ],
   "note": ""
  },
  {
   "property": "C71",
   "status": "partial",
   "theorems": [
    "Verif.Mission.C71_descent_partial",
    "Verif.Mission.C71_climb_counterexample"
   ],
   "note": "Descent proved; climb lasts one half second too long for its points (C71_climb_counterexample)."
  },
  {
   "property": "C72",
   "status": "partial",
   "theorems": [
    "Verif.Mission.C72_ground_partial",
    "Verif.Mission.C72_counterexample"
   ],
   "note": "True while lift does not exceed weight; beyond that the friction pushes forward (C72_counterexample)."
  },
  {
   "property": "C73",
   "status": "proved",
   "theorems": [
    "Verif.Energy.C73_throughput",
    "Verif.Energy.C73_nmc",
    "Verif.Energy.C73_health"
   ],
   "note": "Both cells: the generic one adds magnitudes, the NMC one a current limited to its map first."
  },
  {
   "property": "C74",
   "status": "partial",
   "theorems": [
    "Verif.Energy.C74_ambient_partial",
    "Verif.Energy.C74_counterexample"
   ],
   "note": "Never below ambient once heat is non-negative; the high-Reynolds correlation is never selected (C74_counterexample)."
  },
  {
   "property": "C75",
   "status": "partial",
   "theorems": [
    "Verif.Geometry.C75_agree_partial",
    "Verif.Geometry.C75_wetted_counterexample",
    "Verif.Geometry.C75_thickness_counterexample"
   ],
   "note": "Symmetric wings except the wetted area, which is halved (C75_wetted_counterexample); one-sided thickness is doubled (C75_thickness_counterexample)."
  },
  {
   "property": "C76",
   "status": "proved",
   "theorems": [
    "Verif.Geometry.C76_reference_sum",
    "Verif.Geometry.C76_exposed",
    "Verif.Geometry.C76_segments"
   ],
   "note": ""
  },
  {
   "property": "C77",
   "status": "partial",
   "theorems": [
    "Verif.Geometry.C77_body_partial",
    "Verif.Geometry.C77_network_iff",
    "Verif.Geometry.C77_counterexample",
    "Verif.Geometry.C77_vehicle_partial",
    "Verif.Geometry.C77_reference"
   ],
   "note": "Wings and fuselages proved; engines only for mirrored layouts (C77_network_iff), false otherwise (C77_counterexample)."
  },
  {
   "property": "C78",
   "status": "partial",
   "theorems": [
    "Verif.Geometry.C78_sum_partial",
    "Verif.Geometry.C78_sum_counterexample",
    "Verif.Geometry.C78_stable_partial",
    "Verif.Geometry.C78_seats_counterexample",
    "Verif.Geometry.C78_round"
   ],
   "note": "Sum holds when no clamp applies; false with clamps and the seat count changes on the second call (counterexamples)."
  },
  {
   "property": "C79",
   "status": "partial",
   "theorems": [
    "Verif.Mission.Frames.C79_angles",
    "Verif.Mission.Frames.C79_total",
    "Verif.Mission.Frames.C79_plane_partial",
    "Verif.Mission.Frames.C79_counterexample",
    "Verif.Mission.Frames.C79_roll_counterexample"
   ],
   "note": "Proved for flight in the vertical plane; false with heading or roll because the product T_wind2body T_body2inertial is taken in the wrong order (C79_counterexample, C79_roll_counterexample)."
  },
  {
   "property": "C80",
   "status": "proved",
   "theorems": [
    "Verif.Mission.Frames.C80_forces",
    "Verif.Mission.Frames.C80_freestream"
   ],
   "note": "For a non-negative maximum lift coefficient and reference area."
  },
  {
   "property": "C81",
   "status": "partial",
   "theorems": [
    "Verif.Mission.Frames.C81_latitude_partial",
    "Verif.Mission.Frames.C81_east_counterexample",
    "Verif.Mission.Frames.C81_degrees_counterexample"
   ],
   "note": "Latitude proved; longitude ignores the start latitude and takes the cosine of degrees (counterexamples)."
  },
  {
   "property": "C82",
   "status": "partial",
   "theorems": [
    "Verif.Vehicle.C82_placed_partial",
    "Verif.Vehicle.C82_counterexample"
   ],
   "note": "False for payloads (C82_counterexample); proved for all other kinds."
  },
  {
   "property": "C83",
   "status": "partial",
   "theorems": [
    "Verif.Vehicle.C83_single_partial",
    "Verif.Vehicle.C83_two_networks_counterexample",
    "Verif.Vehicle.C83_main_wing_partial",
    "Verif.Vehicle.C83_hydraulics_counterexample"
   ],
   "note": "False for several networks and for a wing after the main wing (counterexamples); proved for one network with single origins and a main wing that comes last."
  },
  {
   "property": "C84",
   "status": "partial",
   "theorems": [
    "Verif.IO.Folder.C84_pull",
    "Verif.IO.Folder.C84_push",
    "Verif.IO.Folder.C84_restored_partial",
    "Verif.IO.Folder.C84_missing_counterexample",
    "Verif.IO.Folder.C84_same_folder_counterexample"
   ],
   "note": "Proved when the files to push exist; otherwise the process stays in the folder and the old file is deleted (C84_missing_counterexample); a block in the current folder restores nothing (C84_same_folder_counterexample). Links not modelled."
  },
  {
   "property": "C85",
   "status": "partial",
   "theorems": [
    "Verif.Performance.C85_cruise_partial",
    "Verif.Performance.C85_dive",
    "Verif.Performance.C85_counterexample"
   ],
   "note": "False when both manoeuvre speeds are equal (C85_counterexample); proved otherwise."
  },
  {
   "property": "C86",
   "status": "proved",
   "theorems": [
    "Verif.Performance.C86_points",
    "Verif.Performance.C86_between",
    "Verif.Performance.C86_ends"
   ],
   "note": ""
  },
  {
   "property": "C87",
   "status": "partial",
   "theorems": [
    "Verif.Performance.C87_positive",
    "Verif.Performance.C87_negative_partial",
    "Verif.Performance.C87_counterexample"
   ],
   "note": "False in the utility category (C87_counterexample); proved otherwise."
  },
  {
   "property": "C88",
   "status": "proved",
   "theorems": [
    "Verif.Performance.C88_residual",
    "Verif.Performance.C88_linear",
    "Verif.Performance.C88_contraction"
   ],
   "note": ""
  },
  {
   "property": "C89",
   "status": "partial",
   "theorems": [
    "Verif.Energy.GasTurbine.C89_ram",
    "Verif.Energy.GasTurbine.C89_ideal_inlet",
    "Verif.Energy.GasTurbine.C89_inlet_speed",
    "Verif.Energy.GasTurbine.C89_temperature_counterexample"
   ],
   "note": "Proved for the ram and for inlets without losses; an inlet with a pressure loss lowers the stagnation temperature (C89_temperature_counterexample)."
  },
  {
   "property": "C90",
   "status": "partial",
   "theorems": [
    "Verif.Energy.GasTurbine.C90_combustor",
    "Verif.Energy.GasTurbine.C90_combustor_share",
    "Verif.Energy.GasTurbine.C90_fuel_positive",
    "Verif.Energy.GasTurbine.C90_turbine",
    "Verif.Energy.GasTurbine.C90_engine",
    "Verif.Energy.GasTurbine.C90_afterburner_counterexample",
    "Verif.Energy.GasTurbine.C90_reported_ratio_counterexample"
   ],
   "note": "Burner, turbine and whole-engine balances proved; the afterburner ignores the fuel already in the flow, and the reported ratio is overwritten (counterexamples)."
  },
  {
   "property": "C91",
   "status": "partial",
   "theorems": [
    "Verif.Energy.GasTurbine.C91_subsonic_exit",
    "Verif.Energy.GasTurbine.C91_pressure",
    "Verif.Energy.GasTurbine.C91_isentropic",
    "Verif.Energy.GasTurbine.C91_continuity",
    "Verif.Energy.GasTurbine.C91_speed_iff",
    "Verif.Energy.GasTurbine.C91_air_counterexample"
   ],
   "note": "All proved but velocity = Mach number times speed of sound, which needs cp and gamma to fit; the Air fits do not (C91_speed_iff, C91_air_counterexample)."
  },
  {
   "property": "C92",
   "status": "proved",
   "theorems": [
    "Verif.Energy.GasTurbine.C92_momentum",
    "Verif.Energy.GasTurbine.C92_fuel",
    "Verif.Energy.GasTurbine.C92_fuel_nonneg",
    "Verif.Energy.GasTurbine.C92_linear",
    "Verif.Energy.GasTurbine.C92_isp"
   ],
   "note": ""
  },
  {
   "property": "C93",
   "status": "partial",
   "theorems": [
    "Verif.Energy.GasTurbine.C93_design_thrust_partial",
    "Verif.Energy.GasTurbine.C93_engine_out",
    "Verif.Energy.GasTurbine.C93_off_take_counterexample"
   ],
   "note": "Proved without shaft power off-take; with one, sizing leaves it out (C93_off_take_counterexample)."
  },
  {
   "property": "C94",
   "status": "proved",
   "theorems": [
    "Verif.Energy.GasTurbine.C94_stages",
    "Verif.Energy.GasTurbine.C94_compressor_loss",
    "Verif.Energy.GasTurbine.C94_turbine_loss"
   ],
   "note": ""
  },
  {
   "property": "C95",
   "status": "partial",
   "theorems": [
    "Verif.Energy.GasTurbine.C95_static_partial",
    "Verif.Energy.GasTurbine.C95_stagnation_counterexample"
   ],
   "note": "Static pressures proved; the static pressure is stored as stagnation pressure (C95_stagnation_counterexample)."
  },
  {
   "property": "C96",
   "status": "proved",
   "theorems": [
    "Verif.Physics.Shock.C96_stagnation",
    "Verif.Physics.Shock.C96_direction",
    "Verif.Physics.Shock.C96_conserved"
   ],
   "note": ""
  },
  {
   "property": "C97",
   "status": "proved",
   "theorems": [
    "Verif.Physics.Shock.C97_range",
    "Verif.Physics.Shock.C97_turns",
    "Verif.Physics.Shock.C97_weak",
    "Verif.Physics.Shock.C97_detached"
   ],
   "note": ""
  },
  {
   "property": "C98",
   "status": "proved",
   "theorems": [
    "Verif.Physics.Shock.C98_energy",
    "Verif.Physics.Shock.C98_loss",
    "Verif.Physics.Shock.C98_inlet"
   ],
   "note": ""
  },
  {
   "property": "C99",
   "status": "proved",
   "theorems": [
    "Verif.Physics.Shock.C99_conserved",
    "Verif.Physics.Shock.C99_choking",
    "Verif.Physics.Shock.C99_limited",
    "Verif.Physics.Shock.C99_sonic"
   ],
   "note": "The root finder is external: the theorems hold for whatever root it returns."
  },
  {
   "property": "C100",
   "status": "proved",
   "theorems": [
    "Verif.Physics.Shock.C100_area",
    "Verif.Physics.Shock.C100_throat",
    "Verif.Physics.Shock.C100_pressure"
   ],
   "note": "The root finder is external: the theorems hold for whatever root it returns."
  },
  {
   "property": "C101",
   "status": "partial",
   "theorems": [
    "Verif.Energy.Scramjet.C101_burner_energy",
    "Verif.Energy.Scramjet.C101_burner_momentum",
    "Verif.Energy.Scramjet.C101_stagnation_counterexample",
    "Verif.Energy.Scramjet.C101_nozzle",
    "Verif.Energy.Scramjet.C101_ideal_nozzle",
    "Verif.Energy.Scramjet.C101_mach",
    "Verif.Energy.Scramjet.C101_inlet"
   ],
   "note": "Balances proved; the stagnation temperature reported misses the static part (C101_stagnation_counterexample)."
  },
  {
   "property": "C102",
   "status": "partial",
   "theorems": [
    "Verif.Energy.Scramjet.C102_momentum",
    "Verif.Energy.Scramjet.C102_fuel",
    "Verif.Energy.Scramjet.C102_isp",
    "Verif.Energy.Scramjet.C102_design",
    "Verif.Energy.Scramjet.C102_frozen",
    "Verif.Energy.Scramjet.C102_mass_flow_counterexample"
   ],
   "note": "Proved but the air flow, which stays that of the sizing condition (C102_frozen, C102_mass_flow_counterexample)."
  },
  {
   "property": "C103",
   "status": "partial",
   "theorems": [
    "Verif.Energy.Scramjet.C103_pressure",
    "Verif.Energy.Scramjet.C103_isentropic",
    "Verif.Energy.Scramjet.C103_velocity",
    "Verif.Energy.Scramjet.C103_area",
    "Verif.Energy.Scramjet.C103_mach_partial",
    "Verif.Energy.Scramjet.C103_shock_counterexample"
   ],
   "note": "Proved but the subsonic exit behind an internal shock, which the code does not compute (C103_shock_counterexample)."
  },
  {
   "property": "C104",
   "status": "partial",
   "theorems": [
    "Verif.Electric.C104_balance",
    "Verif.Electric.C104_forward",
    "Verif.Electric.C104_unique",
    "Verif.Electric.C104_throttle",
    "Verif.Electric.C104_standstill_counterexample"
   ],
   "note": "Proved but the standstill: at zero voltage the propeller is reported to turn backwards (C104_standstill_counterexample)."
  },
  {
   "property": "C105",
   "status": "proved",
   "theorems": [
    "Verif.Electric.C105_voltage_then_torque",
    "Verif.Electric.C105_torque_then_voltage",
    "Verif.Electric.C105_current"
   ],
   "note": ""
  },
  {
   "property": "C106",
   "status": "partial",
   "theorems": [
    "Verif.Electric.C106_power",
    "Verif.Electric.C106_efficiency",
    "Verif.Electric.C106_range",
    "Verif.Electric.C106_gear",
    "Verif.Electric.C106_windmill_counterexample"
   ],
   "note": "Proved while the motor takes current; a windmilling propeller reports no power (C106_windmill_counterexample)."
  },
  {
   "property": "C107",
   "status": "partial",
   "theorems": [
    "Verif.Electric.C107_efficiency",
    "Verif.Electric.C107_highest",
    "Verif.Electric.C107_reachable",
    "Verif.Electric.C107_unreachable_counterexample",
    "Verif.Electric.C107_no_load_counterexample",
    "Verif.Electric.C107_power_lo"
   ],
   "note": "Proved up to the peak efficiency; beyond it another efficiency results, and without no-load current the motor is unloaded (C107_unreachable_counterexample, C107_no_load_counterexample)."
  },
  {
   "property": "C108",
   "status": "partial",
   "theorems": [
    "Verif.Electric.C108_voltage",
    "Verif.Electric.C108_power_partial",
    "Verif.Electric.C108_range_counterexample"
   ],
   "note": "Proved for throttles from zero to one; outside, the current is not limited (C108_range_counterexample)."
  },
  {
   "property": "C109",
   "status": "partial",
   "theorems": [
    "Verif.Electric.C109_thrust",
    "Verif.Electric.C109_power",
    "Verif.Electric.C109_balance",
    "Verif.Electric.C109_identical",
    "Verif.Electric.C109_current_counterexample",
    "Verif.Electric.C109_record_counterexample",
    "Verif.Electric.C109_efficiency_counterexample",
    "Verif.Electric.C109_negative_throttle_counterexample",
    "Verif.Electric.C109_charging",
    "Verif.Electric.C109_cell_power_counterexample",
    "Verif.Electric.C109_cell_energy"
   ],
   "note": "Sums and balances proved; the recorded current, thrust, efficiency and cell power do not fit (C109_*_counterexample)."
  },
  {
   "property": "C110",
   "status": "proved",
   "theorems": [
    "Verif.Electric.C110_power",
    "Verif.Electric.C110_thrust",
    "Verif.Electric.C110_cruise",
    "Verif.Electric.C110_hover"
   ],
   "note": "For throttles from zero to one."
  },
  {
   "property": "C111",
   "status": "partial",
   "theorems": [
    "Verif.Electric.C111_speed",
    "Verif.Electric.C111_power_partial",
    "Verif.Electric.C111_torque_counterexample"
   ],
   "note": "Speed and power proved; the torque uses the inverse ratio (C111_torque_counterexample)."
  },
  {
   "property": "C112",
   "status": "partial",
   "theorems": [
    "Verif.Electric.C112_power",
    "Verif.Electric.C112_charge",
    "Verif.Electric.C112_current_counterexample",
    "Verif.Electric.C112_low_partial",
    "Verif.Electric.C112_over_counterexample"
   ],
   "note": "Balances proved; the recorded battery current is the motors', and the low-fidelity network applies throttles above one twice (C112_*_counterexample)."
  },
  {
   "property": "C113",
   "status": "partial",
   "theorems": [
    "Verif.Electric.C113_power_partial",
    "Verif.Electric.C113_over_counterexample",
    "Verif.Electric.C113_idle_counterexample",
    "Verif.Electric.C113_hybrid",
    "Verif.Electric.C113_generator_counterexample"
   ],
   "note": "Proved for throttles above zero and up to one; the generator always burns at full power (C113_*_counterexample)."
  },
  {
   "property": "C114",
   "status": "partial",
   "theorems": [
    "Verif.Sun.C114_range",
    "Verif.Sun.C114_level",
    "Verif.Sun.C114_attitude",
    "Verif.Sun.C114_tilt",
    "Verif.Sun.C114_high",
    "Verif.Sun.C114_incidence_partial",
    "Verif.Sun.C114_incidence_counterexample"
   ],
   "note": "Proved but the angle of incidence in banked flight (C114_incidence_counterexample)."
  },
  {
   "property": "C115",
   "status": "partial",
   "theorems": [
    "Verif.Sun.C115_path_partial",
    "Verif.Sun.C115_radius_counterexample",
    "Verif.Sun.C115_altitude"
   ],
   "note": "Holds for a planet of a thousand times the radius (C115_radius_counterexample)."
  },
  {
   "property": "C116",
   "status": "partial",
   "theorems": [
    "Verif.Sun.C116_days",
    "Verif.Sun.C116_hour",
    "Verif.Sun.C116_turn_partial",
    "Verif.Sun.C116_midnight_counterexample",
    "Verif.Sun.C116_turn_counterexample"
   ],
   "note": "Days, hours and level flight proved; start times and turns of longitude are not carried (C116_midnight_counterexample, C116_turn_counterexample)."
  },
  {
   "property": "C117",
   "status": "partial",
   "theorems": [
    "Verif.Noise.C117_energy",
    "Verif.Noise.C117_order",
    "Verif.Noise.C117_single",
    "Verif.Noise.C117_groups",
    "Verif.Noise.C117_bounds",
    "Verif.Noise.C117_more",
    "Verif.Noise.C117_shift",
    "Verif.Noise.C117_equal",
    "Verif.Noise.C117_flat_counterexample"
   ],
   "note": "Holds for two or more dimensions; a plain list is handed back unadded (C117_flat_counterexample)."
  },
  {
   "property": "C118",
   "status": "partial",
   "theorems": [
    "Verif.Noise.C118_rotors_partial",
    "Verif.Noise.C118_bounds_partial",
    "Verif.Noise.C118_single_partial",
    "Verif.Noise.C118_phantom_counterexample",
    "Verif.Noise.C118_airframe_counterexample",
    "Verif.Noise.C118_identical",
    "Verif.Noise.C118_one_rotor",
    "Verif.Noise.C118_different_counterexample",
    "Verif.Noise.C118_rows_counterexample"
   ],
   "note": "For rotor sources up to one 0 dB source per unused row; airframe overwritten by the engine, different rotors counted repeatedly, too few rows (C118_*_counterexample)."
  },
  {
   "property": "C119",
   "status": "partial",
   "theorems": [
    "Verif.Noise.C119_edges",
    "Verif.Noise.C119_one_band_partial",
    "Verif.Noise.C119_total_partial",
    "Verif.Noise.C119_edge_counterexample",
    "Verif.Noise.C119_silence_counterexample"
   ],
   "note": "Off the band edges and over bands that hold a harmonic (C119_*_counterexample)."
  },
  {
   "property": "C120",
   "status": "partial",
   "theorems": [
    "Verif.Noise.C120_defined",
    "Verif.Noise.C120_senel",
    "Verif.Noise.C120_shift",
    "Verif.Noise.C120_upper",
    "Verif.Noise.C120_whole",
    "Verif.Noise.C120_single_window",
    "Verif.Noise.C120_integral_partial",
    "Verif.Noise.C120_last_counterexample",
    "Verif.Noise.C120_dip_counterexample"
   ],
   "note": "For histories with one loud stretch; the last point and stretches after a dip are lost (C120_*_counterexample)."
  },
  {
   "property": "C121",
   "status": "partial",
   "theorems": [
    "Verif.Noise.C121_range",
    "Verif.Noise.C121_straight",
    "Verif.Noise.C121_shift",
    "Verif.Noise.C121_tone_partial",
    "Verif.Noise.C121_band_counterexample",
    "Verif.Noise.C121_twenty_counterexample",
    "Verif.Noise.C121_first_partial",
    "Verif.Noise.C121_history_counterexample"
   ],
   "note": "Not for tones in three bands, tones of exactly 20 dB, and later spectra of a history (C121_*_counterexample)."
  },
  {
   "property": "C122",
   "status": "partial",
   "theorems": [
    "Verif.Noise.C122_value_partial",
    "Verif.Noise.C122_nonneg",
    "Verif.Noise.C122_double",
    "Verif.Noise.C122_quiet",
    "Verif.Noise.C122_monotone_partial",
    "Verif.Noise.C122_gap_counterexample",
    "Verif.Noise.C122_ten_decibels",
    "Verif.Noise.C122_last_band"
   ],
   "note": "Below the upper limits of the table; levels in the gap read as silence, the last band is not counted (C122_gap_counterexample, C122_last_band)."
  },
  {
   "property": "C123",
   "status": "proved",
   "theorems": [
    "Verif.Noise.C123_shift",
    "Verif.Noise.C123_upper",
    "Verif.Noise.C123_agree"
   ],
   "note": ""
  },
  {
   "property": "C124",
   "status": "partial",
   "theorems": [
    "Verif.Noise.Mic.C124_ground",
    "Verif.Noise.Mic.C124_spacing",
    "Verif.Noise.Mic.C124_distinct",
    "Verif.Noise.Mic.C124_building_partial",
    "Verif.Noise.Mic.C124_walls",
    "Verif.Noise.Mic.C124_resolution_counterexample",
    "Verif.Noise.Mic.C124_base_counterexample"
   ],
   "note": "Ground grid in full; buildings with equal resolutions and base at height zero (C124_*_counterexample)."
  },
  {
   "property": "C125",
   "status": "partial",
   "theorems": [
    "Verif.Noise.Mic.C125_relative",
    "Verif.Noise.Mic.C125_elevation",
    "Verif.Noise.Mic.C125_below",
    "Verif.Noise.Mic.C125_aside",
    "Verif.Noise.Mic.C125_points",
    "Verif.Noise.Mic.C125_free_counterexample",
    "Verif.Noise.Mic.C125_unchanged_counterexample"
   ],
   "note": "Certification points in full; free microphones do not stand where asked and zero positions are changed (C125_*_counterexample)."
  },
  {
   "property": "C126",
   "status": "partial",
   "theorems": [
    "Verif.Noise.Cert.C126_monotone",
    "Verif.Noise.Cert.C126_doubling",
    "Verif.Noise.Cert.C126_engines",
    "Verif.Noise.Cert.C126_regulation_partial",
    "Verif.Noise.Cert.C126_light_counterexample"
   ],
   "note": "Within the weights where the regulation has a slope (C126_light_counterexample)."
  },
  {
   "property": "C127",
   "status": "partial",
   "theorems": [
    "Verif.Noise.Air.C127_total_partial",
    "Verif.Noise.Air.C127_fin_counterexample",
    "Verif.Noise.Air.C127_distance",
    "Verif.Noise.Air.C127_attenuation",
    "Verif.Noise.Air.C127_slat",
    "Verif.Noise.Air.C127_slat_shift",
    "Verif.Noise.Air.C127_slat_counterexample",
    "Verif.Noise.Air.C127_clean",
    "Verif.Noise.Air.C127_retracted_counterexample",
    "Verif.Noise.Air.C127_history_partial",
    "Verif.Noise.Air.C127_last_counterexample",
    "Verif.Noise.Air.C127_wheels_counterexample",
    "Verif.Noise.Air.C127_wheels_partial",
    "Verif.Noise.Air.C127_flap_joins_partial",
    "Verif.Noise.Air.C127_flap_joins_counterexample",
    "Verif.Noise.Air.C127_directivity",
    "Verif.Noise.Air.C127_units_partial",
    "Verif.Noise.Air.C127_units_counterexample",
    "Verif.Noise.Air.C127_gear_partial",
    "Verif.Noise.Air.C127_gear_counterexample",
    "Verif.Noise.Air.C127_layer"
   ],
   "note": "Six of seven components; vertical tail omitted, retracted parts 0 dB, last step missing, dimensions mixed up, slat absorbed twice (C127_*_counterexample)."
  },
  {
   "property": "C128",
   "status": "partial",
   "theorems": [
    "Verif.Noise.Cert.C128_engines",
    "Verif.Noise.Cert.C128_reference",
    "Verif.Noise.Cert.C128_landing_reference",
    "Verif.Noise.Cert.C128_landing",
    "Verif.Noise.Cert.C128_weight",
    "Verif.Noise.Cert.C128_thrust_partial",
    "Verif.Noise.Cert.C128_thrust_counterexample"
   ],
   "note": "Thrust up to 53 800 lb (C128_thrust_counterexample)."
  },
  {
   "property": "C129",
   "status": "partial",
   "theorems": [
    "Verif.Aero.C129_turbulent",
    "Verif.Aero.C129_laminar",
    "Verif.Aero.C129_refused",
    "Verif.Aero.C129_corrections",
    "Verif.Aero.C129_decreasing",
    "Verif.Aero.C129_laminar_less_partial",
    "Verif.Aero.C129_laminar_less_counterexample"
   ],
   "note": "Laminar below turbulent from a Reynolds number of 1e5 on (C129_laminar_less_counterexample)."
  },
  {
   "property": "C130",
   "status": "partial",
   "theorems": [
    "Verif.Aero.C130_wing",
    "Verif.Aero.C130_wing_defined",
    "Verif.Aero.C130_wing_counterexample",
    "Verif.Aero.C130_wing_rest",
    "Verif.Aero.C130_wing_drag",
    "Verif.Aero.C130_wing_sides",
    "Verif.Aero.C130_segments",
    "Verif.Aero.C130_exposed_partial",
    "Verif.Aero.C130_exposed_rectangle",
    "Verif.Aero.C130_exposed_counterexample",
    "Verif.Aero.C130_wetted",
    "Verif.Aero.C130_body",
    "Verif.Aero.C130_body_super",
    "Verif.Aero.C130_body_super_continuous",
    "Verif.Aero.C130_body_counterexample",
    "Verif.Aero.C130_nacelle"
   ],
   "note": "Wing form factor undefined at Mach 1 without sweep, body form factor jumps at Mach 0.95 in the subsonic analysis, exposed area wrong for tapered symmetric wings (C130_*_counterexample)."
  },
  {
   "property": "C131",
   "status": "partial",
   "theorems": [
    "Verif.Aero.C131_total",
    "Verif.Aero.C131_entries",
    "Verif.Aero.C131_total_counterexample",
    "Verif.Aero.C131_pylon_partial",
    "Verif.Aero.C131_pylon_counterexample"
   ],
   "note": "For distinct names; pylon averages for as many networks as nacelles (C131_*_counterexample)."
  },
  {
   "property": "C132",
   "status": "partial",
   "theorems": [
    "Verif.Aero.C132_main",
    "Verif.Aero.C132_oswald",
    "Verif.Aero.C132_parts_partial",
    "Verif.Aero.C132_parts_counterexample",
    "Verif.Aero.C132_span",
    "Verif.Aero.C132_viscous_partial",
    "Verif.Aero.C132_viscous_counterexample"
   ],
   "note": "Parts do not add up with a span efficiency; the viscous part is scaled by area twice (C132_*_counterexample)."
  },
  {
   "property": "C133",
   "status": "partial",
   "theorems": [
    "Verif.Aero.C133_rise",
    "Verif.Aero.C133_lift_partial",
    "Verif.Aero.C133_lift_counterexample",
    "Verif.Aero.C133_total"
   ],
   "note": "Falling with lift up to 1.2 normal to the sweep (C133_lift_counterexample)."
  },
  {
   "property": "C134",
   "status": "partial",
   "theorems": [
    "Verif.Aero.C134_total",
    "Verif.Aero.C134_ratio",
    "Verif.Aero.C134_monotone",
    "Verif.Aero.C134_refused",
    "Verif.Aero.C134_excrescence_partial",
    "Verif.Aero.C134_excrescence_counterexample",
    "Verif.Aero.C134_origins",
    "Verif.Aero.C134_origins_counterexample",
    "Verif.Aero.C134_windmilling",
    "Verif.Aero.C134_misc_super"
   ],
   "note": "Excrescence up to 1800 m\u00b2 of wetted area; windmilling counts a nacelle once (C134_*_counterexample)."
  },
  {
   "property": "C135",
   "status": "partial",
   "theorems": [
    "Verif.Aero.C135_continuous",
    "Verif.Aero.C135_ends",
    "Verif.Aero.C135_peak_partial",
    "Verif.Aero.C135_peak_counterexample",
    "Verif.Aero.C135_nonneg",
    "Verif.Aero.C135_formulas",
    "Verif.Aero.C135_raymer_sears",
    "Verif.Aero.C135_lift",
    "Verif.Aero.C135_lift_sign_partial",
    "Verif.Aero.C135_lift_sign_counterexample",
    "Verif.Aero.C135_rows_partial",
    "Verif.Aero.C135_rows_counterexample",
    "Verif.Aero.C135_helper",
    "Verif.Aero.C135_helper_rows_partial",
    "Verif.Aero.C135_helper_rows_counterexample"
   ],
   "note": "Peak for a rise ending by Mach 1.2; sign for 0.2 \u2264 \u03b2s/l \u2264 2.9; rows with the supersonic ones first (C135_*_counterexample)."
  },
  {
   "property": "C136",
   "status": "partial",
   "theorems": [
    "Verif.Aero.C136_flap_partial",
    "Verif.Aero.C136_flap_counterexample",
    "Verif.Aero.C136_names",
    "Verif.Aero.C136_slat_partial",
    "Verif.Aero.C136_slat_counterexample",
    "Verif.Aero.C136_total",
    "Verif.Aero.C136_flap_area_partial",
    "Verif.Aero.C136_flap_area_counterexample",
    "Verif.Aero.C136_reynolds"
   ],
   "note": "Flaps from 1 to 80 degrees; flap area for a wing as large as the reference area (C136_*_counterexample)."
  },
  {
   "property": "C137",
   "status": "partial",
   "theorems": [
    "Verif.Aero.Aerodas.C137_pre_partial",
    "Verif.Aero.Aerodas.C137_pre_line",
    "Verif.Aero.Aerodas.C137_pre_odd",
    "Verif.Aero.Aerodas.C137_pre_counterexample",
    "Verif.Aero.Aerodas.C137_pre_drag",
    "Verif.Aero.Aerodas.C137_post",
    "Verif.Aero.Aerodas.C137_post_odd",
    "Verif.Aero.Aerodas.C137_drag_partial",
    "Verif.Aero.Aerodas.C137_drag_counterexample",
    "Verif.Aero.Aerodas.C137_total",
    "Verif.Aero.Aerodas.C137_lift_odd",
    "Verif.Aero.Aerodas.C137_section",
    "Verif.Aero.Aerodas.C137_plate",
    "Verif.Aero.Aerodas.C137_section_counterexample"
   ],
   "note": "The pre-stall maximum needs a line above it, which the computed values never have; post-stall drag does not reach its maximum (C137_*_counterexample)."
  },
  {
   "property": "C138",
   "status": "partial",
   "theorems": [
    "Verif.Weights.C138_surfaces",
    "Verif.Weights.C138_systems",
    "Verif.Weights.C138_totals",
    "Verif.Weights.C138_once_partial",
    "Verif.Weights.C138_detailed",
    "Verif.Weights.C138_nacelle_counterexample",
    "Verif.Weights.C138_networks_counterexample",
    "Verif.Weights.C138_no_engines_counterexample"
   ],
   "note": "Each item once for methods that weigh propulsion as a whole; detailed methods count the nacelle twice (C138_detailed, C138_*_counterexample)."
  },
  {
   "property": "C139",
   "status": "partial",
   "theorems": [
    "Verif.Weights.C139_masses_partial",
    "Verif.Weights.C139_gear_counterexample"
   ],
   "note": "Up to landing gear, nacelles and crew, which are not written (C139_gear_counterexample)."
  },
  {
   "property": "C140",
   "status": "partial",
   "theorems": [
    "Verif.Weights.C140_structural",
    "Verif.Weights.C140_individual",
    "Verif.Weights.C140_repeat",
    "Verif.Weights.C140_systems_counterexample",
    "Verif.Weights.C140_settings_counterexample",
    "Verif.Weights.C140_gear_counterexample"
   ],
   "note": "Wings, tails and fuselages; the factor for systems has no effect and settings are overwritten (C140_*_counterexample)."
  },
  {
   "property": "C141",
   "status": "partial",
   "theorems": [
    "Verif.Weights.C141_stored_partial",
    "Verif.Weights.C141_counterexample",
    "Verif.Weights.C141_bwb_counterexample"
   ],
   "note": "The stored value leaves out the operating items; the BWB analysis fails (C141_*counterexample)."
  },
  {
   "property": "C142",
   "status": "partial",
   "theorems": [
    "Verif.Weights.C142_gear",
    "Verif.Weights.C142_payload",
    "Verif.Weights.C142_systems",
    "Verif.Weights.C142_flops_partial",
    "Verif.Weights.C142_cargo_counterexample",
    "Verif.Weights.C142_systems_flops",
    "Verif.Weights.C142_systems_flops_counterexample",
    "Verif.Weights.C142_tanks"
   ],
   "note": "Default correlations in full; FLOPS payload without cargo; FLOPS and Raymer system totals are in pounds (C142_*_counterexample)."
  },
  {
   "property": "C143",
   "status": "partial",
   "theorems": [
    "Verif.Weights.C143_attendants",
    "Verif.Weights.C143_operating",
    "Verif.Weights.C143_systems",
    "Verif.Weights.C143_apu",
    "Verif.Weights.C143_controls",
    "Verif.Weights.C143_types",
    "Verif.Weights.C143_classes_partial",
    "Verif.Weights.C143_coach_counterexample",
    "Verif.Weights.C143_flops",
    "Verif.Weights.C143_operating_flops",
    "Verif.Weights.C143_powered"
   ],
   "note": "Classes for no more coach seats than passengers (C143_coach_counterexample)."
  },
  {
   "property": "C144",
   "status": "partial",
   "theorems": [
    "Verif.Weights.C144_index",
    "Verif.Weights.C144_index_mono",
    "Verif.Weights.C144_tube",
    "Verif.Weights.C144_wing_simple",
    "Verif.Weights.C144_panel",
    "Verif.Weights.C144_split",
    "Verif.Weights.C144_wing_segmented",
    "Verif.Weights.C144_moment",
    "Verif.Weights.C144_bending_counterexample",
    "Verif.Weights.C144_span_partial",
    "Verif.Weights.C144_span_counterexample"
   ],
   "note": "Panels of constant thickness; the moment is taken about the centre line and the span enters with different powers (C144_*_counterexample); big_integral for tapered panels is not modelled."
  },
  {
   "property": "C145",
   "status": "partial",
   "theorems": [
    "Verif.Weights.C145_vertical",
    "Verif.Weights.C145_flag_counterexample",
    "Verif.Weights.C145_horizontal",
    "Verif.Weights.C145_arm_counterexample",
    "Verif.Weights.C145_engines",
    "Verif.Weights.C145_installed",
    "Verif.Weights.C145_nacelles",
    "Verif.Weights.C145_flops",
    "Verif.Weights.C145_starter_counterexample",
    "Verif.Weights.C145_flag_raymer_counterexample",
    "Verif.Weights.C145_sizes",
    "Verif.Weights.C145_own_inputs"
   ],
   "note": "The T-tail flag as text \"yes\" only; Raymer takes \"no\" as true and the starter gets kilograms for pounds (C145_*_counterexample)."
  },
  {
   "property": "C146",
   "status": "partial",
   "theorems": [
    "Verif.Weights.C146_relief",
    "Verif.Weights.C146_bounds",
    "Verif.Weights.C146_type_counterexample",
    "Verif.Weights.C146_fuselages_counterexample",
    "Verif.Weights.C146_engines_partial",
    "Verif.Weights.C146_sweep_counterexample",
    "Verif.Weights.C146_chord_counterexample",
    "Verif.Weights.C146_stations",
    "Verif.Weights.C146_area_partial",
    "Verif.Weights.C146_area_counterexample",
    "Verif.Weights.C146_composite",
    "Verif.Weights.C146_thickness",
    "Verif.Weights.C146_tailored_counterexample",
    "Verif.Weights.C146_raymer"
   ],
   "note": "Simple method with one fuselage; stations of the complex method (C146_*_counterexample)."
  },
  {
   "property": "C147",
   "status": "partial",
   "theorems": [
    "Verif.Weights.C147_strut_counterexample",
    "Verif.Weights.C147_gear_counterexample",
    "Verif.Weights.C147_gear_partial",
    "Verif.Weights.C147_structures",
    "Verif.Weights.C147_antiIce_counterexample",
    "Verif.Weights.C147_sst"
   ],
   "note": "Gear weight where the strut length is not negative (C147_*_counterexample)."
  },
  {
   "property": "C148",
   "status": "partial",
   "theorems": [
    "Verif.Weights.C148_defined_partial",
    "Verif.Weights.C148_undefined_counterexample",
    "Verif.Weights.C148_totals",
    "Verif.Weights.C148_fuel_system_counterexample",
    "Verif.Weights.C148_fuel_system_pos",
    "Verif.Weights.C148_repeat_counterexample",
    "Verif.Weights.C148_taper_counterexample",
    "Verif.Weights.C148_monotone",
    "Verif.Weights.C148_wing_counterexample",
    "Verif.Weights.C148_furnish_counterexample",
    "Verif.Weights.C148_control_counterexample",
    "Verif.Weights.C148_volume_counterexample",
    "Verif.Weights.C148_alias_counterexample",
    "Verif.Weights.C148_thickness",
    "Verif.Weights.C148_strict"
   ],
   "note": "Aircraft with wing, horizontal tail and fuel in tanks, first evaluation; without the fuel system; not the controls, furnishings and volume of the correlations (C148_*_counterexample)."
  },
  {
   "property": "C149",
   "status": "partial",
   "theorems": [
    "Verif.Weights.C149_light_partial",
    "Verif.Weights.C149_light_counterexample",
    "Verif.Weights.C149_bwb_partial",
    "Verif.Weights.C149_bwb_counterexample"
   ],
   "note": "Structures, propulsion and payload only; for blended wing bodies without gear and aft body (C149_*_counterexample)."
  },
  {
   "property": "C150",
   "status": "partial",
   "theorems": [
    "Verif.Weights.C150_bwb",
    "Verif.Weights.C150_bodies",
    "Verif.Weights.C150_gear_counterexample",
    "Verif.Weights.C150_human_partial",
    "Verif.Weights.C150_human_counterexample",
    "Verif.Weights.C150_human_parts",
    "Verif.Weights.C150_uav"
   ],
   "note": "Human-powered aircraft without a fuselage; gear kinds exchanged (C150_*_counterexample)."
  },
  {
   "property": "C151",
   "status": "partial",
   "theorems": [
    "Verif.Weights.C151_root",
    "Verif.Weights.C151_lift",
    "Verif.Weights.C151_decreasing",
    "Verif.Weights.C151_positive",
    "Verif.Weights.C151_monotone",
    "Verif.Weights.C151_torsion_counterexample",
    "Verif.Weights.C151_torsion_partial",
    "Verif.Weights.C151_unloaded",
    "Verif.Weights.C151_signed_counterexample",
    "Verif.Weights.C151_thrust"
   ],
   "note": "All but the torque (skin thickness scales with the first interval) and motors listed with negative places (C151_*_counterexample)."
  },
  {
   "property": "C152",
   "status": "partial",
   "theorems": [
    "Verif.Weights.C152_sphere",
    "Verif.Weights.C152_wetted",
    "Verif.Weights.C152_fuselage",
    "Verif.Weights.C152_keel_counterexample",
    "Verif.Weights.C152_wiring",
    "Verif.Weights.C152_bulkheads",
    "Verif.Weights.C152_motor"
   ],
   "note": "The box beam of the keel does not depend on its length (C152_keel_counterexample)."
  },
  {
   "property": "C153",
   "status": "partial",
   "theorems": [
    "Verif.Weights.C153_shear_partial",
    "Verif.Weights.C153_shear_counterexample",
    "Verif.Weights.C153_terminates",
    "Verif.Weights.C153_inertia_partial",
    "Verif.Weights.C153_inertia_counterexample"
   ],
   "note": "Root shear falls short of the design value, cap inertia for caps of one segment (C153_*_counterexample); termination where the centrifugal load factor is below one."
  },
  {
   "property": "C154",
   "status": "partial",
   "theorems": [
    "Verif.Weights.C154_total",
    "Verif.Weights.C154_batteries",
    "Verif.Weights.C154_rotors",
    "Verif.Weights.C154_identical_counterexample",
    "Verif.Weights.C154_mixed_counterexample",
    "Verif.Weights.C154_fuselage_counterexample",
    "Verif.Weights.C154_network_counterexample",
    "Verif.Weights.C154_components_partial",
    "Verif.Weights.C154_components_counterexample",
    "Verif.Weights.C154_wings"
   ],
   "note": "All rotors listed, one kind per Battery_Propeller network, with a fuselage; components without rotors, battery and gear (C154_*_counterexample)."
  },
  {
   "property": "C155",
   "status": "partial",
   "theorems": [
    "Verif.Weights.C155_success",
    "Verif.Weights.C155_converges",
    "Verif.Weights.C155_accuracy",
    "Verif.Weights.C155_fails",
    "Verif.Weights.C155_hubs_counterexample",
    "Verif.Weights.C155_last_counterexample"
   ],
   "note": "Success and accuracy proved; the hundredth iteration always reports failure, and the hubs of 23 propellers prevent convergence (C155_*_counterexample)."
  },
  {
   "property": "C156",
   "status": "partial",
   "theorems": [
    "Verif.Performance.C156_stall_speed",
    "Verif.Performance.C156_landing_linear",
    "Verif.Performance.C156_landing_mono",
    "Verif.Performance.C156_landing_constants_counterexample"
   ],
   "note": "Default constants; constants given by the user are ignored (C156_landing_constants_counterexample)."
  },
  {
   "property": "C157",
   "status": "proved",
   "theorems": [
    "Verif.Performance.C157_length",
    "Verif.Performance.C157_no_engine",
    "Verif.Performance.C157_mono",
    "Verif.Performance.C157_engines"
   ],
   "note": "Thrust positive and not growing with speed for monotonicity in mass."
  },
  {
   "property": "C158",
   "status": "partial",
   "theorems": [
    "Verif.Performance.C158_gradient",
    "Verif.Performance.C158_asymmetry",
    "Verif.Performance.C158_windmilling_partial",
    "Verif.Performance.C158_windmilling_counterexample"
   ],
   "note": "Gradient and rudder drag; windmilling drag is charged for all nacelles (C158_windmilling_counterexample)."
  },
  {
   "property": "C159",
   "status": "partial",
   "theorems": [
    "Verif.Performance.C159_weight",
    "Verif.Performance.C159_enough",
    "Verif.Performance.C159_estimate",
    "Verif.Performance.C159_restores_partial",
    "Verif.Performance.C159_restores_counterexample"
   ],
   "note": "Weights; the take-off mass of the vehicle is left at 1.1 times the maximum (C159_restores_counterexample)."
  },
  {
   "property": "C160",
   "status": "partial",
   "theorems": [
    "Verif.Performance.C160_points_partial",
    "Verif.Performance.C160_weights_counterexample",
    "Verif.Performance.C160_left_counterexample"
   ],
   "note": "Points and ranges; weights of the points and the state of the mission differ (C160_*_counterexample)."
  },
  {
   "property": "C161",
   "status": "partial",
   "theorems": [
    "Verif.Performance.C161_climb",
    "Verif.Performance.C161_power",
    "Verif.Performance.C161_grid_partial",
    "Verif.Performance.C161_default_counterexample",
    "Verif.Performance.C161_hot_day_counterexample"
   ],
   "note": "Standard day with an integer grid; the default grid raises an exception and the offset is ignored in drag and power (C161_*_counterexample)."
  },
  {
   "property": "C162",
   "status": "proved",
   "theorems": [
    "Verif.Performance.C162_best",
    "Verif.Performance.C162_endurance",
    "Verif.Performance.C162_no_speed"
   ],
   "note": "For every result of the minimizer within its contract."
  },
  {
   "property": "C163",
   "status": "partial",
   "theorems": [
    "Verif.Costs.C163_escalation",
    "Verif.Costs.C163_prices_rise",
    "Verif.Costs.C163_unit",
    "Verif.Costs.C163_prices_counterexample",
    "Verif.Costs.C163_rates_partial",
    "Verif.Costs.C163_rates_counterexample"
   ],
   "note": "Prices from 1935, rates from 1967 on (C163_*_counterexample)."
  },
  {
   "property": "C164",
   "status": "partial",
   "theorems": [
    "Verif.Costs.C164_totals",
    "Verif.Costs.C164_kinds",
    "Verif.Costs.C164_interior",
    "Verif.Costs.C164_nonneg_partial",
    "Verif.Costs.C164_nonneg_counterexample"
   ],
   "note": "Totals, kinds; parts not negative when production is at least the number of prototypes (C164_nonneg_counterexample)."
  },
  {
   "property": "C165",
   "status": "proved",
   "theorems": [
    "Verif.Costs.C165_learning"
   ],
   "note": "Development spread over the aircraft produced."
  },
  {
   "property": "C166",
   "status": "partial",
   "theorems": [
    "Verif.Costs.C166_once_partial",
    "Verif.Costs.C166_quality_counterexample"
   ],
   "note": "All but quality control, which is paid twice for prototypes (C166_quality_counterexample)."
  },
  {
   "property": "C167",
   "status": "partial",
   "theorems": [
    "Verif.Costs.C167_years",
    "Verif.Costs.C167_distributed_partial",
    "Verif.Costs.C167_nonneg",
    "Verif.Costs.C167_facilities_counterexample",
    "Verif.Costs.C167_short_counterexample"
   ],
   "note": "Without facilities and for at least one year (C167_*_counterexample)."
  },
  {
   "property": "C168",
   "status": "partial",
   "theorems": [
    "Verif.Stability.C168_convert",
    "Verif.Stability.C168_same",
    "Verif.Stability.C168_range",
    "Verif.Stability.C168_further_back",
    "Verif.Stability.C168_segments",
    "Verif.Stability.C168_segments_back",
    "Verif.Stability.C168_fin_counterexample",
    "Verif.Stability.C168_fin_effective"
   ],
   "note": "Symmetric wings and all segment conversions; convert_sweep is wrong for single surfaces (C168_fin_counterexample)."
  },
  {
   "property": "C169",
   "status": "partial",
   "theorems": [
    "Verif.Stability.C169_root",
    "Verif.Stability.C169_span",
    "Verif.Stability.C169_area",
    "Verif.Stability.C169_aspect",
    "Verif.Stability.C169_no_offset",
    "Verif.Stability.C169_origin_counterexample",
    "Verif.Stability.C169_leading_edge_partial",
    "Verif.Stability.C169_leading_edge_counterexample"
   ],
   "note": "Chord, span, area, aspect ratio; position of the root only when the stored sweep is that of the leading edge (C169_*_counterexample)."
  },
  {
   "property": "C170",
   "status": "partial",
   "theorems": [
    "Verif.Stability.C170_mac",
    "Verif.Stability.C170_mac_bounds",
    "Verif.Stability.C170_mac_given",
    "Verif.Stability.C170_station",
    "Verif.Stability.C170_untapered_counterexample",
    "Verif.Stability.C170_untapered_single",
    "Verif.Stability.C170_ac_partial",
    "Verif.Stability.C170_ac_counterexample",
    "Verif.Stability.C170_ac_error"
   ],
   "note": "Mean aerodynamic chord and its station; aerodynamic centre only for the leading-edge sweep, station wrong for untapered symmetric wings (C170_*_counterexample)."
  },
  {
   "property": "C171",
   "status": "partial",
   "theorems": [
    "Verif.Stability.C171_bounds",
    "Verif.Stability.C171_below_section",
    "Verif.Stability.C171_rises",
    "Verif.Stability.C171_falls",
    "Verif.Stability.C171_sonic",
    "Verif.Stability.C171_sonic_counterexample"
   ],
   "note": "All Mach numbers but exactly one (C171_sonic_counterexample)."
  },
  {
   "property": "C172",
   "status": "partial",
   "theorems": [
    "Verif.Stability.C172_cg_shift",
    "Verif.Stability.C172_aft_unstable",
    "Verif.Stability.C172_neutral_unique",
    "Verif.Stability.C172_fins",
    "Verif.Stability.C172_order",
    "Verif.Stability.C172_tail",
    "Verif.Stability.C172_linear",
    "Verif.Stability.C172_incidence_counterexample",
    "Verif.Stability.C172_incidence_sign",
    "Verif.Stability.C172_section_moment_counterexample"
   ],
   "note": "All but incidence sign and section moment (C172_*_counterexample)."
  },
  {
   "property": "C173",
   "status": "partial",
   "theorems": [
    "Verif.Stability.C173_factor_bounds",
    "Verif.Stability.C173_factor_mono",
    "Verif.Stability.C173_factor_continuous",
    "Verif.Stability.C173_fin_arm",
    "Verif.Stability.C173_fin_sign",
    "Verif.Stability.C173_no_fuselage",
    "Verif.Stability.C173_order_partial",
    "Verif.Stability.C173_order_counterexample"
   ],
   "note": "Order of fuselages only when alike in height (C173_order_counterexample)."
  },
  {
   "property": "C174",
   "status": "partial",
   "theorems": [
    "Verif.Stability.C174_margin_sign",
    "Verif.Stability.C174_neutral_partial",
    "Verif.Stability.C174_lone_wing_counterexample",
    "Verif.Stability.C174_neutral_moves"
   ],
   "note": "Sign of margin and neutral point; the neutral point is not that of the moment slope (C174_lone_wing_counterexample)."
  },
  {
   "property": "C175",
   "status": "proved",
   "theorems": [
    "Verif.Stability.C175_phugoid",
    "Verif.Stability.C175_short_period",
    "Verif.Stability.C175_dutch_roll",
    "Verif.Stability.C175_roll",
    "Verif.Stability.C175_spiral"
   ],
   "note": "Each approximation against its reduced equations of motion."
  },
  {
   "property": "C176",
   "status": "partial",
   "theorems": [
    "Verif.Stability.C176_characteristic",
    "Verif.Stability.C176_degree",
    "Verif.Stability.C176_leading_partial",
    "Verif.Stability.C176_split_counterexample"
   ],
   "note": "Characteristic polynomial; the factors agree in the leading coefficients only (C176_split_counterexample)."
  },
  {
   "property": "C177",
   "status": "partial",
   "theorems": [
    "Verif.Stability.C177_characteristic",
    "Verif.Stability.C177_degree",
    "Verif.Stability.C177_reciprocals",
    "Verif.Stability.C177_frequency",
    "Verif.Stability.C177_damping_value",
    "Verif.Stability.C177_mixed_up_counterexample",
    "Verif.Stability.C177_unstable_spiral_partial"
   ],
   "note": "Characteristic polynomial, reciprocals, frequency; damping off by a factor, names right with an unstable spiral only (C177_mixed_up_counterexample)."
  },
  {
   "property": "C178",
   "status": "partial",
   "theorems": [
    "Verif.Stability.C178_longitudinal",
    "Verif.Stability.C178_lateral",
    "Verif.Stability.C178_mode",
    "Verif.Stability.C178_real_modes",
    "Verif.Stability.C178_classification",
    "Verif.Stability.C178_no_oscillation_counterexample",
    "Verif.Stability.C178_mass_counterexample",
    "Verif.Stability.C178_mass_partial",
    "Verif.Stability.C178_units_partial",
    "Verif.Stability.C178_units_counterexample",
    "Verif.Stability.C178_derivatives",
    "Verif.Stability.C178_speed_moment_counterexample",
    "Verif.Stability.C178_gravity_counterexample",
    "Verif.Stability.C178_gravity_partial",
    "Verif.Stability.C178_inertia_counterexample",
    "Verif.Stability.C178_inertia_partial"
   ],
   "note": "Matrices, modes, classification; mass, units, speed derivative, incidence unit and inertia fail (C178_*_counterexample)."
  },
  {
   "property": "C179",
   "status": "partial",
   "theorems": [
    "Verif.Stability.C179_affine",
    "Verif.Stability.C179_quadratic",
    "Verif.Stability.C179_zero_counterexample",
    "Verif.Stability.C179_speed_partial",
    "Verif.Stability.C179_speed_counterexample"
   ],
   "note": "Affine and quadratic coefficients; zero state and climbing flight fail (C179_*_counterexample)."
  },
  {
   "property": "C180",
   "status": "proved",
   "theorems": [
    "Verif.Rotor.C180_trapezoid",
    "Verif.Rotor.C180_azimuth",
    "Verif.Rotor.C180_axisymmetric",
    "Verif.Rotor.C180_linear",
    "Verif.Rotor.C180_widths",
    "Verif.Rotor.C180_bounds",
    "Verif.Rotor.C180_no_rotor_drag",
    "Verif.Rotor.C180_rotor_drag_sign"
   ],
   "note": "Trapezoidal identity, linear loads, bounds, both analyses, in-plane force."
  },
  {
   "property": "C181",
   "status": "partial",
   "theorems": [
    "Verif.Rotor.C181_crossflow_partial",
    "Verif.Rotor.C181_crossflow_error",
    "Verif.Rotor.C181_crossflow_counterexample",
    "Verif.Rotor.C181_mean",
    "Verif.Rotor.C181_axial",
    "Verif.Rotor.C181_guard",
    "Verif.Rotor.C181_speed",
    "Verif.Rotor.C181_nonuniform",
    "Verif.Rotor.C181_nonuniform_counterexample",
    "Verif.Rotor.C181_swept_counterexample"
   ],
   "note": "Axial flow, nonuniform flow, mean; cross flow with both components, nonuniform flow with cross flow and swept blades fail (C181_*_counterexample)."
  },
  {
   "property": "C182",
   "status": "partial",
   "theorems": [
    "Verif.Rotor.C182_orthogonal",
    "Verif.Rotor.C182_velocities",
    "Verif.Rotor.C182_complete",
    "Verif.Rotor.C182_radial",
    "Verif.Rotor.C182_orthogonal_counterexample",
    "Verif.Rotor.C182_converged",
    "Verif.Rotor.C182_unloaded",
    "Verif.Rotor.C182_bounds"
   ],
   "note": "All claims without radial flow; with it the momentum relation fails (C182_orthogonal_counterexample)."
  },
  {
   "property": "C183",
   "status": "proved",
   "theorems": [
    "Verif.Rotor.C183_station",
    "Verif.Rotor.C183_axial_flight",
    "Verif.Rotor.C183_balance",
    "Verif.Rotor.C183_efficiency"
   ],
   "note": "Station and rotor; efficiency."
  },
  {
   "property": "C184",
   "status": "partial",
   "theorems": [
    "Verif.Rotor.C184_coefficients_partial",
    "Verif.Rotor.C184_drag",
    "Verif.Rotor.C184_zero_throttle",
    "Verif.Rotor.C184_stopped",
    "Verif.Rotor.C184_coefficients_counterexample",
    "Verif.Rotor.C184_reversed_counterexample",
    "Verif.Rotor.C184_efficiency"
   ],
   "note": "Running rotors; zero throttle and reversed rotation fail (C184_*_counterexample)."
  },
  {
   "property": "C185",
   "status": "proved",
   "theorems": [
    "Verif.Rotor.C185_power",
    "Verif.Rotor.C185_length",
    "Verif.Rotor.C185_speed",
    "Verif.Rotor.C185_tilt",
    "Verif.Rotor.C185_default"
   ],
   "note": "Any rotation matrix; tilt about the y axis explicitly."
  },
  {
   "property": "C186",
   "status": "partial",
   "theorems": [
    "Verif.Rotor.C186_karman_tsien",
    "Verif.Rotor.C186_compressible",
    "Verif.Rotor.C186_compressible_mono",
    "Verif.Rotor.C186_linear",
    "Verif.Rotor.C186_stall",
    "Verif.Rotor.C186_negative_stall_counterexample",
    "Verif.Rotor.C186_reynolds",
    "Verif.Rotor.C186_polar_pos",
    "Verif.Rotor.C186_drag",
    "Verif.Rotor.C186_nonzero",
    "Verif.Rotor.C186_angle",
    "Verif.Rotor.C186_drag_factor",
    "Verif.Rotor.C186_thickness_partial",
    "Verif.Rotor.C186_thickness_counterexample",
    "Verif.Rotor.C186_fails"
   ],
   "note": "One-dimensional analysis and positive stall; negative stall and thickness in two dimensions fail (C186_*_counterexample)."
  },
  {
   "property": "C187",
   "status": "proved",
   "theorems": [
    "Verif.Rotor.C187_inflow",
    "Verif.Rotor.C187_range",
    "Verif.Rotor.C187_tip",
    "Verif.Rotor.C187_mono",
    "Verif.Rotor.C187_circulation"
   ],
   "note": "Range, tip, monotonicity, circulation."
  },
  {
   "property": "C188",
   "status": "proved",
   "theorems": [
    "Verif.Rotor.C188_mass",
    "Verif.Rotor.C188_no_contraction",
    "Verif.Rotor.C188_contracts",
    "Verif.Rotor.C188_order"
   ],
   "note": "Streamtubes, no contraction, bounds, order."
  },
  {
   "property": "C189",
   "status": "partial",
   "theorems": [
    "Verif.Rotor.C189_development",
    "Verif.Rotor.C189_inside",
    "Verif.Rotor.C189_outside",
    "Verif.Rotor.C189_superposition_partial",
    "Verif.Rotor.C189_superposition_counterexample",
    "Verif.Rotor.C189_rows_counterexample",
    "Verif.Rotor.C189_wing_partial",
    "Verif.Rotor.C189_wing_counterexample"
   ],
   "note": "One rotor at the first control point, disjoint rotors, wing not given; the rest fails (C189_*_counterexample)."
  },
  {
   "property": "C190",
   "status": "partial",
   "theorems": [
    "Verif.Rotor.C190_thrust",
    "Verif.Rotor.C190_power",
    "Verif.Rotor.C190_infeasible",
    "Verif.Rotor.C190_design_thrust_counterexample",
    "Verif.Rotor.C190_coefficients",
    "Verif.Rotor.C190_inputs",
    "Verif.Rotor.C190_stations",
    "Verif.Rotor.C190_station",
    "Verif.Rotor.C190_efficiency",
    "Verif.Rotor.C190_chord"
   ],
   "note": "Thrust, power, stations, efficiency, chord; the design thrust kept is the infeasible one (C190_design_thrust_counterexample)."
  },
  {
   "property": "C191",
   "status": "proved",
   "theorems": [
    "Verif.Vlm.C191_biot_savart",
    "Verif.Vlm.C191_end_order"
   ],
   "note": "Equality with the improper integrals of the Biot-Savart law; order of the ends."
  },
  {
   "property": "C192",
   "status": "proved",
   "theorems": [
    "Verif.Vlm.C192_prandtl_glauert"
   ],
   "note": "Every subsonic Mach number."
  },
  {
   "property": "C193",
   "status": "proved",
   "theorems": [
    "Verif.Vlm.C193_mirror",
    "Verif.Vlm.C193_scale"
   ],
   "note": "Mirror image and scaling, for vortices with some lateral extent."
  },
  {
   "property": "C194",
   "status": "proved",
   "theorems": [
    "Verif.Vlm.C194_zone_of_silence",
    "Verif.Vlm.C194_felt_downstream",
    "Verif.Vlm.C194_in_plane_consistent",
    "Verif.Vlm.C194_margin",
    "Verif.Vlm.C194_denominator",
    "Verif.Vlm.C194_self_wave"
   ],
   "note": "Silence, downstream influence, in-plane formula."
  },
  {
   "property": "C195",
   "status": "proved",
   "theorems": [
    "Verif.Vlm.C195_onset",
    "Verif.Vlm.C195_three_quarter"
   ],
   "note": "Velocity, normal component, three-quarter point."
  },
  {
   "property": "C196",
   "status": "partial",
   "theorems": [
    "Verif.Vlm.C196_residual",
    "Verif.Vlm.C196_tangential_partial",
    "Verif.Vlm.C196_tangential_counterexample",
    "Verif.Vlm.C196_vorlax_flat",
    "Verif.Vlm.C196_vorlax_counterexample",
    "Verif.Vlm.C196_vorlax_iff"
   ],
   "note": "Panels level along or across the flow; exact residual for all; fails for panels with both slopes, and the alternative right-hand side for inclined panels (C196_*_counterexample)."
  },
  {
   "property": "C197",
   "status": "partial",
   "theorems": [
    "Verif.Vlm.C197_slipstream_partial",
    "Verif.Vlm.C197_networks_counterexample",
    "Verif.Vlm.C197_first_only"
   ],
   "note": "At most one network; the slipstreams of further networks are lost (C197_networks_counterexample)."
  },
  {
   "property": "C198",
   "status": "proved",
   "theorems": [
    "Verif.Vlm.C198_unit_normal",
    "Verif.Vlm.C198_normal_of_plane",
    "Verif.Vlm.C198_trapezoid_area"
   ],
   "note": "Unit normal, plane normal, degenerate panels, trapezoid area."
  },
  {
   "property": "C199",
   "status": "proved",
   "theorems": [
    "Verif.Vlm.C199_force_components",
    "Verif.Vlm.C199_pythagoras",
    "Verif.Vlm.C199_moment_components",
    "Verif.Vlm.C199_transfer"
   ],
   "note": "Components, Pythagoras, moments, transfer formula."
  },
  {
   "property": "C200",
   "status": "partial",
   "theorems": [
    "Verif.Vlm.C200_strip_force",
    "Verif.Vlm.C200_chord_partial",
    "Verif.Vlm.C200_chord_counterexample",
    "Verif.Vlm.C200_with_angle"
   ],
   "note": "Magnitude, dihedral, zero incidence; at incidence the tangent is used as an angle (C200_chord_counterexample)."
  },
  {
   "property": "C201",
   "status": "proved",
   "theorems": [
    "Verif.Vlm.C201_prefix_sum",
    "Verif.Vlm.C201_no_leak"
   ],
   "note": "All strips of positive length."
  },
  {
   "property": "C202",
   "status": "partial",
   "theorems": [
    "Verif.Vlm.C202_reference_wing",
    "Verif.Vlm.C202_moment_point_partial",
    "Verif.Vlm.C202_moment_point_counterexample",
    "Verif.Vlm.C202_no_reference",
    "Verif.Vlm.C202_velocity"
   ],
   "note": "Centre of gravity away from station zero, choice of wing, guard; a centre of gravity at station zero is ignored (C202_moment_point_counterexample)."
  },
  {
   "property": "C203",
   "status": "proved",
   "theorems": [
    "Verif.Vlm.C203_rodrigues",
    "Verif.Vlm.C203_add",
    "Verif.Vlm.C203_rigid",
    "Verif.Vlm.C203_hinge_fixed"
   ],
   "note": "Rodrigues formula, rigidity, hinge fixed, angles add."
  },
  {
   "property": "C204",
   "status": "proved",
   "theorems": [
    "Verif.Vlm.C204_path_independent",
    "Verif.Vlm.C204_restore",
    "Verif.Vlm.C204_symmetric"
   ],
   "note": "Path independence, restoration, mirror image."
  },
  {
   "property": "C205",
   "status": "partial",
   "theorems": [
    "Verif.Vlm.C205_all_moving_counterexample",
    "Verif.Vlm.C205_hinge_vector_counterexample",
    "Verif.Vlm.C205_all_moving_partial",
    "Verif.Vlm.C205_vertical_counterexample"
   ],
   "note": "Constant hinge fraction; default and user-defined hinges fail (C205_*_counterexample)."
  },
  {
   "property": "C206",
   "status": "proved",
   "theorems": [
    "Verif.Vlm.C206_counts",
    "Verif.Vlm.C206_spacing"
   ],
   "note": "Validation as an equivalence; both spacings."
  },
  {
   "property": "C207",
   "status": "proved",
   "theorems": [
    "Verif.Vlm.C207_breaks_captured",
    "Verif.Vlm.C207_control_surface_stations"
   ],
   "note": "All sets of distinct stations and breaks."
  },
  {
   "property": "C208",
   "status": "partial",
   "theorems": [
    "Verif.Vlm.C208_strips_tile",
    "Verif.Vlm.C208_chord_between",
    "Verif.Vlm.C208_twist_partial",
    "Verif.Vlm.C208_twist_counterexample",
    "Verif.Vlm.C208_corners"
   ],
   "note": "Tiling, areas, chords, twist of corners and vortices; the control line of twisted cambered wings is displaced (C208_twist_counterexample)."
  },
  {
   "property": "C209",
   "status": "proved",
   "theorems": [
    "Verif.Vlm.C209_merge",
    "Verif.Vlm.C209_superimpose",
    "Verif.Vlm.C209_superimpose_assoc"
   ],
   "note": "Order, exactly the given fractions, slots."
  },
  {
   "property": "C210",
   "status": "proved",
   "theorems": [
    "Verif.Airfoil.C210_panel_frame"
   ],
   "note": "All outlines with distinct neighbouring points."
  },
  {
   "property": "C211",
   "status": "proved",
   "theorems": [
    "Verif.Airfoil.C211_flow_tangency"
   ],
   "note": "Limit from outside of the velocity field given by the integrals over the panels."
  },
  {
   "property": "C212",
   "status": "proved",
   "theorems": [
    "Verif.Airfoil.C212_kutta"
   ],
   "note": "From the last row of the system."
  },
  {
   "property": "C213",
   "status": "partial",
   "theorems": [
    "Verif.Airfoil.C213_symmetric_lift_counterexample",
    "Verif.Airfoil.C213_symmetric_lift_partial"
   ],
   "note": "Up to the pressure point: each piece takes the pressure of its first point, so a symmetric section gets lift (C213_symmetric_lift_counterexample)."
  },
  {
   "property": "C214",
   "status": "proved",
   "theorems": [
    "Verif.Airfoil.C214_force",
    "Verif.Airfoil.C214_moment"
   ],
   "note": "Sums over all pieces."
  },
  {
   "property": "C215",
   "status": "proved",
   "theorems": [
    "Verif.Airfoil.C215_point_count"
   ],
   "note": "All numbers of points."
  },
  {
   "property": "C216",
   "status": "proved",
   "theorems": [
    "Verif.Airfoil.C216_outline"
   ],
   "note": "All positive resolution factors."
  },
  {
   "property": "C217",
   "status": "proved",
   "theorems": [
    "Verif.Airfoil.C217_camber",
    "Verif.Airfoil.C217_surfaces"
   ],
   "note": "All stations."
  },
  {
   "property": "C218",
   "status": "partial",
   "theorems": [
    "Verif.Airfoil.C218_max_thickness_counterexample",
    "Verif.Airfoil.C218_max_thickness_partial"
   ],
   "note": "Within a fifth of one per cent; the nominal value is exceeded (C218_max_thickness_counterexample)."
  },
  {
   "property": "C219",
   "status": "partial",
   "theorems": [
    "Verif.Airfoil.C219_names",
    "Verif.Airfoil.C219_default_counterexample"
   ],
   "note": "Strings in full, as an equivalence; the default section raises an exception (C219_default_counterexample)."
  },
  {
   "property": "C220",
   "status": "proved",
   "theorems": [
    "Verif.Airfoil.C220_blocks"
   ],
   "note": "Names that do not begin with a digit."
  },
  {
   "property": "C221",
   "status": "partial",
   "theorems": [
    "Verif.Airfoil.C221_round_with_nose_partial",
    "Verif.Airfoil.C221_round_partial",
    "Verif.Airfoil.C221_file",
    "Verif.Airfoil.C221_comma",
    "Verif.Airfoil.C221_scientific_counterexample",
    "Verif.Airfoil.C221_digit_name_counterexample",
    "Verif.Airfoil.C221_trailing_line_counterexample"
   ],
   "note": "Stations that fall as words; scientific notation, names that begin with a digit and empty last lines fail (C221_*_counterexample)."
  },
  {
   "property": "C222",
   "status": "partial",
   "theorems": [
    "Verif.Airfoil.C222_thickness_partial",
    "Verif.Airfoil.C222_pairing_counterexample",
    "Verif.Airfoil.C222_double"
   ],
   "note": "Surfaces with the same stations; otherwise points are paired by index (C222_pairing_counterexample)."
  },
  {
   "property": "C223",
   "status": "partial",
   "theorems": [
    "Verif.Airfoil.C223_laminar_closures",
    "Verif.Airfoil.C223_separation_counterexample",
    "Verif.Airfoil.C223_flat_plate"
   ],
   "note": "Monotonicity in full; the friction reported is positive in separated flow (C223_separation_counterexample)."
  },
  {
   "property": "C224",
   "status": "partial",
   "theorems": [
    "Verif.Airfoil.C224_shape_factor_partial",
    "Verif.Airfoil.C224_separated_counterexample"
   ],
   "note": "Within each formula; not across 3.3 (C224_separated_counterexample)."
  },
  {
   "property": "C225",
   "status": "partial",
   "theorems": [
    "Verif.Airfoil.C225_viscosity_partial",
    "Verif.Airfoil.C225_viscosity_counterexample",
    "Verif.Airfoil.C225_friction_partial",
    "Verif.Airfoil.C225_friction_counterexample"
   ],
   "note": "Transition at the stagnation point, edge velocity one; otherwise different (C225_*_counterexample)."
  },
  {
   "property": "C226",
   "status": "partial",
   "theorems": [
    "Verif.Airfoil.C226_gradient_partial",
    "Verif.Airfoil.C226_quadratic_counterexample"
   ],
   "note": "Linear velocities; exact error for quadratic ones (C226_quadratic_counterexample)."
  },
  {
   "property": "C227",
   "status": "partial",
   "theorems": [
    "Verif.Airfoil.C227_smoothing_partial",
    "Verif.Airfoil.C227_single_counterexample"
   ],
   "note": "With two or more jumps; a single jump stays (C227_single_counterexample)."
  },
  {
   "property": "C228",
   "status": "partial",
   "theorems": [
    "Verif.Airfoil.C228_transition_partial",
    "Verif.Airfoil.C228_relapse_counterexample",
    "Verif.Airfoil.C228_michel_counterexample"
   ],
   "note": "When the criterion stays met; panels that fall below it again are counted (C228_relapse_counterexample); ten times Michel's constant, C228_michel_counterexample."
  },
  {
   "property": "C229",
   "status": "partial",
   "theorems": [
    "Verif.Airfoil.C229_drag_partial",
    "Verif.Airfoil.C229_lower_surface_counterexample",
    "Verif.Airfoil.C229_wake_partial"
   ],
   "note": "Upper surface only (C229_lower_surface_counterexample)."
  },
  {
   "property": "C230",
   "status": "proved",
   "theorems": [
    "Verif.Airfoil.C230_steps",
    "Verif.Airfoil.C230_read_back"
   ],
   "note": "Steps and round trip through the reader."
  },
  {
   "property": "C231",
   "status": "partial",
   "theorems": [
    "Verif.Energy.Rocket.C231_mass_flow",
    "Verif.Energy.Rocket.C231_continuity_partial",
    "Verif.Energy.Rocket.C231_loss_counterexample"
   ],
   "note": "Mass flow; continuity without nozzle loss (C231_loss_counterexample)."
  },
  {
   "property": "C232",
   "status": "partial",
   "theorems": [
    "Verif.Energy.Rocket.C232_thrust",
    "Verif.Energy.Rocket.C232_impulse_partial",
    "Verif.Energy.Rocket.C232_engines_counterexample"
   ],
   "note": "Thrust in full; impulse for one engine (C232_engines_counterexample)."
  },
  {
   "property": "C233",
   "status": "partial",
   "theorems": [
    "Verif.Energy.Rocket.C233_mass_flow_partial",
    "Verif.Energy.Rocket.C233_engines_counterexample",
    "Verif.Energy.Rocket.C233_conditions_counterexample",
    "Verif.Energy.Rocket.C233_altitude_partial"
   ],
   "note": "One engine, design point as altitude (C233_engines_counterexample, C233_conditions_counterexample)."
  },
  {
   "property": "C234",
   "status": "proved",
   "theorems": [
    "Verif.Energy.Sizing.C234_stack"
   ],
   "note": "Stack of the Larminie sizing."
  },
  {
   "property": "C235",
   "status": "partial",
   "theorems": [
    "Verif.Energy.Sizing.C235_efficiency",
    "Verif.Energy.Sizing.C235_fuel",
    "Verif.Energy.Sizing.C235_cells_counterexample",
    "Verif.Energy.Sizing.C235_maximum_counterexample",
    "Verif.Energy.Sizing.C235_single_partial"
   ],
   "note": "Efficiency, fuel; single cell; the number of cells is ignored in discharge (C235_cells_counterexample, C235_maximum_counterexample)."
  },
  {
   "property": "C236",
   "status": "proved",
   "theorems": [
    "Verif.Energy.Sizing.C236_mass"
   ],
   "note": "Hard and soft maximum."
  },
  {
   "property": "C237",
   "status": "proved",
   "theorems": [
    "Verif.Energy.Sizing.C237_ragone"
   ],
   "note": "Intersection with the line."
  },
  {
   "property": "C238",
   "status": "partial",
   "theorems": [
    "Verif.Energy.Sizing.C238_energy",
    "Verif.Energy.Sizing.C238_power_counterexample",
    "Verif.Energy.Sizing.C238_cells_partial",
    "Verif.Energy.Sizing.C238_total_counterexample"
   ],
   "note": "Energy; power and cells differ (C238_power_counterexample, C238_total_counterexample)."
  },
  {
   "property": "C239",
   "status": "partial",
   "theorems": [
    "Verif.Energy.Piston.C239_power_partial",
    "Verif.Energy.Piston.C239_hot_day_counterexample"
   ],
   "note": "Standard day; power jumps at the flat rating altitude on other days (C239_hot_day_counterexample)."
  },
  {
   "property": "C240",
   "status": "partial",
   "theorems": [
    "Verif.Energy.Piston.C240_inverse",
    "Verif.Energy.Piston.C240_demand_partial",
    "Verif.Energy.Piston.C240_ceiling_counterexample"
   ],
   "note": "Inverse in full; signs below the ceiling (C240_ceiling_counterexample)."
  },
  {
   "property": "C241",
   "status": "partial",
   "theorems": [
    "Verif.Energy.Piston.C241_variable",
    "Verif.Energy.Piston.C241_consumption",
    "Verif.Energy.Piston.C241_unknowns_counterexample",
    "Verif.Energy.Piston.C241_warning_counterexample",
    "Verif.Energy.Piston.C241_constant_partial",
    "Verif.Energy.Piston.C241_constant_counterexample"
   ],
   "note": "Variable speed totals; unknowns, warning and the constant speed network differ (C241_unknowns_counterexample, C241_warning_counterexample, C241_constant_counterexample)."
  },
  {
   "property": "C242",
   "status": "partial",
   "theorems": [
    "Verif.Energy.Cryo.C242_power",
    "Verif.Energy.Cryo.C242_low_target",
    "Verif.Energy.Cryo.C242_carnot_partial",
    "Verif.Energy.Cryo.C242_carnot_counterexample",
    "Verif.Energy.Cryo.C242_disabled_counterexample"
   ],
   "note": "Proportional; Carnot bound where the efficiency fit allows; C242_carnot_counterexample, C242_disabled_counterexample."
  },
  {
   "property": "C243",
   "status": "partial",
   "theorems": [
    "Verif.Energy.Cryo.C243_balance_partial",
    "Verif.Energy.Cryo.C243_antoine",
    "Verif.Energy.Cryo.C243_saturated_counterexample",
    "Verif.Energy.Cryo.C243_default_counterexample"
   ],
   "note": "Subcooled or gaseous inlet; C243_saturated_counterexample, C243_default_counterexample."
  },
  {
   "property": "C244",
   "status": "partial",
   "theorems": [
    "Verif.Energy.Cryo.C244_design",
    "Verif.Energy.Cryo.C244_unpowered_counterexample",
    "Verif.Energy.Cryo.C244_overload_partial",
    "Verif.Energy.Cryo.C244_overload_counterexample"
   ],
   "note": "Design optimum and currents up to it; C244_unpowered_counterexample, C244_overload_counterexample."
  },
  {
   "property": "C245",
   "status": "partial",
   "theorems": [
    "Verif.Energy.Cryo.C245_power_partial",
    "Verif.Energy.Cryo.C245_engines_counterexample",
    "Verif.Energy.Cryo.C245_sizing_counterexample",
    "Verif.Energy.Cryo.C245_cooling",
    "Verif.Energy.Cryo.C245_mass_partial",
    "Verif.Energy.Cryo.C245_excess_counterexample"
   ],
   "note": "One engine without gearbox; C245_engines_counterexample, C245_sizing_counterexample, C245_excess_counterexample."
  },
  {
   "property": "C246",
   "status": "partial",
   "theorems": [
    "Verif.Energy.Cryo.C246_dynamo",
    "Verif.Energy.Cryo.C246_supply_counterexample",
    "Verif.Energy.Cryo.C246_network_counterexample"
   ],
   "note": "Dynamo alone; C246_supply_counterexample, C246_network_counterexample."
  },
  {
   "property": "C247",
   "status": "partial",
   "theorems": [
    "Verif.Energy.Deck.C247_sums",
    "Verif.Energy.Deck.C247_second_fuel_partial",
    "Verif.Energy.Deck.C247_reset_counterexample",
    "Verif.Energy.Deck.C247_missing_counterexample"
   ],
   "note": "Sums in full; second fuel when its network is last; C247_reset_counterexample, C247_missing_counterexample."
  },
  {
   "property": "C248",
   "status": "partial",
   "theorems": [
    "Verif.Energy.Deck.C248_extension",
    "Verif.Energy.Deck.C248_anchor_partial",
    "Verif.Energy.Deck.C248_idle",
    "Verif.Energy.Deck.C248_engines_counterexample"
   ],
   "note": "Deck, continuity, anchors, idle; thrust is that of one engine (C248_engines_counterexample)."
  },
  {
   "property": "C249",
   "status": "partial",
   "theorems": [
    "Verif.Energy.Deck.C249_fit",
    "Verif.Energy.Deck.C249_design_partial",
    "Verif.Energy.Deck.C249_gear_counterexample",
    "Verif.Energy.Deck.C249_slack_counterexample"
   ],
   "note": "Without gear and slack; C249_gear_counterexample, C249_slack_counterexample."
  },
  {
   "property": "C250",
   "status": "proved",
   "theorems": [
    "Verif.Energy.Deck.C250_products",
    "Verif.Energy.Deck.C250_nox"
   ],
   "note": "Any integration weights that are not negative."
  },
  {
   "property": "C251",
   "status": "partial",
   "theorems": [
    "Verif.Mission.C251_leaf_partial",
    "Verif.Mission.C251_state",
    "Verif.Mission.C251_again_partial",
    "Verif.Mission.C251_again_counterexample",
    "Verif.Mission.C251_override_counterexample"
   ],
   "note": "All paths; repeated expansion when short arrays keep two rows (C251_again_counterexample, C251_override_counterexample otherwise)."
  },
  {
   "property": "C252",
   "status": "proved",
   "theorems": [
    "Verif.Mission.C252_two_fuels",
    "Verif.Mission.C252_constant"
   ],
   "note": "Chebyshev grids; any flows that add up."
  },
  {
   "property": "C253",
   "status": "partial",
   "theorems": [
    "Verif.Mission.C253_charge_partial",
    "Verif.Mission.C253_discharge",
    "Verif.Mission.C253_contingency_counterexample",
    "Verif.Mission.C253_packs_counterexample",
    "Verif.Mission.C253_first_counterexample"
   ],
   "note": "One pack after another segment; C253_contingency_counterexample, C253_packs_counterexample, C253_first_counterexample."
  },
  {
   "property": "C254",
   "status": "partial",
   "theorems": [
    "Verif.Mission.C254_eas_partial",
    "Verif.Mission.C254_climb_partial",
    "Verif.Mission.C254_descent_counterexample"
   ],
   "note": "Equivalent speed in full, climbs at standard pressure; descents on other days fail (C254_descent_counterexample)."
  },
  {
   "property": "C255",
   "status": "partial",
   "theorems": [
    "Verif.Mission.C255_bounds",
    "Verif.Mission.C255_seed",
    "Verif.Mission.C255_velocity",
    "Verif.Mission.C255_altitudes",
    "Verif.Mission.C255_steady",
    "Verif.Mission.C255_constraints",
    "Verif.Mission.C255_result_counterexample",
    "Verif.Mission.C255_result_partial",
    "Verif.Mission.C255_nan_counterexample"
   ],
   "note": "Bounds, constraints, altitudes in full; result discarded (C255_result_counterexample), nan constraints not reported (C255_nan_counterexample)."
  },
  {
   "property": "C256",
   "status": "partial",
   "theorems": [
    "Verif.Mission.C256_residual",
    "Verif.Mission.C256_speeds",
    "Verif.Mission.C256_takeoff_partial",
    "Verif.Mission.C256_landing_counterexample",
    "Verif.Mission.C256_incline_counterexample",
    "Verif.Mission.C256_level_partial"
   ],
   "note": "Residual and speeds in full; landing mass and incline have no effect (C256_landing_counterexample, C256_incline_counterexample)."
  },
  {
   "property": "C257",
   "status": "partial",
   "theorems": [
    "Verif.Mission.C257_target_partial",
    "Verif.Mission.C257_sign",
    "Verif.Mission.C257_zero_counterexample"
   ],
   "note": "Targets other than zero; C257_zero_counterexample."
  },
  {
   "property": "C258",
   "status": "proved",
   "theorems": [
    "Verif.Aero.C258_solvable",
    "Verif.Aero.C258_affine",
    "Verif.Aero.C258_slope",
    "Verif.Aero.C258_vertical"
   ],
   "note": "Any number of stations; the solver as any solution, shown unique."
  },
  {
   "property": "C259",
   "status": "partial",
   "theorems": [
    "Verif.Aero.C259_zero_partial",
    "Verif.Aero.C259_sign_counterexample",
    "Verif.Aero.C259_one_station_counterexample"
   ],
   "note": "Zero lift only; the drag is odd in the angle (C259_sign_counterexample, C259_one_station_counterexample)."
  },
  {
   "property": "C260",
   "status": "partial",
   "theorems": [
    "Verif.Aero.C260_chord_partial",
    "Verif.Aero.C260_twist_counterexample",
    "Verif.Aero.C260_segments_partial",
    "Verif.Aero.C260_last_counterexample",
    "Verif.Aero.C260_boundary_counterexample"
   ],
   "note": "Chord of plain wings, chord and twist inside segments; C260_twist_counterexample, C260_last_counterexample, C260_boundary_counterexample."
  },
  {
   "property": "C261",
   "status": "partial",
   "theorems": [
    "Verif.Aero.C261_total",
    "Verif.Aero.C261_line_partial",
    "Verif.Aero.C261_shared_counterexample",
    "Verif.Aero.C261_single_partial",
    "Verif.Aero.C261_drag_counterexample"
   ],
   "note": "Totals and aircraft lift in full; wings share one array and drag is fitted to lift (C261_shared_counterexample, C261_drag_counterexample)."
  },
  {
   "property": "C262",
   "status": "proved",
   "theorems": [
    "Verif.Vlm.C262_default_ordered",
    "Verif.Vlm.C262_regimes",
    "Verif.Vlm.C262_between",
    "Verif.Vlm.C262_neighbours",
    "Verif.Vlm.C262_continuous",
    "Verif.Vlm.C262_one_sided"
   ],
   "note": "Surrogates arbitrary functions; limits in order."
  },
  {
   "property": "C263",
   "status": "partial",
   "theorems": [
    "Verif.Vlm.C263_lift",
    "Verif.Vlm.C263_drag_partial",
    "Verif.Vlm.C263_drag_counterexample",
    "Verif.Vlm.C263_single_counterexample"
   ],
   "note": "Lift in full, drag to the first supersonic Mach number; C263_drag_counterexample, C263_single_counterexample."
  },
  {
   "property": "C264",
   "status": "proved",
   "theorems": [
    "Verif.Vlm.C264_tables",
    "Verif.Vlm.C264_sound",
    "Verif.Vlm.C264_order_counterexample"
   ],
   "note": "Tables that are returned are right; mixed orders raise instead (C264_order_counterexample)."
  },
  {
   "property": "C265",
   "status": "proved",
   "theorems": [
    "Verif.Vlm.C265_sum",
    "Verif.Vlm.C265_own"
   ],
   "note": "One coefficient; reference areas not zero."
  },
  {
   "property": "C266",
   "status": "proved",
   "theorems": [
    "Verif.Aero.C266_area",
    "Verif.Aero.C266_stations",
    "Verif.Aero.C266_ends",
    "Verif.Aero.C266_some"
   ],
   "note": "Any panels and order."
  },
  {
   "property": "C267",
   "status": "partial",
   "theorems": [
    "Verif.Aero.C267_partial",
    "Verif.Aero.C267_level_partial",
    "Verif.Aero.C267_counterexample"
   ],
   "note": "Mach sqrt 2 or equal heights; C267_counterexample for all else."
  },
  {
   "property": "C268",
   "status": "partial",
   "theorems": [
    "Verif.Aero.C268_sears_haack",
    "Verif.Aero.C268_low",
    "Verif.Aero.C268_high",
    "Verif.Aero.C268_range",
    "Verif.Aero.C268_ratio",
    "Verif.Aero.C268_forward_counterexample"
   ],
   "note": "Sweeps not negative; C268_forward_counterexample."
  },
  {
   "property": "C269",
   "status": "partial",
   "theorems": [
    "Verif.Aero.C269_outside",
    "Verif.Aero.C269_profile_partial",
    "Verif.Aero.C269_momentum",
    "Verif.Aero.C269_chord_counterexample",
    "Verif.Aero.C269_grid"
   ],
   "note": "Behind the trailing edge; C269_chord_counterexample between the edges."
  },
  {
   "property": "C270",
   "status": "partial",
   "theorems": [
    "Verif.Geometry.C270_straight_partial",
    "Verif.Geometry.C270_taper_counterexample",
    "Verif.Geometry.C270_section_partial",
    "Verif.Geometry.C270_camber_counterexample"
   ],
   "note": "Untapered wings, largest camber between the spars; C270_taper_counterexample, C270_camber_counterexample."
  },
  {
   "property": "C271",
   "status": "proved",
   "theorems": [
    "Verif.Geometry.C271_linear",
    "Verif.Geometry.C271_inverse",
    "Verif.Geometry.C271_straight"
   ],
   "note": "Spans positive."
  },
  {
   "property": "C272",
   "status": "proved",
   "theorems": [
    "Verif.Geometry.C272_horizontal",
    "Verif.Geometry.C272_vertical"
   ],
   "note": "Arms and areas positive."
  },
  {
   "property": "C273",
   "status": "proved",
   "theorems": [
    "Verif.Geometry.C273_mean_chord",
    "Verif.Geometry.C273_cube",
    "Verif.Geometry.C273_fits"
   ],
   "note": "Areas and aspect ratios positive."
  },
  {
   "property": "C274",
   "status": "proved",
   "theorems": [
    "Verif.Geometry.C274_monotone",
    "Verif.Geometry.C274_areas",
    "Verif.Geometry.C274_power"
   ],
   "note": "Exact powers."
  },
  {
   "property": "C275",
   "status": "partial",
   "theorems": [
    "Verif.Stability.C275_none",
    "Verif.Stability.C275_roll_damping",
    "Verif.Stability.C275_damped",
    "Verif.Stability.C275_dihedral_half",
    "Verif.Stability.C275_dihedral_partial",
    "Verif.Stability.C275_dihedral_counterexample"
   ],
   "note": "Damping in roll proved; the dihedral effect is half of strip theory, C275_dihedral_counterexample."
  },
  {
   "property": "C276",
   "status": "partial",
   "theorems": [
    "Verif.Stability.C276_yaw",
    "Verif.Stability.C276_pitch_partial",
    "Verif.Stability.C276_tail_slope_counterexample",
    "Verif.Stability.C276_downwash",
    "Verif.Stability.C276_lag_counterexample"
   ],
   "note": "Yaw and downwash proved; pitch for equal slopes, C276_tail_slope_counterexample, C276_lag_counterexample."
  },
  {
   "property": "C277",
   "status": "partial",
   "theorems": [
    "Verif.Stability.C277_when",
    "Verif.Stability.C277_tailless_counterexample",
    "Verif.Stability.C277_axes_partial",
    "Verif.Stability.C277_heavier",
    "Verif.Stability.C277_roll_counterexample",
    "Verif.Stability.C277_roll_partial"
   ],
   "note": "Both tails present, roll inertia equal to yaw inertia; C277_roll_counterexample, C277_tailless_counterexample."
  },
  {
   "property": "C278",
   "status": "partial",
   "theorems": [
    "Verif.Airfoil.C278_blocks",
    "Verif.Airfoil.C278_usual",
    "Verif.Airfoil.C278_first_points_counterexample"
   ],
   "note": "Empty third line; C278_first_points_counterexample."
  },
  {
   "property": "C279",
   "status": "proved",
   "theorems": [
    "Verif.Airfoil.C279_no_data",
    "Verif.Airfoil.C279_file",
    "Verif.Airfoil.C279_columns",
    "Verif.Airfoil.C279_count",
    "Verif.Airfoil.C279_angles",
    "Verif.Airfoil.C279_values"
   ],
   "note": "Angles of each file increasing for the values."
  },
  {
   "property": "C280",
   "status": "partial",
   "theorems": [
    "Verif.Airfoil.C280_rows",
    "Verif.Airfoil.C280_covers_partial",
    "Verif.Airfoil.C280_chord_counterexample"
   ],
   "note": "Chords of at least 1; C280_chord_counterexample."
  },
  {
   "property": "C281",
   "status": "partial",
   "theorems": [
    "Verif.Units.C281_scope_partial",
    "Verif.Units.C281_two_names_counterexample",
    "Verif.Units.C281_empty_counterexample"
   ],
   "note": "One context with transformations per block; C281_two_names_counterexample, C281_empty_counterexample."
  },
  {
   "property": "C282",
   "status": "partial",
   "theorems": [
    "Verif.Units.C282_error",
    "Verif.Units.C282_sum",
    "Verif.Units.C282_product_partial",
    "Verif.Units.C282_quotient_partial",
    "Verif.Units.C282_plain",
    "Verif.Units.C282_difference_counterexample",
    "Verif.Units.C282_exceptions_counterexample"
   ],
   "note": "Sums in full, products and quotients of values not zero; C282_difference_counterexample, C282_exceptions_counterexample."
  },
  {
   "property": "C283",
   "status": "partial",
   "theorems": [
    "Verif.Units.C283_reading",
    "Verif.Units.C283_warning_partial",
    "Verif.Units.C283_two_readings_counterexample"
   ],
   "note": "Readings in full, warnings only one way; C283_two_readings_counterexample."
  },
  {
   "property": "C284",
   "status": "partial",
   "theorems": [
    "Verif.IO.Vtk.C284_bodies",
    "Verif.IO.Vtk.C284_section_partial",
    "Verif.IO.Vtk.C284_section_counterexample"
   ],
   "note": "Files in full, sections that are circles; C284_section_counterexample."
  },
  {
   "property": "C285",
   "status": "partial",
   "theorems": [
    "Verif.IO.Vtk.C285_grid",
    "Verif.IO.Vtk.C285_first_partial",
    "Verif.IO.Vtk.C285_place",
    "Verif.IO.Vtk.C285_lift_counterexample",
    "Verif.IO.Vtk.C285_fin_counterexample",
    "Verif.IO.Vtk.C285_pressure_counterexample"
   ],
   "note": "Cells in full, first panel of every wing, numbers for wings first in the vehicle; C285_lift_counterexample, C285_fin_counterexample, C285_pressure_counterexample."
  },
  {
   "property": "C286",
   "status": "partial",
   "theorems": [
    "Verif.IO.Vtk.C286_grid",
    "Verif.IO.Vtk.C286_lines_partial",
    "Verif.IO.Vtk.C286_zeroed",
    "Verif.IO.Vtk.C286_sense_counterexample",
    "Verif.IO.Vtk.C286_single_counterexample"
   ],
   "note": "Rings in full, lines of two or more rings and steps up to sense; C286_sense_counterexample, C286_single_counterexample."
  },
  {
   "property": "C287",
   "status": "partial",
   "theorems": [
    "Verif.IO.Vtk.C287_vortices",
    "Verif.IO.Vtk.C287_circulation_partial",
    "Verif.IO.Vtk.C287_first_side_counterexample"
   ],
   "note": "Files in full, circulation but for the first side; C287_first_side_counterexample."
  },
  {
   "property": "C288",
   "status": "partial",
   "theorems": [
    "Verif.IO.Vtk.C288_files_partial",
    "Verif.IO.Vtk.C288_networks_counterexample",
    "Verif.IO.Vtk.C288_fuselages_counterexample",
    "Verif.IO.Vtk.C288_exceptions_counterexample"
   ],
   "note": "One network, no lift rotors, one fuselage, no conditions; C288_networks_counterexample, C288_fuselages_counterexample, C288_exceptions_counterexample."
  },
  {
   "property": "C289",
   "status": "partial",
   "theorems": [
    "Verif.Optim.C289_correction",
    "Verif.Optim.C289_basic",
    "Verif.Optim.C289_improvement",
    "Verif.Optim.C289_best_counterexample"
   ],
   "note": "Correction and value of the result in full; C289_best_counterexample."
  },
  {
   "property": "C290",
   "status": "partial",
   "theorems": [
    "Verif.Optim.C290_rows_partial",
    "Verif.Optim.C290_scale_counterexample",
    "Verif.Optim.C290_bounds_counterexample",
    "Verif.Optim.C290_table_counterexample"
   ],
   "note": "Rows of scale and units one; C290_scale_counterexample, C290_bounds_counterexample, C290_table_counterexample."
  },
  {
   "property": "C291",
   "status": "proved",
   "theorems": [
    "Verif.Optim.C291_mean",
    "Verif.Optim.C291_order",
    "Verif.Optim.C291_search"
   ],
   "note": ""
  },
  {
   "property": "C292",
   "status": "partial",
   "theorems": [
    "Verif.Optim.C292_carpet",
    "Verif.Optim.C292_constraints_partial",
    "Verif.Optim.C292_constraints_counterexample",
    "Verif.Optim.C292_left_counterexample",
    "Verif.Optim.C292_line"
   ],
   "note": "Objectives in full, constraints over their scale; C292_constraints_counterexample, C292_left_counterexample."
  },
  {
   "property": "C293",
   "status": "partial",
   "theorems": [
    "Verif.Optim.C293_result",
    "Verif.Optim.C293_value",
    "Verif.Optim.C293_best_counterexample"
   ],
   "note": "Value and end of the run in full; C293_best_counterexample."
  },
  {
   "property": "C294",
   "status": "partial",
   "theorems": [
    "Verif.Optim.C294_last_partial",
    "Verif.Optim.C294_default_counterexample",
    "Verif.Optim.C294_first_counterexample"
   ],
   "note": "Index of the last point; C294_default_counterexample, C294_first_counterexample."
  },
  {
   "property": "C295",
   "status": "partial",
   "theorems": [
    "Verif.Noise.Mic.C295_emission",
    "Verif.Noise.Mic.C295_shaft_partial",
    "Verif.Noise.Mic.C295_side_counterexample",
    "Verif.Noise.Mic.C295_phase"
   ],
   "note": "Emission point and phase in full, shaft angle on one side; C295_side_counterexample."
  },
  {
   "property": "C296",
   "status": "partial",
   "theorems": [
    "Verif.Noise.Mic.C296_spreading",
    "Verif.Noise.Mic.C296_sum",
    "Verif.Noise.Mic.C296_shapes_partial",
    "Verif.Noise.Mic.C296_root_counterexample",
    "Verif.Noise.Mic.C296_units_partial",
    "Verif.Noise.Mic.C296_units_counterexample",
    "Verif.Noise.Mic.C296_integral"
   ],
   "note": "Spreading and sum in full, shapes beyond the first station, units of thickness noise; C296_root_counterexample, C296_units_counterexample."
  },
  {
   "property": "C297",
   "status": "partial",
   "theorems": [
    "Verif.Noise.Mic.C297_hub_partial",
    "Verif.Noise.Mic.C297_hub_counterexample",
    "Verif.Noise.Mic.C297_sections_partial",
    "Verif.Noise.Mic.C297_sections_counterexample"
   ],
   "note": "Level flight, rotor at the nose, pitch only; C297_hub_counterexample, C297_sections_counterexample."
  },
  {
   "property": "C298",
   "status": "partial",
   "theorems": [
    "Verif.Noise.Mic.C298_widths_counterexample",
    "Verif.Noise.Mic.C298_widths_partial",
    "Verif.Noise.Mic.C298_even",
    "Verif.Noise.Mic.C298_azimuth_counterexample",
    "Verif.Noise.Mic.C298_layers_counterexample"
   ],
   "note": "Interior widths, even flow, blades; C298_widths_counterexample, C298_azimuth_counterexample, C298_layers_counterexample."
  },
  {
   "property": "C299",
   "status": "partial",
   "theorems": [
    "Verif.Noise.Mic.C299_band",
    "Verif.Noise.Mic.C299_silence_counterexample"
   ],
   "note": "Energy sum in full; C299_silence_counterexample."
  },
  {
   "property": "C300",
   "status": "partial",
   "theorems": [
    "Verif.Noise.Jet.C300_direction",
    "Verif.Noise.Jet.C300_settled",
    "Verif.Noise.Jet.C300_terminates_partial",
    "Verif.Noise.Jet.C300_angles_partial",
    "Verif.Noise.Jet.C300_endless_counterexample"
   ],
   "note": "Directions in full; termination for microphones beyond a lateral distance of some diameters; C300_endless_counterexample."
  },
  {
   "property": "C301",
   "status": "partial",
   "theorems": [
    "Verif.Noise.Jet.C301_conserves_partial",
    "Verif.Noise.Jet.C301_between",
    "Verif.Noise.Jet.C301_diameter",
    "Verif.Noise.Jet.C301_stagnation_counterexample"
   ],
   "note": "Mixing in full; exit densities use the stagnation pressure, C301_stagnation_counterexample."
  },
  {
   "property": "C302",
   "status": "partial",
   "theorems": [
    "Verif.Noise.Jet.C302_spreading_partial",
    "Verif.Noise.Jet.C302_lastBand_counterexample"
   ],
   "note": "All but the last band of the primary jet; C302_lastBand_counterexample."
  },
  {
   "property": "C303",
   "status": "partial",
   "theorems": [
    "Verif.Noise.Jet.C303_energy",
    "Verif.Noise.Jet.C303_bounds",
    "Verif.Noise.Jet.C303_excitation",
    "Verif.Noise.Jet.C303_contraction",
    "Verif.Noise.Jet.C303_bypass",
    "Verif.Noise.Jet.C303_speed_counterexample",
    "Verif.Noise.Jet.C303_march"
   ],
   "note": "All but the flight speed; C303_speed_counterexample."
  },
  {
   "property": "C304",
   "status": "partial",
   "theorems": [
    "Verif.Noise.Jet.C304_attack",
    "Verif.Noise.Jet.C304_plug",
    "Verif.Noise.Jet.C304_ground",
    "Verif.Noise.Jet.C304_wing_partial",
    "Verif.Noise.Jet.C304_wing_counterexample"
   ],
   "note": "All but the distance to the wing; C304_wing_counterexample."
  },
  {
   "property": "C305",
   "status": "partial",
   "theorems": [
    "Verif.Noise.Jet.C305_angles",
    "Verif.Noise.Jet.C305_levels_partial",
    "Verif.Noise.Jet.C305_mixed_counterexample"
   ],
   "note": "Angles, primary and secondary jets; C305_mixed_counterexample."
  },
  {
   "property": "C306",
   "status": "partial",
   "theorems": [
    "Verif.Avl.C306_sections_partial",
    "Verif.Avl.C306_vertical_partial",
    "Verif.Avl.C306_plain",
    "Verif.Avl.C306_sweep_counterexample",
    "Verif.Avl.C306_anhedral_counterexample"
   ],
   "note": "All but panels with anhedral and the sweep of panels with dihedral; C306_anhedral_counterexample, C306_sweep_counterexample."
  },
  {
   "property": "C307",
   "status": "partial",
   "theorems": [
    "Verif.Avl.C307_stations_partial",
    "Verif.Avl.C307_controls",
    "Verif.Avl.C307_twist_counterexample",
    "Verif.Avl.C307_tip_counterexample",
    "Verif.Avl.C307_break_counterexample"
   ],
   "note": "Stations, chords, positions and the list of controls; C307_twist_counterexample, C307_tip_counterexample, C307_break_counterexample."
  },
  {
   "property": "C308",
   "status": "partial",
   "theorems": [
    "Verif.Avl.C308_segments_partial",
    "Verif.Avl.C308_plain_counterexample"
   ],
   "note": "Wings with segments; C308_plain_counterexample tells exactly which others fail."
  },
  {
   "property": "C309",
   "status": "proved",
   "theorems": [
    "Verif.Avl.C309_body"
   ],
   "note": ""
  },
  {
   "property": "C310",
   "status": "partial",
   "theorems": [
    "Verif.Avl.C310_told_partial",
    "Verif.Avl.C310_sideslip_counterexample",
    "Verif.Avl.C310_speed_counterexample"
   ],
   "note": "All but the sideslip of untrimmed aircraft and the speed; C310_sideslip_counterexample, C310_speed_counterexample."
  },
  {
   "property": "C311",
   "status": "partial",
   "theorems": [
    "Verif.Avl.C311_mass_partial",
    "Verif.Avl.C311_mass_counterexample"
   ],
   "note": "When exactly one mass is given; C311_mass_counterexample."
  },
  {
   "property": "C312",
   "status": "partial",
   "theorems": [
    "Verif.Avl.C312_order_partial",
    "Verif.Avl.C312_deflections",
    "Verif.Avl.C312_order_counterexample"
   ],
   "note": "Surfaces listed from the inside out that begin on one panel; C312_order_counterexample."
  },
  {
   "property": "C313",
   "status": "partial",
   "theorems": [
    "Verif.Avl.C313_rows",
    "Verif.Avl.C313_lift_partial",
    "Verif.Avl.C313_lift_counterexample"
   ],
   "note": "The order of the rows; C313_lift_counterexample for the lift of the wings."
  },
  {
   "property": "C314",
   "status": "partial",
   "theorems": [
    "Verif.Avl.C314_saved_partial",
    "Verif.Avl.C314_neutral_counterexample",
    "Verif.Avl.C314_margin_partial",
    "Verif.Avl.C314_margin_counterexample"
   ],
   "note": "All columns but the neutral point, first of three margins; C314_neutral_counterexample, C314_margin_counterexample."
  },
  {
   "property": "C315",
   "status": "partial",
   "theorems": [
    "Verif.Vsp.C315_sections_partial",
    "Verif.Vsp.C315_thickness_counterexample",
    "Verif.Vsp.C315_vertical_counterexample"
   ],
   "note": "Horizontal wings, all but the thickness; C315_thickness_counterexample, C315_vertical_counterexample."
  },
  {
   "property": "C316",
   "status": "partial",
   "theorems": [
    "Verif.Vsp.C316_surface_partial",
    "Verif.Vsp.C316_root_counterexample",
    "Verif.Vsp.C316_parameter",
    "Verif.Vsp.C316_tip_counterexample",
    "Verif.Vsp.C316_cap_counterexample"
   ],
   "note": "Surfaces between the root and the tip; C316_root_counterexample, C316_tip_counterexample, C316_cap_counterexample."
  },
  {
   "property": "C317",
   "status": "partial",
   "theorems": [
    "Verif.Vsp.C317_trim",
    "Verif.Vsp.C317_order",
    "Verif.Vsp.C317_tank_partial",
    "Verif.Vsp.C317_tip_counterexample",
    "Verif.Vsp.C317_fuselage_counterexample"
   ],
   "note": "Fraction and order; C317_tip_counterexample and C317_fuselage_counterexample for tanks that are not written."
  },
  {
   "property": "C318",
   "status": "proved",
   "theorems": [
    "Verif.Vsp.C318_geometry",
    "Verif.Vsp.C318_compose",
    "Verif.Vsp.C318_back",
    "Verif.Vsp.C318_mono"
   ],
   "note": ""
  },
  {
   "property": "C319",
   "status": "partial",
   "theorems": [
    "Verif.Vsp.C319_height",
    "Verif.Vsp.C319_lengths_partial",
    "Verif.Vsp.C319_lengths_counterexample"
   ],
   "note": "Heights; lengths in metres; C319_lengths_counterexample."
  },
  {
   "property": "C320",
   "status": "partial",
   "theorems": [
    "Verif.Vsp.C320_sign_partial",
    "Verif.Vsp.C320_top_partial",
    "Verif.Vsp.C320_counterexample"
   ],
   "note": "Sign and zero of the angle; C320_counterexample."
  },
  {
   "property": "C321",
   "status": "partial",
   "theorems": [
    "Verif.Vsp.C321_tank_partial",
    "Verif.Vsp.C321_nose_counterexample"
   ],
   "note": "Nose at the origin; C321_nose_counterexample."
  },
  {
   "property": "C322",
   "status": "proved",
   "theorems": [
    "Verif.Vsp.C322_halves",
    "Verif.Vsp.C322_nose",
    "Verif.Vsp.C322_tail"
   ],
   "note": ""
  },
  {
   "property": "C323",
   "status": "partial",
   "theorems": [
    "Verif.Vsp.C323_flow_partial",
    "Verif.Vsp.C323_closed_counterexample",
    "Verif.Vsp.C323_angle_counterexample",
    "Verif.Vsp.C323_airfoil_counterexample",
    "Verif.Vsp.C323_half_counterexample",
    "Verif.Vsp.C323_stack",
    "Verif.Vsp.C323_diameter_counterexample"
   ],
   "note": "Open nacelles and the positions of segments; C323_closed_counterexample, C323_angle_counterexample, C323_airfoil_counterexample, C323_diameter_counterexample, C323_half_counterexample."
  },
  {
   "property": "C324",
   "status": "partial",
   "theorems": [
    "Verif.Vsp.C324_station_partial",
    "Verif.Vsp.C324_sweep_counterexample",
    "Verif.Vsp.C324_units_counterexample"
   ],
   "note": "All but the sweep, the last radius and units; C324_sweep_counterexample, C324_units_counterexample."
  },
  {
   "property": "C325",
   "status": "partial",
   "theorems": [
    "Verif.Physics.C325_air",
    "Verif.Physics.C325_layer_partial",
    "Verif.Physics.C325_gravity_partial",
    "Verif.Physics.C325_jump_counterexample",
    "Verif.Physics.C325_mission_counterexample"
   ],
   "note": "Inside each layer; C325_jump_counterexample between layers, C325_mission_counterexample in missions."
  },
  {
   "property": "C326",
   "status": "partial",
   "theorems": [
    "Verif.Mission.C326_climb_partial",
    "Verif.Mission.C326_law",
    "Verif.Mission.C326_start_counterexample"
   ],
   "note": "With a start altitude; C326_start_counterexample."
  },
  {
   "property": "C327",
   "status": "partial",
   "theorems": [
    "Verif.Mission.C327_initial_partial",
    "Verif.Mission.C327_deviation_counterexample",
    "Verif.Mission.C327_overfull_counterexample"
   ],
   "note": "With a temperature deviation; C327_deviation_counterexample, C327_overfull_counterexample."
  },
  {
   "property": "C328",
   "status": "partial",
   "theorems": [
    "Verif.Rotor.Vortex.C328_shed_partial",
    "Verif.Rotor.Vortex.C328_axisymmetric",
    "Verif.Rotor.Vortex.C328_blades_counterexample",
    "Verif.Rotor.Vortex.C328_rows_counterexample"
   ],
   "note": "When the number of blades divides the number of stations and all control points turn alike; C328_blades_counterexample, C328_rows_counterexample."
  },
  {
   "property": "C329",
   "status": "proved",
   "theorems": [
    "Verif.Rotor.Vortex.C329_trailing",
    "Verif.Rotor.Vortex.C329_quarter",
    "Verif.Rotor.Vortex.C329_rigid",
    "Verif.Rotor.Vortex.C329_blades",
    "Verif.Rotor.Vortex.C329_mirror"
   ],
   "note": ""
  },
  {
   "property": "C330",
   "status": "partial",
   "theorems": [
    "Verif.Rotor.Vortex.C330_level_partial",
    "Verif.Rotor.Vortex.C330_speed",
    "Verif.Rotor.Vortex.C330_uniform",
    "Verif.Rotor.Vortex.C330_vertical_counterexample",
    "Verif.Rotor.Vortex.C330_lateral_counterexample"
   ],
   "note": "In straight flight; C330_vertical_counterexample, C330_lateral_counterexample."
  },
  {
   "property": "C331",
   "status": "partial",
   "theorems": [
    "Verif.Rotor.Vortex.C331_moved_partial",
    "Verif.Rotor.Vortex.C331_unloaded",
    "Verif.Rotor.Vortex.C331_start",
    "Verif.Rotor.Vortex.C331_nose_counterexample"
   ],
   "note": "For moves across the flight direction, or without induced velocity; C331_nose_counterexample."
  },
  {
   "property": "C332",
   "status": "partial",
   "theorems": [
    "Verif.Rotor.Vortex.C332_biot_savart",
    "Verif.Rotor.Vortex.C332_sense",
    "Verif.Rotor.Vortex.C332_damps",
    "Verif.Rotor.Vortex.C332_bounded",
    "Verif.Rotor.Vortex.C332_far",
    "Verif.Rotor.Vortex.C332_reverse",
    "Verif.Rotor.Vortex.C332_moved",
    "Verif.Rotor.Vortex.C332_turned_counterexample"
   ],
   "note": "All but the orientation; C332_turned_counterexample."
  },
  {
   "property": "C333",
   "status": "proved",
   "theorems": [
    "Verif.Rotor.Vortex.C333_lattice",
    "Verif.Rotor.Vortex.C333_uniform",
    "Verif.Rotor.Vortex.C333_moved"
   ],
   "note": ""
  },
  {
   "property": "C334",
   "status": "partial",
   "theorems": [
    "Verif.Rotor.Vortex.C334_tangential",
    "Verif.Rotor.Vortex.C334_directions",
    "Verif.Rotor.Vortex.C334_angle_partial",
    "Verif.Rotor.Vortex.C334_angle_counterexample",
    "Verif.Rotor.Vortex.C334_linear",
    "Verif.Rotor.Vortex.C334_between",
    "Verif.Rotor.Vortex.C334_offset"
   ],
   "note": "Without start offset; C334_angle_counterexample."
  },
  {
   "property": "C335",
   "status": "partial",
   "theorems": [
    "Verif.Rotor.Vortex.C335_converged_partial",
    "Verif.Rotor.Vortex.C335_prescribed",
    "Verif.Rotor.Vortex.C335_tolerance_counterexample"
   ],
   "note": "For tolerances below one; C335_tolerance_counterexample."
  },
  {
   "property": "C336",
   "status": "partial",
   "theorems": [
    "Verif.Rotor.Vortex.C336_copied_partial",
    "Verif.Rotor.Vortex.C336_fresh_counterexample",
    "Verif.Rotor.Vortex.C336_propellers_partial",
    "Verif.Rotor.Vortex.C336_lift_counterexample"
   ],
   "note": "For deep copies and rotors abreast; C336_fresh_counterexample, C336_lift_counterexample."
  },
  {
   "property": "C337",
   "status": "partial",
   "theorems": [
    "Verif.Rotor.Vortex.C337_own",
    "Verif.Rotor.Vortex.C337_slipstream_partial",
    "Verif.Rotor.Vortex.C337_given_counterexample"
   ],
   "note": "Without a choice of the wing; C337_given_counterexample."
  },
  {
   "property": "C338",
   "status": "partial",
   "theorems": [
    "Verif.Rotor.Vortex.C338_found_partial",
    "Verif.Rotor.Vortex.C338_finer_counterexample"
   ],
   "note": "With at least as many external stations as stations of the rotor; C338_finer_counterexample."
  },
  {
   "property": "C339",
   "status": "partial",
   "theorems": [
    "Verif.Energy.GasTurbine.C339_design",
    "Verif.Energy.GasTurbine.C339_throttle",
    "Verif.Energy.GasTurbine.C339_flow",
    "Verif.Energy.GasTurbine.C339_flow_counterexample",
    "Verif.Energy.GasTurbine.C339_engines_counterexample",
    "Verif.Energy.GasTurbine.C339_unsized_counterexample"
   ],
   "note": "Design thrust, throttle and actual flow; C339_flow_counterexample, C339_engines_counterexample, C339_unsized_counterexample."
  },
  {
   "property": "C340",
   "status": "partial",
   "theorems": [
    "Verif.Energy.GasTurbine.C340_jet_partial",
    "Verif.Energy.GasTurbine.C340_static_counterexample"
   ],
   "note": "For a nozzle expanding to ambient pressure; C340_static_counterexample."
  },
  {
   "property": "C341",
   "status": "partial",
   "theorems": [
    "Verif.Energy.GasTurbine.C341_point_partial",
    "Verif.Energy.GasTurbine.C341_missing",
    "Verif.Energy.GasTurbine.C341_conditions_counterexample"
   ],
   "note": "With Mach number and altitude; C341_conditions_counterexample."
  },
  {
   "property": "C342",
   "status": "partial",
   "theorems": [
    "Verif.Energy.GasTurbine.C342_design_partial",
    "Verif.Energy.GasTurbine.C342_engine_out",
    "Verif.Energy.GasTurbine.C342_afterburner_counterexample",
    "Verif.Energy.GasTurbine.C342_ramjet"
   ],
   "note": "Turbojets without afterburner; C342_afterburner_counterexample."
  },
  {
   "property": "C343",
   "status": "partial",
   "theorems": [
    "Verif.Energy.GasTurbine.C343_enough_partial",
    "Verif.Energy.GasTurbine.C343_cooler",
    "Verif.Energy.GasTurbine.C343_network_counterexample"
   ],
   "note": "Sizing; the network asks for more: C343_network_counterexample."
  },
  {
   "property": "C344",
   "status": "partial",
   "theorems": [
    "Verif.Mission.Converge.C344_consistent",
    "Verif.Mission.Converge.C344_solution_partial",
    "Verif.Mission.Converge.C344_rejected_counterexample"
   ],
   "note": "State consistent always; the solution only if the root finder ends where it evaluated last: C344_rejected_counterexample."
  },
  {
   "property": "C345",
   "status": "proved",
   "theorems": [
    "Verif.Mission.Converge.C345_place",
    "Verif.Mission.Converge.C345_raises",
    "Verif.Mission.Converge.C345_trim",
    "Verif.Mission.Converge.C345_glide",
    "Verif.Mission.Converge.C345_throttle"
   ],
   "note": ""
  },
  {
   "property": "C346",
   "status": "partial",
   "theorems": [
    "Verif.IO.Reports.C346_totals_partial",
    "Verif.IO.Reports.C346_clock_partial",
    "Verif.IO.Reports.C346_day_counterexample",
    "Verif.IO.Reports.C346_additional_counterexample",
    "Verif.IO.Reports.C346_additional",
    "Verif.IO.Reports.C346_range_counterexample",
    "Verif.IO.Reports.C346_rows",
    "Verif.IO.Reports.C346_units"
   ],
   "note": "Without additional fuel, below 24 h, along x; C346_day_counterexample, C346_additional_counterexample, C346_range_counterexample."
  },
  {
   "property": "C347",
   "status": "proved",
   "theorems": [
    "Verif.IO.Reports.C347_monotone",
    "Verif.IO.Reports.C347_equivalent"
   ],
   "note": ""
  },
  {
   "property": "C348",
   "status": "partial",
   "theorems": [
    "Verif.IO.Reports.C348_entry_partial",
    "Verif.IO.Reports.C348_turbofan_counterexample"
   ],
   "note": "For networks that do not read the speed of sound; C348_turbofan_counterexample."
  },
  {
   "property": "C349",
   "status": "partial",
   "theorems": [
    "Verif.IO.Reports.C349_sum_partial",
    "Verif.IO.Reports.C349_area",
    "Verif.IO.Reports.C349_settings_counterexample",
    "Verif.IO.Reports.C349_nacelle_counterexample"
   ],
   "note": "With default settings; C349_settings_counterexample, C349_nacelle_counterexample."
  },
  {
   "property": "C350",
   "status": "proved",
   "theorems": [
    "Verif.Noise.Flyover.C350_sources",
    "Verif.Noise.Flyover.C350_flyover"
   ],
   "note": ""
  },
  {
   "property": "C351",
   "status": "partial",
   "theorems": [
    "Verif.Noise.Flyover.C351_place_partial",
    "Verif.Noise.Flyover.C351_shared_counterexample",
    "Verif.Noise.Flyover.C351_abeam",
    "Verif.Noise.Flyover.C351_sideline"
   ],
   "note": "Before any approach with the same settings; C351_shared_counterexample."
  },
  {
   "property": "C352",
   "status": "partial",
   "theorems": [
    "Verif.Noise.Flyover.C352_wanted",
    "Verif.Noise.Flyover.C352_sampling_counterexample"
   ],
   "note": "The number of points asked for; the noise is computed on the old points: C352_sampling_counterexample."
  },
  {
   "property": "C353",
   "status": "partial",
   "theorems": [
    "Verif.IO.External.C353_geo_partial",
    "Verif.IO.External.C353_volume",
    "Verif.IO.External.C353_far_counterexample"
   ],
   "note": "Key files with one far field; C353_far_counterexample."
  },
  {
   "property": "C354",
   "status": "partial",
   "theorems": [
    "Verif.IO.External.C354_half_partial",
    "Verif.IO.External.C354_full_counterexample"
   ],
   "note": "Equal settings in both objects; C354_full_counterexample."
  },
  {
   "property": "C355",
   "status": "partial",
   "theorems": [
    "Verif.IO.External.C355_rows",
    "Verif.IO.External.C355_file",
    "Verif.IO.External.C355_columns",
    "Verif.IO.External.C355_super_partial",
    "Verif.IO.External.C355_default_counterexample"
   ],
   "note": "Training values on both sides of Mach one; the defaults are not: C355_default_counterexample."
  },
  {
   "property": "C356",
   "status": "partial",
   "theorems": [
    "Verif.IO.External.C356_file_partial",
    "Verif.IO.External.C356_slices_counterexample",
    "Verif.IO.External.C356_raises_counterexample"
   ],
   "note": "With the default slices; C356_slices_counterexample, C356_raises_counterexample."
  },
  {
   "property": "C357",
   "status": "partial",
   "theorems": [
    "Verif.IO.External.C357_mass",
    "Verif.IO.External.C357_cg_partial",
    "Verif.IO.External.C357_cg_counterexample"
   ],
   "note": "Mass and volume always; centre of gravity for one part or two of equal mass: C357_cg_counterexample."
  },
  {
   "property": "C358",
   "status": "partial",
   "theorems": [
    "Verif.IO.External.C358_tree_partial",
    "Verif.IO.External.C358_empty_counterexample"
   ],
   "note": "Unless a value prints as an empty dictionary: C358_empty_counterexample."
  },
  {
   "property": "C359",
   "status": "proved",
   "theorems": [
    "Verif.Rotor.Upstream.C359_disc",
    "Verif.Rotor.Upstream.C359_all",
    "Verif.Rotor.Upstream.C359_azimuth",
    "Verif.Rotor.Upstream.C359_single"
   ],
   "note": ""
  },
  {
   "property": "C360",
   "status": "partial",
   "theorems": [
    "Verif.Rotor.Upstream.C360_station_partial",
    "Verif.Rotor.Upstream.C360_swirl_counterexample",
    "Verif.Rotor.Upstream.C360_points_counterexample"
   ],
   "note": "Magnitudes at one control point; C360_swirl_counterexample, C360_points_counterexample."
  },
  {
   "property": "C361",
   "status": "proved",
   "theorems": [
    "Verif.Rotor.Upstream.C361_current",
    "Verif.Rotor.Upstream.C361_discharge",
    "Verif.Rotor.Upstream.C361_charge"
   ],
   "note": ""
  },
  {
   "property": "C362",
   "status": "partial",
   "theorems": [
    "Verif.Vsp.Vehicle.C362_sources_partial",
    "Verif.Vsp.Vehicle.C362_base_counterexample",
    "Verif.Vsp.Vehicle.C362_stale_counterexample",
    "Verif.Vsp.Vehicle.C362_tip_counterexample"
   ],
   "note": "No segments, or two and more with the first at the root; C362_base_counterexample, C362_stale_counterexample, C362_tip_counterexample."
  },
  {
   "property": "C363",
   "status": "partial",
   "theorems": [
    "Verif.Vsp.Vehicle.C363_measure",
    "Verif.Vsp.Vehicle.C363_wetted_partial",
    "Verif.Vsp.Vehicle.C363_mirror_counterexample"
   ],
   "note": "Without mirrored fuselages; C363_mirror_counterexample."
  },
  {
   "property": "C364",
   "status": "partial",
   "theorems": [
    "Verif.Vsp.Vehicle.C364_rotors_partial",
    "Verif.Vsp.Vehicle.C364_kind",
    "Verif.Vsp.Vehicle.C364_network_counterexample"
   ],
   "note": "Networks tagged Lift_Cruise or Battery_Propeller; C364_network_counterexample."
  },
  {
   "property": "C365",
   "status": "partial",
   "theorems": [
    "Verif.Vsp.Vehicle.C365_write_partial",
    "Verif.Vsp.Vehicle.C365_quiet_counterexample"
   ],
   "note": "With messages on; C365_quiet_counterexample."
  },
  {
   "property": "C366",
   "status": "partial",
   "theorems": [
    "Verif.Vsp.Vehicle.C366_plane",
    "Verif.Vsp.Vehicle.C366_slices_partial",
    "Verif.Vsp.Vehicle.C366_place_counterexample"
   ],
   "note": "Slices with centres on the axis; C366_place_counterexample."
  },
  {
   "property": "C367",
   "status": "partial",
   "theorems": [
    "Verif.Performance.Estimates.C367_ratio_partial",
    "Verif.Performance.Estimates.C367_wings",
    "Verif.Performance.Estimates.C367_negative_counterexample",
    "Verif.Performance.Estimates.C367_unset_counterexample"
   ],
   "note": "Aspect ratio set and moderate lift; C367_negative_counterexample, C367_unset_counterexample."
  },
  {
   "property": "C368",
   "status": "partial",
   "theorems": [
    "Verif.Performance.Estimates.C368_rows",
    "Verif.Performance.Estimates.C368_neighbours",
    "Verif.Performance.Estimates.C368_scale_partial",
    "Verif.Performance.Estimates.C368_level_counterexample"
   ],
   "note": "Rows always; scaling unless all at sea level: C368_level_counterexample."
  },
  {
   "property": "C369",
   "status": "proved",
   "theorems": [
    "Verif.Performance.Estimates.C369_cg"
   ],
   "note": ""
  },
  {
   "property": "C370",
   "status": "partial",
   "theorems": [
    "Verif.Performance.Estimates.C370_points_partial",
    "Verif.Performance.Estimates.C370_single_counterexample",
    "Verif.Performance.Estimates.C370_radial_counterexample"
   ],
   "note": "Without radial velocities and flat arrays of one point; C370_single_counterexample, C370_radial_counterexample."
  },
  {
   "property": "C371",
   "status": "partial",
   "theorems": [
    "Verif.IO.Drawings.C371_nacelle_partial",
    "Verif.IO.Drawings.C371_length_counterexample",
    "Verif.IO.Drawings.C371_airfoil_counterexample",
    "Verif.IO.Drawings.C371_stations_partial"
   ],
   "note": "Length one without airfoil, or with stations; C371_length_counterexample, C371_airfoil_counterexample."
  },
  {
   "property": "C372",
   "status": "partial",
   "theorems": [
    "Verif.IO.Drawings.C372_blades_partial",
    "Verif.IO.Drawings.C372_section",
    "Verif.IO.Drawings.C372_sense",
    "Verif.IO.Drawings.C372_sweep_counterexample",
    "Verif.IO.Drawings.C372_airfoil_counterexample",
    "Verif.IO.Drawings.C372_index_counterexample"
   ],
   "note": "Rotors without airfoils; C372_airfoil_counterexample, C372_index_counterexample; swept blades are not mirrored with the sense of rotation (C372_sweep_counterexample)."
  },
  {
   "property": "C373",
   "status": "partial",
   "theorems": [
    "Verif.IO.Plots.C373_two_fuels_partial",
    "Verif.IO.Plots.C373_continuous_partial",
    "Verif.IO.Plots.C373_one_fuel_partial",
    "Verif.IO.Plots.C373_mixed_counterexample"
   ],
   "note": "All or no segments with an additional fuel; C373_mixed_counterexample."
  },
  {
   "property": "C374",
   "status": "partial",
   "theorems": [
    "Verif.IO.Plots.C374_incidence_partial",
    "Verif.IO.Plots.C374_pitch_counterexample",
    "Verif.IO.Plots.C374_down_counterexample",
    "Verif.IO.Plots.C374_hover_counterexample",
    "Verif.IO.Plots.C374_back_counterexample",
    "Verif.IO.Plots.C374_advance"
   ],
   "note": "Level aircraft moving ahead, thrust not down; C374_pitch_counterexample, C374_down_counterexample, C374_hover_counterexample, C374_back_counterexample."
  },
  {
   "property": "C375",
   "status": "partial",
   "theorems": [
    "Verif.IO.Plots.C375_instant_partial",
    "Verif.IO.Plots.C375_nominal_partial",
    "Verif.IO.Plots.C375_nominal_counterexample"
   ],
   "note": "Instantaneous rate and bound; C375_nominal_counterexample."
  },
  {
   "property": "C376",
   "status": "partial",
   "theorems": [
    "Verif.IO.Tables.C376_rates_partial",
    "Verif.IO.Tables.C376_axes_counterexample",
    "Verif.IO.Tables.C376_strips",
    "Verif.IO.Tables.C376_surfaces",
    "Verif.IO.Tables.C376_controls"
   ],
   "note": "Lines and columns; axes: C376_axes_counterexample."
  },
  {
   "property": "C377",
   "status": "partial",
   "theorems": [
    "Verif.IO.Tables.C377_points_partial",
    "Verif.IO.Tables.C377_missing_counterexample",
    "Verif.IO.Tables.C377_name_counterexample"
   ],
   "note": "Order; C377_missing_counterexample, C377_name_counterexample."
  },
  {
   "property": "C378",
   "status": "partial",
   "theorems": [
    "Verif.IO.Tables.C378_lines_partial",
    "Verif.IO.Tables.C378_sum_partial",
    "Verif.IO.Tables.C378_sum_counterexample"
   ],
   "note": "Lines, and sums within half a kilogram each; C378_sum_counterexample."
  },
  {
   "property": "C379",
   "status": "proved",
   "theorems": [
    "Verif.IO.Tables.C379_compress"
   ],
   "note": ""
  },
  {
   "property": "C380",
   "status": "proved",
   "theorems": [
    "Verif.Energy.Nmc.C380_range",
    "Verif.Energy.Nmc.C380_measured",
    "Verif.Energy.Nmc.C380_outside"
   ],
   "note": ""
  },
  {
   "property": "C381",
   "status": "partial",
   "theorems": [
    "Verif.Energy.Nmc.C381_pure_partial",
    "Verif.Energy.Nmc.C381_counterexample",
    "Verif.Energy.Nmc.C381_pack"
   ],
   "note": "Within the measured range; C381_counterexample."
  },
  {
   "property": "C382",
   "status": "partial",
   "theorems": [
    "Verif.Energy.Nmc.C382_charge_partial",
    "Verif.Energy.Nmc.C382_large_counterexample",
    "Verif.Energy.Nmc.C382_reverse_counterexample"
   ],
   "note": "For currents within the limits and in one direction; C382_large_counterexample, C382_reverse_counterexample."
  },
  {
   "property": "C383",
   "status": "partial",
   "theorems": [
    "Verif.Energy.Nmc.C383_resistance",
    "Verif.Energy.Nmc.C383_state_partial",
    "Verif.Energy.Nmc.C383_current_counterexample",
    "Verif.Energy.Nmc.C383_empty_counterexample",
    "Verif.Energy.Nmc.C383_ageing_counterexample"
   ],
   "note": "Agreement; C383_current_counterexample, C383_empty_counterexample, C383_ageing_counterexample."
  },
  {
   "property": "C384",
   "status": "partial",
   "theorems": [
    "Verif.Energy.Nmc.C384_losses_partial",
    "Verif.Energy.Nmc.C384_fractions_partial",
    "Verif.Energy.Nmc.C384_rest_counterexample",
    "Verif.Energy.Nmc.C384_reverse_counterexample"
   ],
   "note": "Sum and signs during discharge; C384_rest_counterexample, C384_reverse_counterexample."
  },
  {
   "property": "C385",
   "status": "partial",
   "theorems": [
    "Verif.Energy.Nmc.C385_nmc_partial",
    "Verif.Energy.Nmc.C385_generic_counterexample",
    "Verif.Energy.Nmc.C385_discharge_counterexample",
    "Verif.Energy.Nmc.C385_generic_partial"
   ],
   "note": "Product for the NMC cell and up to the first recharge for the generic one; C385_generic_counterexample, C385_discharge_counterexample."
  },
  {
   "property": "C386",
   "status": "partial",
   "theorems": [
    "Verif.Vlm.C386_chord",
    "Verif.Vlm.C386_quarter_partial",
    "Verif.Vlm.C386_middle_partial",
    "Verif.Vlm.C386_control_counterexample"
   ],
   "note": "Panels in general, quarter points without camber, middle points without change of twist; C386_control_counterexample."
  },
  {
   "property": "C387",
   "status": "partial",
   "theorems": [
    "Verif.Vlm.C387_shared_partial",
    "Verif.Vlm.C387_section",
    "Verif.Vlm.C387_airfoil_counterexample"
   ],
   "note": "Within a section, and across segments with one airfoil; C387_airfoil_counterexample."
  },
  {
   "property": "C388",
   "status": "proved",
   "theorems": [
    "Verif.Vlm.C388_symmetric"
   ],
   "note": ""
  },
  {
   "property": "C389",
   "status": "partial",
   "theorems": [
    "Verif.Vlm.C389_fin_partial",
    "Verif.Vlm.C389_twist_counterexample",
    "Verif.Vlm.C389_twice",
    "Verif.Vlm.C389_deflection"
   ],
   "note": "Without twist and camber; C389_twist_counterexample."
  },
  {
   "property": "C390",
   "status": "proved",
   "theorems": [
    "Verif.Vlm.C390_same_surface"
   ],
   "note": ""
  },
  {
   "property": "C391",
   "status": "partial",
   "theorems": [
    "Verif.Vlm.C391_fills_partial",
    "Verif.Vlm.C391_breaks",
    "Verif.Vlm.C391_down_counterexample"
   ],
   "note": "All wings but fins pointing down; C391_down_counterexample."
  },
  {
   "property": "C392",
   "status": "partial",
   "theorems": [
    "Verif.Stability.C392_cz_alpha",
    "Verif.Stability.C392_cx_alpha_partial",
    "Verif.Stability.C392_cx_alpha_counterexample",
    "Verif.Stability.C392_cz_u",
    "Verif.Stability.C392_cx_u",
    "Verif.Stability.C392_weight",
    "Verif.Stability.C392_cl_r",
    "Verif.Stability.C392_cn_p",
    "Verif.Stability.C392_tail"
   ],
   "note": "All but the forward force with angle of attack; C392_cx_alpha_counterexample."
  },
  {
   "property": "C393",
   "status": "proved",
   "theorems": [
    "Verif.Vlm.C393_panels",
    "Verif.Vlm.C393_strips",
    "Verif.Vlm.C393_surface"
   ],
   "note": ""
  },
  {
   "property": "C394",
   "status": "proved",
   "theorems": [
    "Verif.Vlm.C394_sums",
    "Verif.Vlm.C394_coefficients"
   ],
   "note": ""
  },
  {
   "property": "C395",
   "status": "proved",
   "theorems": [
    "Verif.Vlm.C395_spread",
    "Verif.Vlm.C395_stations",
    "Verif.Vlm.C395_lift"
   ],
   "note": ""
  },
  {
   "property": "C396",
   "status": "partial",
   "theorems": [
    "Verif.Vlm.C396_stations",
    "Verif.Vlm.C396_exponent",
    "Verif.Vlm.C396_outline",
    "Verif.Vlm.C396_tiling",
    "Verif.Vlm.C396_area",
    "Verif.Vlm.C396_width_counterexample"
   ],
   "note": "All but the width; C396_width_counterexample."
  },
  {
   "property": "C397",
   "status": "partial",
   "theorems": [
    "Verif.Vlm.C397_nacelle",
    "Verif.Vlm.C397_width",
    "Verif.Vlm.C397_pair_partial",
    "Verif.Vlm.C397_single_counterexample"
   ],
   "note": "Length and width of every plate, pairs with a place for each nacelle; C397_single_counterexample."
  },
  {
   "property": "C398",
   "status": "partial",
   "theorems": [
    "Verif.Energy.Cryo.C398_heat",
    "Verif.Energy.Cryo.C398_section",
    "Verif.Energy.Cryo.C398_unpowered",
    "Verif.Energy.Cryo.C398_table_counterexample",
    "Verif.Energy.Cryo.C398_mass_counterexample"
   ],
   "note": "Scaling laws in full; C398_table_counterexample, C398_mass_counterexample."
  },
  {
   "property": "C399",
   "status": "partial",
   "theorems": [
    "Verif.IO.C399_purge",
    "Verif.IO.C399_regression",
    "Verif.IO.C399_others_partial",
    "Verif.IO.C399_log_counterexample",
    "Verif.IO.C399_quiet",
    "Verif.IO.C399_letters_counterexample",
    "Verif.IO.C399_status_counterexample"
   ],
   "note": "Lists of files, regression runs, files with longer names; C399_log_counterexample, C399_letters_counterexample, C399_status_counterexample."
  },
  {
   "property": "C400",
   "status": "partial",
   "theorems": [
    "Verif.Vlm.C400_cuts_partial",
    "Verif.Vlm.C400_overlap_counterexample",
    "Verif.Vlm.C400_nested"
   ],
   "note": "Control surfaces beside one another; nested ones refused; C400_overlap_counterexample."
  },
  {
   "property": "C401",
   "status": "partial",
   "theorems": [
    "Verif.Rotor.C401_derivative_partial",
    "Verif.Rotor.C401_tip_partial",
    "Verif.Rotor.C401_chord_counterexample"
   ],
   "note": "The derivative in full, with the terms it differs by (chord of the blade, tip loss); C401_chord_counterexample."
  },
  {
   "property": "C402",
   "status": "partial",
   "theorems": [
    "Verif.Weights.C402_integral_partial",
    "Verif.Weights.C402_positive_partial",
    "Verif.Weights.C402_split",
    "Verif.Weights.C402_negative_counterexample",
    "Verif.Weights.C402_zero_counterexample"
   ],
   "note": "Integral and sign where the thickness continued to the tip stays positive; C402_negative_counterexample, C402_zero_counterexample."
  },
  {
   "property": "C403",
   "status": "partial",
   "theorems": [
    "Verif.Vlm.C403_taper",
    "Verif.Vlm.C403_tip",
    "Verif.Vlm.C403_chords_partial",
    "Verif.Vlm.C403_complete",
    "Verif.Vlm.C403_quarter",
    "Verif.Vlm.C403_leading",
    "Verif.Vlm.C403_dihedral",
    "Verif.Vlm.C403_contradiction_counterexample"
   ],
   "note": "All wings whose data do not contradict each other; C403_contradiction_counterexample."
  },
  {
   "property": "C404",
   "status": "proved",
   "theorems": [
    "Verif.Vlm.C404_copy",
    "Verif.Vlm.C404_exists",
    "Verif.Vlm.C404_read"
   ],
   "note": "Copies agree on every path that is read, in order, and exist."
  },
  {
   "property": "C405",
   "status": "partial",
   "theorems": [
    "Verif.Vlm.C405_contradiction_partial",
    "Verif.Vlm.C405_plain_counterexample",
    "Verif.Vlm.C405_segments_counterexample"
   ],
   "note": "All-moving surfaces with segments; C405_plain_counterexample, C405_segments_counterexample."
  },
  {
   "property": "C406",
   "status": "partial",
   "theorems": [
    "Verif.Optim.C406_objective_partial",
    "Verif.Optim.C406_constraints_counterexample"
   ],
   "note": "Values and failures of the objective; C406_constraints_counterexample."
  },
  {
   "property": "C407",
   "status": "partial",
   "theorems": [
    "Verif.Energy.C407_propellers",
    "Verif.Energy.C407_columns",
    "Verif.Energy.C407_again",
    "Verif.Energy.C407_tilting",
    "Verif.Energy.C407_cruise",
    "Verif.Energy.C407_lift_partial",
    "Verif.Energy.C407_transition_partial",
    "Verif.Energy.C407_transition_counterexample",
    "Verif.Energy.C407_hover_counterexample",
    "Verif.Energy.C407_distinct_counterexample",
    "Verif.Energy.C407_mismatch_counterexample"
   ],
   "note": "Propellers, tilting propellers, lift-cruise in cruise; hover and transition with what the user has to add; C407_*_counterexample."
  },
  {
   "property": "C408",
   "status": "proved",
   "theorems": [
    "Verif.Vlm.C408_points",
    "Verif.Vlm.C408_rotation",
    "Verif.Vlm.C408_steady",
    "Verif.Vlm.C408_refine",
    "Verif.Vlm.C408_suction",
    "Verif.Vlm.C408_edge"
   ],
   "note": "For vortices that meet the boundary condition of the VORLAX matrix."
  },
  {
   "property": "C409",
   "status": "partial",
   "theorems": [
    "Verif.Performance.C409_rough",
    "Verif.Performance.C409_rough_above",
    "Verif.Performance.C409_continues",
    "Verif.Performance.C409_positive",
    "Verif.Performance.C409_negative_partial",
    "Verif.Performance.C409_dip_counterexample",
    "Verif.Performance.C409_negative_counterexample"
   ],
   "note": "Positive side, and negative side without a rough gust beyond the limit; C409_dip_counterexample, C409_negative_counterexample."
  },
  {
   "property": "C410",
   "status": "proved",
   "theorems": [
    "Verif.Performance.C410_positive",
    "Verif.Performance.C410_negative"
   ],
   "note": "Both sides, all categories."
  },
  {
   "property": "C411",
   "status": "partial",
   "theorems": [
    "Verif.Weights.FlopsWing.C411_lookup",
    "Verif.Weights.FlopsWing.C411_constant_partial",
    "Verif.Weights.FlopsWing.C411_thickness",
    "Verif.Weights.FlopsWing.C411_taper_counterexample",
    "Verif.Weights.FlopsWing.C411_engines_partial",
    "Verif.Weights.FlopsWing.C411_engines_counterexample"
   ],
   "note": "Look-up; thickness of every station; wings of constant chord; engines in pairs; C411_taper_counterexample, C411_engines_counterexample."
  },
  {
   "property": "C412",
   "status": "partial",
   "theorems": [
    "Verif.Weights.FlopsWing.C412_panel",
    "Verif.Weights.FlopsWing.C412_moment",
    "Verif.Weights.FlopsWing.C412_engines_partial",
    "Verif.Weights.FlopsWing.C412_engines_counterexample"
   ],
   "note": "Panels and bending moment for constant sweep; engines outboard of the innermost station; C412_engines_counterexample."
  },
  {
   "property": "C413",
   "status": "partial",
   "theorems": [
    "Verif.Airfoil.Extended.C413_zero_partial",
    "Verif.Airfoil.Extended.C413_stall_counterexample",
    "Verif.Airfoil.Extended.C413_slope_partial",
    "Verif.Airfoil.Extended.C413_slope_counterexample"
   ],
   "note": "Polars whose least positive lift is at the crossing, with angles 0 and 4; C413_stall_counterexample, C413_slope_counterexample."
  },
  {
   "property": "C414",
   "status": "partial",
   "theorems": [
    "Verif.Airfoil.Extended.C414_data_partial",
    "Verif.Airfoil.Extended.C414_start_counterexample"
   ],
   "note": "Data that start and end at angles of the sweep; C414_start_counterexample."
  },
  {
   "property": "C415",
   "status": "partial",
   "theorems": [
    "Verif.Weights.C415_fuselage_partial",
    "Verif.Weights.C415_fuselage_load",
    "Verif.Weights.C415_short_counterexample",
    "Verif.Weights.C415_tail_partial",
    "Verif.Weights.C415_canard_counterexample",
    "Verif.Weights.C415_gear_partial",
    "Verif.Weights.C415_range_counterexample",
    "Verif.Weights.C415_nacelle",
    "Verif.Weights.C415_nacelle_counterexample",
    "Verif.Weights.C415_stall"
   ],
   "note": "Fuselages longer than 1.7 diameters, tails behind the wing, ranges with a positive landing weight; C415_short_counterexample, C415_canard_counterexample, C415_range_counterexample, C415_nacelle_counterexample."
  },
  {
   "property": "C416",
   "status": "partial",
   "theorems": [
    "Verif.Rotor.C416_rotation",
    "Verif.Rotor.C416_single_axis",
    "Verif.Rotor.C416_inverse",
    "Verif.Rotor.C416_body_axes",
    "Verif.Rotor.C416_tilt_partial",
    "Verif.Rotor.C416_euler_counterexample",
    "Verif.Rotor.C416_tilt_counterexample"
   ],
   "note": "All angles for rotation and inverse, one axis for the meaning of the angles; C416_euler_counterexample, C416_tilt_counterexample."
  },
  {
   "property": "C417",
   "status": "proved",
   "theorems": [
    "Verif.Performance.C417_lines"
   ],
   "note": ""
  },
  {
   "property": "C418",
   "status": "partial",
   "theorems": [
    "Verif.Optim.C418_ratio_partial",
    "Verif.Optim.C418_fallback_counterexample",
    "Verif.Optim.C418_slsqp_counterexample"
   ],
   "note": "SNOPT after a successful solve, SLSQP when the constraints need no correction; C418_fallback_counterexample, C418_slsqp_counterexample."
  },
  {
   "property": "C419",
   "status": "partial",
   "theorems": [
    "Verif.Core.C419_filed",
    "Verif.Core.C419_main_wing_partial",
    "Verif.Core.C419_capital_counterexample",
    "Verif.Core.C419_completed_counterexample",
    "Verif.Core.C419_rotor_counterexample",
    "Verif.Core.C419_nacelle_counterexample"
   ],
   "note": "Accepted parts always; acceptance on main wings for names without capitals whose completion is free; C419_capital_counterexample, C419_completed_counterexample, C419_rotor_counterexample, C419_nacelle_counterexample."
  },
  {
   "property": "C420",
   "status": "partial",
   "theorems": [
    "Verif.IO.C420_shown",
    "Verif.IO.C420_only",
    "Verif.IO.C420_order",
    "Verif.IO.C420_same_counterexample"
   ],
   "note": "All but the last part; C420_same_counterexample."
  },
  {
   "property": "C421",
   "status": "partial",
   "theorems": [
    "Verif.Weights.C421_passengers",
    "Verif.Weights.C421_size",
    "Verif.Weights.C421_furnishings",
    "Verif.Weights.C421_laws",
    "Verif.Weights.C421_cargo_counterexample",
    "Verif.Weights.C421_short_counterexample",
    "Verif.Weights.C421_apu_counterexample",
    "Verif.Weights.C421_mach"
   ],
   "note": "Fuselages longer than 1.7 diameters; C421_cargo_counterexample, C421_short_counterexample, C421_apu_counterexample."
  },
  {
   "property": "C422",
   "status": "partial",
   "theorems": [
    "Verif.IO.C422_other_folders",
    "Verif.IO.C422_default_partial",
    "Verif.IO.C422_name_counterexample",
    "Verif.IO.C422_stored_counterexample"
   ],
   "note": "Other folders always; the default folder with AVL run; C422_name_counterexample, C422_stored_counterexample."
  },
  {
   "property": "C423",
   "status": "partial",
   "theorems": [
    "Verif.IO.C423_frames",
    "Verif.IO.C423_turn",
    "Verif.IO.C423_midpoints",
    "Verif.IO.C423_no_folder",
    "Verif.IO.C423_rotor_counterexample"
   ],
   "note": "The frames; C423_rotor_counterexample for the rotor."
  },
  {
   "property": "C424",
   "status": "partial",
   "theorems": [
    "Verif.Avl.C424_fixed_partial",
    "Verif.Avl.C424_wanted_unique",
    "Verif.Avl.C424_flap_counterexample"
   ],
   "note": "Untrimmed aircraft, and trimmed ones with flaps and slats in; C424_flap_counterexample."
  },
  {
   "property": "C425",
   "status": "proved",
   "theorems": [
    "Verif.Physics.ExitShock.C425_unique",
    "Verif.Physics.ExitShock.C425_pressure",
    "Verif.Physics.ExitShock.C425_area",
    "Verif.Physics.ExitShock.C425_flow",
    "Verif.Physics.ExitShock.C425_subsonic",
    "Verif.Physics.ExitShock.C425_shock_at_exit"
   ],
   "note": "The root finder is external: its result is any root, of which there is one."
  },
  {
   "property": "C426",
   "status": "proved",
   "theorems": [
    "Verif.Physics.AirGas.C426_sutherland",
    "Verif.Physics.AirGas.C426_viscosity",
    "Verif.Physics.AirGas.C426_conductivity",
    "Verif.Physics.AirGas.C426_heats",
    "Verif.Physics.AirGas.C426_sound",
    "Verif.Physics.AirGas.C426_choice",
    "Verif.Physics.AirGas.C426_prandtl",
    "Verif.Physics.AirGas.C426_density"
   ],
   "note": "Over the reals; temperatures outside the stated range only for viscosity, conductivity and density."
  },
  {
   "property": "C427",
   "status": "proved",
   "theorems": [
    "Verif.Mission.C427_sequential",
    "Verif.Mission.C427_results",
    "Verif.Mission.C427_none"
   ],
   "note": "Parts and steps have different names, which their containers ensure."
  },
  {
   "property": "C428",
   "status": "partial",
   "theorems": [
    "Verif.Core.TwoDim.C428_column",
    "Verif.Core.TwoDim.C428_row",
    "Verif.Core.TwoDim.C428_same",
    "Verif.Core.TwoDim.C428_rows",
    "Verif.Core.TwoDim.C428_twice",
    "Verif.Core.TwoDim.C428_stack",
    "Verif.Core.TwoDim.C428_bare_counterexample"
   ],
   "note": "All but arrays without dimensions (C428_bare_counterexample)."
  },
  {
   "property": "C429",
   "status": "partial",
   "theorems": [
    "Verif.Optim.C429_field",
    "Verif.Optim.C429_order",
    "Verif.Optim.C429_none",
    "Verif.Optim.C429_printed_order",
    "Verif.Optim.C429_printed_counterexample",
    "Verif.Optim.C429_label_counterexample",
    "Verif.Optim.C429_second_counterexample"
   ],
   "note": "The order of the points and the logarithm drawn; C429_printed_counterexample, C429_label_counterexample, C429_second_counterexample."
  },
  {
   "property": "C430",
   "status": "proved",
   "theorems": [
    "Verif.Avl.File.C430_read",
    "Verif.Avl.File.C430_order",
    "Verif.Avl.File.C430_controls",
    "Verif.Avl.File.C430_body",
    "Verif.Avl.File.C430_digits",
    "Verif.Avl.File.C430_reference"
   ],
   "note": "Numbers are rationals; ties of rounding go up."
  },
  {
   "property": "C431",
   "status": "partial",
   "theorems": [
    "Verif.Physics.SteamGas.C431_constants",
    "Verif.Physics.SteamGas.C431_density",
    "Verif.Physics.SteamGas.C431_sound",
    "Verif.Physics.SteamGas.C431_heat",
    "Verif.Physics.SteamGas.C431_one_gas_partial",
    "Verif.Physics.SteamGas.C431_one_gas_counterexample"
   ],
   "note": "The fit of the specific heats only up to 550 K; C431_one_gas_counterexample."
  },
  {
   "property": "C432",
   "status": "partial",
   "theorems": [
    "Verif.Core.C432_dict_partial",
    "Verif.Core.C432_other",
    "Verif.Core.C432_list_counterexample",
    "Verif.Core.C432_same_name_counterexample",
    "Verif.Core.C432_underscore_counterexample"
   ],
   "note": "Dictionaries under free public names only; C432_list_counterexample, C432_same_name_counterexample, C432_underscore_counterexample."
  },
  {
   "property": "C433",
   "status": "proved",
   "theorems": [
    "Verif.Energy.MetalAir.C433_discharge",
    "Verif.Energy.MetalAir.C433_sign",
    "Verif.Energy.MetalAir.C433_reaction",
    "Verif.Energy.MetalAir.C433_potential"
   ],
   "note": ""
  },
  {
   "property": "C434",
   "status": "partial",
   "theorems": [
    "Verif.Noise.Report.C434_airframe",
    "Verif.Noise.Report.C434_engine_partial",
    "Verif.Noise.Report.C434_engine_counterexample",
    "Verif.Noise.Report.C434_written",
    "Verif.Noise.Report.C434_max",
    "Verif.Noise.Report.C434_spectrum"
   ],
   "note": "Airframe; engine columns below headings; C434_engine_counterexample."
  },
  {
   "property": "C435",
   "status": "partial",
   "theorems": [
    "Verif.Noise.C435_airframe_partial",
    "Verif.Noise.C435_steps_counterexample",
    "Verif.Noise.C435_single_counterexample",
    "Verif.Noise.C435_engine_partial",
    "Verif.Noise.C435_engine_counterexample",
    "Verif.Noise.C435_weighting"
   ],
   "note": "One step of the airframe, bounds for the engine; C435_steps_counterexample, C435_single_counterexample, C435_engine_counterexample."
  },
  {
   "property": "C436",
   "status": "partial",
   "theorems": [
    "Verif.Vsp.Export.C436_sections_partial",
    "Verif.Vsp.Export.C436_nose_counterexample",
    "Verif.Vsp.Export.C436_close_counterexample",
    "Verif.Vsp.Export.C436_single_counterexample",
    "Verif.Vsp.Export.C436_wing_partial",
    "Verif.Vsp.Export.C436_wing_counterexample"
   ],
   "note": "Two or more segments in order and away from the nose, pointed nose; C436_nose_counterexample, C436_close_counterexample, C436_single_counterexample, C436_wing_counterexample."
  },
  {
   "property": "C437",
   "status": "partial",
   "theorems": [
    "Verif.Optim.Snopt.C437_trust_partial",
    "Verif.Optim.Snopt.C437_additive_partial",
    "Verif.Optim.Snopt.C437_more_counterexample",
    "Verif.Optim.Snopt.C437_name_counterexample",
    "Verif.Optim.Snopt.C437_relation_counterexample",
    "Verif.Optim.Snopt.C437_variables"
   ],
   "note": "Known relations; additive set-up with no more constraints than variables and under their names; C437_more_counterexample, C437_name_counterexample, C437_relation_counterexample."
  },
  {
   "property": "C438",
   "status": "partial",
   "theorems": [
    "Verif.IO.MissionPanels.C438_panels_partial",
    "Verif.IO.MissionPanels.C438_current_counterexample",
    "Verif.IO.MissionPanels.C438_margin_counterexample"
   ],
   "note": "All panels but two; C438_current_counterexample, C438_margin_counterexample."
  },
  {
   "property": "C439",
   "status": "partial",
   "theorems": [
    "Verif.Airfoil.C439_start_partial",
    "Verif.Airfoil.C439_limit_counterexample",
    "Verif.Airfoil.C439_falls",
    "Verif.Airfoil.C439_back"
   ],
   "note": "Monotone and there and back in full; every start but a shape factor of exactly 1.1: C439_limit_counterexample."
  },
  {
   "property": "C440",
   "status": "partial",
   "theorems": [
    "Verif.Airfoil.C440_parts_partial",
    "Verif.Airfoil.C440_again_counterexample",
    "Verif.Airfoil.C440_arc",
    "Verif.Airfoil.C440_surfaces_partial",
    "Verif.Airfoil.C440_still_counterexample"
   ],
   "note": "Criterion met from a panel on; one stagnation point between two panels; C440_again_counterexample, C440_still_counterexample."
  },
  {
   "property": "C441",
   "status": "partial",
   "theorems": [
    "Verif.Vsp.C441_counts",
    "Verif.Vsp.C441_airfoil",
    "Verif.Vsp.C441_beta",
    "Verif.Vsp.C441_disc_partial",
    "Verif.Vsp.C441_tilted",
    "Verif.Vsp.C441_toe_counterexample"
   ],
   "note": "Counts, airfoils and twist for all; normal for rotors without sideways thrust; C441_toe_counterexample."
  },
  {
   "property": "C442",
   "status": "proved",
   "theorems": [
    "Verif.Optim.C442_own",
    "Verif.Optim.C442_trained"
   ],
   "note": ""
  },
  {
   "property": "C443",
   "status": "partial",
   "theorems": [
    "Verif.Energy.Cells.C443_cell",
    "Verif.Energy.Cells.C443_power_partial",
    "Verif.Energy.Cells.C443_power_counterexample"
   ],
   "note": "Geometry and energy for all; power only for very low resistance: C443_power_counterexample."
  },
  {
   "property": "C444",
   "status": "partial",
   "theorems": [
    "Verif.Energy.C444_resistance",
    "Verif.Energy.C444_voltage",
    "Verif.Energy.C444_rises",
    "Verif.Energy.C444_load",
    "Verif.Energy.C444_pack_partial",
    "Verif.Energy.C444_pack_counterexample"
   ],
   "note": "Resistance, voltages and heat from voltage and current for all; heat of the cells only with as many strings as cells in a string: C444_pack_counterexample."
  },
  {
   "property": "C445",
   "status": "partial",
   "theorems": [
    "Verif.Rotor.C445_efficiency",
    "Verif.Rotor.C445_aligned_partial",
    "Verif.Rotor.C445_lift_counterexample",
    "Verif.Rotor.C445_tilted",
    "Verif.Rotor.C445_repeat",
    "Verif.Rotor.C445_rotor"
   ],
   "note": "false for rotors that do not point along the body: the thrust reported is its component along the body, none for a lift rotor; efficiency, repeated calls and pitch are proved for all orientations"
  },
  {
   "property": "C446",
   "status": "partial",
   "theorems": [
    "Verif.Mission.Analyses.C446_append",
    "Verif.Mission.Analyses.C446_last",
    "Verif.Mission.Analyses.C446_extend_partial",
    "Verif.Mission.Analyses.C446_extend_counterexample"
   ],
   "note": "false for taking over: entries the other does not have are removed, and a present analysis keeps its class and only has the contents of the new one merged in; appending is proved in full"
  },
  {
   "property": "C447",
   "status": "partial",
   "theorems": [
    "Verif.IO.RotorPanels.C447_limits_partial",
    "Verif.IO.RotorPanels.C447_limits_counterexample",
    "Verif.IO.RotorPanels.C447_efficiency",
    "Verif.IO.RotorPanels.C447_thrust",
    "Verif.IO.RotorPanels.C447_thrust_counterexample",
    "Verif.IO.RotorPanels.C447_ageing_partial",
    "Verif.IO.RotorPanels.C447_ageing_counterexample",
    "Verif.IO.RotorPanels.C447_ring"
   ],
   "note": "false for negative quantities, which the limits cut off, for reversed thrust, and for the ageing panels, which show the share left over the charge drawn under the label of a time; the rest is proved"
  },
  {
   "property": "C448",
   "status": "partial",
   "theorems": [
    "Verif.Noise.Mic.C448_sum_partial",
    "Verif.Noise.Mic.C448_defined",
    "Verif.Noise.Mic.C448_weighted_counterexample",
    "Verif.Noise.Mic.C448_missing_counterexample"
   ],
   "note": "false with missing bands: one missing weighted band leaves no weighted level, and a missing plain band counts as 0 dB; proved in full for spectra without missing bands, and that the plain level always is a number"
  },
  {
   "property": "C449",
   "status": "partial",
   "theorems": [
    "Verif.Noise.Report.C449_rows_partial",
    "Verif.Noise.Report.C449_mach_counterexample",
    "Verif.Noise.Report.C449_ends",
    "Verif.Noise.Report.C449_written"
   ],
   "note": "false for the column Mach, which holds the speed in m/s; everything else is proved"
  },
  {
   "property": "C450",
   "status": "partial",
   "theorems": [
    "Verif.Mission.C450_expand",
    "Verif.Mission.C450_again",
    "Verif.Mission.C450_points_partial",
    "Verif.Mission.C450_points_counterexample"
   ],
   "note": "false for numbers of points set after the first preparation, which are not used; the rest is proved in full"
  },
  {
   "property": "C451",
   "status": "partial",
   "theorems": [
    "Verif.IO.FlightFigures.C451_drawn_partial",
    "Verif.IO.FlightFigures.C451_fins_counterexample"
   ],
   "note": "false with a wing that is not symmetric before another: two fins ahead of the wing hide half of it, two fins after it raise an exception; proved when only the last wing may lack symmetry"
  },
  {
   "property": "C452",
   "status": "partial",
   "theorems": [
    "Verif.IO.FlightFigures.C452_frames_partial",
    "Verif.IO.FlightFigures.C452_limits_counterexample"
   ],
   "note": "false for points outside the fixed limits of the panels (seven hours, 36000 ft, 60 to 80 t); frames, numbers and histories are proved in full"
  },
  {
   "property": "C453",
   "status": "partial",
   "theorems": [
    "Verif.IO.FlightFigures.C453_lines_partial",
    "Verif.IO.FlightFigures.C453_surfaces_counterexample"
   ],
   "note": "false for six surfaces or more, for which there is no style and an exception is raised; proved for up to five"
  },
  {
   "property": "C454",
   "status": "partial",
   "theorems": [
    "Verif.Noise.Mic.C454_loudest_partial",
    "Verif.Noise.Mic.C454_longer_counterexample",
    "Verif.Noise.Mic.C454_shorter_counterexample",
    "Verif.Noise.Mic.C454_charging_counterexample"
   ],
   "note": "false with segments of different numbers of points, which are cut or raise an exception, and with charging segments, which count as 0 dBA; proved for discharging segments with the same number of points"
  },
  {
   "property": "C455",
   "status": "partial",
   "theorems": [
    "Verif.Noise.Mic.C455_range_partial",
    "Verif.Noise.Mic.C455_range_counterexample",
    "Verif.Noise.Mic.C455_flight_partial",
    "Verif.Noise.Mic.C455_scale_counterexample",
    "Verif.Noise.Mic.C455_buildings"
   ],
   "note": "false for the ground, drawn in miles under an aircraft drawn in metres, for aircraft off the axis, and for missions that do not start at the origin; buildings are proved in full"
  },
  {
   "property": "C456",
   "status": "proved",
   "theorems": [
    "Verif.Vehicle.CgMap.C456_units",
    "Verif.Vehicle.CgMap.C456_choices",
    "Verif.Vehicle.CgMap.C456_whole"
   ],
   "note": ""
  },
  {
   "property": "C457",
   "status": "partial",
   "theorems": [
    "Verif.Airfoil.Figures.C457_force",
    "Verif.Airfoil.Figures.C457_place",
    "Verif.Airfoil.Figures.C457_arrows",
    "Verif.Airfoil.Figures.C457_middle_counterexample",
    "Verif.Airfoil.Figures.C457_windows_partial",
    "Verif.Airfoil.Figures.C457_windows_counterexample"
   ],
   "note": "false for the place: pressures belong to the panels between the points at which they are drawn; false for windows of cases with the same rounded angle and Reynolds number; direction, length and number of arrows are proved in full"
  },
  {
   "property": "C458",
   "status": "partial",
   "theorems": [
    "Verif.Airfoil.Figures.C458_files",
    "Verif.Airfoil.Figures.C458_files_count",
    "Verif.Airfoil.Figures.C458_stored_partial",
    "Verif.Airfoil.Figures.C458_unit_counterexample",
    "Verif.Airfoil.Figures.C458_grid_counterexample"
   ],
   "note": "false for the stored polars, drawn in radians under the name of degrees, with the grid switched off by an even number of polars; proved in full for the polars of files"
  },
  {
   "property": "C459",
   "status": "partial",
   "theorems": [
    "Verif.Stability.SurfaceDerivatives.C459_last_counterexample",
    "Verif.Stability.SurfaceDerivatives.C459_slopes_partial",
    "Verif.Stability.SurfaceDerivatives.C459_keys_counterexample",
    "Verif.Stability.SurfaceDerivatives.C459_surrogate_counterexample",
    "Verif.Stability.SurfaceDerivatives.C459_propellers",
    "Verif.Stability.SurfaceDerivatives.C459_propellers_there"
   ],
   "note": "false for surfaces with the same key on two wings, of which the last replaces the others, and for moments with surrogates, recorded as zero; proved for different keys without surrogates; propellers are proved in full"
  },
  {
   "property": "C460",
   "status": "partial",
   "theorems": [
    "Verif.Physics.Compositions.C460_make_partial",
    "Verif.Physics.Compositions.C460_own",
    "Verif.Physics.Compositions.C460_gas_counterexample",
    "Verif.Physics.Compositions.C460_air_counterexample",
    "Verif.Physics.Compositions.C460_check_partial",
    "Verif.Physics.Compositions.C460_warning_counterexample"
   ],
   "note": "false for air, carbon dioxide and steam, which keep the entry of the general gas and add to two; the check raises an exception (no method swap), so that there is never a warning, and nothing calls it; proved that it leaves fractions adding to one"
  },
  {
   "property": "C461",
   "status": "partial",
   "theorems": [
    "Verif.Physics.Compositions.C461_energy_partial",
    "Verif.Physics.Compositions.C461_kerosene",
    "Verif.Physics.Compositions.C461_avgas_counterexample",
    "Verif.Physics.Compositions.C461_temperatures_partial",
    "Verif.Physics.Compositions.C461_freeze_counterexample"
   ],
   "note": "false for aviation gasoline, whose energy of a cubic metre is zero, and for JP7, which freezes above its flash point; proved for the others"
  },
  {
   "property": "C462",
   "status": "partial",
   "theorems": [
    "Verif.Aero.LiftChain.C462_lift",
    "Verif.Aero.LiftChain.C462_entries_partial",
    "Verif.Aero.LiftChain.C462_entries_direct",
    "Verif.Aero.LiftChain.C462_tags_counterexample",
    "Verif.Aero.LiftChain.C462_capital_counterexample",
    "Verif.Aero.LiftChain.C462_plain",
    "Verif.Aero.LiftChain.C462_total_counterexample",
    "Verif.Aero.LiftChain.C462_avl",
    "Verif.Aero.LiftChain.C462_su2_partial",
    "Verif.Aero.LiftChain.C462_su2_counterexample",
    "Verif.Aero.LiftChain.C462_su2_super_counterexample"
   ],
   "note": "false for the total of the breakdown, which stays without the correction; for tags with capitals or marks with a surrogate, whose training raises; for SU2, which writes entries of main_wing only; and for supersonic SU2, which writes into a branch that is not there; the value of the lift and the entries for plain tags are proved"
  },
  {
   "property": "C463",
   "status": "partial",
   "theorems": [
    "Verif.Aero.Steps.C463_defaults",
    "Verif.Aero.Steps.C463_all",
    "Verif.Aero.Steps.C463_steps_partial",
    "Verif.Aero.Steps.C463_order",
    "Verif.Aero.Steps.C463_wave_counterexample",
    "Verif.Aero.Steps.C463_initialise_partial",
    "Verif.Aero.Steps.C463_needed",
    "Verif.Aero.Steps.C463_initialise_counterexample"
   ],
   "note": "false for the analysis with OpenVSP wave drag, whose defaults stop at a name that does not exist, leaving no induced and no total drag, and whose initialisation raises; proved for the other five"
  },
  {
   "property": "C464",
   "status": "partial",
   "theorems": [
    "Verif.Aero.Steps.C464_through",
    "Verif.Aero.Steps.C464_where",
    "Verif.Aero.Steps.C464_defaults_partial",
    "Verif.Aero.Steps.C464_needed",
    "Verif.Aero.Steps.C464_su2_super_counterexample",
    "Verif.Aero.Steps.C464_wave_counterexample"
   ],
   "note": "false for supersonic SU2, which stops at compressibility drag until seven settings are added, and for OpenVSP wave drag, which stops at the first wing; proved for the other four"
  },
  {
   "property": "C465",
   "status": "partial",
   "theorems": [
    "Verif.Mission.SegmentParameters.C465_values_partial",
    "Verif.Mission.SegmentParameters.C465_counts_partial",
    "Verif.Mission.SegmentParameters.C465_flight",
    "Verif.Mission.SegmentParameters.C465_descent_counterexample",
    "Verif.Mission.SegmentParameters.C465_ignored_counterexample"
   ],
   "note": "false for descents at calibrated airspeed, whose default is named calibrated_airspeed while calibrated_air_speed is read; proved for all other kinds"
  },
  {
   "property": "C466",
   "status": "partial",
   "theorems": [
    "Verif.Energy.AppendedOffTake.C466_appended",
    "Verif.Energy.AppendedOffTake.C466_assigned_partial",
    "Verif.Energy.AppendedOffTake.C466_other_names",
    "Verif.Energy.AppendedOffTake.C466_counterexample"
   ],
   "note": "false for every appended off-take: the network looks for a capitalised name that append cannot produce; proved for off-takes assigned under that name"
  },
  {
   "property": "C467",
   "status": "partial",
   "theorems": [
    "Verif.Weights.Materials.C467_blades",
    "Verif.Weights.Materials.C467_wing_partial",
    "Verif.Weights.Materials.C467_ribs_counterexample",
    "Verif.Weights.Materials.C467_ribs_direct_partial",
    "Verif.Weights.Materials.C467_cover_counterexample",
    "Verif.Weights.Materials.C467_fuselage_partial",
    "Verif.Weights.Materials.C467_fuselage_direct_partial"
   ],
   "note": "false for ribs and webs of wings, for the cover of a wing under the name it has for blades, and for keel, skin and canopy of fuselages; proved for blades and for the other materials"
  },
  {
   "property": "C468",
   "status": "partial",
   "theorems": [
    "Verif.Weights.WebHeight.C468_wing",
    "Verif.Weights.WebHeight.C468_wing_partial",
    "Verif.Weights.WebHeight.C468_blade",
    "Verif.Weights.WebHeight.C468_blade_rounding_counterexample",
    "Verif.Weights.WebHeight.C468_counterexample"
   ],
   "note": "false for wings: the upper half is read at the foremost station instead of the web; proved for blades whose web is on a station after rounding"
  },
  {
   "property": "C469",
   "status": "partial",
   "theorems": [
    "Verif.Weights.TorsionBox.C469_area",
    "Verif.Weights.TorsionBox.C469_skin_counterexample",
    "Verif.Weights.TorsionBox.C469_skin_partial"
   ],
   "note": "the area is proved; the length of the skin leaves the rear web out, and is right only for a box that closes at the rear"
  },
  {
   "property": "C470",
   "status": "partial",
   "theorems": [
    "Verif.Weights.Solids.C470_strengths",
    "Verif.Weights.Solids.C470_roles_partial",
    "Verif.Weights.Solids.C470_ribs_counterexample",
    "Verif.Weights.Solids.C470_copper_counterexample",
    "Verif.Weights.Solids.C470_width"
   ],
   "note": "false for ribs, for which only Aluminum_Rib can be given, and for copper; proved for all other solids and roles; strengths proved"
  },
  {
   "property": "C471",
   "status": "partial",
   "theorems": [
    "Verif.IO.SavedPressures.C471_symmetric_partial",
    "Verif.IO.SavedPressures.C471_changed_counterexample",
    "Verif.IO.SavedPressures.C471_order",
    "Verif.IO.SavedPressures.C471_twice_counterexample"
   ],
   "note": "false for wings that are not symmetric, each of which replaces the pressures of the caller by their first entry; proved for symmetric wings; orders that can be saved characterised by C471_order"
  }
 ]
}