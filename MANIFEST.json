{
 "claims": [
  {
   "property": "C01",
   "status": "proved",
   "theorems": [
    "Props.C01_twopify_canonical"
   ],
   "note": ""
  },
  {
   "property": "C02",
   "status": "partial",
   "theorems": [
    "Props.C02_pify_documented_range_false",
    "Props.C02_pify_partial"
   ],
   "note": "False as documented: pify(pi)=pi. Proved: congruence and range [-pi, pi]."
  },
  {
   "property": "C03",
   "status": "proved",
   "theorems": [
    "Props.C03_frame_changes"
   ],
   "note": ""
  },
  {
   "property": "C04",
   "status": "proved",
   "theorems": [
    "Props.C04_array_index_min"
   ],
   "note": ""
  },
  {
   "property": "C05",
   "status": "proved",
   "theorems": [
    "Props.C05_polar"
   ],
   "note": ""
  },
  {
   "property": "C07",
   "status": "proved",
   "theorems": [
    "Props.C07_fresnel_odd"
   ],
   "note": ""
  },
  {
   "property": "C08",
   "status": "proved",
   "theorems": [
    "Props.C08_circular_arc",
    "Props.C08_straight_line"
   ],
   "note": ""
  },
  {
   "property": "C10",
   "status": "proved",
   "theorems": [
    "Props.C10_clothoid_split",
    "Props.C10_arc_split",
    "Props.C10_line_split"
   ],
   "note": ""
  },
  {
   "property": "C11",
   "status": "partial",
   "theorems": [
    "Props.C11_integrate_end",
    "Props.C11_unresolved_counterexample",
    "Props.C11_hc_integrate_end",
    "Props.C11_hc_integrate_end_near"
   ],
   "note": "Dubins/Reeds-Shepp: exact for curvature 0 or above 1e-4; false at or below (witness). HC/CC: independent of the discretization, and the end of the commanded path up to the Fresnel error when sharpness, curvature and curvature jumps are 0 or above 1e-4."
  },
  {
   "property": "C12",
   "status": "partial",
   "theorems": [
    "Props.C12_integrate_samples",
    "Props.C12_integrate_count",
    "Props.C12_hc_integrate_samples",
    "Props.C12_unresolved_counterexample"
   ],
   "note": "For curvature, sharpness and curvature jumps that are 0 or above 1e-4 (below, false by C12_unresolved_counterexample); HC/CC positions up to the Fresnel error."
  },
  {
   "property": "C13",
   "status": "partial",
   "theorems": [
    "Props.C13_interpolate",
    "Props.C13_interpolate_start",
    "Props.C13_interpolate_end",
    "Props.C13_hc_interpolate_ends",
    "Props.C13_hc_interpolate",
    "Props.C13_unresolved_counterexample"
   ],
   "note": "For curvature, sharpness and curvature jumps that are 0 or above 1e-4 (below, false by C13_unresolved_counterexample); HC/CC positions up to the Fresnel error."
  },
  {
   "property": "C14",
   "status": "partial",
   "theorems": [
    "Props.C14_interpolate_uninitialised",
    "Props.C14_interpolate_partial",
    "Props.C14_integrate_determined",
    "Props.C14_hc_defined_iff"
   ],
   "note": "False for Dubins/Reeds-Shepp at t<=0 and HC/CC with empty controls."
  },
  {
   "property": "C15",
   "status": "proved",
   "theorems": [
    "Props.C15_dubins_reaches",
    "Props.C15_dubins_reaches_within"
   ],
   "note": "For states at most 1e200 turning radii apart."
  },
  {
   "property": "C16",
   "status": "proved",
   "theorems": [
    "Props.C16_dubins_distance"
   ],
   "note": "For states at most 1e200 turning radii apart."
  },
  {
   "property": "C17",
   "status": "proved",
   "theorems": [
    "Props.C17_dubins_controls"
   ],
   "note": "For states at most 1e200 turning radii apart."
  },
  {
   "property": "C18",
   "status": "proved",
   "theorems": [
    "Props.C18_dubins_shortest",
    "Props.C18_dubins_shortest_backwards"
   ],
   "note": "Also inside the tolerance zones."
  },
  {
   "property": "C19",
   "status": "proved",
   "theorems": [
    "Props.C19_dubins_asserts"
   ],
   "note": ""
  },
  {
   "property": "C20",
   "status": "partial",
   "theorems": [
    "Props.C20_dubins_bounds",
    "Props.C20_dubins_below_euclid_counterexample"
   ],
   "note": "Lower bound false in the tangent tolerance zone (witness); proved exactly outside it and up to 1e-9/kappa inside it."
  },
  {
   "property": "C21",
   "status": "partial",
   "theorems": [
    "Props.C21_dubins_invariant_partial",
    "Props.C21_dubins_full_turns",
    "Props.C21_dubins_backwards",
    "Props.C21_dubins_rotation_counterexample"
   ],
   "note": "False for rotations of two states at the same position (witness)."
  },
  {
   "property": "C22",
   "status": "proved",
   "theorems": [
    "Props.C22_rs_reaches"
   ],
   "note": "For states at most 1e200 turning radii apart."
  },
  {
   "property": "C23",
   "status": "proved",
   "theorems": [
    "Props.C23_rs_distance"
   ],
   "note": ""
  },
  {
   "property": "C24",
   "status": "proved",
   "theorems": [
    "Props.C24_rs_finds_path",
    "Props.C24_rs_detour"
   ],
   "note": "A path is found for states at most 1e200 turning radii apart; the bound on the detour for all states."
  },
  {
   "property": "C25",
   "status": "proved",
   "theorems": [
    "Props.C25_rs_shortest",
    "Props.C25_rs_shortest_candidate"
   ],
   "note": "Against every path of the Reeds-Shepp families as restricted in the statement (Spec.ReedsSheppPath), and against every accepted candidate."
  },
  {
   "property": "C26",
   "status": "proved",
   "theorems": [
    "Props.C26_rs_ge_euclid"
   ],
   "note": "For states at most 1e200 turning radii apart."
  },
  {
   "property": "C27",
   "status": "partial",
   "theorems": [
    "Props.C27_small_curvature_never_turns",
    "Props.C27_rs_get_path_partial",
    "Props.C27_dubins_get_path_partial"
   ],
   "note": "False for kappa at most 1e-4 (negation for all such planners and goals with another heading); proved above 1e-4."
  },
  {
   "property": "C43",
   "status": "proved",
   "theorems": [
    "Props.C43_rs_controls"
   ],
   "note": "For states at most 1e200 turning radii apart."
  },
  {
   "property": "C44",
   "status": "proved",
   "theorems": [
    "Props.C44_rs_asserts"
   ],
   "note": ""
  },
  {
   "property": "C45",
   "status": "proved",
   "theorems": [
    "Props.C45_rs_rigid_motion"
   ],
   "note": ""
  },
  {
   "property": "C46",
   "status": "proved",
   "theorems": [
    "Props.C46_rs_zero_iff"
   ],
   "note": "For states at most 1e200 turning radii apart."
  },
  {
   "property": "C28",
   "status": "proved",
   "theorems": [
    "Props.C28_psd",
    "Props.C28_hc_psd"
   ],
   "note": "For motion noise >= 0 and non-zero measurement noise; for the whole 4x4 matrices."
  },
  {
   "property": "C29",
   "status": "proved",
   "theorems": [
    "Props.C29_update_conserves",
    "Props.C29_update_monotone",
    "Props.C29_covariance_is_sum",
    "Props.C29_path_sum"
   ],
   "note": ""
  },
  {
   "property": "C30",
   "status": "partial",
   "theorems": [
    "Props.C30_arc_partial",
    "Props.C30_line_partial",
    "Props.C30_clothoid_partial",
    "Props.C30_line_curvature_counterexample"
   ],
   "note": "False on straight lines: the position entries for the curvature are zero (true: -h^2/2 sin, h^2/2 cos). Exact for arcs; clothoids up to the Fresnel error."
  },
  {
   "property": "C31",
   "status": "proved",
   "theorems": [
    "Props.C31_round_trip",
    "Props.C31_read",
    "Props.C31_kappa_untouched",
    "Props.C31_write_read"
   ],
   "note": ""
  },
  {
   "property": "C42",
   "status": "proved",
   "theorems": [
    "Props.C42_same_states",
    "Props.C42_hc_same_states"
   ],
   "note": ""
  },
  {
   "property": "C47",
   "status": "proved",
   "theorems": [
    "Props.C47_update_below_noise",
    "Props.C47_path_below_noise"
   ],
   "note": ""
  },
  {
   "property": "C48",
   "status": "partial",
   "theorems": [
    "Props.C48_invertible_partial",
    "Props.C48_singular"
   ],
   "note": "False with zero measurement noise and exactly known start; proved for non-zero measurement noise."
  },
  {
   "property": "C49",
   "status": "partial",
   "theorems": [
    "Props.C49_kappa_dropped",
    "Props.C49_first_partial"
   ],
   "note": "False: dropped after the first step; only the first state keeps it."
  },
  {
   "property": "C06",
   "status": "proved",
   "theorems": [
    "Props.C06_fresnel_accurate"
   ],
   "note": "In exact arithmetic."
  },
  {
   "property": "C09",
   "status": "proved",
   "theorems": [
    "Props.C09_clothoid"
   ],
   "note": ""
  },
  {
   "property": "C32",
   "status": "proved",
   "theorems": [
    "Props.C32_reverse",
    "Props.C32_involution"
   ],
   "note": ""
  },
  {
   "property": "C33",
   "status": "partial",
   "theorems": [
    "Props.C33_rs_turn",
    "Props.C33_hc_turn",
    "Props.C33_cc_turn_partial",
    "Props.C33_cc_turn_tiny_partial",
    "Props.C33_cc_turn_tiny_false",
    "Props.C33_short_clothoid_false"
   ],
   "note": "False for CC turns of deflection between 0 and 1e-4 (a straight line is driven; error bounded) and for clothoids shorter than 1e-4 (neglected by the constructor). Otherwise proved up to the clothoid accuracy for all circles, targets, flags and orders (RS turns exactly)."
  },
  {
   "property": "C34",
   "status": "partial",
   "theorems": [
    "Props.C34_rs_turn",
    "Props.C34_hc_turn",
    "Props.C34_cc_turn_partial",
    "Props.C34_cc_turn_tiny_partial",
    "Props.C34_cc_turn_tiny_false"
   ],
   "note": "False for CC turns of deflection between 0 and 1e-4 (error at most radius times deflection); exact otherwise."
  },
  {
   "property": "C35",
   "status": "partial",
   "theorems": [
    "Props.C35_rs_turn",
    "Props.C35_hc_turn",
    "Props.C35_cc_turn_partial",
    "Props.C35_cc_turn_false"
   ],
   "note": "CC turns: false for targets on the circle only up to the tolerance of the library; otherwise limits with relative tolerance 1e-8 and 2e-8, since elementary paths use approximate Fresnel integrals; RS and HC turns exactly."
  },
  {
   "property": "C36",
   "status": "proved",
   "theorems": [
    "Props.C36_cc00_reaches",
    "Props.C36_cc00_exact",
    "Props.C36_cc00_get_path"
   ],
   "note": ""
  },
  {
   "property": "C37",
   "status": "proved",
   "theorems": [
    "Props.C37_cc00_distance",
    "Props.C37_cc00_distance_all"
   ],
   "note": ""
  },
  {
   "property": "C38",
   "status": "proved",
   "theorems": [
    "Props.C38_cc00_always"
   ],
   "note": ""
  },
  {
   "property": "C50",
   "status": "proved",
   "theorems": [
    "Props.C50_cc00_euclid",
    "Props.C50_cc00_euclid_exact"
   ],
   "note": ""
  },
  {
   "property": "C51",
   "status": "partial",
   "theorems": [
    "Props.C51_cc00_continuous",
    "Props.C51_cc00_limits_partial",
    "Props.C51_cc00_limits_far_partial",
    "Props.C51_cc00_limits_false"
   ],
   "note": "Curvature continuity for all paths. Limits for all paths except those of a single turn or two turns, which are accepted when the circles match within 1e-4 only; in particular for all states more than four radii apart. For single turns the limits are violated: proved with a witness that exceeds the curvature by half and the sharpness by a factor of two."
  },
  {
   "property": "C52",
   "status": "proved",
   "theorems": [
    "Props.C52_cc00_direction"
   ],
   "note": ""
  },
  {
   "property": "C39",
   "status": "partial",
   "theorems": [
    "Props.C39_history_partial",
    "Props.C39_history_all_partial",
    "Props.C39_concurrent_false"
   ],
   "note": "History independence proved for all nine helper classes in any order of queries; false for concurrent queries of one object (shared members distance/angle)."
  },
  {
   "property": "C40",
   "status": "partial",
   "theorems": [
    "Props.C40_cc0pm_reaches_partial",
    "Props.C40_cc0pm_reaches_far_partial",
    "Props.C40_cc0pm_exact_partial",
    "Props.C40_cc0pm_get_path_partial",
    "Props.C40_cc0pm_false"
   ],
   "note": "False when a start and a goal circle of opposite sense share their centre (the single-turn case compares centres only): goal missed by more than 1 m. Proved for all other states, in particular all states more than two radii apart."
  },
  {
   "property": "C53",
   "status": "partial",
   "theorems": [
    "Props.C53_ccpm0_reaches_partial",
    "Props.C53_ccpm0_reaches_far_partial",
    "Props.C53_ccpm0_exact_partial",
    "Props.C53_ccpm0_get_path_partial",
    "Props.C53_ccpm0_false"
   ],
   "note": "As C40."
  },
  {
   "property": "C54",
   "status": "proved",
   "theorems": [
    "Props.C54_ccpmpm_reaches",
    "Props.C54_ccpmpm_exact",
    "Props.C54_ccpmpm_get_path"
   ],
   "note": "Position and heading; the curvature at the ends is C57."
  },
  {
   "property": "C55",
   "status": "proved",
   "theorems": [
    "Props.C55_cc0pm_distance",
    "Props.C55_ccpm0_distance",
    "Props.C55_ccpmpm_distance"
   ],
   "note": ""
  },
  {
   "property": "C56",
   "status": "proved",
   "theorems": [
    "Props.C56_cc0pm_always",
    "Props.C56_ccpm0_always",
    "Props.C56_ccpmpm_always"
   ],
   "note": "kappa, sigma in the range InRange."
  },
  {
   "property": "C57",
   "status": "partial",
   "theorems": [
    "Props.C57_cc0pm_curvature_partial",
    "Props.C57_ccpm0_curvature_partial",
    "Props.C57_ccpmpm_curvature_partial",
    "Props.C57_cc0pm_false",
    "Props.C57_ccpm0_false",
    "Props.C57_ccpmpm_false",
    "Props.C57_ccpmpm_limits",
    "Props.C57_cc0pm_limits_partial",
    "Props.C57_ccpm0_limits_partial"
   ],
   "note": "False for coinciding poses (empty path whatever the curvature) and, for CCpmpm, when one turn joins the poses and the goal asks for the opposite curvature. Proved otherwise; limits always for CCpmpm, for CC0pm and CCpm0 except for two-turn paths."
  },
  {
   "property": "C58",
   "status": "proved",
   "theorems": [
    "Props.C58_cc0pm_direction",
    "Props.C58_ccpm0_direction",
    "Props.C58_ccpmpm_direction"
   ],
   "note": ""
  },
  {
   "property": "C59",
   "status": "partial",
   "theorems": [
    "Props.C59_cc0pm_euclid_partial",
    "Props.C59_ccpm0_euclid_partial",
    "Props.C59_ccpmpm_euclid",
    "Props.C59_cc0pm_false",
    "Props.C59_ccpm0_false"
   ],
   "note": "False for CC0pm and CCpm0 with opposed circles sharing a centre (1 cm for more than 1 m); proved otherwise and for CCpmpm."
  },
  {
   "property": "C41",
   "status": "partial",
   "theorems": [
    "Props.C41_cc_join_partial",
    "Props.C41_cc_distance_partial",
    "Props.C41_cc_assert_false",
    "Props.C41_cc_controls_false"
   ],
   "note": "False: the assertion in subtract_control fails when only one of the states needs prediction, and without assertions an arc is returned instead of a clothoid. Proved where the assertion holds; the distance is right in any case."
  },
  {
   "property": "C60",
   "status": "partial",
   "theorems": [
    "Props.C60_cc_reaches_partial",
    "Props.C60_cc_reaches_far_partial",
    "Props.C60_cc_get_path_far_partial",
    "Props.C60_cc_false"
   ],
   "note": "False for opposed circles sharing a centre (as C40) and for coinciding predictions (C41). Proved for all other states, in particular all far states."
  },
  {
   "property": "C61",
   "status": "proved",
   "theorems": [
    "Props.C61_cc_distance"
   ],
   "note": ""
  },
  {
   "property": "C62",
   "status": "proved",
   "theorems": [
    "Props.C62_cc_always"
   ],
   "note": "kappa, sigma in the range InRange."
  },
  {
   "property": "C63",
   "status": "partial",
   "theorems": [
    "Props.C63_cc_curvature_far_partial",
    "Props.C63_cc_false"
   ],
   "note": "Proved for states more than two radii plus four clothoids apart; false for coinciding poses with different curvature."
  },
  {
   "property": "C64",
   "status": "proved",
   "theorems": [
    "Props.C64_cc_direction"
   ],
   "note": ""
  },
  {
   "property": "C65",
   "status": "partial",
   "theorems": [
    "Props.C65_cc_euclid_partial",
    "Props.C65_cc_euclid_far_partial",
    "Props.C65_cc_false"
   ],
   "note": "False for opposed circles (1 cm for more than 1 m); proved otherwise."
  },
  {
   "property": "C66",
   "status": "proved",
   "theorems": [
    "Props.C66_feedback",
    "Props.C66_straight"
   ],
   "note": ""
  },
  {
   "property": "C67",
   "status": "proved",
   "theorems": [
    "Props.C67_predict_frame",
    "Props.C67_update_frame"
   ],
   "note": "Update with std_x = std_y."
  },
  {
   "property": "C68",
   "status": "proved",
   "theorems": [
    "Props.C68_cc00_optimal",
    "Props.C68_cc00_optimal_exact",
    "Props.C68_cc00_turn",
    "Props.C68_cc00_line"
   ],
   "note": "Competitors are driven with the closed formulas of the library (Fresnel approximation included)."
  },
  {
   "property": "C69",
   "status": "proved",
   "theorems": [
    "Props.C69_hc_reaches",
    "Props.C69_hc_exact",
    "Props.C69_hc_get_path"
   ],
   "note": "Generic in the curvature at the ends, which must be of the same kind at both."
  },
  {
   "property": "C70",
   "status": "partial",
   "theorems": [
    "Props.C70_hc_reaches_partial",
    "Props.C70_hc_reaches_far_partial",
    "Props.C70_hc_exact_partial",
    "Props.C70_hc_get_path_partial",
    "Props.C70_hc0pm_false",
    "Props.C70_hcpm0_false"
   ],
   "note": "False when a start circle and a goal circle of opposite sense share a centre: goal missed by at least 0.9 m. Proved for all other states."
  },
  {
   "property": "C71",
   "status": "proved",
   "theorems": [
    "Props.C71_hc_distance"
   ],
   "note": ""
  },
  {
   "property": "C72",
   "status": "proved",
   "theorems": [
    "Props.C72_hc_always"
   ],
   "note": "kappa, sigma in the range InRange."
  },
  {
   "property": "C73",
   "status": "partial",
   "theorems": [
    "Props.C73_hc_curvature_partial",
    "Props.C73_hc_curvature_far_partial",
    "Props.C73_hc_false_empty",
    "Props.C73_hcpmpm_false"
   ],
   "note": "False for coinciding poses and for HCpmpm when one turn joins the poses and the goal asks for the opposite curvature. Proved otherwise (clothoids long compared to the tolerance in one- and two-turn paths), and without provisos for states more than four radii apart."
  },
  {
   "property": "C74",
   "status": "partial",
   "theorems": [
    "Props.C74_hc_limits_partial",
    "Props.C74_hc_limits_far_partial",
    "Props.C74_hcpmpm_limits",
    "Props.C74_hc00_limits_false"
   ],
   "note": "False for single turns of HC00 with elementary paths. Proved for all paths but one- and two-turn paths with elementary CC turns, hence for states more than four radii apart; complete for HCpmpm."
  },
  {
   "property": "C75",
   "status": "partial",
   "theorems": [
    "Props.C75_hc_euclid_partial",
    "Props.C75_hc0pm_false",
    "Props.C75_hcpm0_false"
   ],
   "note": "False for opposed circles (1 cm for at least 1 m); proved otherwise, always for HC00 and HCpmpm (they have no opposed circles)."
  },
  {
   "property": "C76",
   "status": "partial",
   "theorems": [
    "Props.C76_hcrs_reaches_partial",
    "Props.C76_hcrs_reaches_far_partial",
    "Props.C76_hcrs_get_path_partial",
    "Props.C76_hcrs_get_path_far_partial",
    "Props.C76_hcrs_false"
   ],
   "note": "False for opposed circles (C70) and for coinciding predictions (C82). Proved for all other states, in particular all far states."
  },
  {
   "property": "C77",
   "status": "proved",
   "theorems": [
    "Props.C77_hcrs_distance"
   ],
   "note": ""
  },
  {
   "property": "C78",
   "status": "proved",
   "theorems": [
    "Props.C78_hcrs_always"
   ],
   "note": "kappa, sigma in the range InRange."
  },
  {
   "property": "C79",
   "status": "partial",
   "theorems": [
    "Props.C79_hcrs_curvature_far_partial",
    "Props.C79_hcrs_false"
   ],
   "note": "Proved for states more than four radii plus four clothoids apart; false for coinciding poses with different curvature."
  },
  {
   "property": "C80",
   "status": "partial",
   "theorems": [
    "Props.C80_hcrs_limits_far_partial",
    "Props.C80_hcrs_limits_false"
   ],
   "note": "False for single turns, as C74. Proved for states more than four radii plus four clothoids apart."
  },
  {
   "property": "C81",
   "status": "partial",
   "theorems": [
    "Props.C81_hcrs_euclid_partial",
    "Props.C81_hcrs_euclid_far_partial",
    "Props.C81_hcrs_false"
   ],
   "note": "False for opposed circles (1 cm for at least 1 m); proved otherwise."
  },
  {
   "property": "C82",
   "status": "partial",
   "theorems": [
    "Props.C82_hcrs_join_partial",
    "Props.C82_hcrs_assert_false",
    "Props.C82_hcrs_controls_false"
   ],
   "note": "False: the assertion fails if one state needs no prediction; even if all assertions hold a control of the wrong sharpness is a possible result. Proved when the difference of the controls drives in the direction of the first one."
  },
  {
   "property": "C83",
   "status": "partial",
   "theorems": [
    "Props.C83_cc00_rs_reaches_partial",
    "Props.C83_cc00_rs_reaches",
    "Props.C83_cc00_rs_exact",
    "Props.C83_cc00_rs_get_path",
    "Props.C83_cc00_rs_reaches_false"
   ],
   "note": "False (kappa = 1/1000, sigma = 5, goal 2 cm ahead: controls that are not numbers). Complete if the clothoids are not short compared to the tolerance (CuspClear); otherwise proved whenever controls are returned."
  },
  {
   "property": "C84",
   "status": "proved",
   "theorems": [
    "Props.C84_cc00_rs_distance",
    "Props.C84_cc00_rs_distance_all"
   ],
   "note": "Whenever controls are returned (C85)."
  },
  {
   "property": "C85",
   "status": "partial",
   "theorems": [
    "Props.C85_cc00_rs_always",
    "Props.C85_cc00_rs_controls_partial",
    "Props.C85_cc00_rs_controls_false"
   ],
   "note": "False for the controls (witness as C83). Proved: the distance in full; controls unless a TcT path between states less than four radii apart meets very short clothoids, where the code takes the square root of a negative number."
  },
  {
   "property": "C86",
   "status": "proved",
   "theorems": [
    "Props.C86_cc00_rs_euclid",
    "Props.C86_cc00_rs_euclid_exact"
   ],
   "note": "Whenever controls are returned (C85)."
  },
  {
   "property": "C87",
   "status": "partial",
   "theorems": [
    "Props.C87_cc00_rs_continuous",
    "Props.C87_cc00_rs_limits_partial",
    "Props.C87_cc00_rs_limits_far_partial",
    "Props.C87_cc00_rs_limits_false"
   ],
   "note": "Continuity in full; limits not for paths T, TT, TcT, hence complete for states more than four radii apart. For single turns the limits are violated: proved with a witness (curvature by half, sharpness by a factor of two)."
  },
  {
   "property": "C88",
   "status": "proved",
   "theorems": [
    "Props.C88_cc_rs_le_dubins",
    "Props.C88_hc00_le_dubins",
    "Props.C88_rs_le_dubins_all"
   ],
   "note": ""
  },
  {
   "property": "C89",
   "status": "partial",
   "theorems": [
    "Props.C89_cc_rs_mirror_false",
    "Props.C89_cc_dubins_mirror_partial"
   ],
   "note": "False for CC00-Reeds-Shepp: in the families TiSTcT, TcTiST, TcTiSTcT the sign of the lateral offset does not depend on the side. Proved for CC00-Dubins for states more than two radii apart and not on a line."
  },
  {
   "property": "C90",
   "status": "proved",
   "theorems": [
    "Props.C90_cc_dubins_calls",
    "Props.C90_hc_calls",
    "Props.C90_cc_rs_calls",
    "Props.C90_controls_of_calls"
   ],
   "note": "C90_controls_of_calls ties the lists of calls to get_controls."
  },
  {
   "property": "C91",
   "status": "partial",
   "theorems": [
    "Props.C91_cc_dubins_false",
    "Props.C91_cc_dubins_partial",
    "Props.C91_cc_rs_partial"
   ],
   "note": "False in general: headings within 1e-4 of each other are compared after wrapping to [0, 2 pi). Proved for states more than two radii apart and not on a line."
  },
  {
   "property": "C92",
   "status": "proved",
   "theorems": [
    "Props.C92_cc_rs_optimal",
    "Props.C92_cc_rs_optimal_exact",
    "Props.C92_cc_rs_turn",
    "Props.C92_cc_rs_line"
   ],
   "note": "Families with four or more parts have a free parameter of which the planner takes one value; they are not competitors here."
  },
  {
   "property": "C93",
   "status": "proved",
   "theorems": [
    "Props.C93_hc0pm_hcpm0"
   ],
   "note": ""
  },
  {
   "property": "C94",
   "status": "partial",
   "theorems": [
    "Props.C94_hc_symmetric_partial",
    "Props.C94_hc_symmetric_far_partial",
    "Props.C94_hc00_symmetric_false"
   ],
   "note": "False for HC00 in general, as C95. Proved if the goal is on no turning circle of the start within the tolerance and vice versa and no centres coincide."
  },
  {
   "property": "C95",
   "status": "partial",
   "theorems": [
    "Props.C95_cc_rs_symmetric_partial",
    "Props.C95_cc_rs_symmetric_far_partial",
    "Props.C95_cc_rs_symmetric_false"
   ],
   "note": "False in general: the test for a single turn compares headings without regard for full turns, so that a single turn that is found one way need not be found back. Proved if the goal is on no turning circle of the start within the tolerance and vice versa and no centres coincide."
  },
  {
   "property": "C96",
   "status": "partial",
   "theorems": [
    "Props.C96_cc_dubins_reversed_partial",
    "Props.C96_cc_dubins_reversed_far_partial",
    "Props.C96_cc_dubins_reversed_false"
   ],
   "note": "False in general, as C95. Proved if the goal is on no turning circle of the start within the tolerance and vice versa and no centres coincide."
  },
  {
   "property": "C97",
   "status": "proved",
   "theorems": [
    "Props.C97_rs_symmetric"
   ],
   "note": ""
  },
  {
   "property": "C98",
   "status": "proved",
   "theorems": [
    "Props.C98_rs_mirror",
    "Props.C98_rs_turned_round"
   ],
   "note": ""
  },
  {
   "property": "C99",
   "status": "proved",
   "theorems": [
    "Props.C99_rs_full_turns"
   ],
   "note": ""
  },
  {
   "property": "C100",
   "status": "proved",
   "theorems": [
    "Props.C100_basic_planners",
    "Props.C100_general_planners"
   ],
   "note": "For the general planners get_controls is modelled as a relation (the order of equal candidates in std::sort/min is not fixed); a list of controls is a possible result for one representation iff it is for the other."
  },
  {
   "property": "C101",
   "status": "partial",
   "theorems": [
    "Props.C101_rs_units",
    "Props.C101_dubins_units",
    "Props.C101_cc00_units_partial",
    "Props.C101_cc00_false"
   ],
   "note": "Holds exactly for Dubins and Reeds-Shepp. False of CC00-Dubins: the tolerance for equal configurations (1e-4) is an absolute length, witness in range. Away from the tolerances the distance of CC00-Dubins does scale (C101_cc00_units_partial: states more than six radii apart in both units and not on a line, clothoids longer than 3e-3, kappa^2 <= 2 sigma). Missing: the controls of CC00-Dubins, closer states, the other planners with clothoids."
  },
  {
   "property": "C102",
   "status": "partial",
   "theorems": [
    "Props.C102_cc_limits_far_partial",
    "Props.C102_cc_limits_false"
   ],
   "note": "False for single turns without curvature at the ends, as C51. Proved for states more than four radii plus four clothoids apart."
  },
  {
   "property": "C103",
   "status": "partial",
   "theorems": [
    "Props.C103_twopify_double_partial",
    "Props.C103_twopify_double_false",
    "Props.C103_constants"
   ],
   "note": "False in double precision: tiny negative angles give 2 pi itself, some angles of many turns a negative angle. Proved: for at most four turns the result is in the closed interval and within 2^-51 of the exact canonical angle."
  },
  {
   "property": "C104",
   "status": "proved",
   "theorems": [
    "Props.C104_pify_double"
   ],
   "note": ""
  },
  {
   "property": "C105",
   "status": "partial",
   "theorems": [
    "Props.C105_dubins_ahead_real",
    "Props.C105_dubins_ahead_double_partial",
    "Props.C105_dubins_ahead_double_false"
   ],
   "note": "Proved in real arithmetic, and in double precision for headings that are exactly zero. False in double precision: for a goal one metre ahead, curvature 1/16 and heading 2^-60 all six words contain a full circle and the distance is above 96."
  },
  {
   "property": "C106",
   "status": "proved",
   "theorems": [
    "Props.C106_integration_steps_double"
   ],
   "note": "Single loop of all six integrate functions; the accumulated state itself is treated in real arithmetic (C08-C10, C17)."
  },
  {
   "property": "C107",
   "status": "partial",
   "theorems": [
    "Props.C107_dubins_replan_partial",
    "Props.C107_dubins_replan_interpolate_partial",
    "Props.C107_dubins_replan_false"
   ],
   "note": "Proved for plans that lead exactly to the goal, that is, outside the two tolerance zones of C15. False inside: a goal 6e-7 behind counts as ahead, and at the end of that plan a new plan is not empty."
  },
  {
   "property": "C108",
   "status": "partial",
   "theorems": [
    "Props.C108_rs_replan_partial",
    "Props.C108_rs_replan_interpolate_partial"
   ],
   "note": "Proved for plans whose segments are empty or longer than ten machine epsilons. Missing: segments within the tolerance of the words."
  },
  {
   "property": "C109",
   "status": "proved",
   "theorems": [
    "Props.C109_cc_00",
    "Props.C109_cc_0pm",
    "Props.C109_cc_pm0",
    "Props.C109_cc_pmpm",
    "Props.C109_hc"
   ],
   "note": ""
  },
  {
   "property": "C110",
   "status": "proved",
   "theorems": [
    "Props.C110_distance",
    "Props.C110_controls",
    "Props.C110_controls_all",
    "Props.C110_history"
   ],
   "note": "Model of the pointers only; the outcomes of the comparisons are arbitrary."
  },
  {
   "property": "C111",
   "status": "partial",
   "theorems": [
    "Props.C111_rs_le_dubins_path",
    "Props.C111_rs_le_dubins_partial",
    "Props.C111_rs_le_dubins_false"
   ],
   "note": "Proved for every Dubins path; for the Dubins planner outside the two tolerance zones of C15. False inside: headings that differ by 5e-7 at the same place have Dubins distance 0."
  },
  {
   "property": "C112",
   "status": "partial",
   "theorems": [
    "Props.C112_dubins_optimal",
    "Props.C112_dubins_attained",
    "Props.C112_dubins_is_least_partial",
    "Props.C112_dubins_controls",
    "Props.C112_dubins_attained_false"
   ],
   "note": "Lower bound proved for all states and all curves of bounded curvature; that the distance is attained holds outside the two tolerance zones of C15. False inside: headings that differ by 5e-7 at the same place have distance 0."
  },
  {
   "property": "C113",
   "status": "partial",
   "theorems": [
    "Props.C113_dubins_triangle_partial",
    "Props.C113_dubins_triangle_false"
   ],
   "note": "Proved if both legs of the detour are outside the tolerance zones. False inside: two turns on the spot by 6e-7 cost nothing, one by 12e-7 does."
  },
  {
   "property": "C114",
   "status": "partial",
   "theorems": [
    "Props.C114_dubins_monotone_partial",
    "Props.C114_dubins_monotone_false"
   ],
   "note": "Proved for states outside the tolerance zones of the smaller curvature. False inside: with kappa = 1e-9 a goal 1 m behind counts as reached by driving 1 m ahead."
  },
  {
   "property": "C115",
   "status": "proved",
   "theorems": [
    "Props.C115_rs_le_curve"
   ],
   "note": "All states, all curves of bounded curvature that keep the driving direction."
  },
  {
   "property": "C116",
   "status": "partial",
   "theorems": [
    "Props.C116_cc00_partial",
    "Props.C116_cc00_far_partial",
    "Props.C116_cc0pm_partial",
    "Props.C116_ccpm0_partial",
    "Props.C116_ccpmpm",
    "Props.C116_cc_far_partial",
    "Props.C116_cc00_all",
    "Props.C116_cc0pm_all",
    "Props.C116_ccpm0_all",
    "Props.C116_cc_all",
    "Props.C116_cc00_false"
   ],
   "note": "CCpmpm: all states. With curvature kappa, CC0pm, CCpm0: all but two-turn paths; CC00: all but one- and two-turn paths, hence all states more than four radii apart; CC: states far apart. With the curvature that C126 allows (1.2 % more for kappa = sigma = 1): CC00, CC0pm, CCpm0 all states, CC all states for which the assertion of subtract_control holds. With the goal instead of the end of the path false: 5e-5 m behind the car counts as reached."
  },
  {
   "property": "C117",
   "status": "partial",
   "theorems": [
    "Props.C117_cc_dubins",
    "Props.C117_hc_partial",
    "Props.C117_hc_sharp_partial",
    "Props.C117_hc_only_TcTTcT",
    "Props.C117_hc_counterexample",
    "Props.C117_reeds_shepp",
    "Props.C117_integrate",
    "Props.C117_space",
    "Props.C117_turns"
   ],
   "note": "Proved for the CC-Dubins planners, the words of Reeds-Shepp, turns, constructor and integration. HC-Reeds-Shepp: if the radius of the circles is below 2/kappa, e.g. if sigma >= kappa^2; false otherwise (kappa = 1, sigma = 1e-4: TcTTcT takes the square root of a negative number), but nowhere else than in TcTTcT. CC00-Reeds-Shepp: see C83, C85; Dubins: C19."
  },
  {
   "property": "C118",
   "status": "proved",
   "theorems": [
    "Props.C118_cc0pm_optimal",
    "Props.C118_cc0pm_turn",
    "Props.C118_ccpm0_optimal",
    "Props.C118_ccpm0_turn",
    "Props.C118_ccpmpm_optimal",
    "Props.C118_ccpmpm_turn"
   ],
   "note": "Competitors with at most three parts. CC0pm, CCpm0: the centres of the first and last circle of the competitor are at least 1e-4 apart; CCpmpm: the goal is not on the circle of the start. The one-parameter family of four-turn paths, of which CCpmpm tries two members, is not part of the claim."
  },
  {
   "property": "C119",
   "status": "proved",
   "theorems": [
    "Props.C119_hc00_optimal",
    "Props.C119_hc00_optimal_exact",
    "Props.C119_hc00_turn",
    "Props.C119_hc00_straight",
    "Props.C119_hc0pm_optimal",
    "Props.C119_hc0pm_turn",
    "Props.C119_hcpm0_optimal",
    "Props.C119_hcpm0_turn",
    "Props.C119_hcpmpm_optimal",
    "Props.C119_hcpmpm_turn"
   ],
   "note": "Competitors with at most three parts; words of four and five parts are not part of the claim. HC00: the goal is not on the circle of the first turn of the competitor, single turns only if the goal is not straight ahead or behind, the arc of the middle turn is driven in the direction of the turn; HC0pm, HCpm0: the centres of the first and last circle are at least 1e-4 apart; HCpmpm: the goal is not on the circle of the start. A line between two cusps is not empty, and at least 1e-4 long if both turns are on the same side."
  },
  {
   "property": "C120",
   "status": "proved",
   "theorems": [
    "Props.C120_hc",
    "Props.C120_cc",
    "Props.C120_hc_optimal",
    "Props.C120_cc_optimal_00",
    "Props.C120_cc_optimal_pm"
   ],
   "note": "States up to 1e100 apart. The curvature of start and goal is zero, the maximum, or at least 1e-4 away from both. The competitors with a middle part of at most three turns and lines have to meet the conditions of C68, C118 and C119; with curvature zero on both sides of the middle part the bound holds up to the position error of the clothoids."
  },
  {
   "property": "C121",
   "status": "proved",
   "theorems": [
    "Props.C121_drawing",
    "Props.C121_no_footprint",
    "Props.C121_orientation"
   ],
   "note": "transformFootprint of costmap_2d is modelled as rotation and translation. A zero denominator of the steering angle gives pi/2 as in IEEE arithmetic. Without a footprint back() of an empty vector is called (C121_no_footprint)."
  },
  {
   "property": "C122",
   "status": "proved",
   "theorems": [
    "Props.C122_ellipsoid",
    "Props.C122_failure",
    "Props.C122_every_tenth"
   ],
   "note": "The eigenvalue solver and the conversion of the rotation matrix to a quaternion are external; the first is used by its contract, the second is left out. If the solver reports failure the orientation is the zero matrix (C122_failure)."
  },
  {
   "property": "C123",
   "status": "proved",
   "theorems": [
    "Props.C123_samples",
    "Props.C123_paths"
   ],
   "note": "CuspClear excludes the short clothoids for which CC00-Reeds-Shepp has no controls (C85)."
  },
  {
   "property": "C124",
   "status": "partial",
   "theorems": [
    "Props.C124_hc0pm_le",
    "Props.C124_hcpm0_le",
    "Props.C124_hcpmpm_le_partial",
    "Props.C124_hcpmpm_le_far_partial",
    "Props.C124_hc_le_cc_partial"
   ],
   "note": "HC0pm and HCpm0 in full, for all parameters. HCpmpm unless the CCpmpm path has four turns, which needs states less than eight radii apart; whether one of the cusp families is then always as short is open. HC against CC: likewise, and up to the exclusion of C88 (goal straight in the other direction, where C88 gives the bound up to the tolerance)."
  },
  {
   "property": "C125",
   "status": "proved",
   "theorems": [
    "Props.C125_integrate",
    "Props.C125_integrate_with_covariance",
    "Props.C125_hc_integrate",
    "Props.C125_hc_integrate_continuous",
    "Props.C125_hc_integrate_with_covariance",
    "Props.C125_interpolate",
    "Props.C125_hc_interpolate",
    "Props.C125_dubins",
    "Props.C125_rs",
    "Props.C125_cc00",
    "Props.C125_cc0pm",
    "Props.C125_ccpm0",
    "Props.C125_ccpmpm",
    "Props.C125_hc",
    "Props.C125_cc",
    "Props.C125_hcrs",
    "Props.C125_cc00_rs",
    "Props.C125_overflow_witness"
   ],
   "note": "int of 32 bits; the double values that are counted are real numbers, and memory is not limited. CC00-Reeds-Shepp for the states for which it returns controls (C85)."
  },
  {
   "property": "C126",
   "status": "partial",
   "theorems": [
    "Props.C126_cc00_limits",
    "Props.C126_cc0pm_limits",
    "Props.C126_ccpm0_limits",
    "Props.C126_cc_limits",
    "Props.C126_cc_limits_apart",
    "Props.C126_hc_limits",
    "Props.C126_hcrs_limits_partial",
    "Props.C126_hcrs_limits_near_partial",
    "Props.C126_cc00_rs_limits"
   ],
   "note": "In full for CC00, CC0pm, CCpm0 (CCpmpm: C57), HC00, HC0pm, HCpm0, HCpmpm and CC00-Reeds-Shepp. CC-Dubins: unless the assertion of subtract_control fails (C41); HC-Reeds-Shepp: unless coinciding predicted states cannot be joined (C82). Beyond kappa^2 <= 2 sigma and r <= 1/2 the limits can be exceeded by more (C51_cc00_limits_false has r = 16)."
  },
  {
   "property": "C127",
   "status": "proved",
   "theorems": [
    "Props.C127_cc00",
    "Props.C127_cc_pm",
    "Props.C127_cc",
    "Props.C127_hc",
    "Props.C127_hcrs",
    "Props.C127_cc00_rs"
   ],
   "note": "All planners with clothoids. Real arithmetic; the states at most 1e200 turning radii apart (C20)."
  },
  {
   "property": "C128",
   "status": "proved",
   "theorems": [
    "Props.C128_integrate",
    "Props.C128_hc_integrate",
    "Props.C128_interpolate",
    "Props.C128_hc_interpolate",
    "Props.C128_dubins",
    "Props.C128_rs",
    "Props.C128_cc00",
    "Props.C128_cc0pm",
    "Props.C128_ccpm0",
    "Props.C128_ccpmpm",
    "Props.C128_hc",
    "Props.C128_cc",
    "Props.C128_hcrs",
    "Props.C128_cc00_rs"
   ],
   "note": "All thirteen planners; no assumption that curvature and sharpness are resolved. CC00-Reeds-Shepp whenever it returns controls (C85)."
  },
  {
   "property": "C129",
   "status": "proved",
   "theorems": [
    "Props.C129_rs_cusps",
    "Props.C129_rs_cusps_exact"
   ],
   "note": "All plans up to segments within the tolerance of the code; exact when no segment is that short. Real arithmetic; states at most 1e200 turning radii apart (C20)."
  },
  {
   "property": "C130",
   "status": "partial",
   "theorems": [
    "Props.C130_paths",
    "Props.C130_paths_circle",
    "Props.C130_controls",
    "Props.C130_dubins_partial",
    "Props.C130_dubins_sharp",
    "Props.C130_dubins_false",
    "Props.C130_controls_near",
    "Props.C130_cc00",
    "Props.C130_cc0pm_partial",
    "Props.C130_ccpm0_partial",
    "Props.C130_ccpmpm",
    "Props.C130_cc_partial"
   ],
   "note": "Proved for all paths of bounded curvature and all lists of controls, and for the Dubins planner outside the two tolerance zones of C15; the bound is attained for every curvature. False inside: a goal 0.6 micrometres behind has distance 6e-7 (turning radius 1 m), a goal two micrometres behind more than 6. Planners with continuous curvature: with the curvature of C126 and up to the accuracy with which they reach the goal (C36, C40, C53, C54, C60)."
  },
  {
   "property": "C131",
   "status": "partial",
   "theorems": [
    "Props.C131_controls",
    "Props.C131_rs",
    "Props.C131_rs_spot",
    "Props.C131_dubins",
    "Props.C131_dubins_exact",
    "Props.C131_cc00",
    "Props.C131_cc0pm_partial",
    "Props.C131_ccpm0_partial",
    "Props.C131_ccpmpm",
    "Props.C131_cc_partial",
    "Props.C131_hc",
    "Props.C131_hc_partial",
    "Props.C131_hcrs_partial",
    "Props.C131_cc00_rs_partial"
   ],
   "note": "Proved for Reeds-Shepp (bound and equality on the spot), Dubins (up to its heading tolerance, exactly outside the tolerance zones), CC00, CCpmpm, HC00 and HCpmpm (CoarseEnough parameters except for CCpmpm). CC0pm, CCpm0, CC, HC0pm, HCpm0, HC: unless opposed circles share their centre; CC00-Reeds-Shepp: whenever a path is returned."
  },
  {
   "property": "C132",
   "status": "partial",
   "theorems": [
    "Props.C132_controls",
    "Props.C132_rs",
    "Props.C132_rs_parking",
    "Props.C132_dubins_partial",
    "Props.C132_cc00",
    "Props.C132_cc0pm_partial",
    "Props.C132_ccpm0_partial",
    "Props.C132_ccpmpm",
    "Props.C132_cc_partial",
    "Props.C132_hc",
    "Props.C132_hc_partial",
    "Props.C132_hcrs_partial",
    "Props.C132_cc00_rs_partial"
   ],
   "note": "Proved for all controls of bounded curvature and for Reeds-Shepp (both bounds). Dubins: outside the tolerance zones of C15. Planners with clothoids: with the curvature of C126 and up to the accuracy with which they reach the goal, under the conditions of the theorems on reaching the goal (C36, C40, C53, C54, C60, C69, C70, C76, C83)."
  },
  {
   "property": "C133",
   "status": "partial",
   "theorems": [
    "Props.C133_integrate",
    "Props.C133_hc_integrate",
    "Props.C133_rs",
    "Props.C133_dubins",
    "Props.C133_cc00",
    "Props.C133_cc0pm",
    "Props.C133_ccpm0",
    "Props.C133_ccpmpm",
    "Props.C133_cc_far",
    "Props.C133_hc",
    "Props.C133_hcrs",
    "Props.C133_cc00_rs",
    "Props.C133_continuous",
    "Props.C133_unresolved_false"
   ],
   "note": "Proved for all controls that the integration resolves, for Reeds-Shepp and Dubins with kappa above 1e-4, and for all planners with clothoids if no control has a sharpness that the integration neglects, with the exceptions of C40, C53, C70, C76, C83 (CC-Dubins for states far apart). False for curvature at most 1e-4: half a circle is integrated as a straight line."
  },
  {
   "property": "C134",
   "status": "partial",
   "theorems": [
    "Props.C134_clear",
    "Props.C134_rs",
    "Props.C134_dubins",
    "Props.C134_cc00",
    "Props.C134_hc",
    "Props.C134_tight"
   ],
   "note": "Proved for all paths covered by their states (C133), for Reeds-Shepp and Dubins with kappa above 1e-4, for CC00-Dubins and the four HC planners under the conditions of C133; the other planners by C134_clear from their theorems of C133. At or below 1e-4 C133 is false."
  },
  {
   "property": "C135",
   "status": "proved",
   "theorems": [
    "Props.C135_rs",
    "Props.C135_rs_arc",
    "Props.C135_dubins_arc",
    "Props.C135_dubins_arc_backwards"
   ],
   "note": "Reeds-Shepp exactly; Dubins as stated, with the tolerance zones of C15."
  },
  {
   "property": "C136",
   "status": "proved",
   "theorems": [
    "Props.C136_rs",
    "Props.C136_dubins"
   ],
   "note": "Both directions of the equivalence; Dubins outside the two tolerance zones of C15, as stated."
  },
  {
   "property": "C137",
   "status": "proved",
   "theorems": [
    "Props.C137_cc00",
    "Props.C137_cc00_rs",
    "Props.C137_hc00",
    "Props.C137_cc",
    "Props.C137_hc"
   ],
   "note": "Exactly as stated; CC00-Dubins in its driving direction."
  },
  {
   "property": "C138",
   "status": "partial",
   "theorems": [
    "Props.C138_rs",
    "Props.C138_dubins",
    "Props.C138_cc00",
    "Props.C138_ccpmpm",
    "Props.C138_hc_fixed",
    "Props.C138_cc00_rs",
    "Props.C138_hc",
    "Props.C138_cc_partial",
    "Props.C138_cc_false",
    "Props.C138_cc_false_all"
   ],
   "note": "False for CC-Dubins with a curvature between zero and the maximum: start and goal are predicted apart, so that a path of at least the two changes of curvature is driven (C138_cc_false_all for all such states; C138_cc_false: at least 1 for kappa = sigma = 1). Proved for CC-Dubins with curvature zero or the maximum and for all other planners, HC-Reeds-Shepp with any curvature."
  },
  {
   "property": "C139",
   "status": "proved",
   "theorems": [
    "Props.C139_rs",
    "Props.C139_dubins",
    "Props.C139_cc00",
    "Props.C139_cc0pm",
    "Props.C139_ccpm0",
    "Props.C139_ccpmpm",
    "Props.C139_cc",
    "Props.C139_cc00_rs",
    "Props.C139_hc_fixed",
    "Props.C139_hc"
   ],
   "note": "For all planners; CC-Dubins and HC-Reeds-Shepp with the existence of the distance for states in reach. Dubins for states not further apart than 10^200 turning radii."
  }
 ]
}