{
 "claims": [
  {
   "property": "C01",
   "status": "proved",
   "theorems": [
    "Verif.C01_new_accepts_exactly_real_dates"
   ],
   "note": ""
  },
  {
   "property": "C02",
   "status": "proved",
   "theorems": [
    "Verif.C02_to_julian_counts_days",
    "Verif.C02_to_julian_next_day"
   ],
   "note": ""
  },
  {
   "property": "C03",
   "status": "proved",
   "theorems": [
    "Verif.C03_to_julian_overflow"
   ],
   "note": ""
  },
  {
   "property": "C04",
   "status": "proved",
   "theorems": [
    "Verif.C04_round_trip"
   ],
   "note": ""
  },
  {
   "property": "C05",
   "status": "proved",
   "theorems": [
    "Verif.C05_from_julian_instant"
   ],
   "note": ""
  },
  {
   "property": "C06",
   "status": "proved",
   "theorems": [
    "Verif.C06_from_julian_exact",
    "Verif.C06_from_julian_sum_only"
   ],
   "note": ""
  },
  {
   "property": "C07",
   "status": "proved",
   "theorems": [
    "Verif.C07_fraction_below_one_false",
    "Verif.C07_fraction_le_one_partial",
    "Verif.C07_fraction_below_one_mjd"
   ],
   "note": "The expectation f < 1 is false; the negation is proved with a witness, and 0 <= f <= 1 for every finite input, f < 1 for every pair in the Modified Julian Date form."
  },
  {
   "property": "C08",
   "status": "proved",
   "theorems": [
    "Verif.C08_range_check",
    "Verif.C08_nan_accepted"
   ],
   "note": "NaN is a single value in the model (payload not modelled)."
  },
  {
   "property": "C09",
   "status": "proved",
   "theorems": [
    "Verif.C09_from_julian_overflow",
    "Verif.C09_exact_threshold"
   ],
   "note": ""
  },
  {
   "property": "C10",
   "status": "proved",
   "theorems": [
    "Verif.C10_from_julian_accepted_by_new",
    "Verif.C10_from_julian_accepted_f64",
    "Verif.C10_from_julian_rejected_f64"
   ],
   "note": ""
  },
  {
   "property": "C11",
   "status": "proved",
   "theorems": [
    "Verif.C11_from_julian_comm"
   ],
   "note": ""
  },
  {
   "property": "C12",
   "status": "proved",
   "theorems": [
    "Verif.C12_to_julian_monotone",
    "Verif.C12_from_julian_monotone"
   ],
   "note": ""
  },
  {
   "property": "C13",
   "status": "proved",
   "theorems": [
    "Verif.C13_fields_in_range",
    "Verif.C13_bad_fract"
   ],
   "note": ""
  },
  {
   "property": "C14",
   "status": "proved",
   "theorems": [
    "Verif.C14_fraction_round_trip_f64",
    "Verif.C14_fraction_round_trip_exact"
   ],
   "note": ""
  },
  {
   "property": "C15",
   "status": "proved",
   "theorems": [
    "Verif.C15_hms_round_trip_exact",
    "Verif.C15_hms_round_trip_f64_false",
    "Verif.C15_hms_round_trip_f64_partial",
    "Verif.C15_hour_and_minute_kept"
   ],
   "note": "Exact arithmetic: proved. f64: field-by-field round trip is false (witness); total seconds preserved to 3*2^-37, hour and minute kept away from the ends of the minute."
  },
  {
   "property": "C16",
   "status": "proved",
   "theorems": [
    "Verif.C16_julian_round_trip_exact",
    "Verif.C16_civil_round_trip_exact",
    "Verif.C16_from_julian_f64"
   ],
   "note": ""
  },
  {
   "property": "C17",
   "status": "proved",
   "theorems": [
    "Verif.C17_display_iso",
    "Verif.C17_display_sortable",
    "Verif.C17_display_injective"
   ],
   "note": ""
  },
  {
   "property": "C18",
   "status": "proved",
   "theorems": [
    "Verif.C18_delta_at_errors",
    "Verif.C18_bad_fract_value"
   ],
   "note": ""
  },
  {
   "property": "C19",
   "status": "proved",
   "theorems": [
    "Verif.C19_delta_at_in_force_partial",
    "Verif.C19_step_month_uses_previous",
    "Verif.C19_leap_second_one_month_late",
    "Verif.C19_first_month"
   ],
   "note": "The user's expectation is false; the negation is proved for every step month (one second short in every leap-second month), and the positive statement for every other month."
  },
  {
   "property": "C20",
   "status": "proved",
   "theorems": [
    "Verif.C20_delta_at_integer",
    "Verif.C20_delta_at_monotone",
    "Verif.C20_delta_at_overflow",
    "Verif.C20_delta_at_wraps"
   ],
   "note": ""
  },
  {
   "property": "C21",
   "status": "proved",
   "theorems": [
    "Verif.C21_delta_at_linear",
    "Verif.C21_delta_at_linear_f64"
   ],
   "note": ""
  },
  {
   "property": "C22",
   "status": "proved",
   "theorems": [
    "Verif.C22_tai_to_tt_exact",
    "Verif.C22_tai_to_tt_f64"
   ],
   "note": ""
  },
  {
   "property": "C23",
   "status": "proved",
   "theorems": [
    "Verif.C23_utc_to_tai_exact",
    "Verif.C23_utc_to_tai_f64"
   ],
   "note": ""
  },
  {
   "property": "C24",
   "status": "proved",
   "theorems": [
    "Verif.C24_shift_exact",
    "Verif.C24_inverse_total",
    "Verif.C24_inverse_parts",
    "Verif.C24_shift_f64"
   ],
   "note": ""
  },
  {
   "property": "C25",
   "status": "proved",
   "theorems": [
    "Verif.C25_tt_to_tdb_exact",
    "Verif.C25_tdb_zero_f64",
    "Verif.C25_tt_to_tdb_f64"
   ],
   "note": ""
  },
  {
   "property": "C26",
   "status": "proved",
   "theorems": [
    "Verif.C26_anp_exact",
    "Verif.C26_anp_unique",
    "Verif.C26_anp_idempotent",
    "Verif.C26_anp_f64_partial",
    "Verif.C26_anp_half_open_false",
    "Verif.C26_anp_two_pi_iff"
   ],
   "note": "f64: the half-open range is refuted by a witness; the closed range is proved for every finite argument, and exactly when the end is reached."
  },
  {
   "property": "C27",
   "status": "proved",
   "theorems": [
    "Verif.C27_angle_cos",
    "Verif.C27_angle_symm",
    "Verif.C27_angle_scale",
    "Verif.C27_angle_self",
    "Verif.C27_angle_symm_f64"
   ],
   "note": ""
  },
  {
   "property": "C28",
   "status": "proved",
   "theorems": [
    "Verif.C28_angle_self_nan"
   ],
   "note": ""
  },
  {
   "property": "C29",
   "status": "proved",
   "theorems": [
    "Verif.C29_rotation_neg_f64",
    "Verif.C29_rotation_orthogonal",
    "Verif.C29_rotation_fixes_axis",
    "Verif.C29_rotation_neg",
    "Verif.C29_rotation_add",
    "Verif.C29_rotation_direction",
    "Verif.C29_rotation_axis_panics"
   ],
   "note": ""
  },
  {
   "property": "C30",
   "status": "proved",
   "theorems": [
    "Verif.C30_transpose_f64",
    "Verif.C30_compose_is_product",
    "Verif.C30_compose_laws",
    "Verif.C30_apply_is_transposed_product",
    "Verif.C30_apply_compose",
    "Verif.C30_apply_not_product",
    "Verif.C30_apply_rotation"
   ],
   "note": ""
  },
  {
   "property": "C31",
   "status": "proved",
   "theorems": [
    "Verif.C31_fundamental_arguments",
    "Verif.C31_less_than_two_turns",
    "Verif.C31_not_within_one_turn",
    "Verif.C31_planet_longitudes"
   ],
   "note": ""
  },
  {
   "property": "C32",
   "status": "proved",
   "theorems": [
    "Verif.C32_earth_rotation_angle",
    "Verif.C32_split_independent",
    "Verif.C32_period"
   ],
   "note": ""
  },
  {
   "property": "C33",
   "status": "proved",
   "theorems": [
    "Verif.C33_rotation_angle_comm",
    "Verif.C33_rotation_angle_range",
    "Verif.C33_rotation_angle_finite"
   ],
   "note": ""
  },
  {
   "property": "C34",
   "status": "proved",
   "theorems": [
    "Verif.C34_velocity_is_derivative"
   ],
   "note": ""
  },
  {
   "property": "C35",
   "status": "proved",
   "theorems": [
    "Verif.C35_split_independent",
    "Verif.C35_warning_iff"
   ],
   "note": ""
  },
  {
   "property": "C36",
   "status": "proved",
   "theorems": [
    "Verif.C36_distance",
    "Verif.C36_sun_offset"
   ],
   "note": ""
  },
  {
   "property": "C37",
   "status": "proved",
   "theorems": [
    "Verif.C37_no_panic",
    "Verif.C37_tables_match_fortran"
   ],
   "note": ""
  },
  {
   "property": "C38",
   "status": "proved",
   "theorems": [
    "Verif.C38_bias_and_precession",
    "Verif.C38_nutation_matrix",
    "Verif.C38_precession_nutation",
    "Verif.C38_celestial_to_intermediate",
    "Verif.C38_polar_motion",
    "Verif.C38_celestial_to_terrestrial"
   ],
   "note": ""
  },
  {
   "property": "C39",
   "status": "proved",
   "theorems": [
    "Verif.C39_third_row",
    "Verif.C39_pole",
    "Verif.C39_celestial_to_intermediate",
    "Verif.C39_within_century"
   ],
   "note": ""
  },
  {
   "property": "C40",
   "status": "proved",
   "theorems": [
    "Verif.C40_precession_at_epoch",
    "Verif.C40_zero_nutation"
   ],
   "note": ""
  },
  {
   "property": "C41",
   "status": "proved",
   "theorems": [
    "Verif.C41_nutation_bounded"
   ],
   "note": ""
  },
  {
   "property": "C42",
   "status": "proved",
   "theorems": [
    "Verif.C42_split_independent"
   ],
   "note": ""
  },
  {
   "property": "C43",
   "status": "proved",
   "theorems": [
    "Verif.C43_product",
    "Verif.C43_polar_motion",
    "Verif.C43_period",
    "Verif.C43_polar_motion_general"
   ],
   "note": ""
  },
  {
   "property": "C44",
   "status": "proved",
   "theorems": [
    "Verif.C44_cio"
   ],
   "note": ""
  },
  {
   "property": "C45",
   "status": "proved",
   "theorems": [
    "Verif.C45_new_ok_iff",
    "Verif.C45_new_errors",
    "Verif.C45_new_f64_witnesses",
    "Verif.C45_new_f64_ok",
    "Verif.C45_ellipsoid"
   ],
   "note": "f64: BadEccentricity and NaN acceptance by witness; success for every f in [0, 0.9999] and every radius not below zero."
  },
  {
   "property": "C46",
   "status": "proved",
   "theorems": [
    "Verif.C46_geocentric"
   ],
   "note": ""
  },
  {
   "property": "C47",
   "status": "proved",
   "theorems": [
    "Verif.C47_surface_round_trip",
    "Verif.C47_sphere_round_trip",
    "Verif.C47_equator_round_trip",
    "Verif.C47_pole_round_trip"
   ],
   "note": ""
  },
  {
   "property": "C48",
   "status": "proved",
   "theorems": [
    "Verif.C48_reflect",
    "Verif.C48_longitude",
    "Verif.C48_axial_symmetry",
    "Verif.C48_axis",
    "Verif.C48_ranges",
    "Verif.C48_reflect_f64",
    "Verif.C48_nan_witness"
   ],
   "note": "A NaN result inside the ellipsoid is exhibited (finding)."
  },
  {
   "property": "C49",
   "status": "proved",
   "theorems": [
    "Verif.C49_range",
    "Verif.C49_round_trip"
   ],
   "note": ""
  },
  {
   "property": "C50",
   "status": "proved",
   "theorems": [
    "Verif.C50_north_pole_flips",
    "Verif.C50_latitude_kept_partial",
    "Verif.C50_flips_iff_f64"
   ],
   "note": "The user's expectation is false at the north pole; the negation is proved in exact arithmetic and f64, the positive statement for all other latitudes; in f64 exactly two latitudes are moved."
  },
  {
   "property": "C51",
   "status": "proved",
   "theorems": [
    "Verif.C51_assertions_iff",
    "Verif.C51_no_panic",
    "Verif.C51_witnesses"
   ],
   "note": "Exact panic condition proved; the documented range lon < 180 is refuted by a witness."
  },
  {
   "property": "C52",
   "status": "proved",
   "theorems": [
    "Verif.C52_new_exact",
    "Verif.C52_new_f64",
    "Verif.C52_position_ok",
    "Verif.C52_overflow",
    "Verif.C52_nan_seconds"
   ],
   "note": "Exact panic condition in exact arithmetic and in f64 for every libm; NaN seconds are accepted (finding)."
  },
  {
   "property": "C53",
   "status": "proved",
   "theorems": [
    "Verif.C53_sun_zenith_angle",
    "Verif.C53_sun_distance"
   ],
   "note": ""
  },
  {
   "property": "C54",
   "status": "proved",
   "theorems": [
    "Verif.C54_offset_is_shift",
    "Verif.C54_same_delta_at",
    "Verif.C54_drift_years"
   ],
   "note": "The delta AT condition holds automatically outside 1960-01..1972-01; inside, delta AT differs by rate times shift (proved)."
  },
  {
   "property": "C55",
   "status": "proved",
   "theorems": [
    "Verif.C55_scan_f64_any",
    "Verif.C55_scan_to_infinity",
    "Verif.C55_scan_nan_bound",
    "Verif.C55_scan_nan_step",
    "Verif.C55_scan_exact",
    "Verif.C55_scan_never_stops",
    "Verif.C55_no_scan",
    "Verif.C55_scan_f64_stops_iff",
    "Verif.C55_scan_f64_stuck",
    "Verif.C55_scan_f64_exact"
   ],
   "note": "Exact arithmetic and f64 (termination iff, exact dyadic scans)."
  },
  {
   "property": "C56",
   "status": "proved",
   "theorems": [
    "Verif.C56_hms_display"
   ],
   "note": ""
  },
  {
   "property": "C57",
   "status": "proved",
   "theorems": [
    "Verif.C57_rotation_angle_accuracy"
   ],
   "note": ""
  },
  {
   "property": "C58",
   "status": "proved",
   "theorems": [
    "Verif.C58_height_consistent"
   ],
   "note": ""
  },
  {
   "property": "C59",
   "status": "proved",
   "theorems": [
    "Verif.C59_round_trip_accuracy",
    "Verif.C59_wgs84"
   ],
   "note": "Exact arithmetic: method error, not rounding error."
  },
  {
   "property": "C60",
   "status": "proved",
   "theorems": [
    "Verif.C60_time_scales_exact",
    "Verif.C60_time_scales_f64"
   ],
   "note": ""
  },
  {
   "property": "C61",
   "status": "proved",
   "theorems": [
    "Verif.C61_constants_exact",
    "Verif.C61_constants_f64",
    "Verif.C61_time_constants"
   ],
   "note": ""
  },
  {
   "property": "C62",
   "status": "proved",
   "theorems": [
    "Verif.C62_wgs84_exact",
    "Verif.C62_wgs84_f64"
   ],
   "note": ""
  },
  {
   "property": "C63",
   "status": "proved",
   "theorems": [
    "Verif.C63_cio_matrix"
   ],
   "note": ""
  },
  {
   "property": "C64",
   "status": "proved",
   "theorems": [
    "Verif.C64_bias_precession_nutation"
   ],
   "note": ""
  },
  {
   "property": "C65",
   "status": "proved",
   "theorems": [
    "Verif.C65_nutation_series"
   ],
   "note": ""
  },
  {
   "property": "C66",
   "status": "proved",
   "theorems": [
    "Verif.C66_locator_series"
   ],
   "note": ""
  },
  {
   "property": "C67",
   "status": "proved",
   "theorems": [
    "Verif.C67_nutation_f64",
    "Verif.C67_matrices_f64",
    "Verif.C67_celestial_to_terrestrial_f64"
   ],
   "note": "Conditional on the library accuracy hypothesis LibmAcc (2^-50 absolute), shown satisfiable."
  },
  {
   "property": "C68",
   "status": "proved",
   "theorems": [
    "Verif.C68_ephemeris_f64",
    "Verif.C68_warning_f64"
   ],
   "note": "Conditional on the library accuracy hypothesis LibmAcc (2^-50 absolute), shown satisfiable."
  },
  {
   "property": "C69",
   "status": "proved",
   "theorems": [
    "Verif.C69_commutative_f64",
    "Verif.C69_vector_group",
    "Verif.C69_vector_sub_f64",
    "Verif.C69_norm_normalize_f64",
    "Verif.C69_angle_f64"
   ],
   "note": "The accuracy of angle (not of norm, normalize and the cosine) is conditional on LibmAcc, shown satisfiable."
  },
  {
   "property": "C70",
   "status": "proved",
   "theorems": [
    "Verif.C70_total_f64",
    "Verif.C70_total_conversions"
   ],
   "note": ""
  },
  {
   "property": "C71",
   "status": "proved",
   "theorems": [
    "Verif.C71_zenith_f64",
    "Verif.C71_geocentric_f64"
   ],
   "note": "Conditional on the library accuracy hypothesis LibmAcc (2^-50 absolute), shown satisfiable."
  },
  {
   "property": "C72",
   "status": "proved",
   "theorems": [
    "Verif.C72_sun_angle_f64",
    "Verif.C72_sun_angle_everywhere"
   ],
   "note": "Conditional on the library accuracy hypothesis LibmAcc (2^-50 absolute), shown satisfiable."
  },
  {
   "property": "C73",
   "status": "proved",
   "theorems": [
    "Verif.C73_position_text",
    "Verif.C73_radians_text"
   ],
   "note": ""
  },
  {
   "property": "C74",
   "status": "proved",
   "theorems": [
    "Verif.C74_date_text",
    "Verif.C74_date_injective",
    "Verif.C74_time_text",
    "Verif.C74_time_text_not_finite",
    "Verif.C74_moment_text"
   ],
   "note": ""
  },
  {
   "property": "C75",
   "status": "proved",
   "theorems": [
    "Verif.C75_printed_report"
   ],
   "note": "Conditional on the library accuracy hypothesis LibmAcc (2^-50 absolute), shown satisfiable."
  },
  {
   "property": "C76",
   "status": "proved",
   "theorems": [
    "Verif.C76_gregorian_text",
    "Verif.C76_gregorian_stops"
   ],
   "note": ""
  },
  {
   "property": "C77",
   "status": "proved",
   "theorems": [
    "Verif.C77_outcomes",
    "Verif.C77_moment_error",
    "Verif.C77_julian_text",
    "Verif.C77_julian_stops",
    "Verif.C77_round_trip"
   ],
   "note": "Rust's {} on f64 (shortest digits) is a parameter; only that it prints no newline is assumed. Parsing is assumed correctly rounded in the round trip."
  },
  {
   "property": "C78",
   "status": "proved",
   "theorems": [
    "Verif.C78_scan_text_any",
    "Verif.C78_single_text",
    "Verif.C78_scan_text",
    "Verif.C78_silent_ends"
   ],
   "note": "Conditional on LibmAcc, shown satisfiable. Argument parsing is not modelled."
  },
  {
   "property": "C79",
   "status": "proved",
   "theorems": [
    "Verif.C79_geodetic_f64"
   ],
   "note": "Conditional on LibmAcc and on atan within 2^-50 at every finite argument, shown satisfiable together."
  },
  {
   "property": "C80",
   "status": "proved",
   "theorems": [
    "Verif.C80_geodetic_coordinates_f64",
    "Verif.C80_every_point",
    "Verif.C80_height_f64"
   ],
   "note": "Conditional on LibmAcc and on atan within 2^-50 at every finite argument, shown satisfiable together."
  },
  {
   "property": "C81",
   "status": "proved",
   "theorems": [
    "Verif.C81_round_trip_f64",
    "Verif.C81_degrees",
    "Verif.C81_near_surface",
    "Verif.C81_height_f64",
    "Verif.C81_near_surface_height"
   ],
   "note": "Conditional on LibmAcc and on atan within 2^-50 at every finite argument, shown satisfiable together."
  },
  {
   "property": "C82",
   "status": "proved",
   "theorems": [
    "Verif.C82_test_ellipsoid_iter",
    "Verif.C82_test_ellipsoid",
    "Verif.C82_test_hms",
    "Verif.C82_test_rotation",
    "Verif.C82_test_calendar"
   ],
   "note": "test_rotation is conditional on LibmAcc, test_ellipsoid also on LibmRel and atan within 2^-50, shown satisfiable together."
  },
  {
   "property": "C83",
   "status": "proved",
   "theorems": [
    "Verif.C83_mean_sun",
    "Verif.C83_above_below",
    "Verif.C83_above_below_f64"
   ],
   "note": "Exact arithmetic unconditional; the f64 part is conditional on LibmAcc (2^-50 absolute), shown satisfiable, and the angle (not the cosine) on the f64 cosine not exceeding one in magnitude, which is acos's domain."
  },
  {
   "property": "C84",
   "status": "proved",
   "theorems": [
    "Verif.C84_noon_and_midnight",
    "Verif.C84_noon_and_midnight_f64",
    "Verif.C84_polar_seasons",
    "Verif.C84_polar_seasons_f64"
   ],
   "note": "Exact arithmetic unconditional; the f64 part is conditional on LibmAcc (2^-50 absolute), shown satisfiable, and the angle (not the cosine) on the f64 cosine not exceeding one in magnitude, which is acos's domain."
  },
  {
   "property": "C85",
   "status": "proved",
   "theorems": [
    "Verif.C85_parse_f64",
    "Verif.C85_parse_f64_exp",
    "Verif.C85_parse_f64_accepts",
    "Verif.C85_parse_f64_forms",
    "Verif.C85_parse_int"
   ],
   "note": "A property of the model of the standard library's number parsing, which is written from its documentation."
  },
  {
   "property": "C86",
   "status": "proved",
   "theorems": [
    "Verif.C86_shortest",
    "Verif.C86_read_back",
    "Verif.C86_characters",
    "Verif.C86_julian_fraction"
   ],
   "note": "A property of the model of `{}` on f64, which is written from its documentation, and of the tool that uses it."
  },
  {
   "property": "C87",
   "status": "proved",
   "theorems": [
    "Verif.C87_gregorian_args",
    "Verif.C87_julian_args",
    "Verif.C87_sun_angle_args",
    "Verif.C87_order",
    "Verif.C87_rejected",
    "Verif.C87_round_trip",
    "Verif.C87_sun_report"
   ],
   "note": "pico_args 0.5 is modelled with default features (values as the next argument; its `--key=value` form is an optional feature)."
  },
  {
   "property": "C88",
   "status": "proved",
   "theorems": [
    "Verif.C88_defaults_agree",
    "Verif.C88_no_arguments",
    "Verif.C88_default_day_and_night"
   ],
   "note": "The report and the day and night are conditional on LibmAcc (2^-50 absolute), shown satisfiable."
  },
  {
   "property": "C89",
   "status": "proved",
   "theorems": [
    "Verif.C89_speed",
    "Verif.C89_areal"
   ],
   "note": "Exact arithmetic; the f64 velocity is within the bound of C68 of it."
  },
  {
   "property": "C90",
   "status": "proved",
   "theorems": [
    "Verif.C90_zenith_angle_rate",
    "Verif.C90_every_angle_between",
    "Verif.C90_sunrise_and_sunset",
    "Verif.C90_zenith_angle_rate_f64"
   ],
   "note": "The f64 rate is conditional on LibmAcc (2^-50 absolute), shown satisfiable."
  },
  {
   "property": "C91",
   "status": "proved",
   "theorems": [
    "Verif.C91_morning_and_afternoon",
    "Verif.C91_one_sunrise_one_sunset",
    "Verif.C91_one_sunrise_one_sunset_f64"
   ],
   "note": "One sunrise: uniqueness to within 1e-11 s, since the decimal 2 pi of the code makes the exact angle jump by about 1e-20 rad. The f64 statement is conditional on LibmAcc (2^-50 absolute), shown satisfiable."
  },
  {
   "property": "C92",
   "status": "proved",
   "theorems": [
    "Verif.C92_tropics",
    "Verif.C92_tropics_f64",
    "Verif.C92_equator",
    "Verif.C92_equator_f64"
   ],
   "note": "The f64 statements are conditional on LibmAcc (2^-50 absolute), shown satisfiable."
  },
  {
   "property": "C93",
   "status": "proved",
   "theorems": [
    "Verif.C93_field_half_unit",
    "Verif.C93_fifteen_digits",
    "Verif.C93_field_exact",
    "Verif.C93_dump_array",
    "Verif.C93_dump_is_tables",
    "Verif.C93_three_digit_exponents",
    "Verif.C93_not_every_number",
    "Verif.C93_three_digit_text",
    "Verif.C93_fields_fit",
    "Verif.C93_field_width_exact"
   ],
   "note": "gfortran's E edit descriptor and the zero fill of static arrays are modelled, not derived from a source. Includes two negative results on numbers outside the tables."
  },
  {
   "property": "C94",
   "status": "proved",
   "theorems": [
    "Verif.C94_compare_numbers",
    "Verif.C94_compare_finite",
    "Verif.C94_compare_matrices",
    "Verif.C94_data_tests",
    "Verif.C94_test_rotation_angle",
    "Verif.C94_test_precession_rate",
    "Verif.C94_test_time_scales",
    "Verif.C94_zero_offsets",
    "Verif.C94_test_geodetic_display",
    "Verif.C94_test_delta_at",
    "Verif.C94_test_calendar",
    "Verif.C94_test_hms",
    "Verif.C94_test_rotation",
    "Verif.C94_test_earth",
    "Verif.C94_nan_library"
   ],
   "note": "test_rotation is conditional on LibmAcc (2^-50 absolute), shown satisfiable. Includes the negative result that the tests cannot detect NaN. The eight tests that compare libm results with a table to 2^-52 are characterised, not proved to pass, since that depends on the library."
  },
  {
   "property": "C95",
   "status": "proved",
   "theorems": [
    "Verif.C95_three_digit_text",
    "Verif.C95_fields_fit",
    "Verif.C95_list_directed",
    "Verif.C95_matrix_entry",
    "Verif.C95_three_digit_exponents",
    "Verif.C95_test_data",
    "Verif.C95_one_reading",
    "Verif.C95_nothing_lost"
   ],
   "note": "The SOFA library and the random numbers are arbitrary. List-directed output is modelled as gfortran does it; tools/check_test_data.py writes test_data.rs again from its values with the same formats and gets the same bytes."
  },
  {
   "property": "C96",
   "status": "proved",
   "theorems": [
    "Verif.C96_half_days",
    "Verif.C96_culmination",
    "Verif.C96_half_days_f64"
   ],
   "note": "The f64 statement is conditional on LibmAcc (2^-50 absolute), shown satisfiable."
  },
  {
   "property": "C97",
   "status": "proved",
   "theorems": [
    "Verif.C97_twelve_hours_apart",
    "Verif.C97_long_and_short_days",
    "Verif.C97_long_and_short_days_f64"
   ],
   "note": "The f64 statement is conditional on LibmAcc (2^-50 absolute), shown satisfiable. The fortnight around each equinox is left open on purpose: the lengths differ too little there for the error bounds."
  },
  {
   "property": "C98",
   "status": "proved",
   "theorems": [
    "Verif.C98_nutation_loop",
    "Verif.C98_locator_loop",
    "Verif.C98_bounds_are_tight"
   ],
   "note": "Indices that are constants inside a row of fixed size are not checked (the compiler does)."
  },
  {
   "property": "C99",
   "status": "proved",
   "theorems": [
    "Verif.C99_icrf_axes",
    "Verif.C99_distance_and_speed",
    "Verif.C99_icrf_axes_f64"
   ],
   "note": "The f64 statement is conditional on LibmAcc (2^-50 absolute), shown satisfiable."
  },
  {
   "property": "C100",
   "status": "proved",
   "theorems": [
    "Verif.C100_between",
    "Verif.C100_noon_and_midnight",
    "Verif.C100_between_f64",
    "Verif.C100_noon_f64"
   ],
   "note": "Noon is that of local mean solar time. The f64 statements are conditional on LibmAcc (2^-50 absolute), shown satisfiable, and on 24 degrees of latitude or more (nearer the equator the program can return NaN, see C28)."
  },
  {
   "property": "C101",
   "status": "proved",
   "theorems": [
    "Verif.C101_times_exact",
    "Verif.C101_times_f64",
    "Verif.C101_ut1_noon",
    "Verif.C101_ut1_later",
    "Verif.C101_text_nothing_lost",
    "Verif.C101_labels",
    "Verif.C101_headings"
   ],
   "note": "iau_CAL2JD, iau_DAT, iau_C2T00B and iau_EPV00 are not in the repository: day number, delta AT, matrix and position are arguments."
  },
  {
   "property": "C102",
   "status": "proved",
   "theorems": [
    "Verif.C102_ranges",
    "Verif.C102_bounds_attained",
    "Verif.C102_single_literal",
    "Verif.C102_data_show_it",
    "Verif.C102_every_run",
    "Verif.C102_each_draw_once",
    "Verif.C102_rows"
   ],
   "note": "random_number is modelled as gfortran has it (a multiple of 2^-53 below 1), the SOFA functions are arguments; products and sums are rounded separately."
  },
  {
   "property": "C103",
   "status": "proved",
   "theorems": [
    "Verif.C103_distance",
    "Verif.C103_nearest_and_farthest",
    "Verif.C103_nearest_and_farthest_f64"
   ],
   "note": "The mean elements are those of the published table used for C83."
  },
  {
   "property": "C104",
   "status": "proved",
   "theorems": [
    "Verif.C104_unreal_date",
    "Verif.C104_refused_julian",
    "Verif.C104_i32_messages",
    "Verif.C104_u8_messages",
    "Verif.C104_f64_messages",
    "Verif.C104_option_messages",
    "Verif.C104_i32_reason",
    "Verif.C104_u8_reason",
    "Verif.C104_same_numbers",
    "Verif.C104_messages_distinct",
    "Verif.C104_text_arguments",
    "Verif.C104_gregorian_first_error",
    "Verif.C104_julian_first_error",
    "Verif.C104_sun_angle_first_error",
    "Verif.C104_no_text",
    "Verif.C104_gregorian_ignores_no_text",
    "Verif.C104_status"
   ],
   "note": "The texts of pico_args, of the standard library and of anyhow are assumptions; what a panic writes is a parameter."
  },
  {
   "property": "C105",
   "status": "proved",
   "theorems": [
    "Verif.C105_between_solstices",
    "Verif.C105_between_solstices_f64",
    "Verif.C105_noon"
   ],
   "note": "The days of the solstices themselves, 19 to 23 June and 19 to 24 December, are left out."
  },
  {
   "property": "C106",
   "status": "proved",
   "theorems": [
    "Verif.C106_equation_of_time",
    "Verif.C106_sundial",
    "Verif.C106_sundial_f64"
   ],
   "note": "About ten days around each of the four dates on which the equation of time vanishes are left out of the signs, not of the range."
  },
  {
   "property": "C107",
   "status": "proved",
   "theorems": [
    "Verif.C107_place_only",
    "Verif.C107_subsolar_point",
    "Verif.C107_two_places",
    "Verif.C107_antipode_f64"
   ],
   "note": "In binary64 the angles themselves are compared where the sine of the exact angle is at least 1/2000, the cosines everywhere."
  },
  {
   "property": "C108",
   "status": "proved",
   "theorems": [
    "Verif.C108_same_moment",
    "Verif.C108_other_date",
    "Verif.C108_same_moment_f64"
   ],
   "note": "Dates from 1960 to January 1972 are covered by the bound in terms of the difference of delta AT, not by a fixed number."
  },
  {
   "property": "C109",
   "status": "proved",
   "theorems": [
    "Verif.C109_height_is_distance",
    "Verif.C109_injective",
    "Verif.C109_bound_needed",
    "Verif.C109_height_is_distance_f64",
    "Verif.C109_height_of_point_f64"
   ],
   "note": "Exact statements over the reals, with the bound on the height shown to be the right one below the equator. Binary64 statements for WGS84 with a library accurate to 2^-50."
  },
  {
   "property": "C110",
   "status": "proved",
   "theorems": [
    "Verif.C110_tai_order",
    "Verif.C110_order_reversed",
    "Verif.C110_tai_order_f64",
    "Verif.C110_pairs_f64"
   ],
   "note": "The steps back themselves are those of the published table (1961 and 1968) and, in February 1962, an effect of the month late change of rate."
  },
  {
   "property": "C111",
   "status": "proved",
   "theorems": [
    "Verif.C111_meridian",
    "Verif.C111_parallel",
    "Verif.C111_meridian_f64",
    "Verif.C111_parallel_f64"
   ],
   "note": "The specification of distance is that of C109 (`Spec/Ellipsoid.lean`)."
  },
  {
   "property": "C112",
   "status": "proved",
   "theorems": [
    "Verif.C112_pole",
    "Verif.C112_advances",
    "Verif.C112_pole_f64"
   ],
   "note": "The second of arc of the statement is pi/648000, not the constant of the code."
  },
  {
   "property": "C113",
   "status": "proved",
   "theorems": [
    "Verif.C113_precession_nutation",
    "Verif.C113_celestial_to_intermediate",
    "Verif.C113_celestial_to_terrestrial",
    "Verif.C113_ephemeris",
    "Verif.C113_geodetic_to_geocentric",
    "Verif.C113_nan_is_pole",
    "Verif.C113_nan_is_pole_case",
    "Verif.C113_geocentric_nan_z",
    "Verif.C113_compute",
    "Verif.C113_calculator"
   ],
   "note": "Includes a finding: a NaN coordinate is reported as a pole by geocentric_to_geodetic (C113_nan_is_pole, C113_nan_is_pole_case)."
  },
  {
   "property": "C114",
   "status": "proved",
   "theorems": [
    "Verif.C114_frames",
    "Verif.C114_terrestrial",
    "Verif.C114_frames_f64",
    "Verif.C114_terrestrial_f64"
   ],
   "note": "Bounds on the rates are sums of magnitudes over the terms of the series."
  },
  {
   "property": "C115",
   "status": "proved",
   "theorems": [
    "Verif.C115_any_date",
    "Verif.C115_any_angles",
    "Verif.C115_any_pole",
    "Verif.C115_outside_disc",
    "Verif.C115_terrestrial"
   ],
   "note": "celestial_to_intermediate is claimed within a century only: further away the angles of the series have no bound, and C115_outside_disc shows what a pole outside the unit disc gives."
  },
  {
   "property": "C116",
   "status": "proved",
   "theorems": [
    "Verif.C116_any_date",
    "Verif.C116_rotation",
    "Verif.C116_terrestrial"
   ],
   "note": "`apply` multiplies by the transpose (C30), so both orders are claimed."
  },
  {
   "property": "C117",
   "status": "proved",
   "theorems": [
    "Verif.C117_newton",
    "Verif.C117_newton_f64"
   ],
   "note": "Most of the 1.9 per cent is the motion of the Earth about the barycentre of Earth and Moon, which is real."
  },
  {
   "property": "C118",
   "status": "proved",
   "theorems": [
    "Verif.C118_chord",
    "Verif.C118_year",
    "Verif.C118_year_f64"
   ],
   "note": "The chord formula excludes an earlier return: for d between 2 and 363 days the distance is positive."
  },
  {
   "property": "C119",
   "status": "proved",
   "theorems": [
    "Verif.C119_ellipse",
    "Verif.C119_eccentricity",
    "Verif.C119_ellipse_f64"
   ],
   "note": "Kepler's first law; the second is C89, the law behind both C117."
  },
  {
   "property": "C120",
   "status": "proved",
   "theorems": [
    "Verif.C120_sun",
    "Verif.C120_sun_f64"
   ],
   "note": "Relates the two halves of the result; C117 is the heliocentric law."
  },
  {
   "property": "C121",
   "status": "proved",
   "theorems": [
    "Verif.C121_energy",
    "Verif.C121_conserved",
    "Verif.C121_energy_f64"
   ],
   "note": "With C89, C117 and C119: the conserved quantities of the two-body problem."
  },
  {
   "property": "C122",
   "status": "proved",
   "theorems": [
    "Verif.C122_cone",
    "Verif.C122_obliquity",
    "Verif.C122_obliquity_f64"
   ],
   "note": "Where the pole is on the cone is C112."
  },
  {
   "property": "C123",
   "status": "proved",
   "theorems": [
    "Verif.C123_to_geodetic",
    "Verif.C123_to_geocentric",
    "Verif.C123_accepted"
   ],
   "note": "Exact arithmetic; in f64 the accuracy of both conversions (for the Earth in metres) is C71, C79 and C80."
  },
  {
   "property": "C124",
   "status": "proved",
   "theorems": [
    "Verif.C124_equinoxes",
    "Verif.C124_equinoxes_f64",
    "Verif.C124_polar_sunrise"
   ],
   "note": "On the four days of each window either side is possible, according to the year; that the declination grows or falls there is C105."
  },
  {
   "property": "C125",
   "status": "proved",
   "theorems": [
    "Verif.C125_falling",
    "Verif.C125_falling_f64"
   ],
   "note": "The obliquity of the true pole is C122."
  },
  {
   "property": "C126",
   "status": "proved",
   "theorems": [
    "Verif.C126_deflection",
    "Verif.C126_bound",
    "Verif.C126_wgs84"
   ],
   "note": "Exact arithmetic; the f64 error of position and zenith is C71."
  },
  {
   "property": "C127",
   "status": "proved",
   "theorems": [
    "Verif.C127_longitude",
    "Verif.C127_mirrors",
    "Verif.C127_mirrors_f64"
   ],
   "note": "The f64 part is conditional on an odd sine and an even cosine, shown satisfiable."
  },
  {
   "property": "C128",
   "status": "proved",
   "theorems": [
    "Verif.C128_months",
    "Verif.C128_years",
    "Verif.C128_new_moons",
    "Verif.C128_perigees",
    "Verif.C128_nodes",
    "Verif.C128_perihelia"
   ],
   "note": "Exact arithmetic; the published times of mean new moon, perigee, node and perihelion are part of the statements."
  },
  {
   "property": "C129",
   "status": "proved",
   "theorems": [
    "Verif.C129_sun",
    "Verif.C129_perihelion"
   ],
   "note": "Exact arithmetic."
  },
  {
   "property": "C130",
   "status": "proved",
   "theorems": [
    "Verif.C130_mean_time"
   ],
   "note": "Exact arithmetic; the difference of TT and UT1 is neglected in the argument of the Sun (a minute of time moves the mean Sun by 2.5 arcsec)."
  },
  {
   "property": "C131",
   "status": "proved",
   "theorems": [
    "Verif.C131_short_series"
   ],
   "note": "The whole series is C65."
  }
 ]
}