'Verif.C74_moment_text' depends on axioms: [propext, Classical.choice, Quot.sound]
'Verif.C77_outcomes' depends on axioms: [propext, Classical.choice, Quot.sound]
'Verif.C77_moment_error' depends on axioms: [propext, Classical.choice, Quot.sound]
'Verif.C86_julian_fraction' depends on axioms: [propext, Classical.choice, Quot.sound]
'Verif.C87_round_trip' depends on axioms: [propext, Classical.choice, Quot.sound]
'Verif.C87_sun_report' depends on axioms: [propext, Classical.choice, Quot.sound]
'Verif.C79_geodetic_f64' depends on axioms: [propext, Classical.choice, Quot.sound]
'Verif.C123_to_geodetic' depends on axioms: [propext, Classical.choice, Quot.sound]
'Verif.C123_to_geocentric' depends on axioms: [propext, Classical.choice, Quot.sound]
'Verif.C123_accepted' depends on axioms: [propext, Classical.choice, Quot.sound]
'Verif.C101_labels' depends on axioms: [propext, Classical.choice, Quot.sound]
'Verif.C101_headings' depends on axioms: [propext, Classical.choice, Quot.sound]
'Verif.C22_tai_to_tt_exact' depends on axioms: [propext, Classical.choice, Quot.sound]
'Verif.C22_tai_to_tt_f64' depends on axioms: [propext, Classical.choice, Quot.sound]
'Verif.C23_utc_to_tai_exact' depends on axioms: [propext, Classical.choice, Quot.sound]
'Verif.C23_utc_to_tai_f64' depends on axioms: [propext, Classical.choice, Quot.sound]
'Verif.C24_shift_exact' depends on axioms: [propext, Classical.choice, Quot.sound]
'Verif.C24_inverse_total' depends on axioms: [propext, Classical.choice, Quot.sound]
'Verif.C24_inverse_parts' depends on axioms: [propext, Classical.choice, Quot.sound]
'Verif.C25_tt_to_tdb_exact' depends on axioms: [propext, Classical.choice, Quot.sound]
'Verif.C25_tdb_zero_f64' depends on axioms: [propext, Classical.choice, Quot.sound]
'Verif.C65_nutation_series' depends on axioms: [propext, Classical.choice, Quot.sound]
'Verif.C66_locator_series' depends on axioms: [propext, Classical.choice, Quot.sound]
'Verif.C90_zenith_angle_rate' depends on axioms: [propext, Classical.choice, Quot.sound]
'Verif.C90_every_angle_between' depends on axioms: [propext, Classical.choice, Quot.sound]
'Verif.C90_sunrise_and_sunset' depends on axioms: [propext, Classical.choice, Quot.sound]
'Verif.C90_zenith_angle_rate_f64' depends on axioms: [propext, Classical.choice, Quot.sound]
'Verif.C121_energy' depends on axioms: [propext, Classical.choice, Quot.sound]
'Verif.C121_conserved' depends on axioms: [propext, Classical.choice, Quot.sound]
'Verif.C121_energy_f64' depends on axioms: [propext, Classical.choice, Quot.sound]
'Verif.C75_printed_report' depends on axioms: [propext, Classical.choice, Quot.sound]
'Verif.C71_zenith_f64' depends on axioms: [propext, Classical.choice, Quot.sound]
'Verif.C71_geocentric_f64' depends on axioms: [propext, Classical.choice, Quot.sound]
'Verif.C128_months' depends on axioms: [propext, Classical.choice, Quot.sound]
'Verif.C128_years' depends on axioms: [propext, Classical.choice, Quot.sound]
'Verif.C102_ranges' depends on axioms: [propext, Classical.choice, Quot.sound]
'Verif.C102_bounds_attained' depends on axioms: [propext, Classical.choice, Quot.sound]
'Verif.C102_single_literal' depends on axioms: [propext, Classical.choice, Quot.sound]
'Verif.C102_data_show_it' depends on axioms: [propext, Classical.choice, Quot.sound]
'Verif.C102_every_run' depends on axioms: [propext, Classical.choice, Quot.sound]
'Verif.C102_each_draw_once' depends on axioms: [propext, Classical.choice, Quot.sound]
'Verif.C102_rows' depends on axioms: [propext, Classical.choice, Quot.sound]
'Verif.C76_gregorian_text' depends on axioms: [propext, Classical.choice, Quot.sound]
'Verif.C76_gregorian_stops' depends on axioms: [propext, Classical.choice, Quot.sound]
'Verif.C77_julian_text' depends on axioms: [propext, Classical.choice, Quot.sound]
'Verif.C77_julian_stops' depends on axioms: [propext, Classical.choice, Quot.sound]
'Verif.C77_round_trip' depends on axioms: [propext, Classical.choice, Quot.sound]
'Verif.C78_single_text' depends on axioms: [propext, Classical.choice, Quot.sound]
'Verif.C78_scan_text' depends on axioms: [propext, Classical.choice, Quot.sound]
'Verif.C78_silent_ends' depends on axioms: [propext, Classical.choice, Quot.sound]
'Verif.C92_tropics' depends on axioms: [propext, Classical.choice, Quot.sound]
'Verif.C92_tropics_f64' depends on axioms: [propext, Classical.choice, Quot.sound]
'Verif.C92_equator' depends on axioms: [propext, Classical.choice, Quot.sound]
'Verif.C92_equator_f64' depends on axioms: [propext, Classical.choice, Quot.sound]
'Verif.C55_scan_exact' depends on axioms: [propext, Classical.choice, Quot.sound]
'Verif.C55_scan_never_stops' depends on axioms: [propext, Classical.choice, Quot.sound]
'Verif.C55_no_scan' depends on axioms: [propext, Classical.choice, Quot.sound]
'Verif.C55_scan_f64_stops_iff' depends on axioms: [propext, Classical.choice, Quot.sound]
'Verif.C55_scan_f64_stuck' depends on axioms: [propext, Classical.choice, Quot.sound]
'Verif.C55_scan_f64_exact' depends on axioms: [propext, Classical.choice, Quot.sound]
'Verif.C32_earth_rotation_angle' depends on axioms: [propext, Classical.choice, Quot.sound]
'Verif.C32_split_independent' depends on axioms: [propext, Classical.choice, Quot.sound]
'Verif.C32_period' depends on axioms: [propext, Classical.choice, Quot.sound]
'Verif.C33_rotation_angle_comm' depends on axioms: [propext, Classical.choice, Quot.sound]
'Verif.C57_rotation_angle_accuracy' depends on axioms: [propext, Classical.choice, Quot.sound]
'Verif.C33_rotation_angle_range' depends on axioms: [propext, Classical.choice, Quot.sound]
'Verif.C33_rotation_angle_finite' depends on axioms: [propext, Classical.choice, Quot.sound]
'Verif.C122_cone' depends on axioms: [propext, Classical.choice, Quot.sound]
'Verif.C122_obliquity' depends on axioms: [propext, Classical.choice, Quot.sound]
'Verif.C122_obliquity_f64' depends on axioms: [propext, Classical.choice, Quot.sound]
'Verif.C80_geodetic_coordinates_f64' depends on axioms: [propext, Classical.choice, Quot.sound]
'Verif.C80_every_point' depends on axioms: [propext, Classical.choice, Quot.sound]
'Verif.C81_round_trip_f64' depends on axioms: [propext, Classical.choice, Quot.sound]
'Verif.C81_degrees' depends on axioms: [propext, Classical.choice, Quot.sound]
'Verif.C81_near_surface' depends on axioms: [propext, Classical.choice, Quot.sound]
'Verif.C124_equinoxes' depends on axioms: [propext, Classical.choice, Quot.sound]
'Verif.C124_equinoxes_f64' depends on axioms: [propext, Classical.choice, Quot.sound]
'Verif.C124_polar_sunrise' depends on axioms: [propext, Classical.choice, Quot.sound]
'Verif.C52_new_exact' depends on axioms: [propext, Classical.choice, Quot.sound]
'Verif.C52_new_f64' depends on axioms: [propext, Classical.choice, Quot.sound]
'Verif.C52_position_ok' depends on axioms: [propext, Classical.choice, Quot.sound]
'Verif.C52_overflow' depends on axioms: [propext, Classical.choice, Quot.sound]
'Verif.C52_nan_seconds' depends on axioms: [propext, Classical.choice, Quot.sound]
'Verif.C53_sun_zenith_angle' depends on axioms: [propext, Classical.choice, Quot.sound]
'Verif.C53_sun_distance' depends on axioms: [propext, Classical.choice, Quot.sound]
'Verif.C54_offset_is_shift' depends on axioms: [propext, Classical.choice, Quot.sound]
'Verif.C54_same_delta_at' depends on axioms: [propext, Classical.choice, Quot.sound]
'Verif.C54_drift_years' depends on axioms: [propext, Classical.choice, Quot.sound]
'Verif.C93_three_digit_text' depends on axioms: [propext, Classical.choice, Quot.sound]
'Verif.C95_three_digit_text' depends on axioms: [propext, Classical.choice, Quot.sound]
'Verif.C100_between' depends on axioms: [propext, Classical.choice, Quot.sound]
'Verif.C100_noon_and_midnight' depends on axioms: [propext, Classical.choice, Quot.sound]
'Verif.C100_between_f64' depends on axioms: [propext, Classical.choice, Quot.sound]
'Verif.C100_noon_f64' depends on axioms: [propext, Classical.choice, Quot.sound]
'Verif.C61_constants_exact' depends on axioms: [propext, Classical.choice, Quot.sound]
'Verif.C61_constants_f64' depends on axioms: [propext, Classical.choice, Quot.sound]
'Verif.C61_time_constants' depends on axioms: [propext, Classical.choice, Quot.sound]
'Verif.C62_wgs84_exact' depends on axioms: [propext, Classical.choice, Quot.sound]
'Verif.C62_wgs84_f64' depends on axioms: [propext, Classical.choice, Quot.sound]
'Verif.C58_height_consistent' depends on axioms: [propext, Classical.choice, Quot.sound]
'Verif.C59_round_trip_accuracy' depends on axioms: [propext, Classical.choice, Quot.sound]
'Verif.C59_wgs84' depends on axioms: [propext, Classical.choice, Quot.sound]
'Verif.C126_deflection' depends on axioms: [propext, Classical.choice, Quot.sound]
'Verif.C126_bound' depends on axioms: [propext, Classical.choice, Quot.sound]
'Verif.C126_wgs84' depends on axioms: [propext, Classical.choice, Quot.sound]
'Verif.C82_test_ellipsoid_iter' depends on axioms: [propext, Classical.choice, Quot.sound]
'Verif.C82_test_ellipsoid' depends on axioms: [propext, Classical.choice, Quot.sound]
'Verif.C13_fields_in_range' depends on axioms: [propext, Classical.choice, Quot.sound]
'Verif.C13_bad_fract' depends on axioms: [propext, Classical.choice, Quot.sound]
'Verif.C14_fraction_round_trip_f64' depends on axioms: [propext, Classical.choice, Quot.sound]
'Verif.C14_fraction_round_trip_exact' depends on axioms: [propext, Classical.choice, Quot.sound]
'Verif.C15_hms_round_trip_exact' depends on axioms: [propext, Classical.choice, Quot.sound]
'Verif.C15_hms_round_trip_f64_false' depends on axioms: [propext, Classical.choice, Quot.sound]
'Verif.C15_hms_round_trip_f64_partial' depends on axioms: [propext, Classical.choice, Quot.sound]
'Verif.C16_julian_round_trip_exact' depends on axioms: [propext, Classical.choice, Quot.sound]
'Verif.C16_civil_round_trip_exact' depends on axioms: [propext, Classical.choice, Quot.sound]
'Verif.C16_from_julian_f64' depends on axioms: [propext, Classical.choice, Quot.sound]
'Verif.C24_shift_f64' depends on axioms: [propext, Classical.choice, Quot.sound]
'Verif.C25_tt_to_tdb_f64' depends on axioms: [propext, Classical.choice, Quot.sound]
'Verif.C74_time_text_not_finite' depends on axioms: [propext, Classical.choice, Quot.sound]
'Verif.C45_new_ok_iff' depends on axioms: [propext, Classical.choice, Quot.sound]
'Verif.C45_new_errors' depends on axioms: [propext, Classical.choice, Quot.sound]
'Verif.C45_new_f64_witnesses' depends on axioms: [propext, Classical.choice, Quot.sound]
'Verif.C45_new_f64_ok' depends on axioms: [propext, Classical.choice, Quot.sound]
'Verif.C46_geocentric' depends on axioms: [propext, Classical.choice, Quot.sound]
'Verif.C47_surface_round_trip' depends on axioms: [propext, Classical.choice, Quot.sound]
'Verif.C47_sphere_round_trip' depends on axioms: [propext, Classical.choice, Quot.sound]
'Verif.C47_equator_round_trip' depends on axioms: [propext, Classical.choice, Quot.sound]
'Verif.C47_pole_round_trip' depends on axioms: [propext, Classical.choice, Quot.sound]
'Verif.C48_reflect' depends on axioms: [propext, Classical.choice, Quot.sound]
'Verif.C48_longitude' depends on axioms: [propext, Classical.choice, Quot.sound]
'Verif.C48_axial_symmetry' depends on axioms: [propext, Classical.choice, Quot.sound]
'Verif.C48_axis' depends on axioms: [propext, Classical.choice, Quot.sound]
'Verif.C48_ranges' depends on axioms: [propext, Classical.choice, Quot.sound]
'Verif.C48_reflect_f64' depends on axioms: [propext, Classical.choice, Quot.sound]
'Verif.C48_nan_witness' depends on axioms: [propext, Classical.choice, Quot.sound]
'Verif.C104_unreal_date' depends on axioms: [propext, Classical.choice, Quot.sound]
'Verif.C104_refused_julian' depends on axioms: [propext, Classical.choice, Quot.sound]
'Verif.C104_i32_messages' depends on axioms: [propext, Classical.choice, Quot.sound]
'Verif.C104_u8_messages' depends on axioms: [propext, Classical.choice, Quot.sound]
'Verif.C104_f64_messages' depends on axioms: [propext, Classical.choice, Quot.sound]
'Verif.C104_option_messages' depends on axioms: [propext, Classical.choice, Quot.sound]
'Verif.C109_height_is_distance' depends on axioms: [propext, Classical.choice, Quot.sound]
'Verif.C109_injective' depends on axioms: [propext, Classical.choice, Quot.sound]
'Verif.C109_bound_needed' depends on axioms: [propext, Classical.choice, Quot.sound]
'Verif.C109_height_is_distance_f64' depends on axioms: [propext, Classical.choice, Quot.sound]
'Verif.C109_height_of_point_f64' depends on axioms: [propext, Classical.choice, Quot.sound]
'Verif.C101_times_exact' depends on axioms: [propext, Classical.choice, Quot.sound]
'Verif.C101_times_f64' depends on axioms: [propext, Classical.choice, Quot.sound]
'Verif.C101_ut1_noon' depends on axioms: [propext, Classical.choice, Quot.sound]
'Verif.C101_ut1_later' depends on axioms: [propext, Classical.choice, Quot.sound]
'Verif.C101_text_nothing_lost' depends on axioms: [propext, Classical.choice, Quot.sound]
'Verif.C131_short_series' depends on axioms: [propext, Classical.choice, Quot.sound]
'Verif.C26_anp_two_pi_iff' depends on axioms: [propext, Classical.choice, Quot.sound]
'Verif.C15_hour_and_minute_kept' depends on axioms: [propext, Classical.choice, Quot.sound]
'Verif.C50_flips_iff_f64' depends on axioms: [propext, Classical.choice, Quot.sound]
'Verif.C07_fraction_below_one_mjd' depends on axioms: [propext, Classical.choice, Quot.sound]
'Verif.C103_distance' depends on axioms: [propext, Classical.choice, Quot.sound]
'Verif.C103_nearest_and_farthest' depends on axioms: [propext, Classical.choice, Quot.sound]
'Verif.C103_nearest_and_farthest_f64' depends on axioms: [propext, Classical.choice, Quot.sound]
'Verif.C117_newton' depends on axioms: [propext, Classical.choice, Quot.sound]
'Verif.C117_newton_f64' depends on axioms: [propext, Classical.choice, Quot.sound]
'Verif.C82_test_hms' depends on axioms: [propext, Classical.choice, Quot.sound]
'Verif.C82_test_rotation' depends on axioms: [propext, Classical.choice, Quot.sound]
'Verif.C82_test_calendar' depends on axioms: [propext, Classical.choice, Quot.sound]
'Verif.C68_ephemeris_f64' depends on axioms: [propext, Classical.choice, Quot.sound]
'Verif.C68_warning_f64' depends on axioms: [propext, Classical.choice, Quot.sound]
'Verif.C94_compare_numbers' depends on axioms: [propext, Classical.choice, Quot.sound]
'Verif.C94_compare_finite' depends on axioms: [propext, Classical.choice, Quot.sound]
'Verif.C94_compare_matrices' depends on axioms: [propext, Classical.choice, Quot.sound]
'Verif.C94_data_tests' depends on axioms: [propext, Classical.choice, Quot.sound]
'Verif.C94_test_rotation_angle' depends on axioms: [propext, Classical.choice, Quot.sound]
'Verif.C94_test_precession_rate' depends on axioms: [propext, Classical.choice, Quot.sound]
'Verif.C94_test_time_scales' depends on axioms: [propext, Classical.choice, Quot.sound]
'Verif.C94_zero_offsets' depends on axioms: [propext, Classical.choice, Quot.sound]
'Verif.C94_test_geodetic_display' depends on axioms: [propext, Classical.choice, Quot.sound]
'Verif.C94_test_delta_at' depends on axioms: [propext, Classical.choice, Quot.sound]
'Verif.C94_test_calendar' depends on axioms: [propext, Classical.choice, Quot.sound]
'Verif.C94_test_hms' depends on axioms: [propext, Classical.choice, Quot.sound]
'Verif.C94_test_rotation' depends on axioms: [propext, Classical.choice, Quot.sound]
'Verif.C94_test_earth' depends on axioms: [propext, Classical.choice, Quot.sound]
'Verif.C94_nan_library' depends on axioms: [propext, Classical.choice, Quot.sound]
'Verif.C80_height_f64' depends on axioms: [propext, Classical.choice, Quot.sound]
'Verif.C81_height_f64' depends on axioms: [propext, Classical.choice, Quot.sound]
'Verif.C81_near_surface_height' depends on axioms: [propext, Classical.choice, Quot.sound]
'Verif.C95_list_directed' depends on axioms: [propext, Classical.choice, Quot.sound]
'Verif.C95_matrix_entry' depends on axioms: [propext, Classical.choice, Quot.sound]
'Verif.C95_three_digit_exponents' depends on axioms: [propext, Classical.choice, Quot.sound]
'Verif.C95_test_data' depends on axioms: [propext, Classical.choice, Quot.sound]
'Verif.C95_one_reading' depends on axioms: [propext, Classical.choice, Quot.sound]
'Verif.C95_nothing_lost' depends on axioms: [propext, Classical.choice, Quot.sound]
'Verif.C106_equation_of_time' depends on axioms: [propext, Classical.choice, Quot.sound]
'Verif.C106_sundial' depends on axioms: [propext, Classical.choice, Quot.sound]
'Verif.C106_sundial_f64' depends on axioms: [propext, Classical.choice, Quot.sound]
'Verif.C70_total_f64' depends on axioms: [propext, Classical.choice, Quot.sound]
'Verif.C70_total_conversions' depends on axioms: [propext, Classical.choice, Quot.sound]
'Verif.C120_sun' depends on axioms: [propext, Classical.choice, Quot.sound]
'Verif.C120_sun_f64' depends on axioms: [propext, Classical.choice, Quot.sound]
'Verif.C69_vector_group' depends on axioms: [propext, Classical.choice, Quot.sound]
'Verif.C69_vector_sub_f64' depends on axioms: [propext, Classical.choice, Quot.sound]
'Verif.C69_norm_normalize_f64' depends on axioms: [propext, Classical.choice, Quot.sound]
'Verif.C69_angle_f64' depends on axioms: [propext, Classical.choice, Quot.sound]
'Verif.C111_meridian' depends on axioms: [propext, Classical.choice, Quot.sound]
'Verif.C111_parallel' depends on axioms: [propext, Classical.choice, Quot.sound]
'Verif.C111_meridian_f64' depends on axioms: [propext, Classical.choice, Quot.sound]
'Verif.C111_parallel_f64' depends on axioms: [propext, Classical.choice, Quot.sound]
'Verif.C45_ellipsoid' depends on axioms: [propext, Classical.choice, Quot.sound]
'Verif.C91_morning_and_afternoon' depends on axioms: [propext, Classical.choice, Quot.sound]
'Verif.C91_one_sunrise_one_sunset' depends on axioms: [propext, Classical.choice, Quot.sound]
'Verif.C91_one_sunrise_one_sunset_f64' depends on axioms: [propext, Classical.choice, Quot.sound]
'Verif.C19_first_month' depends on axioms: [propext, Classical.choice, Quot.sound]
'Verif.C29_rotation_neg_f64' depends on axioms: [propext, Classical.choice, Quot.sound]
'Verif.C30_transpose_f64' depends on axioms: [propext, Classical.choice, Quot.sound]
'Verif.C69_commutative_f64' depends on axioms: [propext, Classical.choice, Quot.sound]
'Verif.C125_falling' depends on axioms: [propext, Classical.choice, Quot.sound]
'Verif.C125_falling_f64' depends on axioms: [propext, Classical.choice, Quot.sound]
'Verif.C89_speed' depends on axioms: [propext, Classical.choice, Quot.sound]
'Verif.C89_areal' depends on axioms: [propext, Classical.choice, Quot.sound]
'Verif.C113_precession_nutation' depends on axioms: [propext, Classical.choice, Quot.sound]
'Verif.C113_celestial_to_intermediate' depends on axioms: [propext, Classical.choice, Quot.sound]
'Verif.C113_celestial_to_terrestrial' depends on axioms: [propext, Classical.choice, Quot.sound]
'Verif.C113_ephemeris' depends on axioms: [propext, Classical.choice, Quot.sound]
'Verif.C113_geodetic_to_geocentric' depends on axioms: [propext, Classical.choice, Quot.sound]
'Verif.C113_nan_is_pole' depends on axioms: [propext, Classical.choice, Quot.sound]
'Verif.C113_nan_is_pole_case' depends on axioms: [propext, Classical.choice, Quot.sound]
'Verif.C113_geocentric_nan_z' depends on axioms: [propext, Classical.choice, Quot.sound]
'Verif.C113_compute' depends on axioms: [propext, Classical.choice, Quot.sound]
'Verif.C113_calculator' depends on axioms: [propext, Classical.choice, Quot.sound]
'Verif.C37_no_panic' depends on axioms: [propext, Classical.choice, Quot.sound]
'Verif.C37_tables_match_fortran' depends on axioms: [propext, Classical.choice, Quot.sound]
'Verif.C35_split_independent' depends on axioms: [propext, Classical.choice, Quot.sound]
'Verif.C35_warning_iff' depends on axioms: [propext, Classical.choice, Quot.sound]
'Verif.C34_velocity_is_derivative' depends on axioms: [propext, Classical.choice, Quot.sound]
'Verif.C36_distance' depends on axioms: [propext, Classical.choice, Quot.sound]
'Verif.C36_sun_offset' depends on axioms: [propext, Classical.choice, Quot.sound]
'Verif.C67_nutation_f64' depends on axioms: [propext, Classical.choice, Quot.sound]
'Verif.C67_matrices_f64' depends on axioms: [propext, Classical.choice, Quot.sound]
'Verif.C67_celestial_to_terrestrial_f64' depends on axioms: [propext, Classical.choice, Quot.sound]
'Verif.C99_icrf_axes' depends on axioms: [propext, Classical.choice, Quot.sound]
'Verif.C99_distance_and_speed' depends on axioms: [propext, Classical.choice, Quot.sound]
'Verif.C99_icrf_axes_f64' depends on axioms: [propext, Classical.choice, Quot.sound]
'Verif.C31_fundamental_arguments' depends on axioms: [propext, Classical.choice, Quot.sound]
'Verif.C31_less_than_two_turns' depends on axioms: [propext, Classical.choice, Quot.sound]
'Verif.C31_not_within_one_turn' depends on axioms: [propext, Classical.choice, Quot.sound]
'Verif.C31_planet_longitudes' depends on axioms: [propext, Classical.choice, Quot.sound]
'Verif.C110_tai_order' depends on axioms: [propext, Classical.choice, Quot.sound]
'Verif.C110_order_reversed' depends on axioms: [propext, Classical.choice, Quot.sound]
'Verif.C110_tai_order_f64' depends on axioms: [propext, Classical.choice, Quot.sound]
'Verif.C110_pairs_f64' depends on axioms: [propext, Classical.choice, Quot.sound]
'Verif.C60_time_scales_exact' depends on axioms: [propext, Classical.choice, Quot.sound]
'Verif.C60_time_scales_f64' depends on axioms: [propext, Classical.choice, Quot.sound]
'Verif.C55_scan_f64_any' depends on axioms: [propext, Classical.choice, Quot.sound]
'Verif.C78_scan_text_any' depends on axioms: [propext, Classical.choice, Quot.sound]
'Verif.C55_scan_to_infinity' depends on axioms: [propext, Classical.choice, Quot.sound]
'Verif.C55_scan_nan_bound' depends on axioms: [propext, Classical.choice, Quot.sound]
'Verif.C55_scan_nan_step' depends on axioms: [propext, Classical.choice, Quot.sound]
'Verif.C73_position_text' depends on axioms: [propext, Classical.choice, Quot.sound]
'Verif.C73_radians_text' depends on axioms: [propext, Classical.choice, Quot.sound]
'Verif.C74_date_text' depends on axioms: [propext, Classical.choice, Quot.sound]
'Verif.C74_date_injective' depends on axioms: [propext, Classical.choice, Quot.sound]
'Verif.C74_time_text' depends on axioms: [propext, Classical.choice, Quot.sound]
'Verif.C49_range' depends on axioms: [propext, Classical.choice, Quot.sound]
'Verif.C49_round_trip' depends on axioms: [propext, Classical.choice, Quot.sound]
'Verif.C50_north_pole_flips' depends on axioms: [propext, Classical.choice, Quot.sound]
'Verif.C50_latitude_kept_partial' depends on axioms: [propext, Classical.choice, Quot.sound]
'Verif.C51_assertions_iff' depends on axioms: [propext, Classical.choice, Quot.sound]
'Verif.C51_no_panic' depends on axioms: [propext, Classical.choice, Quot.sound]
'Verif.C51_witnesses' depends on axioms: [propext, Classical.choice, Quot.sound]
'Verif.C93_field_half_unit' depends on axioms: [propext, Classical.choice, Quot.sound]
'Verif.C93_fifteen_digits' depends on axioms: [propext, Classical.choice, Quot.sound]
'Verif.C93_field_exact' depends on axioms: [propext, Classical.choice, Quot.sound]
'Verif.C93_dump_array' depends on axioms: [propext, Classical.choice, Quot.sound]
'Verif.C93_dump_is_tables' depends on axioms: [propext, Classical.choice, Quot.sound]
'Verif.C93_three_digit_exponents' depends on axioms: [propext, Classical.choice, Quot.sound]
'Verif.C93_not_every_number' depends on axioms: [propext, Classical.choice, Quot.sound]
'Verif.C63_cio_matrix' depends on axioms: [propext, Classical.choice, Quot.sound]
'Verif.C64_bias_precession_nutation' depends on axioms: [propext, Classical.choice, Quot.sound]
'Verif.C43_polar_motion_general' depends on axioms: [propext, Classical.choice, Quot.sound]
'Verif.C18_delta_at_errors' depends on axioms: [propext, Classical.choice, Quot.sound]
'Verif.C18_bad_fract_value' depends on axioms: [propext, Classical.choice, Quot.sound]
'Verif.C19_delta_at_in_force_partial' depends on axioms: [propext, Classical.choice, Quot.sound]
'Verif.C19_step_month_uses_previous' depends on axioms: [propext, Classical.choice, Quot.sound]
'Verif.C19_leap_second_one_month_late' depends on axioms: [propext, Classical.choice, Quot.sound]
'Verif.C20_delta_at_integer' depends on axioms: [propext, Classical.choice, Quot.sound]
'Verif.C20_delta_at_monotone' depends on axioms: [propext, Classical.choice, Quot.sound]
'Verif.C20_delta_at_overflow' depends on axioms: [propext, Classical.choice, Quot.sound]
'Verif.C20_delta_at_wraps' depends on axioms: [propext, Classical.choice, Quot.sound]
'Verif.C21_delta_at_linear' depends on axioms: [propext, Classical.choice, Quot.sound]
'Verif.C21_delta_at_linear_f64' depends on axioms: [propext, Classical.choice, Quot.sound]
'Verif.C38_bias_and_precession' depends on axioms: [propext, Classical.choice, Quot.sound]
'Verif.C38_nutation_matrix' depends on axioms: [propext, Classical.choice, Quot.sound]
'Verif.C38_precession_nutation' depends on axioms: [propext, Classical.choice, Quot.sound]
'Verif.C38_celestial_to_intermediate' depends on axioms: [propext, Classical.choice, Quot.sound]
'Verif.C38_polar_motion' depends on axioms: [propext, Classical.choice, Quot.sound]
'Verif.C38_celestial_to_terrestrial' depends on axioms: [propext, Classical.choice, Quot.sound]
'Verif.C39_third_row' depends on axioms: [propext, Classical.choice, Quot.sound]
'Verif.C39_pole' depends on axioms: [propext, Classical.choice, Quot.sound]
'Verif.C39_celestial_to_intermediate' depends on axioms: [propext, Classical.choice, Quot.sound]
'Verif.C40_precession_at_epoch' depends on axioms: [propext, Classical.choice, Quot.sound]
'Verif.C40_zero_nutation' depends on axioms: [propext, Classical.choice, Quot.sound]
'Verif.C41_nutation_bounded' depends on axioms: [propext, Classical.choice, Quot.sound]
'Verif.C39_within_century' depends on axioms: [propext, Classical.choice, Quot.sound]
'Verif.C42_split_independent' depends on axioms: [propext, Classical.choice, Quot.sound]
'Verif.C43_product' depends on axioms: [propext, Classical.choice, Quot.sound]
'Verif.C43_polar_motion' depends on axioms: [propext, Classical.choice, Quot.sound]
'Verif.C43_period' depends on axioms: [propext, Classical.choice, Quot.sound]
'Verif.C44_cio' depends on axioms: [propext, Classical.choice, Quot.sound]
'Verif.C88_defaults_agree' depends on axioms: [propext, Classical.choice, Quot.sound]
'Verif.C88_no_arguments' depends on axioms: [propext, Classical.choice, Quot.sound]
'Verif.C88_default_day_and_night' depends on axioms: [propext, Classical.choice, Quot.sound]
'Verif.C96_half_days' depends on axioms: [propext, Classical.choice, Quot.sound]
'Verif.C96_culmination' depends on axioms: [propext, Classical.choice, Quot.sound]
'Verif.C96_half_days_f64' depends on axioms: [propext, Classical.choice, Quot.sound]
'Verif.C129_sun' depends on axioms: [propext, Classical.choice, Quot.sound]
'Verif.C129_perihelion' depends on axioms: [propext, Classical.choice, Quot.sound]
'Verif.C17_display_iso' depends on axioms: [propext, Classical.choice, Quot.sound]
'Verif.C17_display_sortable' depends on axioms: [propext, Classical.choice, Quot.sound]
'Verif.C17_display_injective' depends on axioms: [propext, Classical.choice, Quot.sound]
'Verif.C56_hms_display' depends on axioms: [propext, Classical.choice, Quot.sound]
'Verif.C93_fields_fit' depends on axioms: [propext, Classical.choice, Quot.sound]
'Verif.C95_fields_fit' depends on axioms: [propext, Classical.choice, Quot.sound]
'Verif.C93_field_width_exact' depends on axioms: [propext, Classical.choice, Quot.sound]
'Verif.C115_any_date' depends on axioms: [propext, Classical.choice, Quot.sound]
'Verif.C115_any_angles' depends on axioms: [propext, Classical.choice, Quot.sound]
'Verif.C115_any_pole' depends on axioms: [propext, Classical.choice, Quot.sound]
'Verif.C115_outside_disc' depends on axioms: [propext, Classical.choice, Quot.sound]
'Verif.C115_terrestrial' depends on axioms: [propext, Classical.choice, Quot.sound]
'Verif.C83_mean_sun' depends on axioms: [propext, Classical.choice, Quot.sound]
'Verif.C83_above_below' depends on axioms: [propext, Classical.choice, Quot.sound]
'Verif.C83_above_below_f64' depends on axioms: [propext, Classical.choice, Quot.sound]
'Verif.C84_noon_and_midnight' depends on axioms: [propext, Classical.choice, Quot.sound]
'Verif.C84_noon_and_midnight_f64' depends on axioms: [propext, Classical.choice, Quot.sound]
'Verif.C84_polar_seasons' depends on axioms: [propext, Classical.choice, Quot.sound]
'Verif.C84_polar_seasons_f64' depends on axioms: [propext, Classical.choice, Quot.sound]
'Verif.C01_new_accepts_exactly_real_dates' depends on axioms: [propext, Classical.choice, Quot.sound]
'Verif.C02_to_julian_counts_days' depends on axioms: [propext, Classical.choice, Quot.sound]
'Verif.C02_to_julian_next_day' depends on axioms: [propext, Classical.choice, Quot.sound]
'Verif.C03_to_julian_overflow' depends on axioms: [propext, Classical.choice, Quot.sound]
'Verif.C12_to_julian_monotone' depends on axioms: [propext, Classical.choice, Quot.sound]
'Verif.C98_nutation_loop' depends on axioms: [propext, Classical.choice, Quot.sound]
'Verif.C98_locator_loop' depends on axioms: [propext, Classical.choice, Quot.sound]
'Verif.C98_bounds_are_tight' depends on axioms: [propext]
'Verif.C26_anp_exact' depends on axioms: [propext, Classical.choice, Quot.sound]
'Verif.C26_anp_unique' depends on axioms: [propext, Classical.choice, Quot.sound]
'Verif.C26_anp_idempotent' depends on axioms: [propext, Classical.choice, Quot.sound]
'Verif.C26_anp_f64_partial' depends on axioms: [propext, Classical.choice, Quot.sound]
'Verif.C26_anp_half_open_false' depends on axioms: [propext, Classical.choice, Quot.sound]
'Verif.C27_angle_cos' depends on axioms: [propext, Classical.choice, Quot.sound]
'Verif.C27_angle_symm' depends on axioms: [propext, Classical.choice, Quot.sound]
'Verif.C27_angle_scale' depends on axioms: [propext, Classical.choice, Quot.sound]
'Verif.C27_angle_self' depends on axioms: [propext, Classical.choice, Quot.sound]
'Verif.C28_angle_self_nan' depends on axioms: [propext, Classical.choice, Quot.sound]
'Verif.C29_rotation_orthogonal' depends on axioms: [propext, Classical.choice, Quot.sound]
'Verif.C29_rotation_fixes_axis' depends on axioms: [propext, Classical.choice, Quot.sound]
'Verif.C29_rotation_neg' depends on axioms: [propext, Classical.choice, Quot.sound]
'Verif.C29_rotation_add' depends on axioms: [propext, Classical.choice, Quot.sound]
'Verif.C29_rotation_direction' depends on axioms: [propext, Classical.choice, Quot.sound]
'Verif.C29_rotation_axis_panics' depends on axioms: [propext, Classical.choice, Quot.sound]
'Verif.C30_compose_is_product' depends on axioms: [propext, Classical.choice, Quot.sound]
'Verif.C30_compose_laws' depends on axioms: [propext, Classical.choice, Quot.sound]
'Verif.C30_apply_is_transposed_product' depends on axioms: [propext, Classical.choice, Quot.sound]
'Verif.C30_apply_compose' depends on axioms: [propext, Classical.choice, Quot.sound]
'Verif.C30_apply_not_product' depends on axioms: [propext, Classical.choice, Quot.sound]
'Verif.C30_apply_rotation' depends on axioms: [propext, Classical.choice, Quot.sound]
'Verif.C104_i32_reason' depends on axioms: [propext, Classical.choice, Quot.sound]
'Verif.C104_u8_reason' depends on axioms: [propext, Classical.choice, Quot.sound]
'Verif.C104_same_numbers' depends on axioms: [propext, Classical.choice, Quot.sound]
'Verif.C104_messages_distinct' depends on axioms: [propext, Classical.choice, Quot.sound]
'Verif.C104_text_arguments' depends on axioms: [propext, Classical.choice, Quot.sound]
'Verif.C104_gregorian_first_error' depends on axioms: [propext, Classical.choice, Quot.sound]
'Verif.C104_julian_first_error' depends on axioms: [propext, Classical.choice, Quot.sound]
'Verif.C104_sun_angle_first_error' depends on axioms: [propext, Classical.choice, Quot.sound]
'Verif.C104_no_text' depends on axioms: [propext, Classical.choice, Quot.sound]
'Verif.C104_gregorian_ignores_no_text' depends on axioms: [propext, Classical.choice, Quot.sound]
'Verif.C104_status' depends on axioms: [propext, Classical.choice, Quot.sound]
'Verif.C108_same_moment' depends on axioms: [propext, Classical.choice, Quot.sound]
'Verif.C108_other_date' depends on axioms: [propext, Classical.choice, Quot.sound]
'Verif.C108_same_moment_f64' depends on axioms: [propext, Classical.choice, Quot.sound]
'Verif.C130_mean_time' depends on axioms: [propext, Classical.choice, Quot.sound]
'Verif.C105_between_solstices' depends on axioms: [propext, Classical.choice, Quot.sound]
'Verif.C105_between_solstices_f64' depends on axioms: [propext, Classical.choice, Quot.sound]
'Verif.C105_noon' depends on axioms: [propext, Classical.choice, Quot.sound]
'Verif.C116_any_date' depends on axioms: [propext, Classical.choice, Quot.sound]
'Verif.C116_rotation' depends on axioms: [propext, Classical.choice, Quot.sound]
'Verif.C116_terrestrial' depends on axioms: [propext, Classical.choice, Quot.sound]
'Verif.C05_from_julian_instant' depends on axioms: [propext, Classical.choice, Quot.sound]
'Verif.C06_from_julian_exact' depends on axioms: [propext, Classical.choice, Quot.sound]
'Verif.C06_from_julian_sum_only' depends on axioms: [propext, Classical.choice, Quot.sound]
'Verif.C07_fraction_below_one_false' depends on axioms: [propext, Classical.choice, Quot.sound]
'Verif.C07_fraction_le_one_partial' depends on axioms: [propext, Classical.choice, Quot.sound]
'Verif.C08_range_check' depends on axioms: [propext, Classical.choice, Quot.sound]
'Verif.C08_nan_accepted' depends on axioms: [propext, Classical.choice, Quot.sound]
'Verif.C09_from_julian_overflow' depends on axioms: [propext, Classical.choice, Quot.sound]
'Verif.C09_exact_threshold' depends on axioms: [propext, Classical.choice, Quot.sound]
'Verif.C10_from_julian_accepted_by_new' depends on axioms: [propext, Classical.choice, Quot.sound]
'Verif.C10_from_julian_accepted_f64' depends on axioms: [propext, Classical.choice, Quot.sound]
'Verif.C10_from_julian_rejected_f64' depends on axioms: [propext, Classical.choice, Quot.sound]
'Verif.C11_from_julian_comm' depends on axioms: [propext, Classical.choice, Quot.sound]
'Verif.C12_from_julian_monotone' depends on axioms: [propext, Classical.choice, Quot.sound]
'Verif.C04_round_trip' depends on axioms: [propext, Classical.choice, Quot.sound]
'Verif.C118_chord' depends on axioms: [propext, Classical.choice, Quot.sound]
'Verif.C118_year' depends on axioms: [propext, Classical.choice, Quot.sound]
'Verif.C118_year_f64' depends on axioms: [propext, Classical.choice, Quot.sound]
'Verif.C112_pole' depends on axioms: [propext, Classical.choice, Quot.sound]
'Verif.C112_advances' depends on axioms: [propext, Classical.choice, Quot.sound]
'Verif.C112_pole_f64' depends on axioms: [propext, Classical.choice, Quot.sound]
'Verif.C127_longitude' depends on axioms: [propext, Classical.choice, Quot.sound]
'Verif.C127_mirrors' depends on axioms: [propext, Classical.choice, Quot.sound]
'Verif.C127_mirrors_f64' depends on axioms: [propext, Classical.choice, Quot.sound]
'Verif.C27_angle_symm_f64' depends on axioms: [propext, Classical.choice, Quot.sound]
'Verif.C128_new_moons' depends on axioms: [propext, Classical.choice, Quot.sound]
'Verif.C128_perigees' depends on axioms: [propext, Classical.choice, Quot.sound]
'Verif.C128_nodes' depends on axioms: [propext, Classical.choice, Quot.sound]
'Verif.C128_perihelia' depends on axioms: [propext, Classical.choice, Quot.sound]
'Verif.C119_ellipse' depends on axioms: [propext, Classical.choice, Quot.sound]
'Verif.C119_eccentricity' depends on axioms: [propext, Classical.choice, Quot.sound]
'Verif.C119_ellipse_f64' depends on axioms: [propext, Classical.choice, Quot.sound]
'Verif.C72_sun_angle_f64' depends on axioms: [propext, Classical.choice, Quot.sound]
'Verif.C72_sun_angle_everywhere' depends on axioms: [propext, Classical.choice, Quot.sound]
'Verif.C97_twelve_hours_apart' depends on axioms: [propext, Classical.choice, Quot.sound]
'Verif.C97_long_and_short_days' depends on axioms: [propext, Classical.choice, Quot.sound]
'Verif.C97_long_and_short_days_f64' depends on axioms: [propext, Classical.choice, Quot.sound]
'Verif.C85_parse_f64' depends on axioms: [propext, Classical.choice, Quot.sound]
'Verif.C85_parse_f64_exp' depends on axioms: [propext, Classical.choice, Quot.sound]
'Verif.C85_parse_f64_accepts' depends on axioms: [propext, Classical.choice, Quot.sound]
'Verif.C85_parse_f64_forms' depends on axioms: [propext, Classical.choice, Quot.sound]
'Verif.C85_parse_int' depends on axioms: [propext, Classical.choice, Quot.sound]
'Verif.C86_shortest' depends on axioms: [propext, Classical.choice, Quot.sound]
'Verif.C86_read_back' depends on axioms: [propext, Classical.choice, Quot.sound]
'Verif.C86_characters' depends on axioms: [propext, Classical.choice, Quot.sound]
'Verif.C114_frames' depends on axioms: [propext, Classical.choice, Quot.sound]
'Verif.C114_terrestrial' depends on axioms: [propext, Classical.choice, Quot.sound]
'Verif.C114_frames_f64' depends on axioms: [propext, Classical.choice, Quot.sound]
'Verif.C114_terrestrial_f64' depends on axioms: [propext, Classical.choice, Quot.sound]
'Verif.C107_place_only' depends on axioms: [propext, Classical.choice, Quot.sound]
'Verif.C107_subsolar_point' depends on axioms: [propext, Classical.choice, Quot.sound]
'Verif.C107_two_places' depends on axioms: [propext, Classical.choice, Quot.sound]
'Verif.C107_antipode_f64' depends on axioms: [propext, Classical.choice, Quot.sound]
'Verif.C87_gregorian_args' depends on axioms: [propext, Classical.choice, Quot.sound]
'Verif.C87_julian_args' depends on axioms: [propext, Classical.choice, Quot.sound]
'Verif.C87_sun_angle_args' depends on axioms: [propext, Classical.choice, Quot.sound]
'Verif.C87_order' depends on axioms: [propext, Classical.choice, Quot.sound]
'Verif.C87_rejected' depends on axioms: [propext, Classical.choice, Quot.sound]
