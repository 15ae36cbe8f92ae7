# Formal model of berke/tofas in Lean 4 — design

(Generated by `tools/gen_design.py` from `tools/design.md`, `MANIFEST.json` and `tools/axioms.txt`.)

## 1. Approach

`tofas` is numerical code: almost everything is `f64` arithmetic plus some `i32` arithmetic.
The model writes every Rust function **once**, generically over an arithmetic `α` with the
operations the code uses (`Verif.Arith α`: `+ - * / %`, `sqrt`, `round`, `trunc`, `floor`, comparisons, casts,
decimal literals) and, separately, the transcendental functions (`Verif.Libm α`: `sin`, `cos`, `atan`,
`atan2`, `acos`, ...). The model is then instantiated twice:

* `α = F64` — a bit-accurate model of IEEE-754 binary64 with round-to-nearest-even, signed zeros,
  infinities and NaN, written in this project (`Verif/Float`). Theorems at `F64` speak about what the
  compiled program computes. Rust does not specify the accuracy of `sin`, `cos`, `atan`, ..., so at `F64`
  these are *parameters* (`[Libm F64]`). A theorem that needs something of them says so as a hypothesis;
  a theorem without such a hypothesis holds for every library.
* `α = ℝ` — exact real arithmetic with Mathlib's `Real.sin`, etc. Theorems at `ℝ` speak about the
  algorithm, and are labelled "exact arithmetic" in the property text.

`i32` arithmetic is modelled with overflow: every operation of the code goes through
`I32.add/sub/mul/...` parameterised by the build profile (`.checked` panics = `Except.error`, `.wrapping`
wraps modulo 2^32). A Rust panic is the explicit value `.error _` of the monad `Rust = Except Panic`.
Loops of the code are folds over the literal tables; the one unbounded loop (`sun_angle_tool` scan) is
indexed by fuel and statements quantify over all fuels.

## 2. Layout (all under `lean/Verif`)

* `Float/*`   — the binary64 model and its theory (nearest, monotone, exact cases, error bounds, square root).
* `Arith.lean`, `I32.lean` — the generic arithmetic interface with its two instances; i32 with profiles.
* `Model/*`   — one file per Rust file; every definition cites the file and lines.
* `Spec/*`    — independent specifications: calendar successor, leap-second steps (`Spec/DeltaAt`), elementary
  rotations, the published IAU 2000B nutation series (`Spec/Nut00b`), the IERS locator series (`Spec/S00`), the
  reference ephemeris tables (`Spec/EpvRef`), a reader of decimal numerals (`Spec/Numeral`),
  a low precision Sun from published mean elements (`Spec/MeanSun`).
* `Lemmas/*`  — helper lemmas.
* `Props/*`   — the property theorems, named by property (`Cnn_...`), with non-vacuity examples beside them.

## 3. Per property: what is modelled and how it is proved

| id | property | modelled | how proved | status | theorems |
|---|---|---|---|---|---|
| C01 | GregorianDate::new accepts exactly the real calendar dates | `GregorianDate::new` | case analysis against the month lengths of the Gregorian calendar (Spec/Calendar) | proved | `C01_new_accepts_exactly_real_dates` |
| C02 | to_julian counts civil days | `to_julian` on i32, result through the float model | `omega` on the closed formula against a successor-day specification; small integers are exact in binary64 | proved | `C02_to_julian_counts_days`, `C02_to_julian_next_day` |
| C03 | to_julian overflows i32 on accepted far-future dates | same, with the two overflow profiles | a witness date and the exact set of overflowing dates | proved | `C03_to_julian_overflow` |
| C04 | from_julian inverts to_julian exactly | `to_julian` then `from_julian` | integer identity; exactness of `%` and `round` on the values that occur | proved | `C04_round_trip` |
| C05 | from_julian returns a real calendar date at the right instant (f64) | `from_julian` in f64 | error analysis of the split into day and fraction; integer part by residue analysis | proved | `C05_from_julian_instant` |
| C06 | from_julian is exact in exact arithmetic | `from_julian` in exact arithmetic | same over the reals, no rounding | proved | `C06_from_julian_exact`, `C06_from_julian_sum_only` |
| C07 | Day fraction returned by from_julian is below one | `from_julian` in f64 | witness for f = 1, closed bound for all inputs; below 1 for half-integer larger part by the grid of the smaller one | proved | `C07_fraction_below_one_false`, `C07_fraction_le_one_partial`, `C07_fraction_below_one_mjd` |
| C08 | from_julian range check | range test of `from_julian` | comparison semantics of binary64 including NaN | proved | `C08_range_check`, `C08_nan_accepted` |
| C09 | from_julian overflows i32 inside its accepted range | i32 arithmetic inside `from_julian` | exact threshold of the first overflowing day | proved | `C09_from_julian_overflow`, `C09_exact_threshold` |
| C10 | Dates produced by from_julian are accepted by new | `from_julian` composed with `new` | consequence of C05/C06 and C01 | proved | `C10_from_julian_accepted_by_new`, `C10_from_julian_accepted_f64`, `C10_from_julian_rejected_f64` |
| C11 | from_julian does not depend on the order of its arguments | argument ordering in `from_julian` | equality of the two programs for all pairs | proved | `C11_from_julian_comm` |
| C12 | Calendar order agrees with Julian order | `to_julian`, `from_julian` | lexicographic order against day count; monotonicity of each float step | proved | `C12_to_julian_monotone`, `C12_from_julian_monotone` |
| C13 | HMS::from_fraction_of_day fields are in range (f64) | `HMS::from_fraction_of_day` | exactness of `trunc`/`fract`; bounds of each product | proved | `C13_fields_in_range`, `C13_bad_fract` |
| C14 | Fraction of day survives the HMS round trip | both `HMS` conversions | error bounds at f64, algebra at ℝ | proved | `C14_fraction_round_trip_f64`, `C14_fraction_round_trip_exact` |
| C15 | HMS survives the fraction-of-day round trip | both `HMS` conversions | algebra at ℝ; f64 witness and total-seconds bound; fields kept away from the ends of the minute | proved | `C15_hms_round_trip_exact`, `C15_hms_round_trip_f64_false`, `C15_hms_round_trip_f64_partial`, `C15_hour_and_minute_kept` |
| C16 | GregorianDateHMS round trip | `GregorianDateHMS` | composition of C04-C06 and C13-C15 | proved | `C16_julian_round_trip_exact`, `C16_civil_round_trip_exact`, `C16_from_julian_f64` |
| C17 | Date display is ISO-8601, injective and sortable | `Display for GregorianDate` | model of `{:04}`/`{:02}`; digits against positional value | proved | `C17_display_iso`, `C17_display_sortable`, `C17_display_injective` |
| C18 | delta_at error and pre-UTC behaviour | `delta_at` errors and early dates | search in the table as `rposition`; comparison semantics | proved | `C18_delta_at_errors`, `C18_bad_fract_value` |
| C19 | delta_at applies a leap second from the first day of its month | `delta_at` table search | negation for every step month, positive statement for all others | proved | `C19_delta_at_in_force_partial`, `C19_step_month_uses_previous`, `C19_leap_second_one_month_late`, `C19_first_month` |
| C20 | delta_at after 1972 is the integer table value | `delta_at` after 1972 | table facts by kernel evaluation lifted to all months; monotone in month | proved | `C20_delta_at_integer`, `C20_delta_at_monotone`, `C20_delta_at_overflow`, `C20_delta_at_wraps` |
| C21 | delta_at before 1972 is linear in time | `delta_at` before 1972 | linear formula at ℝ, rounding bound at f64 | proved | `C21_delta_at_linear`, `C21_delta_at_linear_f64` |
| C22 | TAI to TT adds 32.184 s | `TT::from(TAI)` | algebra at ℝ; rounding bound at f64 | proved | `C22_tai_to_tt_exact`, `C22_tai_to_tt_f64` |
| C23 | UTC to TAI adds delta AT seconds | `TAI::from_utc_delta_at` | same | proved | `C23_utc_to_tai_exact`, `C23_utc_to_tai_f64` |
| C24 | TT and UT1 conversions are mutually inverse | `TT::from_ut1`, `UT1::from_tt` | algebra, both branches of the size test | proved | `C24_shift_exact`, `C24_inverse_total`, `C24_inverse_parts`, `C24_shift_f64` |
| C25 | TT to TDB adds dtr seconds | `TDB::from_tt` | algebra; exact f64 identity for dtr = 0 | proved | `C25_tt_to_tdb_exact`, `C25_tdb_zero_f64`, `C25_tt_to_tdb_f64` |
| C26 | anp normalises to one turn | `anp` | `x % T = x - T k`; f64 bound and witness at the upper end; exact condition by the midpoint below TWO_PI, which rounds up | proved | `C26_anp_exact`, `C26_anp_unique`, `C26_anp_idempotent`, `C26_anp_f64_partial`, `C26_anp_half_open_false`, `C26_anp_two_pi_iff` |
| C27 | angle between vectors | `Vector::angle` | Cauchy-Schwarz, `Real.arccos` | proved | `C27_angle_cos`, `C27_angle_symm`, `C27_angle_scale`, `C27_angle_self`, `C27_angle_symm_f64` |
| C28 | angle of a vector with itself can be NaN in f64 | `Vector::angle` at f64 | kernel evaluation of a concrete vector (rounding makes the dot product exceed 1) | proved | `C28_angle_self_nan` |
| C29 | Elementary rotations are rotations | `Mat3::rotation` | matrix identities; explicit panic for axes above 2 | proved | `C29_rotation_neg_f64`, `C29_rotation_orthogonal`, `C29_rotation_fixes_axis`, `C29_rotation_neg`, `C29_rotation_add`, `C29_rotation_direction`, `C29_rotation_axis_panics` |
| C30 | Matrix algebra laws | `Mat3` operations | ring identities; `apply` is the transposed product (finding) | proved | `C30_transpose_f64`, `C30_compose_is_product`, `C30_compose_laws`, `C30_apply_is_transposed_product`, `C30_apply_compose`, `C30_apply_not_product`, `C30_apply_rotation` |
| C31 | Fundamental arguments modulo one turn | `fundargs.rs` | remainder identity and bounds | proved | `C31_fundamental_arguments`, `C31_less_than_two_turns`, `C31_not_within_one_turn`, `C31_planet_longitudes` |
| C32 | Earth rotation angle | `rotation_angle` | remainder identity modulo one turn | proved | `C32_earth_rotation_angle`, `C32_split_independent`, `C32_period` |
| C33 | Earth rotation angle does not depend on argument order (f64) | `rotation_angle` at f64 | commutativity and range for all finite inputs | proved | `C33_rotation_angle_comm`, `C33_rotation_angle_range`, `C33_rotation_angle_finite` |
| C34 | Reported Earth velocity is the derivative of the reported position | `EarthPosVel::from` with the full tables | `HasDerivAt` of each term, induction over the tables | proved | `C34_velocity_is_derivative` |
| C35 | Out-of-range warning | range flag of `EarthPosVel::from` | comparison semantics | proved | `C35_split_independent`, `C35_warning_iff` |
| C36 | Earth-Sun distance is plausible for all dates in range | position magnitudes | triangle inequality with table sums evaluated in the kernel | proved | `C36_distance`, `C36_sun_offset` |
| C37 | Ephemeris table accesses are in bounds and agree with the reference data | table accesses | every index in bounds; equality with the Fortran tables in /repo/fortran | proved | `C37_no_panic`, `C37_tables_match_fortran` |
| C38 | All frame matrices are proper rotations | frame matrices | products of rotations are rotations | proved | `C38_bias_and_precession`, `C38_nutation_matrix`, `C38_precession_nutation`, `C38_celestial_to_intermediate`, `C38_polar_motion`, `C38_celestial_to_terrestrial` |
| C39 | celestial_to_intermediate preserves the celestial pole | `celestial_to_intermediate_from_xys` | trigonometric identities for `atan2` and `atan(sqrt ..)` | proved | `C39_third_row`, `C39_pole`, `C39_celestial_to_intermediate`, `C39_within_century` |
| C40 | Precession and nutation vanish at their origin | precession and nutation at their origin | evaluation at t = 0 and zero nutation angles | proved | `C40_precession_at_epoch`, `C40_zero_nutation` |
| C41 | Nutation angles are bounded | `nutation` | triangle inequality with table sums | proved | `C41_nutation_bounded` |
| C42 | Frames depend only on the date, not on its split | date split of the frame functions | equality of the programs for equal totals | proved | `C42_split_independent` |
| C43 | celestial_to_terrestrial is polar motion times Earth rotation times celestial-to-intermediate | `celestial_to_terrestrial`, `polar_motion_matrix` | matrix identities, periodicity | proved | `C43_product`, `C43_polar_motion`, `C43_period`, `C43_polar_motion_general` |
| C44 | CIO locator | `cio` | triangle inequality with table sums | proved | `C44_cio` |
| C45 | EllipsoidConverter::new validates its input | `EllipsoidConverter::new` | case analysis; f64 witnesses and success range | proved | `C45_new_ok_iff`, `C45_new_errors`, `C45_new_f64_witnesses`, `C45_new_f64_ok`, `C45_ellipsoid` |
| C46 | Geodetic to geocentric lands at the stated height above the ellipsoid | `geodetic_to_geocentric` | ellipsoid equation and surface normal | proved | `C46_geocentric` |
| C47 | Geodetic round trip on the surface | round trip on surface, sphere, equator, pole | Fukushima's step evaluated exactly on those sets | proved | `C47_surface_round_trip`, `C47_sphere_round_trip`, `C47_equator_round_trip`, `C47_pole_round_trip` |
| C48 | Symmetries of geocentric_to_geodetic | `geocentric_to_geodetic` | symmetries, ranges, f64 NaN witness | proved | `C48_reflect`, `C48_longitude`, `C48_axial_symmetry`, `C48_axis`, `C48_ranges`, `C48_reflect_f64`, `C48_nan_witness` |
| C49 | Degree conversion normalises longitude and latitude | `Geodetic360` conversions | `rem_euclid` range at ℝ and f64 | proved | `C49_range`, `C49_round_trip` |
| C50 | Degree conversion keeps the hemisphere | latitude of `Geodetic360` | negation at the north pole, positive elsewhere; in f64 by monotonicity of rounding from the values at the three largest latitudes | proved | `C50_north_pole_flips`, `C50_latitude_kept_partial`, `C50_flips_iff_f64` |
| C51 | Degree conversion never trips its assertions on finite input | debug assertions | exact panic condition, witnesses | proved | `C51_assertions_iff`, `C51_no_panic`, `C51_witnesses` |
| C52 | SunAngleCalculator::new panics only on a bad time of day | `SunAngleCalculator::new` | exact panic condition in both arithmetics | proved | `C52_new_exact`, `C52_new_f64`, `C52_position_ok`, `C52_overflow`, `C52_nan_seconds` |
| C53 | Sun zenith angle is the angle between the local vertical and the Sun | `SunAngleCalculator::compute` | unfolding to angle of zenith and Sun vectors, distance | proved | `C53_sun_zenith_angle`, `C53_sun_distance` |
| C54 | Time offset is equivalent to shifting the time of day | time offset | shift of the fraction of day, delta AT condition | proved | `C54_offset_is_shift`, `C54_same_delta_at`, `C54_drift_years` |
| C55 | sun_angle_tool scan loop | scan loop of `sun_angle_tool` | fuel-indexed loop, termination and non-termination for all fuels | proved | `C55_scan_f64_any`, `C55_scan_to_infinity`, `C55_scan_nan_bound`, `C55_scan_nan_step`, `C55_scan_exact`, `C55_scan_never_stops`, `C55_no_scan`, `C55_scan_f64_stops_iff`, `C55_scan_f64_stuck`, `C55_scan_f64_exact` |
| C56 | HMS display | `Display for HMS` | decimal rendering of binary64 with rounding to nearest, ties to even | proved | `C56_hms_display` |
| C57 | Accuracy of the f64 Earth rotation angle | `rotation_angle` at f64 | error analysis over the stated date range | proved | `C57_rotation_angle_accuracy` |
| C58 | Height returned by geocentric_to_geodetic is consistent with its latitude | `geocentric_to_geodetic` | height formula against latitude formula | proved | `C58_height_consistent` |
| C59 | Accuracy of the one-step geocentric to geodetic conversion | `geocentric_to_geodetic` | bound of the one-step method error | proved | `C59_round_trip_accuracy`, `C59_wgs84` |
| C60 | Time scales reported by the Sun angle calculator | time scales inside the calculator | algebra and rounding bounds | proved | `C60_time_scales_exact`, `C60_time_scales_f64` |
| C61 | Mathematical and time constants | constants of `common.rs`, `time.rs` | exact comparisons, bounds for the series of pi | proved | `C61_constants_exact`, `C61_constants_f64`, `C61_time_constants` |
| C62 | WGS84 is the published ellipsoid | `WGS84` | exact values; nearest binary64 | proved | `C62_wgs84_exact`, `C62_wgs84_f64` |
| C63 | Celestial-to-intermediate matrix is the IERS formula | `celestial_to_intermediate_from_xys` | closed IERS formula | proved | `C63_cio_matrix` |
| C64 | Bias, precession and nutation matrices are the IAU 2000 products | bias, precession, nutation products | matrix identities against elementary rotations (Spec/Rotation) | proved | `C64_bias_precession_nutation` |
| C65 | Nutation is the IAU 2000B series | `nutation` | term by term against Spec/Nut00b, modulo 2π | proved | `C65_nutation_series` |
| C66 | CIO locator is the IERS series | `cio` | term by term against Spec/S00, modulo 2π | proved | `C66_locator_series` |
| C67 | Accuracy of the f64 frame matrices | `nutation`, `PrecessionNutation`, `celestial_to_intermediate`, `celestial_to_terrestrial` at f64 | propagation of rounding and library errors through series, rotations (operator norm) and the node/tilt formula; hypothesis `LibmAcc` on the library | proved | `C67_nutation_f64`, `C67_matrices_f64`, `C67_celestial_to_terrestrial_f64` |
| C68 | Accuracy of the f64 Earth ephemeris | `From<TDB> for EarthPosVel` at f64 | per-term error bound for every row of the three series tables, summed by a fold lemma with a checked weight per table; then the ICRF rotation; hypothesis `LibmAcc` on the library | proved | `C68_ephemeris_f64`, `C68_warning_f64` |
| C69 | Vector algebra and its f64 accuracy | `Vec3` operations, `norm`, `normalize`, `angle` | vector space laws over the reals; relative error of the square root of a sum of squares; conditioning of arccos away from its ends; hypothesis `LibmAcc` only for the last part | proved | `C69_commutative_f64`, `C69_vector_group`, `C69_vector_sub_f64`, `C69_norm_normalize_f64`, `C69_angle_f64` |
| C70 | Totals of two-part dates | `total`, the time scale conversions | one rounded addition is nearest; case split on the comparison of the parts | proved | `C70_total_f64`, `C70_total_conversions` |
| C71 | Accuracy of the f64 geodetic to geocentric conversion and zenith | `Geodetic::from`, `zenith`, `geodetic_to_geocentric` at f64 | error propagation through degree conversion, sine and cosine, square root and division; hypothesis `LibmAcc` on the library | proved | `C71_zenith_f64`, `C71_geocentric_f64` |
| C72 | End-to-end accuracy of the f64 Sun zenith angle | `SunAngleCalculator::new`, `compute` at f64 | composition of C60, C67, C68, C69 and C71: time error of 5e-11 days through the Earth rotation angle, operator norm of the matrix error, conditioning of the angle; hypothesis `LibmAcc` on the library | proved | `C72_sun_angle_f64`, `C72_sun_angle_everywhere` |
| C73 | Printed positions | `Display` of `Geodetic360` and `Geodetic`; decimal formatting of f64 | a separate reader of decimal numerals (`Spec/Numeral`); reading inverts formatting up to half a unit, by induction on the digits; length by a bound on the digits | proved | `C73_position_text`, `C73_radians_text` |
| C74 | Printed dates and times read back | `Display` of `GregorianDate` and `HMS` | reading inverts formatting; injectivity from the fixed widths of month and day | proved | `C74_date_text`, `C74_date_injective`, `C74_time_text`, `C74_time_text_not_finite`, `C74_moment_text` |
| C75 | Printed Sun angle report | `Display` of `SunAngleResultBundle` | composition of C72 and the reader lemma; splitting at newlines because no field contains one | proved | `C75_printed_report` |
| C76 | julian_tool gregorian: printed output | `julian_tool gregorian` | composition of C02, the day fraction error and the reader lemma; C03 for the panic | proved | `C76_gregorian_text`, `C76_gregorian_stops` |
| C77 | julian_tool julian: printed output and round trip | `julian_tool julian` | composition of C05, C13 and the reader lemma; C08 and C09 for the other endings; composition with C76 for the round trip | proved | `C77_outcomes`, `C77_moment_error`, `C77_julian_text`, `C77_julian_stops`, `C77_round_trip` |
| C78 | sun_angle_tool: printed output | `sun_angle_tool` | composition of C55 and C75; the inputs of every report are between those of the ends of the scan | proved | `C78_scan_text_any`, `C78_single_text`, `C78_scan_text`, `C78_silent_ends` |
| C79 | Accuracy of the f64 geocentric to geodetic conversion | `geocentric_to_geodetic` at f64 | error calculus relative to monomials in the size and the axis distance (`Float/SB`) through Halley's step, so that points near the axis lose no accuracy; conditioning of arctan of a quotient; C59 for the method error; then the meridian map is Lipschitz; hypotheses on atan and atan2 | proved | `C79_geodetic_f64` |
| C80 | The f64 conversion finds the geodetic coordinates of a point | `geocentric_to_geodetic` at f64 | C79 bounds the residual; the map from latitude and height to the meridian plane has a Lipschitz inverse away from the centre (`Lemmas/GeodeticInverse`), so the residual bounds the error of the answer; longitude by rotating into the meridian; the height separately: rounding of its formula (`Lemmas/HeightAcc`, `HeightDir`) and its second-order dependence on the latitude (`Lemmas/HeightCore`) | proved | `C80_geodetic_coordinates_f64`, `C80_every_point`, `C80_height_f64` |
| C81 | Round trip geodetic to geocentric and back in f64 | both conversions and `Geodetic360::from` at f64 | C71 puts the computed point within 0.3 micrometres of the true one; the core of C80 with that perturbation; `rem_euclid` is exact up to the final additions; height: relative error of the forward conversion (`Lemmas/HeightForward`), then the height bound of C80 at the point with the computed sine and cosine | proved | `C81_round_trip_f64`, `C81_degrees`, `C81_near_surface`, `C81_height_f64`, `C81_near_surface_height` |
| C82 | The randomised tests pass for every draw | loop bodies of `test_calendar`, `test_hms`, `test_rotation`, all of `test_ellipsoid` (`Model/Tests`) | `floor` is exact (`Float/Floor`); C05, C13, C14 and the day number for the calendar; C29 and the matrix error calculus for the rotations; the height, latitude and longitude errors of C81 with a relative hypothesis on sin and cos for the ellipsoid, whose tolerance is 3 % above the bound | proved | `C82_test_ellipsoid_iter`, `C82_test_ellipsoid`, `C82_test_hms`, `C82_test_rotation`, `C82_test_calendar` |
| C83 | The Sun is where mean orbital elements put it | `SunAngleCalculator::compute` against `Spec/MeanSun` | leading terms of the ephemeris series are the mean elements, the other terms are summed by absolute value; the celestial to terrestrial matrix is a rotation by the Earth rotation angle after precession up to 3.5e-4 (operator norm); C72 carries the sign over to f64 | proved | `C83_mean_sun`, `C83_above_below`, `C83_above_below_f64` |
| C84 | Noon, midnight and the polar seasons | `SunAngleCalculator::new`, `compute` | C83 and spherical trigonometry of the mean Sun: hour angle against mean solar time with a bound on the equation of time, declination against the day count of the calendar (C02) | proved | `C84_noon_and_midnight`, `C84_noon_and_midnight_f64`, `C84_polar_seasons`, `C84_polar_seasons_f64` |
| C85 | Numbers on the command line are read correctly | `f64::from_str`, `i32::from_str`, `u8::from_str` (`Model/Parse`) | the grammar is stated separately (`Spec/FloatText`) and shown equal to the accepted language; the value by the decimal reader of `Spec/Numeral` and the correctly rounded quotient | proved | `C85_parse_f64`, `C85_parse_f64_exp`, `C85_parse_f64_accepts`, `C85_parse_f64_forms`, `C85_parse_int` |
| C86 | A printed f64 fraction reads back exactly | `{}` on f64 (`shortest`, `Model/Parse`) | the numbers that read back to a given f64 form an interval around it; if any decimal with k digits is inside, one of the two neighbours with k digits is; reading inverts writing; C77 for the tool | proved | `C86_shortest`, `C86_read_back`, `C86_characters`, `C86_julian_fraction` |
| C87 | Command lines of the tools | argument parsing of `main` in both tools (`Model/Args`) | removing an option with its value from a list of items is removing the item (`Lemmas/Args`); case analysis of the argument list for the exact language of `julian`; C76, C77 and C85 for the round trip | proved | `C87_gregorian_args`, `C87_julian_args`, `C87_sun_angle_args`, `C87_order`, `C87_rejected`, `C87_round_trip`, `C87_sun_report` |
| C88 | Default parameters of library and tool agree | `SunAngleParameters::default`, defaults of `main` in `sun_angle_tool` | the two sets of literals are compared; C87 for the run without arguments; C84 for day and night | proved | `C88_defaults_agree`, `C88_no_arguments`, `C88_default_day_and_night` |
| C89 | Speed of the Earth and Kepler's second law | velocity of `EarthPosVel::from(TDB)` | leading terms of the ephemeris series and their derivatives in coordinates rotating with the mean longitude; the first order terms in the eccentricity cancel in the areal velocity; the other terms are summed by absolute value | proved | `C89_speed`, `C89_areal` |
| C90 | Rate of change of the zenith angle; sunrise and sunset | `SunAngleCalculator::compute` at two offsets | angles between vectors satisfy the triangle inequality (`Lemmas/Angle3`); Lipschitz constants of the nutation and locator series (`Lemmas/SeriesLip`), of the matrices in operator norm and of the Earth position from the speed (C89); the Earth rotation angle; discrete intermediate value argument since the angle jumps by about 1e-20 where the decimal 2 pi wraps; C84 for the signs at noon and midnight; C72 for f64 | proved | `C90_zenith_angle_rate`, `C90_every_angle_between`, `C90_sunrise_and_sunset`, `C90_zenith_angle_rate_f64` |
| C91 | Exactly one sunrise and one sunset a day | `SunAngleCalculator::compute` at two offsets | the chord of the Sun's direction over the interval is that of a rotation about the polar axis applied to the direction at the middle, up to the Lipschitz constants of C90 (`climb_vec` in `Lemmas/SunClimb`); its component along the vertical is bounded below by the mean Sun (C83) six hours from the meridian; existence from C90, signs at noon and midnight from C84, f64 from C72 | proved | `C91_morning_and_afternoon`, `C91_one_sunrise_one_sunset`, `C91_one_sunrise_one_sunset_f64` |
| C92 | The tropics and the equator | `SunAngleCalculator::compute` | declination of the mean Sun by the Cauchy inequality, transferred by C83; triangle inequality of angles at the pole; the meridian estimate of C84 at latitude 0 | proved | `C92_tropics`, `C92_tropics_f64`, `C92_equator`, `C92_equator_f64` |
| C93 | The ephemeris tables are what the dump program prints | `dump_array`, `dump_epv00` (`Model/Dump`), tables of `epv00_data.rs` | fifteen digits survive one rounding to 53 bits because half a unit of the fifteenth digit exceeds two relative errors of 2^-53, with the carry at a power of ten treated apart; the grammar of constants is stated separately (`Spec/RustConst`) and shown unambiguous; whole-table check of digits and padding | proved | `C93_field_half_unit`, `C93_fifteen_digits`, `C93_field_exact`, `C93_dump_array`, `C93_dump_is_tables`, `C93_three_digit_exponents`, `C93_not_every_number`, `C93_three_digit_text`, `C93_fields_fit`, `C93_field_width_exact` |
| C94 | What the test suite accepts | all tests of `tests.rs` (`Model/TestsWhole`), three tables of `test_data.rs` | case analysis on NaN, infinity and overflow of the difference; loops by induction; C82 for the randomised tests; table entries evaluated by the kernel with operations shown equal to those of the model (`Float/Fast`, where the exponent is found by bisection); NaN absorbs every operation on the way to each result | proved | `C94_compare_numbers`, `C94_compare_finite`, `C94_compare_matrices`, `C94_data_tests`, `C94_test_rotation_angle`, `C94_test_precession_rate`, `C94_test_time_scales`, `C94_zero_offsets`, `C94_test_geodetic_display`, `C94_test_delta_at`, `C94_test_calendar`, `C94_test_hms`, `C94_test_rotation`, `C94_test_earth`, `C94_nan_library` |
| C95 | The program that wrote the test data loses nothing | all output of `fortran/test_sofa.f90` (`Model/TestSofa`) | the seventeen digits are within half a unit of the number, nearer than any midpoint of neighbouring doubles, so the literal rounds back; records by induction over their items; grammar of Rust values as an inductive relation (`Spec/RustData`), unambiguous by induction on the depth of brackets | proved | `C95_three_digit_text`, `C95_fields_fit`, `C95_list_directed`, `C95_matrix_entry`, `C95_three_digit_exponents`, `C95_test_data`, `C95_one_reading`, `C95_nothing_lost` |
| C96 | The Sun culminates within half an hour of mean noon | `SunAngleCalculator::compute` | the difference of two Sun vectors is the rotation by the Earth over the interval applied to the mean Sun at its middle, up to the motion of the Sun (as in C91, over eleven hours instead of eight); hour angle of the mean Sun within half an hour of mean time; a near-maximum over the noon window exists because cosines are bounded | proved | `C96_half_days`, `C96_culmination`, `C96_half_days_f64` |
| C97 | Days are longer than twelve hours in summer and shorter in winter | `SunAngleCalculator::compute` | a rotation by half a turn about the z axis cancels x and y, so the sum of two Sun vectors twelve hours apart is twice their z part up to the motion of the Sun and of the pole; z of the mean Sun from the sine of its longitude, day counts of the season limits over all years; the day would be symmetric if sunset were twelve hours after sunrise, which the sum excludes | proved | `C97_twelve_hours_apart`, `C97_long_and_short_days`, `C97_long_and_short_days_f64` |
| C98 | The loops of nutation and locator stay inside their tables | `nutation`, `cio` as loops (`Model/Loops`) | a loop over the indices of a list with bounds checks is the fold over the list (relation between positions and entries, `Forall₂`), applied to pairs of tables of equal length | proved | `C98_nutation_loop`, `C98_locator_loop`, `C98_bounds_are_tight` |
| C99 | The ephemeris is turned to the equator by the Euler angles of the reference | `EarthPosVel::from(TDB)` | sine and cosine of the obliquity from fourteen terms of the exponential series with the remainder bound, π to 20 digits, then each entry of the matrix; f64 from C68 | proved | `C99_icrf_axes`, `C99_distance_and_speed`, `C99_icrf_axes_f64` |
| C100 | At noon the zenith angle is latitude less declination | `SunAngleCalculator::compute` | triangle inequality of angles with the pole; the angle between the Sun and the east point has jumps of at most 5e-19, so it passes a right angle between 11:30 and 12:30 (sides from C83 and C96); projection on the meridian plane | proved | `C100_between`, `C100_noon_and_midnight`, `C100_between_f64`, `C100_noon_f64` |
| C101 | The time scales of the calculator are those of the Fortran program it was checked against | `SunAngleCalculator::{new,compute}`, `fortran/test_sun.f90` (`Model/TestSun`) | addition of f64 is commutative, so the fractions of the day are one number; a zero offset changes no sum that is not zero; bounds of three roundings for UT1; the two orders evaluated at 12:00 and 12:02; fixed length of a number in list-directed output for the text | proved | `C101_times_exact`, `C101_times_f64`, `C101_ut1_noon`, `C101_ut1_later`, `C101_text_nothing_lost`, `C101_labels`, `C101_headings` |
| C102 | The arguments drawn for the test data stay in their ranges, except that the angles exceed a turn | `fortran/test_sofa.f90` (`Model/Draws`) | rows flattened and put together block by block (each draw once); monotone rounding and the nearest number below each bound; the greatest draw for attainment; the integers that could have given the angle in the table lie strictly between two consecutive integers | proved | `C102_ranges`, `C102_bounds_attained`, `C102_single_literal`, `C102_data_show_it`, `C102_every_run`, `C102_each_draw_once`, `C102_rows` |
| C103 | The Sun is nearest in January and farthest in July | `EarthPosVel::from`, `SunAngleCalculator::compute` | length of the mean orbit of C83 in closed form; distance from it by the triangle inequality; day counts of C84 for the phase at a date; Taylor bounds of the cosine at 0.56 and 0.0935 radians | proved | `C103_distance`, `C103_nearest_and_farthest`, `C103_nearest_and_farthest_f64` |
| C104 | Error messages and exit status of the tools | `main` of both tools, `CalendarError` | model of the tools as processes with the texts of all errors; simulation with the programs of C87; induction over the options read; case analysis of first letters and of suffixes for the distinct messages; a witness for the ignored argument | proved | `C104_unreal_date`, `C104_refused_julian`, `C104_i32_messages`, `C104_u8_messages`, `C104_f64_messages`, `C104_option_messages`, `C104_i32_reason`, `C104_u8_reason`, `C104_same_numbers`, `C104_messages_distinct`, `C104_text_arguments`, `C104_gregorian_first_error`, `C104_julian_first_error`, `C104_sun_angle_first_error`, `C104_no_text`, `C104_gregorian_ignores_no_text`, `C104_status` |
| C105 | The Sun between the solstices | `SunAngleCalculator::compute`, `EarthPosVel` | mean value theorem for the projection of the direction of the Earth on the pole of date, its derivative by the law of areas (C89), the sign of the derivative from the mean orbit and the phase of the calendar date; the pole of date is slow by the sum of the frequencies of the nutation series (kernel computation over the table) | proved | `C105_between_solstices`, `C105_between_solstices_f64`, `C105_noon` |
| C106 | The equation of time | `SunAngleCalculator::compute`, `EarthPosVel` | components of the mean Sun (C83) along the east and along the meridian at mean noon, as trigonometric polynomials of the longitude from the equinox of date with explicit error bounds; half-angle substitution and positive Bernstein coefficients give the signs and the range; the longitude from the calendar date as in C84 | proved | `C106_equation_of_time`, `C106_sundial`, `C106_sundial_f64` |
| C107 | Places of the Earth at one moment | `SunAngleCalculator::{new, compute}` | unfolding of `new` for two parameter sets with the same moment; zenith angle as angle between the vertical and one common vector (C53); polar form of that vector gives the point under the Sun; triangle inequality of angles; binary64 through C72 | proved | `C107_place_only`, `C107_subsolar_point`, `C107_two_places`, `C107_antipode_f64` |
| C108 | One moment written in two ways | `SunAngleCalculator::{new, compute}`, `delta_at` | time scales of C60; independence of the split of the dates (C32, C42); Lipschitz bound of the celestial motion of the Sun from C90 at equal UT1; monotone unit steps of the table by evaluation over all its months; binary64 through C72 | proved | `C108_same_moment`, `C108_other_date`, `C108_same_moment_f64` |
| C109 | The height is the distance from the ellipsoid | `ellipsoid.rs`, both conversions | The statement speaks of points, distances and an equation only (`Spec/Ellipsoid.lean`). With the unit normal n at the foot s and the gradient relation of C46, dist(v,t)^2 - h^2 = |t-s|^2 + 2h n.(s-t), and 2 n.(s-t) is the quadratic form of t-s divided by the gradient length, which is below a/b^2 times |t-s|^2; this gives both the minimum and its uniqueness. Binary64 through C71 and C80. | proved | `C109_height_is_distance`, `C109_injective`, `C109_bound_needed`, `C109_height_is_distance_f64`, `C109_height_of_point_f64` |
| C110 | The order of moments in UTC and TAI | `delta_at`, `TAI::from_utc_delta_at` | month by month comparison of consecutive table rows at the first day of the next month (whole table by evaluation), summed by induction over the months with a step function for the three steps back; the calendar of C02 puts every date in its month; C23 for the pairs; monotone rounding | proved | `C110_tai_order`, `C110_order_reversed`, `C110_tai_order_f64`, `C110_pairs_f64` |
| C111 | Lengths of degrees of latitude and longitude | `ellipsoid.rs`, `geodetic_to_geocentric` | the meridian is differentiated: its tangent has the direction of growing latitude and the length of the radius of curvature plus the height; monotonicity of the projection on the tangent at the mean latitude gives the chord, of the projection on the chord the arc; binary64 through C71 | proved | `C111_meridian`, `C111_parallel`, `C111_meridian_f64`, `C111_parallel_f64` |
| C112 | The celestial pole moves 2004 seconds of arc per century | `frames.rs`, `bias_and_precession`, `precession_nutation`, `celestial_to_intermediate` | third row of the precession matrix of C64 written out; sine and cosine of the obliquity of J2000.0 from fourteen terms of the series; the nutation of C41 and the bias move the pole by at most their own size; binary64 through C67 | proved | `C112_pole`, `C112_advances`, `C112_pole_f64` |
| C113 | NaN and infinities are passed on, except by geocentric_to_geodetic | `frames.rs`, `earth.rs`, `ellipsoid.rs`, `sun_angle.rs` | numbers that are not finite are closed under the operations used; a product of matrices with a column of NaN is NaN; the last term of each series decides; for the pole, both comparisons with NaN are false | proved | `C113_precession_nutation`, `C113_celestial_to_intermediate`, `C113_celestial_to_terrestrial`, `C113_ephemeris`, `C113_geodetic_to_geocentric`, `C113_nan_is_pole`, `C113_nan_is_pole_case`, `C113_geocentric_nan_z`, `C113_compute`, `C113_calculator` |
| C114 | The frames do not jump, and the Earth turns once a sidereal day | `frames.rs`, `earth.rs` | each term of the nutation and locator series is weighted with the speed of its own argument and the weights are summed over the tables in the kernel; the matrices are products of rotations, whose norms are one and whose rates are those of their angles | proved | `C114_frames`, `C114_terrestrial`, `C114_frames_f64`, `C114_terrestrial_f64` |
| C115 | In f64 the frame matrices are rotations, for every date | `frames.rs`, `earth.rs` | only magnitudes are tracked through the series, so that every angle is finite and within the range of the library; each elementary matrix is compared with the exact rotation by the angle that was computed, and products with the exact product | proved | `C115_any_date`, `C115_any_angles`, `C115_any_pole`, `C115_outside_disc`, `C115_terrestrial` |
| C116 | Vectors turned in f64 keep their lengths and angles and come back | `common.rs`, `frames.rs` | the matrices of C115 are close to exact rotations in operator norm; the three-term sums of `apply` are bounded relative to the length of the vector | proved | `C116_any_date`, `C116_rotation`, `C116_terrestrial` |
| C117 | The Earth obeys the law of gravitation | `earth.rs` | differentiate the series twice, bound all but the two main terms by sums of |a c^2| over the tables, and compare the main terms with the expansion of the inverse square law for a small eccentricity; two dates by the mean value theorem | proved | `C117_newton`, `C117_newton_f64` |
| C118 | The Earth comes back to its place after one sidereal year, and not before | `earth.rs` | chords of the circle of the main term; the second harmonic and all other terms bounded by sums over the tables | proved | `C118_chord`, `C118_year`, `C118_year_f64` |
| C119 | The orbit is an ellipse with the Sun in one focus | `earth.rs` | the two main terms expanded to second order in the eccentricity, everything else bounded by sums over the tables | proved | `C119_ellipse`, `C119_eccentricity`, `C119_ellipse_f64` |
| C120 | The Sun moves slowly about the centre of mass | `earth.rs` | sums of amplitudes, of amplitudes times frequencies and of amplitudes times squared frequencies over the Sun tables; C117 for the Earth | proved | `C120_sun`, `C120_sun_f64` |
| C121 | The energy of the Earth on its orbit is constant | `earth.rs` | the two main terms of position and velocity expanded to first order in the eccentricity, the rest bounded by sums over the tables | proved | `C121_energy`, `C121_conserved`, `C121_energy_f64` |
| C122 | The celestial pole moves on a cone around the pole of the ecliptic | `frames.rs` | exact product of the four precession rotations applied to the pole of the ecliptic; bounds on bias and nutation; from cosine to angle | proved | `C122_cone`, `C122_obliquity`, `C122_obliquity_f64` |
| C123 | The unit of length does not matter to the ellipsoid conversions | `ellipsoid.rs` | the quotients p/a and z/a do not change, the threshold aeps2 is a multiple of the square of the radius | proved | `C123_to_geodetic`, `C123_to_geocentric`, `C123_accepted` |
| C124 | The equinoxes | `SunAngleCalculator::{new,compute}` | bounds of the phase of the year by calendar date, declination of the mean Sun as a polynomial in sine and cosine of the phase, distance of the Sun of the program from the mean Sun (C83), then C72 | proved | `C124_equinoxes`, `C124_equinoxes_f64`, `C124_polar_sunrise` |
| C125 | The mean obliquity falls | `frames.rs` | difference of the cubic at two dates factored; rounding errors of the Horner scheme | proved | `C125_falling`, `C125_falling_f64` |
| C126 | The vertical and the direction away from the centre | `ellipsoid.rs`, `common.rs` | position resolved along and across the vertical; angle from its cosine; arithmetic and geometric mean | proved | `C126_deflection`, `C126_bound`, `C126_wgs84` |
| C127 | Symmetries of geodetic_to_geocentric | `ellipsoid.rs`, `common.rs` | addition theorems; sign symmetry of the binary64 product | proved | `C127_longitude`, `C127_mirrors`, `C127_mirrors_f64` |
| C128 | The months and years of the fundamental arguments | `fundargs.rs` | difference of the polynomials at two dates bounded, intermediate value theorem; published periods substituted, remainder bounded | proved | `C128_months`, `C128_years`, `C128_new_moons`, `C128_perigees`, `C128_nodes`, `C128_perihelia` |
| C129 | The arguments of the Moon, the Sun and the Earth agree | `fundargs.rs` | sum of the polynomials; the numbers of turns bounded because the turn constants of the code are not exactly 2 pi | proved | `C129_sun`, `C129_perihelion` |
| C130 | UT1 is mean solar time | `earth.rs`, `fundargs.rs` | both sides as polynomials of the date; errors of the turn constants bounded | proved | `C130_mean_time` |
| C131 | The four largest terms of the nutation | `frames.rs`, `fundargs.rs` | four rows split off the sum, the rest bounded by the sum of its coefficients; arguments compared modulo a turn | proved | `C131_short_series` |

## 4. Trusted base

* **Kernel.** Lean 4.33.0's kernel, and Mathlib as installed. No `native_decide`, no `bv_decide`, no `sorry`, no axiom of
  this project. `decide +kernel` is used for whole-table facts; it is checked by the kernel by evaluation.
* **Transcription.** The hand transcription of `/repo` into `Verif/Model` (each definition cites its lines). The big
  tables were transcribed by script from the Rust source; `C37_tables_match_fortran` compares the ephemeris tables
  with the Fortran source in `/repo/fortran`, and C65/C66 compare the nutation and locator tables with separately
  written specifications.
  As a check of the transcription (a test, not part of any proof), `tools/validate/run.sh` executes the `F64` model with
  the machine's own libm on all 11,000 reference entries of `test_data.rs` and on the literal cases of `tests.rs`, with
  the tolerances of `tests.rs`; all agree.
* **Floating point.** Fidelity of `Verif/Float` to IEEE-754 binary64 as Rust uses it: round to nearest even, no extended
  precision, no contraction into FMA. NaN payload and sign are not modelled (one NaN value).
* **Published data.** `Spec/EpvRef`, `Spec/Nut00b`, `Spec/S00` are written from the published series;
  `tools/check_reference.py` evaluates them numerically and compares with the published SOFA test values (a sanity
  check of the specification, not part of any proof).
* **libm.** At `F64` the functions `sin cos tan asin acos atan atan2` are arbitrary parameters. The accuracy theorems
  at f64 take as hypothesis that they are within a stated error of the real functions: absolute (`LibmAcc`) or relative (`LibmRel`). A library
  meeting both exists (`relLibm_acc`, `relLibm_rel`), so no such theorem is vacuous.
* **Formatting.** Rust's `{:w.p}` on an f64 is modelled as: the exact binary value rounded to `p` decimals, ties to
  even; a sign is printed for negative numbers and for `-0.0`, and for others under the `+` flag; padding with spaces on the
  left, or with zeros after the sign under the `0` flag. Nothing is claimed about the text of NaN or infinities. `{}` on an
  f64 is the shortest decimal that reads back, the nearest to the number among those, written without exponent (`shortest`);
  C77 holds for any other choice too. Text written by `print!` is modelled as a list of characters; errors of the output stream are not.

* **Command lines.** `f64`, `i32` and `u8` are read from text as documented for the standard library, with correct rounding
  (`Model/Parse`). `pico_args` 0.5 is modelled without its optional features: an option takes the argument after its
  first occurrence, both are removed; a flag is removed at its first occurrence; the subcommand is the first argument unless that
  begins with `-`. Neither source is in `/repo`, so these are trusted. `tools/validate/text.sh` compares reading and writing
  with another implementation on 20000 texts. `Model/Process` has arguments that are not UTF-8 and the texts of errors: those of
  `pico_args::Error`, of `ParseIntError` and `ParseFloatError`, and the line `Error: …` with exit status 1 that the standard library and
  `anyhow` give for an error returned from `main` when `RUST_BACKTRACE` is not set. The text of a panic is a parameter; its exit status is 101.

* **Fortran.** `Model/Dump` follows gfortran: `Ew.d` rounds the exact binary value half-even, writes `0.` and `d` digits, and drops the
  `E` when the exponent needs three digits; static arrays are zero where no `DATA` statement gives a value. As a check,
  `tools/validate/dump.sh` runs the model and compares its output with `epv00_data.rs`: the same characters after the first line. List-directed
  output of a double (`Model/TestSofa`) has seventeen significant digits, without exponent from 0.1 up to 10^17. As a check,
  `tools/check_test_data.py` is the same formats in another language and writes `test_data.rs` again from the values in it, byte for byte.

### Axioms of each property theorem (`tools/axioms.sh`)

* **propext** — 1 theorems: `C98_bounds_are_tight`
* **propext, Classical.choice, Quot.sound** — 442 theorems: `C01_new_accepts_exactly_real_dates`, `C02_to_julian_counts_days`, `C02_to_julian_next_day`, `C03_to_julian_overflow`, `C04_round_trip`, `C05_from_julian_instant`, `C06_from_julian_exact`, `C06_from_julian_sum_only`, `C07_fraction_below_one_false`, `C07_fraction_below_one_mjd`, `C07_fraction_le_one_partial`, `C08_nan_accepted`, `C08_range_check`, `C09_exact_threshold`, `C09_from_julian_overflow`, `C100_between`, `C100_between_f64`, `C100_noon_and_midnight`, `C100_noon_f64`, `C101_headings`, `C101_labels`, `C101_text_nothing_lost`, `C101_times_exact`, `C101_times_f64`, `C101_ut1_later`, `C101_ut1_noon`, `C102_bounds_attained`, `C102_data_show_it`, `C102_each_draw_once`, `C102_every_run`, `C102_ranges`, `C102_rows`, `C102_single_literal`, `C103_distance`, `C103_nearest_and_farthest`, `C103_nearest_and_farthest_f64`, `C104_f64_messages`, `C104_gregorian_first_error`, `C104_gregorian_ignores_no_text`, `C104_i32_messages`, `C104_i32_reason`, `C104_julian_first_error`, `C104_messages_distinct`, `C104_no_text`, `C104_option_messages`, `C104_refused_julian`, `C104_same_numbers`, `C104_status`, `C104_sun_angle_first_error`, `C104_text_arguments`, `C104_u8_messages`, `C104_u8_reason`, `C104_unreal_date`, `C105_between_solstices`, `C105_between_solstices_f64`, `C105_noon`, `C106_equation_of_time`, `C106_sundial`, `C106_sundial_f64`, `C107_antipode_f64`, `C107_place_only`, `C107_subsolar_point`, `C107_two_places`, `C108_other_date`, `C108_same_moment`, `C108_same_moment_f64`, `C109_bound_needed`, `C109_height_is_distance`, `C109_height_is_distance_f64`, `C109_height_of_point_f64`, `C109_injective`, `C10_from_julian_accepted_by_new`, `C10_from_julian_accepted_f64`, `C10_from_julian_rejected_f64`, `C110_order_reversed`, `C110_pairs_f64`, `C110_tai_order`, `C110_tai_order_f64`, `C111_meridian`, `C111_meridian_f64`, `C111_parallel`, `C111_parallel_f64`, `C112_advances`, `C112_pole`, `C112_pole_f64`, `C113_calculator`, `C113_celestial_to_intermediate`, `C113_celestial_to_terrestrial`, `C113_compute`, `C113_ephemeris`, `C113_geocentric_nan_z`, `C113_geodetic_to_geocentric`, `C113_nan_is_pole`, `C113_nan_is_pole_case`, `C113_precession_nutation`, `C114_frames`, `C114_frames_f64`, `C114_terrestrial`, `C114_terrestrial_f64`, `C115_any_angles`, `C115_any_date`, `C115_any_pole`, `C115_outside_disc`, `C115_terrestrial`, `C116_any_date`, `C116_rotation`, `C116_terrestrial`, `C117_newton`, `C117_newton_f64`, `C118_chord`, `C118_year`, `C118_year_f64`, `C119_eccentricity`, `C119_ellipse`, `C119_ellipse_f64`, `C11_from_julian_comm`, `C120_sun`, `C120_sun_f64`, `C121_conserved`, `C121_energy`, `C121_energy_f64`, `C122_cone`, `C122_obliquity`, `C122_obliquity_f64`, `C123_accepted`, `C123_to_geocentric`, `C123_to_geodetic`, `C124_equinoxes`, `C124_equinoxes_f64`, `C124_polar_sunrise`, `C125_falling`, `C125_falling_f64`, `C126_bound`, `C126_deflection`, `C126_wgs84`, `C127_longitude`, `C127_mirrors`, `C127_mirrors_f64`, `C128_months`, `C128_new_moons`, `C128_nodes`, `C128_perigees`, `C128_perihelia`, `C128_years`, `C129_perihelion`, `C129_sun`, `C12_from_julian_monotone`, `C12_to_julian_monotone`, `C130_mean_time`, `C131_short_series`, `C13_bad_fract`, `C13_fields_in_range`, `C14_fraction_round_trip_exact`, `C14_fraction_round_trip_f64`, `C15_hms_round_trip_exact`, `C15_hms_round_trip_f64_false`, `C15_hms_round_trip_f64_partial`, `C15_hour_and_minute_kept`, `C16_civil_round_trip_exact`, `C16_from_julian_f64`, `C16_julian_round_trip_exact`, `C17_display_injective`, `C17_display_iso`, `C17_display_sortable`, `C18_bad_fract_value`, `C18_delta_at_errors`, `C19_delta_at_in_force_partial`, `C19_first_month`, `C19_leap_second_one_month_late`, `C19_step_month_uses_previous`, `C20_delta_at_integer`, `C20_delta_at_monotone`, `C20_delta_at_overflow`, `C20_delta_at_wraps`, `C21_delta_at_linear`, `C21_delta_at_linear_f64`, `C22_tai_to_tt_exact`, `C22_tai_to_tt_f64`, `C23_utc_to_tai_exact`, `C23_utc_to_tai_f64`, `C24_inverse_parts`, `C24_inverse_total`, `C24_shift_exact`, `C24_shift_f64`, `C25_tdb_zero_f64`, `C25_tt_to_tdb_exact`, `C25_tt_to_tdb_f64`, `C26_anp_exact`, `C26_anp_f64_partial`, `C26_anp_half_open_false`, `C26_anp_idempotent`, `C26_anp_two_pi_iff`, `C26_anp_unique`, `C27_angle_cos`, `C27_angle_scale`, `C27_angle_self`, `C27_angle_symm`, `C27_angle_symm_f64`, `C28_angle_self_nan`, `C29_rotation_add`, `C29_rotation_axis_panics`, `C29_rotation_direction`, `C29_rotation_fixes_axis`, `C29_rotation_neg`, `C29_rotation_neg_f64`, `C29_rotation_orthogonal`, `C30_apply_compose`, `C30_apply_is_transposed_product`, `C30_apply_not_product`, `C30_apply_rotation`, `C30_compose_is_product`, `C30_compose_laws`, `C30_transpose_f64`, `C31_fundamental_arguments`, `C31_less_than_two_turns`, `C31_not_within_one_turn`, `C31_planet_longitudes`, `C32_earth_rotation_angle`, `C32_period`, `C32_split_independent`, `C33_rotation_angle_comm`, `C33_rotation_angle_finite`, `C33_rotation_angle_range`, `C34_velocity_is_derivative`, `C35_split_independent`, `C35_warning_iff`, `C36_distance`, `C36_sun_offset`, `C37_no_panic`, `C37_tables_match_fortran`, `C38_bias_and_precession`, `C38_celestial_to_intermediate`, `C38_celestial_to_terrestrial`, `C38_nutation_matrix`, `C38_polar_motion`, `C38_precession_nutation`, `C39_celestial_to_intermediate`, `C39_pole`, `C39_third_row`, `C39_within_century`, `C40_precession_at_epoch`, `C40_zero_nutation`, `C41_nutation_bounded`, `C42_split_independent`, `C43_period`, `C43_polar_motion`, `C43_polar_motion_general`, `C43_product`, `C44_cio`, `C45_ellipsoid`, `C45_new_errors`, `C45_new_f64_ok`, `C45_new_f64_witnesses`, `C45_new_ok_iff`, `C46_geocentric`, `C47_equator_round_trip`, `C47_pole_round_trip`, `C47_sphere_round_trip`, `C47_surface_round_trip`, `C48_axial_symmetry`, `C48_axis`, `C48_longitude`, `C48_nan_witness`, `C48_ranges`, `C48_reflect`, `C48_reflect_f64`, `C49_range`, `C49_round_trip`, `C50_flips_iff_f64`, `C50_latitude_kept_partial`, `C50_north_pole_flips`, `C51_assertions_iff`, `C51_no_panic`, `C51_witnesses`, `C52_nan_seconds`, `C52_new_exact`, `C52_new_f64`, `C52_overflow`, `C52_position_ok`, `C53_sun_distance`, `C53_sun_zenith_angle`, `C54_drift_years`, `C54_offset_is_shift`, `C54_same_delta_at`, `C55_no_scan`, `C55_scan_exact`, `C55_scan_f64_any`, `C55_scan_f64_exact`, `C55_scan_f64_stops_iff`, `C55_scan_f64_stuck`, `C55_scan_nan_bound`, `C55_scan_nan_step`, `C55_scan_never_stops`, `C55_scan_to_infinity`, `C56_hms_display`, `C57_rotation_angle_accuracy`, `C58_height_consistent`, `C59_round_trip_accuracy`, `C59_wgs84`, `C60_time_scales_exact`, `C60_time_scales_f64`, `C61_constants_exact`, `C61_constants_f64`, `C61_time_constants`, `C62_wgs84_exact`, `C62_wgs84_f64`, `C63_cio_matrix`, `C64_bias_precession_nutation`, `C65_nutation_series`, `C66_locator_series`, `C67_celestial_to_terrestrial_f64`, `C67_matrices_f64`, `C67_nutation_f64`, `C68_ephemeris_f64`, `C68_warning_f64`, `C69_angle_f64`, `C69_commutative_f64`, `C69_norm_normalize_f64`, `C69_vector_group`, `C69_vector_sub_f64`, `C70_total_conversions`, `C70_total_f64`, `C71_geocentric_f64`, `C71_zenith_f64`, `C72_sun_angle_everywhere`, `C72_sun_angle_f64`, `C73_position_text`, `C73_radians_text`, `C74_date_injective`, `C74_date_text`, `C74_moment_text`, `C74_time_text`, `C74_time_text_not_finite`, `C75_printed_report`, `C76_gregorian_stops`, `C76_gregorian_text`, `C77_julian_stops`, `C77_julian_text`, `C77_moment_error`, `C77_outcomes`, `C77_round_trip`, `C78_scan_text`, `C78_scan_text_any`, `C78_silent_ends`, `C78_single_text`, `C79_geodetic_f64`, `C80_every_point`, `C80_geodetic_coordinates_f64`, `C80_height_f64`, `C81_degrees`, `C81_height_f64`, `C81_near_surface`, `C81_near_surface_height`, `C81_round_trip_f64`, `C82_test_calendar`, `C82_test_ellipsoid`, `C82_test_ellipsoid_iter`, `C82_test_hms`, `C82_test_rotation`, `C83_above_below`, `C83_above_below_f64`, `C83_mean_sun`, `C84_noon_and_midnight`, `C84_noon_and_midnight_f64`, `C84_polar_seasons`, `C84_polar_seasons_f64`, `C85_parse_f64`, `C85_parse_f64_accepts`, `C85_parse_f64_exp`, `C85_parse_f64_forms`, `C85_parse_int`, `C86_characters`, `C86_julian_fraction`, `C86_read_back`, `C86_shortest`, `C87_gregorian_args`, `C87_julian_args`, `C87_order`, `C87_rejected`, `C87_round_trip`, `C87_sun_angle_args`, `C87_sun_report`, `C88_default_day_and_night`, `C88_defaults_agree`, `C88_no_arguments`, `C89_areal`, `C89_speed`, `C90_every_angle_between`, `C90_sunrise_and_sunset`, `C90_zenith_angle_rate`, `C90_zenith_angle_rate_f64`, `C91_morning_and_afternoon`, `C91_one_sunrise_one_sunset`, `C91_one_sunrise_one_sunset_f64`, `C92_equator`, `C92_equator_f64`, `C92_tropics`, `C92_tropics_f64`, `C93_dump_array`, `C93_dump_is_tables`, `C93_field_exact`, `C93_field_half_unit`, `C93_field_width_exact`, `C93_fields_fit`, `C93_fifteen_digits`, `C93_not_every_number`, `C93_three_digit_exponents`, `C93_three_digit_text`, `C94_compare_finite`, `C94_compare_matrices`, `C94_compare_numbers`, `C94_data_tests`, `C94_nan_library`, `C94_test_calendar`, `C94_test_delta_at`, `C94_test_earth`, `C94_test_geodetic_display`, `C94_test_hms`, `C94_test_precession_rate`, `C94_test_rotation`, `C94_test_rotation_angle`, `C94_test_time_scales`, `C94_zero_offsets`, `C95_fields_fit`, `C95_list_directed`, `C95_matrix_entry`, `C95_nothing_lost`, `C95_one_reading`, `C95_test_data`, `C95_three_digit_exponents`, `C95_three_digit_text`, `C96_culmination`, `C96_half_days`, `C96_half_days_f64`, `C97_long_and_short_days`, `C97_long_and_short_days_f64`, `C97_twelve_hours_apart`, `C98_locator_loop`, `C98_nutation_loop`, `C99_distance_and_speed`, `C99_icrf_axes`, `C99_icrf_axes_f64`

## 5. Findings (places where the code does not do what a user would expect)

| id | finding |
|---|---|
| C03 | `to_julian` overflows i32 for accepted far-future years: a panic in debug builds, a wrong date in release builds. |
| C07 | `from_julian` can return a day fraction equal to 1 (never for the pairs that `to_julian` returns). |
| C08 | `from_julian` accepts NaN and returns a date. |
| C09 | `from_julian` overflows i32 inside its accepted range (threshold proved). |
| C15 | `HMS` does not survive the round trip field by field in f64. |
| C19 | `delta_at` applies each leap second one month late: during the whole month of a step it returns the previous value. |
| C20 | `delta_at` overflows i32 from August 178956970 on: a panic in debug builds, a long replaced value for some years in release builds. |
| C26 | `anp` can return 2π in f64 although the range is documented half open: exactly for negative angles within 2^-51 below a multiple of 2π. |
| C28 | The angle of a vector with itself can be NaN (`acos` of a value above 1). |
| C30 | `Mat3::apply` multiplies by the transpose; callers compensate. |
| C31 | Some fundamental arguments are not reduced to one turn. |
| C45 | `EllipsoidConverter::new` accepts NaN parameters. |
| C48 | `geocentric_to_geodetic` returns NaN for some points inside the ellipsoid. |
| C113 | `geocentric_to_geodetic` reports a point with a NaN first or second coordinate as a pole: longitude 0, latitude ±90°, a finite height. |
| C50 | `Geodetic360::from` maps the north pole to the south pole, in f64 also the latitude before it, and no other. |
| C51 | The documented longitude range `lon < 180` can be violated; the exact condition for a debug assertion is proved. |
| C52 | NaN seconds are accepted by `SunAngleCalculator::new`. |
| C54 | Inside 1960-1972 an offset is not equivalent to shifting the time of day, because delta AT drifts. |
| C78 | `sun_angle_tool` without `--scan` reports the Sun for ten minutes before the time asked for (default `delta0` of -600 s). |
| C87 | `julian_tool gregorian` ignores options it does not know: `--hours 7` leaves the time at noon without a word (`julian` and `sun_angle_tool` refuse). |
| C87 | `julian_tool julian --jd2 --jd 1 2` is accepted and means `--jd 1 --jd2 2`. |
| C93 | The dump program prints numbers with a three digit exponent as text that is no Rust literal, and fifteen digits do not identify every f64; neither occurs in the tables. Its first line, `use common::*;`, was edited by hand to `use crate::common::*;` in `epv00_data.rs`. |
| C94 | `compare_numbers` and `compare_matrices` are written `if e > tol { panic!() }`, which NaN does not trigger: an implementation that returns NaN everywhere passes nine of the eleven table tests, whatever the tables, and `test_rotation`. `dtr` and `dt` are zero in every entry of `C2T00B_DATA`, so that the time scale conversions are tested with zero offset only. |
| C95 | A matrix entry with an exponent of three digits would be printed without `E` and not compile, or be read as a difference; the values drawn in `test_sofa.f90` do not come near. |
| C102 | `TWO_PI` in `test_sofa.f90` is a single precision literal, 1.7e-7 more than 2π: the angles of `NUMAT_DATA` are draws from a range that exceeds a turn (harmless; the data show it). |
| C101 | `SunAngleParameters::default` has the date of `test_sun.f90` but not its time (00:00 instead of 12:00), so the default run does not reproduce its report; UT1 is added up in another order and can differ in the last bit. |
| C55 | The scan loop never stops when the step is too small to change the offset, or for non-positive steps, or with `--delta1 inf`. |

Each is proved as a theorem with a concrete witness; where the expected statement is false, the strongest true part is a
`_partial` theorem.

## 6. Which code is modelled

| source | modelled | not modelled |
|---|---|---|
| `tofas/src/calendar.rs` | `GregorianDate::{new,to_julian,from_julian}`, `HMS::{new,from_fraction_of_day,to_fraction_of_day}`, `GregorianDateHMS::{from_julian,to_julian}`, the three `Display` impls | the `Debug` texts |
| `tofas/src/delta_at.rs` | table, `delta_at` | the `Debug` texts |
| `tofas/src/time.rs` | all conversions, `total`, constants | — |
| `tofas/src/common.rs` | constants, `sq`, `anp`, all of `Vector` and `Matrix` | `mod` re-exports |
| `tofas/src/fundargs.rs` | all | — |
| `tofas/src/earth.rs`, `epv` tables | `EarthPosVel::from`, `rotation_angle`, `polar_motion_matrix`, all tables | — |
| `tofas/src/locator.rs` | `cio`, also as the loops written (`Model/Loops`), all tables | — |
| `tofas/src/frames.rs` | all functions, `nutation` also as the loop written (`Model/Loops`), all tables | — |
| `tofas/src/ellipsoid.rs` | `Geodetic`/`Geodetic360` conversions, `zenith`, `EllipsoidConverter`, the two `Display` impls | — |
| `tofas_extras/src/sun_angle.rs` | `SunAngleParameters::default`, `SunAngleCalculator::{new,compute}`, `Display` of the result bundle | — |
| `examples/sun_angle_tool.rs` | everything: argument parsing, computation, scan loop, printed text, error line, exit status | inside of `pico_args`, text of panics |
| `examples/julian_tool.rs` | everything: argument parsing, both subcommands, printed text, error line, exit status | inside of `pico_args`, text of panics |
| `fortran/dump_epv00.f90`, `fortran/epv00.for` | `dump_array`, the program, all `DATA` statements | NaN and infinities; `Makefile` |
| `fortran/test_sun.f90` | time scales and all output (`Model/TestSun`) | the SOFA library |
| `fortran/test_sofa.f90` | all output (`Model/TestSofa`), all draws (`Model/Draws`) | the SOFA library; `random_number` is a multiple of 2^-53 below 1 |
| `tests.rs` (15-39, 112-126, 164-185, 199-212, 326-332) | `Model/Tests` | four randomised loops (one iteration; `test_ellipsoid` whole); printing left out |
| rest of `tests.rs` | `Model/TestsWhole` | all tests as functions of draws or table; printing, and what is computed only for printing, left out |
| `test_data.rs` | `Model/TestData/*` | `ERA00_DATA`, `PR00_DATA`, the numbers of `C2T00B_DATA`; the others need a libm: `tools/validate` runs the model on them |

Simplifications are stated in the comment of the definition concerned (for example: `usize` axis as `Fin 3` with a separate
`rotationU` that has the panic; references and moves are erased).

## 7. Testing the theorems against wrong programs

`seeded/LOG.jsonl` has one line per wrong program: the definition of the model that was edited, the edit, the claim it
breaks, the property theorems that no longer check, and the theorems tightened as a result. Each edit was made in a scratch
copy, all modules that depend on it were recompiled, and a theorem counts as failed when its own proof or one of the
proofs it uses no longer checks.
