PLAN.update({
"C67": ("`nutation`, `PrecessionNutation`, `celestial_to_intermediate`, `celestial_to_terrestrial` at f64", "propagation of rounding and library errors through series, rotations (operator norm) and the node/tilt formula; hypothesis `LibmAcc` on the library"),
"C68": ("`From<TDB> for EarthPosVel` at f64", "per-term error bound for every row of the three series tables, summed by a fold lemma with a checked weight per table; then the ICRF rotation; hypothesis `LibmAcc` on the library"),
"C69": ("`Vec3` operations, `norm`, `normalize`, `angle`", "vector space laws over the reals; relative error of the square root of a sum of squares; conditioning of arccos away from its ends; hypothesis `LibmAcc` only for the last part"),
"C70": ("`total`, the time scale conversions", "one rounded addition is nearest; case split on the comparison of the parts"),
"C71": ("`Geodetic::from`, `zenith`, `geodetic_to_geocentric` at f64", "error propagation through degree conversion, sine and cosine, square root and division; hypothesis `LibmAcc` on the library"),
"C72": ("`SunAngleCalculator::new`, `compute` at f64", "composition of C60, C67, C68, C69 and C71: time error of 5e-11 days through the Earth rotation angle, operator norm of the matrix error, conditioning of the angle; hypothesis `LibmAcc` on the library"),
"C73": ("`Display` of `Geodetic360` and `Geodetic`; decimal formatting of f64", "a separate reader of decimal numerals (`Spec/Numeral`); reading inverts formatting up to half a unit, by induction on the digits; length by a bound on the digits"),
"C74": ("`Display` of `GregorianDate` and `HMS`", "reading inverts formatting; injectivity from the fixed widths of month and day"),
"C75": ("`Display` of `SunAngleResultBundle`", "composition of C72 and the reader lemma; splitting at newlines because no field contains one"),
"C76": ("`julian_tool gregorian`", "composition of C02, the day fraction error and the reader lemma; C03 for the panic"),
"C77": ("`julian_tool julian`", "composition of C05, C13 and the reader lemma; C08 and C09 for the other endings; composition with C76 for the round trip"),
"C78": ("`sun_angle_tool`", "composition of C55 and C75; the inputs of every report are between those of the ends of the scan"),
"C79": ("`geocentric_to_geodetic` at f64", "error calculus relative to monomials in the size and the axis distance (`Float/SB`) through Halley's step, so that points near the axis lose no accuracy; conditioning of arctan of a quotient; C59 for the method error; then the meridian map is Lipschitz; hypotheses on atan and atan2"),
"C80": ("`geocentric_to_geodetic` at f64", "C79 bounds the residual; the map from latitude and height to the meridian plane has a Lipschitz inverse away from the centre (`Lemmas/GeodeticInverse`), so the residual bounds the error of the answer; longitude by rotating into the meridian; the height separately: rounding of its formula (`Lemmas/HeightAcc`, `HeightDir`) and its second-order dependence on the latitude (`Lemmas/HeightCore`)"),
"C81": ("both conversions and `Geodetic360::from` at f64", "C71 puts the computed point within 0.3 micrometres of the true one; the core of C80 with that perturbation; `rem_euclid` is exact up to the final additions; height: relative error of the forward conversion (`Lemmas/HeightForward`), then the height bound of C80 at the point with the computed sine and cosine"),
"C82": ("loop bodies of `test_calendar`, `test_hms`, `test_rotation`, all of `test_ellipsoid` (`Model/Tests`)", "`floor` is exact (`Float/Floor`); C05, C13, C14 and the day number for the calendar; C29 and the matrix error calculus for the rotations; the height, latitude and longitude errors of C81 with a relative hypothesis on sin and cos for the ellipsoid, whose tolerance is 3 % above the bound"),
"C83": ("`SunAngleCalculator::compute` against `Spec/MeanSun`", "leading terms of the ephemeris series are the mean elements, the other terms are summed by absolute value; the celestial to terrestrial matrix is a rotation by the Earth rotation angle after precession up to 3.5e-4 (operator norm); C72 carries the sign over to f64"),
"C84": ("`SunAngleCalculator::new`, `compute`", "C83 and spherical trigonometry of the mean Sun: hour angle against mean solar time with a bound on the equation of time, declination against the day count of the calendar (C02)"),
"C85": ("`f64::from_str`, `i32::from_str`, `u8::from_str` (`Model/Parse`)", "the grammar is stated separately (`Spec/FloatText`) and shown equal to the accepted language; the value by the decimal reader of `Spec/Numeral` and the correctly rounded quotient"),
"C86": ("`{}` on f64 (`shortest`, `Model/Parse`)", "the numbers that read back to a given f64 form an interval around it; if any decimal with k digits is inside, one of the two neighbours with k digits is; reading inverts writing; C77 for the tool"),
"C87": ("argument parsing of `main` in both tools (`Model/Args`)", "removing an option with its value from a list of items is removing the item (`Lemmas/Args`); case analysis of the argument list for the exact language of `julian`; C76, C77 and C85 for the round trip"),
"C88": ("`SunAngleParameters::default`, defaults of `main` in `sun_angle_tool`", "the two sets of literals are compared; C87 for the run without arguments; C84 for day and night"),
"C89": ("velocity of `EarthPosVel::from(TDB)`", "leading terms of the ephemeris series and their derivatives in coordinates rotating with the mean longitude; the first order terms in the eccentricity cancel in the areal velocity; the other terms are summed by absolute value"),
"C90": ("`SunAngleCalculator::compute` at two offsets", "angles between vectors satisfy the triangle inequality (`Lemmas/Angle3`); Lipschitz constants of the nutation and locator series (`Lemmas/SeriesLip`), of the matrices in operator norm and of the Earth position from the speed (C89); the Earth rotation angle; discrete intermediate value argument since the angle jumps by about 1e-20 where the decimal 2 pi wraps; C84 for the signs at noon and midnight; C72 for f64"),
"C91": ("`SunAngleCalculator::compute` at two offsets", "the chord of the Sun's direction over the interval is that of a rotation about the polar axis applied to the direction at the middle, up to the Lipschitz constants of C90 (`climb_vec` in `Lemmas/SunClimb`); its component along the vertical is bounded below by the mean Sun (C83) six hours from the meridian; existence from C90, signs at noon and midnight from C84, f64 from C72"),
"C92": ("`SunAngleCalculator::compute`", "declination of the mean Sun by the Cauchy inequality, transferred by C83; triangle inequality of angles at the pole; the meridian estimate of C84 at latitude 0"),
"C93": ("`dump_array`, `dump_epv00` (`Model/Dump`), tables of `epv00_data.rs`", "fifteen digits survive one rounding to 53 bits because half a unit of the fifteenth digit exceeds two relative errors of 2^-53, with the carry at a power of ten treated apart; the grammar of constants is stated separately (`Spec/RustConst`) and shown unambiguous; whole-table check of digits and padding"),
"C94": ("all tests of `tests.rs` (`Model/TestsWhole`), three tables of `test_data.rs`", "case analysis on NaN, infinity and overflow of the difference; loops by induction; C82 for the randomised tests; table entries evaluated by the kernel with operations shown equal to those of the model (`Float/Fast`, where the exponent is found by bisection); NaN absorbs every operation on the way to each result"),
"C95": ("all output of `fortran/test_sofa.f90` (`Model/TestSofa`)", "the seventeen digits are within half a unit of the number, nearer than any midpoint of neighbouring doubles, so the literal rounds back; records by induction over their items; grammar of Rust values as an inductive relation (`Spec/RustData`), unambiguous by induction on the depth of brackets"),
"C96": ("`SunAngleCalculator::compute`", "the difference of two Sun vectors is the rotation by the Earth over the interval applied to the mean Sun at its middle, up to the motion of the Sun (as in C91, over eleven hours instead of eight); hour angle of the mean Sun within half an hour of mean time; a near-maximum over the noon window exists because cosines are bounded"),
"C97": ("`SunAngleCalculator::compute`", "a rotation by half a turn about the z axis cancels x and y, so the sum of two Sun vectors twelve hours apart is twice their z part up to the motion of the Sun and of the pole; z of the mean Sun from the sine of its longitude, day counts of the season limits over all years; the day would be symmetric if sunset were twelve hours after sunrise, which the sum excludes"),
"C98": ("`nutation`, `cio` as loops (`Model/Loops`)", "a loop over the indices of a list with bounds checks is the fold over the list (relation between positions and entries, `Forall₂`), applied to pairs of tables of equal length"),
"C99": ("`EarthPosVel::from(TDB)`", "sine and cosine of the obliquity from fourteen terms of the exponential series with the remainder bound, π to 20 digits, then each entry of the matrix; f64 from C68"),
"C100": ("`SunAngleCalculator::compute`", "triangle inequality of angles with the pole; the angle between the Sun and the east point has jumps of at most 5e-19, so it passes a right angle between 11:30 and 12:30 (sides from C83 and C96); projection on the meridian plane"),
"C101": ("`SunAngleCalculator::{new,compute}`, `fortran/test_sun.f90` (`Model/TestSun`)", "addition of f64 is commutative, so the fractions of the day are one number; a zero offset changes no sum that is not zero; bounds of three roundings for UT1; the two orders evaluated at 12:00 and 12:02; fixed length of a number in list-directed output for the text"),
"C102": ("`fortran/test_sofa.f90` (`Model/Draws`)", "rows flattened and put together block by block (each draw once); monotone rounding and the nearest number below each bound; the greatest draw for attainment; the integers that could have given the angle in the table lie strictly between two consecutive integers"),
"C103": ("`EarthPosVel::from`, `SunAngleCalculator::compute`", "length of the mean orbit of C83 in closed form; distance from it by the triangle inequality; day counts of C84 for the phase at a date; Taylor bounds of the cosine at 0.56 and 0.0935 radians"),
"C104": ("`main` of both tools, `CalendarError`", "model of the tools as processes with the texts of all errors; simulation with the programs of C87; induction over the options read; case analysis of first letters and of suffixes for the distinct messages; a witness for the ignored argument"),
"C105": ("`SunAngleCalculator::compute`, `EarthPosVel`", "mean value theorem for the projection of the direction of the Earth on the pole of date, its derivative by the law of areas (C89), the sign of the derivative from the mean orbit and the phase of the calendar date; the pole of date is slow by the sum of the frequencies of the nutation series (kernel computation over the table)"),
"C106": ("`SunAngleCalculator::compute`, `EarthPosVel`", "components of the mean Sun (C83) along the east and along the meridian at mean noon, as trigonometric polynomials of the longitude from the equinox of date with explicit error bounds; half-angle substitution and positive Bernstein coefficients give the signs and the range; the longitude from the calendar date as in C84"),
"C107": ("`SunAngleCalculator::{new, compute}`", "unfolding of `new` for two parameter sets with the same moment; zenith angle as angle between the vertical and one common vector (C53); polar form of that vector gives the point under the Sun; triangle inequality of angles; binary64 through C72"),
"C108": ("`SunAngleCalculator::{new, compute}`, `delta_at`", "time scales of C60; independence of the split of the dates (C32, C42); Lipschitz bound of the celestial motion of the Sun from C90 at equal UT1; monotone unit steps of the table by evaluation over all its months; binary64 through C72"),
"C109": ("`ellipsoid.rs`, both conversions", "The statement speaks of points, distances and an equation only (`Spec/Ellipsoid.lean`). With the unit normal n at the foot s and the gradient relation of C46, dist(v,t)^2 - h^2 = |t-s|^2 + 2h n.(s-t), and 2 n.(s-t) is the quadratic form of t-s divided by the gradient length, which is below a/b^2 times |t-s|^2; this gives both the minimum and its uniqueness. Binary64 through C71 and C80."),
"C110": ("`delta_at`, `TAI::from_utc_delta_at`", "month by month comparison of consecutive table rows at the first day of the next month (whole table by evaluation), summed by induction over the months with a step function for the three steps back; the calendar of C02 puts every date in its month; C23 for the pairs; monotone rounding"),
"C111": ("`ellipsoid.rs`, `geodetic_to_geocentric`", "the meridian is differentiated: its tangent has the direction of growing latitude and the length of the radius of curvature plus the height; monotonicity of the projection on the tangent at the mean latitude gives the chord, of the projection on the chord the arc; binary64 through C71"),
"C112": ("`frames.rs`, `bias_and_precession`, `precession_nutation`, `celestial_to_intermediate`", "third row of the precession matrix of C64 written out; sine and cosine of the obliquity of J2000.0 from fourteen terms of the series; the nutation of C41 and the bias move the pole by at most their own size; binary64 through C67"),
"C113": ("`frames.rs`, `earth.rs`, `ellipsoid.rs`, `sun_angle.rs`", "numbers that are not finite are closed under the operations used; a product of matrices with a column of NaN is NaN; the last term of each series decides; for the pole, both comparisons with NaN are false"),
"C114": ("`frames.rs`, `earth.rs`", "each term of the nutation and locator series is weighted with the speed of its own argument and the weights are summed over the tables in the kernel; the matrices are products of rotations, whose norms are one and whose rates are those of their angles"),
"C115": ("`frames.rs`, `earth.rs`", "only magnitudes are tracked through the series, so that every angle is finite and within the range of the library; each elementary matrix is compared with the exact rotation by the angle that was computed, and products with the exact product"),
"C116": ("`common.rs`, `frames.rs`", "the matrices of C115 are close to exact rotations in operator norm; the three-term sums of `apply` are bounded relative to the length of the vector"),
"C117": ("`earth.rs`", "differentiate the series twice, bound all but the two main terms by sums of |a c^2| over the tables, and compare the main terms with the expansion of the inverse square law for a small eccentricity; two dates by the mean value theorem"),
"C118": ("`earth.rs`", "chords of the circle of the main term; the second harmonic and all other terms bounded by sums over the tables"),
"C119": ("`earth.rs`", "the two main terms expanded to second order in the eccentricity, everything else bounded by sums over the tables"),
"C120": ("`earth.rs`", "sums of amplitudes, of amplitudes times frequencies and of amplitudes times squared frequencies over the Sun tables; C117 for the Earth"),
"C121": ("`earth.rs`", "the two main terms of position and velocity expanded to first order in the eccentricity, the rest bounded by sums over the tables"),
"C122": ("`frames.rs`", "exact product of the four precession rotations applied to the pole of the ecliptic; bounds on bias and nutation; from cosine to angle"),
"C123": ("`ellipsoid.rs`", "the quotients p/a and z/a do not change, the threshold aeps2 is a multiple of the square of the radius"),
"C124": ("`SunAngleCalculator::{new,compute}`", "bounds of the phase of the year by calendar date, declination of the mean Sun as a polynomial in sine and cosine of the phase, distance of the Sun of the program from the mean Sun (C83), then C72"),
"C125": ("`frames.rs`", "difference of the cubic at two dates factored; rounding errors of the Horner scheme"),
"C126": ("`ellipsoid.rs`, `common.rs`", "position resolved along and across the vertical; angle from its cosine; arithmetic and geometric mean"),
"C127": ("`ellipsoid.rs`, `common.rs`", "addition theorems; sign symmetry of the binary64 product"),
"C128": ("`fundargs.rs`", "difference of the polynomials at two dates bounded, intermediate value theorem; published periods substituted, remainder bounded"),
"C129": ("`fundargs.rs`", "sum of the polynomials; the numbers of turns bounded because the turn constants of the code are not exactly 2 pi"),
"C130": ("`earth.rs`, `fundargs.rs`", "both sides as polynomials of the date; errors of the turn constants bounded"),
"C131": ("`frames.rs`, `fundargs.rs`", "four rows split off the sum, the rest bounded by the sum of its coefficients; arguments compared modulo a turn"),
})
