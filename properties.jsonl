{"id": "C01", "title": "GregorianDate::new accepts exactly the real calendar dates", "statement": "GregorianDate::new(y,m,d) returns Ok with exactly those fields when y >= -4799 and (y,m,d) is a date of the proleptic Gregorian calendar; otherwise it returns BadYear if y < -4799, else BadMonth if m is not 1..12, else BadDay.", "quantifier": "every triple of i32 values", "why_tests_cant": "2^96 triples; leap rules differ by century and sign of the year", "anchors": ["crates/tofas/src/calendar.rs:GregorianDate::new"]}
{"id": "C02", "title": "to_julian counts civil days", "statement": "For every date accepted by new with year <= 1465072, to_julian returns (2400000.5, N) without overflow in either build profile, where N is exactly (as an f64) the number of days from 1858-11-17 to the date: 1858-11-17 gives 0 and the following calendar day always gives one more.", "quantifier": "every valid date with year in -4799..=1465072, both overflow profiles, real f64 rounding", "why_tests_cant": "half a billion dates and the claim is about consecutive-day steps over all of them", "anchors": ["crates/tofas/src/calendar.rs:GregorianDate::to_julian"]}
{"id": "C03", "title": "to_julian overflows i32 on accepted far-future dates", "statement": "For accepted dates whose year, counted from March, is at least 1465073 a checked build panics in to_julian; in a wrapping build the returned day number is wrong for such dates. Below the threshold neither happens.", "quantifier": "every accepted date", "why_tests_cant": "the threshold is an exact boundary over all i32 years and both build profiles", "anchors": ["crates/tofas/src/calendar.rs:GregorianDate::to_julian"]}
{"id": "C04", "title": "from_julian inverts to_julian exactly", "statement": "For every date accepted by new with year <= 1465000, from_julian applied to the pair returned by to_julian returns Ok with the same date and day fraction exactly 0, in f64 arithmetic and in either argument order.", "quantifier": "every valid date in that year range, both argument orders, f64 rounding", "why_tests_cant": "half a billion dates", "anchors": ["crates/tofas/src/calendar.rs:GregorianDate::to_julian", "crates/tofas/src/calendar.rs:GregorianDate::from_julian"]}
{"id": "C05", "title": "from_julian returns a real calendar date at the right instant (f64)", "statement": "For all finite f64 dj1, dj2 whose f64 sum is in [-32000, 536802340], from_julian does not overflow and returns Ok((date,f)) where date is a date of the proleptic Gregorian calendar (year >= -4800), 0 <= f <= 1, and (Julian date of date at 0h) + f differs from the exact sum dj1+dj2 by at most 2^-53*(|min(dj1,dj2)|+3) and never more than 0.5+2^-52.", "quantifier": "all pairs of finite f64 (2^128 bit patterns) with sum in range", "why_tests_cant": "rounding error must be bounded over all splits of the date, including wildly unbalanced ones", "anchors": ["crates/tofas/src/calendar.rs:GregorianDate::from_julian"]}
{"id": "C06", "title": "from_julian is exact in exact arithmetic", "statement": "In exact arithmetic, for every dj1, dj2 with -32000 <= dj1+dj2 <= 536802340, from_julian returns a valid date and a fraction 0 <= f < 1 with (Julian date of date at 0h) + f = dj1+dj2; the result therefore depends only on dj1+dj2.", "quantifier": "all pairs of real numbers with sum in range", "why_tests_cant": "uncountable domain; independence of the split is a relation between executions", "anchors": ["crates/tofas/src/calendar.rs:GregorianDate::from_julian"]}
{"id": "C07", "title": "Day fraction returned by from_julian is below one", "statement": "A user expects from_julian to return a fraction 0 <= f < 1. In f64 this is false: f = 1.0 is returned for some ordinary inputs (e.g. 2451545.0 and 0.49999999999999994), and GregorianDateHMS::from_julian then yields 24:00:00. What holds for every finite accepted input is 0 <= f <= 1; and f < 1 whenever the larger of the two numbers is a whole number and a half, as in the pair (2400000.5, MJD) of to_julian.", "quantifier": "all pairs of finite f64 with sum in range", "why_tests_cant": "the failing inputs are a sparse set next to midnight which random tests do not hit", "anchors": ["crates/tofas/src/calendar.rs:GregorianDate::from_julian", "crates/tofas/src/calendar.rs:GregorianDateHMS::from_julian"]}
{"id": "C08", "title": "from_julian range check", "statement": "from_julian returns BadJulian exactly when the f64 sum dj1+dj2 is < -32000 or > 1e9; no other error is ever returned. A NaN sum is not rejected.", "quantifier": "all pairs of f64 including NaN and infinities, both profiles", "why_tests_cant": "IEEE comparison semantics over all bit patterns", "anchors": ["crates/tofas/src/calendar.rs:GregorianDate::from_julian", "crates/tofas/src/calendar.rs:DJ_MIN", "crates/tofas/src/calendar.rs:DJ_MAX"]}
{"id": "C09", "title": "from_julian overflows i32 inside its accepted range", "statement": "The accepted range goes up to 1e9, but for every finite pair whose f64 sum is in [536802344, 1e9] a checked build panics with integer overflow and a wrapping build returns fields that are not a calendar date; for sums up to 536802340 neither happens. In exact arithmetic the threshold is exactly dj1+dj2 = 536802342.5.", "quantifier": "all finite f64 pairs in the accepted range", "why_tests_cant": "needs the exact boundary and an argument for every value above it", "anchors": ["crates/tofas/src/calendar.rs:GregorianDate::from_julian", "crates/tofas/src/calendar.rs:DJ_MAX"]}
{"id": "C10", "title": "Dates produced by from_julian are accepted by new", "statement": "In exact arithmetic every date returned by from_julian for a sum in [-31738.5, 536802340] is accepted by GregorianDate::new (in f64 for an f64 sum in [-31737, 536802340]); for accepted sums below that (down to -32000) from_julian returns year -4800 dates that new rejects (in f64 for an f64 sum in [-32000, -31740]).", "quantifier": "all sums in range (exact arithmetic); all finite f64 pairs with f64 sum in [-31737, 536802340]", "why_tests_cant": "range condition over a continuum", "anchors": ["crates/tofas/src/calendar.rs:GregorianDate::from_julian", "crates/tofas/src/calendar.rs:GregorianDate::new"]}
{"id": "C11", "title": "from_julian does not depend on the order of its arguments", "statement": "from_julian(a,b) and from_julian(b,a) return the same result bit for bit (up to NaN payload), and panic together.", "quantifier": "all pairs of f64 including NaN and infinities, both profiles", "why_tests_cant": "relation between two executions over all bit patterns", "anchors": ["crates/tofas/src/calendar.rs:GregorianDate::from_julian"]}
{"id": "C12", "title": "Calendar order agrees with Julian order", "statement": "For dates accepted by new, date1 is before date2 (year, month, day lexicographically) iff to_julian(date1) < to_julian(date2); and in exact arithmetic a larger Julian date never maps to an earlier (date, fraction).", "quantifier": "all pairs of valid dates; all pairs of sums in range", "why_tests_cant": "pairs of inputs over the whole domain", "anchors": ["crates/tofas/src/calendar.rs:GregorianDate::to_julian", "crates/tofas/src/calendar.rs:GregorianDate::from_julian"]}
{"id": "C13", "title": "HMS::from_fraction_of_day fields are in range (f64)", "statement": "For every f64 f with 0 <= f <= 1, from_fraction_of_day returns Ok with minute <= 59, 0 <= second < 60, hour <= 24, hour*3600+minute*60+second equal to the rounded product 86400*f exactly, and hour = 24 only for f = 1. It returns BadFract exactly for f < 0 or f > 1 (NaN is not rejected).", "quantifier": "all f64 bit patterns", "why_tests_cant": "about 2^62 values in [0,1]; the claim 'second < 60 after the f64 addition' is a rounding statement", "anchors": ["crates/tofas/src/calendar.rs:HMS::from_fraction_of_day"]}
{"id": "C14", "title": "Fraction of day survives the HMS round trip", "statement": "For every f64 f in [0,1], to_fraction_of_day(from_fraction_of_day(f)) differs from f by at most 2^-52; in exact arithmetic it equals f.", "quantifier": "all f64 in [0,1]; all reals in [0,1]", "why_tests_cant": "rounding bound over all values", "anchors": ["crates/tofas/src/calendar.rs:HMS::from_fraction_of_day", "crates/tofas/src/calendar.rs:HMS::to_fraction_of_day"]}
{"id": "C15", "title": "HMS survives the fraction-of-day round trip", "statement": "In exact arithmetic, from_fraction_of_day(to_fraction_of_day(h)) = h for every h with hour <= 23, minute <= 59, 0 <= second < 60. In f64 the fields can change (00:13:00 comes back as 00:12:59.99...); the total number of seconds is preserved to within 3*2^-37 s, and the hour and minute are kept whenever the second is at least that far from both ends of the minute.", "quantifier": "all valid hour/minute/second; all f64 seconds", "why_tests_cant": "only a sparse set of times changes its minute or second field", "anchors": ["crates/tofas/src/calendar.rs:HMS::from_fraction_of_day", "crates/tofas/src/calendar.rs:HMS::to_fraction_of_day"]}
{"id": "C16", "title": "GregorianDateHMS round trip", "statement": "In exact arithmetic GregorianDateHMS::to_julian(from_julian(dj1,dj2)) has the same sum as (dj1,dj2) for sums in [-32000, 536802340], and from_julian(to_julian(x)) = x for every valid date (year <= 1465000) and time; in f64 from_julian succeeds (no BadFract, no overflow) for all finite pairs with sum in [-32000, 536802340].", "quantifier": "all real pairs in range, all valid date-times, all finite f64 pairs in range", "why_tests_cant": "composition of four conversions over a continuum", "anchors": ["crates/tofas/src/calendar.rs:GregorianDateHMS::from_julian", "crates/tofas/src/calendar.rs:GregorianDateHMS::to_julian"]}
{"id": "C17", "title": "Date display is ISO-8601, injective and sortable", "statement": "For years 0..=9999 the Display string of a valid date is the 10-character YYYY-MM-DD form, different dates give different strings, and string order is calendar order.", "quantifier": "all pairs of valid dates with year 0..=9999", "why_tests_cant": "pairwise statement over all dates", "anchors": ["crates/tofas/src/calendar.rs:Display for GregorianDate"]}
{"id": "C18", "title": "delta_at error and pre-UTC behaviour", "statement": "delta_at(fd) is BadFract exactly when fd < 0 or fd > 1 (NaN is not rejected); otherwise it is Ok(None) exactly when the year is before 1960.", "quantifier": "all dates, all f64 fd", "why_tests_cant": "IEEE comparison semantics over all bit patterns", "anchors": ["crates/tofas/src/delta_at.rs:DeltaAt for GregorianDate"]}
{"id": "C19", "title": "delta_at applies a leap second from the first day of its month", "statement": "TAI-UTC should change on the first day of the tabulated month (as in the cited dat.for). It does not: in every month that has a table entry (other than the first) delta_at still returns the previous entry's value, e.g. 36 s during January 2017. For every month of a year >= 1960 that has no table entry the value is the one in force.", "quantifier": "all dates from 1960 on, all valid fractions", "why_tests_cant": "needs every month of an unbounded range, in particular the 41 months where the answer is wrong", "anchors": ["crates/tofas/src/delta_at.rs:DeltaAt for GregorianDate", "crates/tofas/src/delta_at.rs:DAT_DATA"]}
{"id": "C20", "title": "delta_at after 1972 is the integer table value", "statement": "For every date from 1972-02 on, whatever the fraction, delta_at is one of the integers 10..37, it never decreases with time, and from 2017-02 on it is exactly 37 for every year up to 178956969; a checked build panics with integer overflow exactly from 178956970-08 on (12*year+month overflows i32), and a wrapping build returns a long replaced value (at most 36) for every date of the years 357915914 to 357915956.", "quantifier": "all later dates and all fractions in [0,1], f64", "why_tests_cant": "unbounded range of dates, pairwise monotonicity", "anchors": ["crates/tofas/src/delta_at.rs:DeltaAt for GregorianDate"]}
{"id": "C21", "title": "delta_at before 1972 is linear in time", "statement": "For a date from 1960-01 through 1972-01, delta_at equals offset + (MJD + fd - origin)*rate for the table row selected for its month, in exact arithmetic, and the f64 value is within 2^-45 s of it.", "quantifier": "all dates in 1960..1972-01 and all fractions in [0,1]", "why_tests_cant": "continuum of fractions, rounding bound", "anchors": ["crates/tofas/src/delta_at.rs:DeltaAt for GregorianDate"]}
{"id": "C22", "title": "TAI to TT adds 32.184 s", "statement": "TT::from(TAI(a,b)) has total exactly a+b+32.184/86400 in exact arithmetic; in f64 the larger component is passed through bit for bit and the sum of the two parts is within 2^-53*|changed part| + 2^-62 of the exact value.", "quantifier": "all pairs of reals; all pairs of finite f64 of magnitude up to 2^100", "why_tests_cant": "rounding bound over all splits", "anchors": ["crates/tofas/src/time.rs:From<TAI> for TT", "crates/tofas/src/time.rs:DTAT"]}
{"id": "C23", "title": "UTC to TAI adds delta AT seconds", "statement": "TAI::from_utc_delta_at(utc,dat) has total a+b+dat/86400 in exact arithmetic, and in f64 one component is passed through unchanged while the other is the rounded sum.", "quantifier": "all real/f64 inputs", "why_tests_cant": "all splits", "anchors": ["crates/tofas/src/time.rs:TAI::from_utc_delta_at"]}
{"id": "C24", "title": "TT and UT1 conversions are mutually inverse", "statement": "In exact arithmetic UT1::from_tt(TT::from_ut1(u,dt),dt) and TT::from_ut1(UT1::from_tt(t,dt),dt) preserve the total for every split and every dt, and preserve both parts when the parts stay in the same order; TT::from_ut1 and UT1::from_tt move the total by exactly +dt/-dt seconds.", "quantifier": "all real pairs and all real dt", "why_tests_cant": "continuum of splits, including those where the order of the two parts flips", "anchors": ["crates/tofas/src/time.rs:TT::from_ut1", "crates/tofas/src/time.rs:UT1::from_tt"]}
{"id": "C25", "title": "TT to TDB adds dtr seconds", "statement": "TDB::from_tt(tt,dtr) has total tt1+tt2+dtr/86400 in exact arithmetic; dtr = 0 returns both parts with unchanged values in f64.", "quantifier": "all real pairs and dtr; all finite f64 pairs", "why_tests_cant": "all splits", "anchors": ["crates/tofas/src/time.rs:TDB::from_tt"]}
{"id": "C26", "title": "anp normalises to one turn", "statement": "In exact arithmetic anp(a) lies in [0, TWO_PI), differs from a by an integer multiple of TWO_PI and is idempotent. In f64 the documented half-open range is false: anp(-1e-20) = TWO_PI; for every finite f64 the result lies in the closed interval [0, TWO_PI], and it is TWO_PI exactly when the argument is negative and within 2^-51 below a multiple of TWO_PI.", "quantifier": "all reals; all finite f64", "why_tests_cant": "sparse failing set near multiples of the period", "anchors": ["crates/tofas/src/common.rs:anp"]}
{"id": "C27", "title": "angle between vectors", "statement": "In exact arithmetic, for non-zero vectors u.angle(v) is in [0,pi], is symmetric, is unchanged by scaling either vector by a positive factor, is 0 for u with itself and satisfies cos(angle)*|u|*|v| = u.v. In f64 it is symmetric, and unchanged by negating both vectors, bit for bit, for all inputs and every library.", "quantifier": "all pairs of non-zero real 3-vectors", "why_tests_cant": "continuum, algebraic identity", "anchors": ["crates/tofas/src/common.rs:Vector for Vec3"]}
{"id": "C28", "title": "angle of a vector with itself can be NaN in f64", "statement": "A user expects v.angle(v) to be (near) zero. In f64 the normalised dot product can exceed 1 (e.g. for [1,1,1]) so with any IEEE-conforming acos the result is NaN.", "quantifier": "any acos that returns NaN above 1", "why_tests_cant": "sporadic rounding-dependent failure", "anchors": ["crates/tofas/src/common.rs:Vector for Vec3"]}
{"id": "C29", "title": "Elementary rotations are rotations", "statement": "For every axis 0,1,2 and every angle, Mat3::rotation(axis,theta) is orthogonal with determinant 1, leaves the axis fixed, rotation(axis,-theta) is its transpose, rotation(axis,a) composed with rotation(axis,b) is rotation(axis,a+b); axis >= 3 panics. In f64, for a library with odd sine and even cosine, rotation(axis,-theta) is the transpose bit for bit.", "quantifier": "all axes, all real angles", "why_tests_cant": "continuum of angles", "anchors": ["crates/tofas/src/common.rs:Matrix for Mat3 rotation"]}
{"id": "C30", "title": "Matrix algebra laws", "statement": "compose is matrix multiplication (associative, identity is neutral, transpose reverses products), transpose is an involution, and apply(M,x) is the product of the TRANSPOSE of M with x, so M.compose(N).apply(x) = N.apply(M.apply(x)) and M.transpose().apply(x) = M x; reading apply as M x is wrong in general. In f64 transpose reverses products and is an involution bit for bit, for all inputs.", "quantifier": "all real matrices and vectors", "why_tests_cant": "algebraic identities over a continuum; the order reversal is easy to miss with symmetric test matrices", "anchors": ["crates/tofas/src/common.rs:Matrix for Mat3"]}
{"id": "C31", "title": "Fundamental arguments modulo one turn", "statement": "Each of l03, lp03, f03, d03, om03 equals its published polynomial modulo a whole number of turns (1296000 arcsec); contrary to the cited routines the polynomial's constant term is added after the reduction, so the result is not confined to one turn (witness), only to less than two turns.", "quantifier": "all real t", "why_tests_cant": "continuum; the misplaced reduction is invisible through sin/cos comparisons", "anchors": ["crates/tofas/src/fundargs.rs:l03", "crates/tofas/src/fundargs.rs:lp03", "crates/tofas/src/fundargs.rs:f03", "crates/tofas/src/fundargs.rs:d03", "crates/tofas/src/fundargs.rs:om03"]}
{"id": "C32", "title": "Earth rotation angle", "statement": "In exact arithmetic rotation_angle(UT1(a,b)) is in [0,TWO_PI), depends only on a+b, and is congruent to TWO_PI*(0.7790572732640 + 1.00273781191135448*(a+b-2451545)) modulo TWO_PI.", "quantifier": "all real pairs", "why_tests_cant": "continuum of dates and splits", "anchors": ["crates/tofas/src/earth.rs:rotation_angle", "crates/tofas/src/common.rs:anp"]}
{"id": "C33", "title": "Earth rotation angle does not depend on argument order (f64)", "statement": "rotation_angle(UT1(a,b)) = rotation_angle(UT1(b,a)) bit for bit for all f64, and the result is in the closed interval [0,TWO_PI] or NaN; it is not NaN when both parts are finite with magnitude up to 2^1000.", "quantifier": "all pairs of f64", "why_tests_cant": "all bit patterns", "anchors": ["crates/tofas/src/earth.rs:rotation_angle"]}
{"id": "C34", "title": "Reported Earth velocity is the derivative of the reported position", "statement": "In exact arithmetic, both for the heliocentric and for the barycentric output of EarthPosVel::from(TDB), each velocity component is exactly the time derivative (per day) of the corresponding position component.", "quantifier": "all real dates and splits", "why_tests_cant": "derivative statement over a continuum", "anchors": ["crates/tofas/src/earth.rs:From<TDB> for EarthPosVel", "crates/tofas/src/epv00_data.rs"]}
{"id": "C35", "title": "Out-of-range warning", "statement": "EarthPosVel::from(TDB) reports DateOutOfRange exactly when the date is 100 Julian years or more away from J2000.0; the position and velocity do not depend on how the date is split.", "quantifier": "all real dates and splits", "why_tests_cant": "continuum", "anchors": ["crates/tofas/src/earth.rs:From<TDB> for EarthPosVel"]}
{"id": "C36", "title": "Earth-Sun distance is plausible for all dates in range", "statement": "For every date less than 100 Julian years from J2000.0 the heliocentric distance returned is between 0.982 and 1.019 au, and the Sun's barycentric offset (barycentric minus heliocentric position) is less than 0.016 au.", "quantifier": "all real dates in 1900-2100", "why_tests_cant": "a bound over a continuum for a sum of thousands of terms", "anchors": ["crates/tofas/src/earth.rs:From<TDB> for EarthPosVel", "crates/tofas/src/epv00_data.rs"]}
{"id": "C37", "title": "Ephemeris table accesses are in bounds and agree with the reference data", "statement": "Every index used while summing the series is inside the tables, for each of the three axes and six series, so the conversion never panics; the summed entries equal the DATA statements of the bundled Fortran routine.", "quantifier": "all axes, series and term indices (whole tables)", "why_tests_cant": "whole-table statement; out-of-bounds would panic only on the offending axis", "anchors": ["crates/tofas/src/earth.rs:NE0", "crates/tofas/src/epv00_data.rs", "fortran/epv00.for"]}
{"id": "C38", "title": "All frame matrices are proper rotations", "statement": "For every date, polar motion and nutation angles the matrices returned by bias_and_precession, nutation_matrix, precession_nutation, celestial_to_intermediate, polar_motion_matrix and celestial_to_terrestrial are orthogonal with determinant 1 in exact arithmetic.", "quantifier": "all real inputs", "why_tests_cant": "continuum", "anchors": ["crates/tofas/src/frames.rs", "crates/tofas/src/earth.rs:polar_motion_matrix"]}
{"id": "C39", "title": "celestial_to_intermediate preserves the celestial pole", "statement": "In exact arithmetic, the third row of celestial_to_intermediate(tt) equals (x, y, sqrt(1-x^2-y^2)) with x,y the pole coordinates taken from precession_nutation(tt), whenever x^2+y^2 < 1: the matrix sends the pole direction to (0,0,1). For every date within a century of J2000.0 the condition holds (x^2+y^2 <= 0.025^2) and the third row is that of precession_nutation(tt).", "quantifier": "all real dates (and all x,y with x^2+y^2<1, all s)", "why_tests_cant": "continuum", "anchors": ["crates/tofas/src/frames.rs:celestial_to_intermediate_from_xys", "crates/tofas/src/frames.rs:xy_from_bpn", "crates/tofas/src/frames.rs:celestial_to_intermediate"]}
{"id": "C40", "title": "Precession and nutation vanish at their origin", "statement": "The precession matrix returned by bias_and_precession is the identity at J2000.0 for every split of that date, and nutation_matrix(eps,0,0) is the identity for every obliquity.", "quantifier": "all splits of J2000.0, all obliquities", "why_tests_cant": "continuum of splits", "anchors": ["crates/tofas/src/frames.rs:bias_and_precession", "crates/tofas/src/frames.rs:nutation_matrix"]}
{"id": "C41", "title": "Nutation angles are bounded", "statement": "For every date within one Julian century of J2000.0 the nutation angles satisfy |dpsi| < 19.5 arcsec and |deps| < 10.1 arcsec.", "quantifier": "all real dates within a century", "why_tests_cant": "bound over a continuum for a 77-term series", "anchors": ["crates/tofas/src/frames.rs:nutation"]}
{"id": "C42", "title": "Frames depend only on the date, not on its split", "statement": "nutation, precession_rate, mean_obliquity, bias_and_precession, precession_nutation, celestial_to_intermediate, cio and celestial_to_terrestrial return the same value for any two two-part dates with the same sum, in exact arithmetic.", "quantifier": "all splits", "why_tests_cant": "relation between executions over a continuum", "anchors": ["crates/tofas/src/frames.rs", "crates/tofas/src/locator.rs:cio"]}
{"id": "C43", "title": "celestial_to_terrestrial is polar motion times Earth rotation times celestial-to-intermediate", "statement": "celestial_to_terrestrial(tt,ut1,xp,yp) is the product W * R3(ERA) * C of the polar motion matrix (s'=0), the rotation by the Earth rotation angle and the celestial-to-intermediate matrix; the polar motion matrix is R1(-yp)*R2(-xp), the identity for xp=yp=0; adding a whole number of Earth rotations (1/1.00273781191135448 days each) to UT1 leaves the result unchanged.", "quantifier": "all real inputs", "why_tests_cant": "continuum", "anchors": ["crates/tofas/src/frames.rs:celestial_to_terrestrial", "crates/tofas/src/frames.rs:celestial_to_terrestrial_from_cio_components"]}
{"id": "C44", "title": "CIO locator", "statement": "cio(tt,x,y) + x*y/2 does not depend on x and y, and for dates within a century of J2000.0 its magnitude is below 0.081 arcsec.", "quantifier": "all real dates within a century, all x,y", "why_tests_cant": "continuum", "anchors": ["crates/tofas/src/locator.rs:cio"]}
{"id": "C45", "title": "EllipsoidConverter::new validates its input", "statement": "In exact arithmetic new succeeds exactly for 0 <= f < 1 and a >= 0 (so a = 0 is accepted), reports InvalidFlattening before InvalidRadius, and never reports BadEccentricity. In f64 NaN parameters are accepted and BadEccentricity is reachable. ellipsoid() returns the ellipsoid given, bit for bit, and a converter made from it is the same.", "quantifier": "all reals; f64 witnesses", "why_tests_cant": "continuum; IEEE corner cases", "anchors": ["crates/tofas/src/ellipsoid.rs:EllipsoidConverter::new", "crates/tofas/src/ellipsoid.rs:ellipsoid"]}
{"id": "C46", "title": "Geodetic to geocentric lands at the stated height above the ellipsoid", "statement": "In exact arithmetic, for every converter with a > 0 built by new and every geodetic point, geodetic_to_geocentric returns Ok(S + height*zenith) where S satisfies the ellipsoid equation (x^2+y^2)/a^2 + z^2/(a(1-f))^2 = 1 and the zenith vector is the unit outward normal at S.", "quantifier": "all ellipsoids and all geodetic coordinates", "why_tests_cant": "continuum", "anchors": ["crates/tofas/src/ellipsoid.rs:geodetic_to_geocentric", "crates/tofas/src/ellipsoid.rs:Geodetic::zenith"]}
{"id": "C47", "title": "Geodetic round trip on the surface", "statement": "In exact arithmetic, geocentric_to_geodetic(geodetic_to_geocentric(g)) = g for every ellipsoid with a > 0 and every g with height 0, |latitude| < pi/2 and longitude in (-pi,pi] (away from the axis by more than the pole cut-off); for a sphere it holds for every height above -a; on the equator it holds for every height above the evolute, and at the poles latitude and height survive while the longitude becomes 0.", "quantifier": "all ellipsoids, all latitudes and longitudes", "why_tests_cant": "continuum", "anchors": ["crates/tofas/src/ellipsoid.rs:geocentric_to_geodetic", "crates/tofas/src/ellipsoid.rs:geodetic_to_geocentric"]}
{"id": "C48", "title": "Symmetries of geocentric_to_geodetic", "statement": "Reflecting z negates the latitude and changes nothing else (z != 0); the longitude is atan2(y,x) off the axis and 0 on it; latitude and height depend on x,y only through x^2+y^2; on the axis the height is |z| minus the polar radius and the latitude is +-pi/2. The reflection symmetry also holds bit for bit in f64. Inside the ellipsoid the f64 height can be NaN (witness: a=1, f=1/2 at distance a*e^2 on the equator).", "quantifier": "all ellipsoids and all points", "why_tests_cant": "continuum", "anchors": ["crates/tofas/src/ellipsoid.rs:geocentric_to_geodetic"]}
{"id": "C49", "title": "Degree conversion normalises longitude and latitude", "statement": "In exact arithmetic Geodetic360::from(g) has lon in [-180,180) and lat in [-90,90), lon congruent to elong*180/pi modulo 360 and lat to phi*180/pi modulo 180; converting back gives the same point when -pi <= elong < pi and -pi/2 <= phi < pi/2.", "quantifier": "all real coordinates", "why_tests_cant": "continuum", "anchors": ["crates/tofas/src/ellipsoid.rs:From<&Geodetic> for Geodetic360", "crates/tofas/src/ellipsoid.rs:From<&Geodetic360> for Geodetic"]}
{"id": "C50", "title": "Degree conversion keeps the hemisphere", "statement": "A user expects Geodetic360::from to denote the same place. It does not at the north pole: latitude +pi/2 becomes -90 degrees (exactly, also in f64), i.e. the south pole, although geocentric_to_geodetic returns +pi/2 there. For every latitude in [-pi/2, pi/2) the latitude is preserved in exact arithmetic. In f64 exactly two of the latitudes from -pi/2 to pi/2 are moved, pi/2 and the number before it; all others are converted to within 1e-13 degrees.", "quantifier": "all latitudes", "why_tests_cant": "single-point failure inside a continuum", "anchors": ["crates/tofas/src/ellipsoid.rs:From<&Geodetic> for Geodetic360", "crates/tofas/src/ellipsoid.rs:geocentric_to_geodetic"]}
{"id": "C51", "title": "Degree conversion never trips its assertions on finite input", "statement": "In f64, for every finite elong and phi of magnitude at most 1e300 the debug assertions in Geodetic360::from hold (no panic in a debug build); precisely, a debug build panics if and only if a coordinate divided by one degree is NaN or infinite; the documented range lon < 180 is false in f64 (a value just below -180 degrees maps to 180).", "quantifier": "all finite f64 up to 1e300", "why_tests_cant": "all bit patterns", "anchors": ["crates/tofas/src/ellipsoid.rs:From<&Geodetic> for Geodetic360"]}
{"id": "C52", "title": "SunAngleCalculator::new panics only on a bad time of day", "statement": "SunAngleCalculator::new panics exactly when the time of day, as a fraction, is below 0 or above 1 (or integer overflow occurs for far-future years in a checked build; or, in f64, the radicand of geodetic_to_geocentric is not above 0, which cannot happen in exact arithmetic or with sine and cosine values whose squares add up to at least 1/2); NaN seconds do not panic; dates before 1960 silently use delta AT = 0.", "quantifier": "all dates, times and positions", "why_tests_cant": "all inputs", "anchors": ["crates/tofas_extras/src/sun_angle.rs:SunAngleCalculator::new"]}
{"id": "C53", "title": "Sun zenith angle is the angle between the local vertical and the Sun", "statement": "In exact arithmetic the sza returned by compute is in [0,pi], cos(sza) is the dot product of the zenith with the unit vector to the Sun in the terrestrial frame, and the Sun vector has length AUM times the heliocentric Earth distance.", "quantifier": "all parameters and all offsets", "why_tests_cant": "continuum", "anchors": ["crates/tofas_extras/src/sun_angle.rs:SunAngleCalculator::compute"]}
{"id": "C54", "title": "Time offset is equivalent to shifting the time of day", "statement": "In exact arithmetic compute(delta) for a calculator built at time of day T gives the same time scales, Earth rotation angle, Sun vector and sza as compute(0) for a calculator with the same date and delta AT whose time of day is T+delta.", "quantifier": "all offsets and parameters", "why_tests_cant": "relation between executions", "anchors": ["crates/tofas_extras/src/sun_angle.rs:SunAngleCalculator::compute"]}
{"id": "C55", "title": "sun_angle_tool scan loop", "statement": "With --scan and exact arithmetic the tool evaluates delta0, delta0+step, ... up to and including delta1 and stops, for every step > 0; for step <= 0 and delta0 <= delta1 it never stops. Without --scan it evaluates exactly once, at delta0 (default -600 s, not 0), and not at all if delta0 > delta1. In f64 a positive step smaller than the rounding unit also never stops; with finite bounds and step of magnitude at most B, 1 <= B <= 2^100, and a step above B*2^-52 it stops, the j-th offset is within j*B*2^-52 of delta0 + j*step, and none is missing or in excess beyond that error.", "quantifier": "all delta0, delta1, step", "why_tests_cant": "non-termination cannot be observed by a test", "anchors": ["crates/tofas_extras/examples/sun_angle_tool.rs:main"]}
{"id": "C56", "title": "HMS display", "statement": "For every time of day with hour, minute <= 99 and an f64 second in [0,60) with clear sign bit, the Display string is HH:MM:SS.ffffff, always 15 characters, with SS.ffffff the second rounded to the nearest microsecond; it shows the impossible 60.000000 exactly when second >= 59.9999995.", "quantifier": "all hours, minutes and all f64 seconds in [0,60)", "why_tests_cant": "all f64 seconds; the rounding boundary is at a single point", "anchors": ["crates/tofas/src/calendar.rs:Display for HMS"]}
{"id": "C57", "title": "Accuracy of the f64 Earth rotation angle", "statement": "For all f64 parts a,b of magnitude up to 4000000 days the f64 result of rotation_angle differs, modulo a whole number of turns TWO_PI, from TWO_PI*(0.7790572732640 + 1.00273781191135448*(a+b-2451545)) by at most 2e-10 rad.", "quantifier": "all pairs of f64 up to 4e6 days", "why_tests_cant": "a worst-case rounding bound over all bit patterns", "anchors": ["crates/tofas/src/earth.rs:rotation_angle", "crates/tofas/src/common.rs:anp"]}
{"id": "C58", "title": "Height returned by geocentric_to_geodetic is consistent with its latitude", "statement": "In exact arithmetic, for every ellipsoid (0 <= f < 1, a > 0) and every point whose size L relative to it exceeds 2f-f^2, the points outside and most of those inside (off the axis by more than the pole cut-off), the error of the round trip geodetic_to_geocentric(geocentric_to_geodetic(v)) - v is perpendicular to the zenith of the returned geodetic point.", "quantifier": "all ellipsoids, all points of size above 2f-f^2", "why_tests_cant": "a relation over a continuum of ellipsoids and points", "anchors": ["crates/tofas/src/ellipsoid.rs:geocentric_to_geodetic", "crates/tofas/src/ellipsoid.rs:geodetic_to_geocentric"]}
{"id": "C59", "title": "Accuracy of the one-step geocentric to geodetic conversion", "statement": "In exact arithmetic, for every ellipsoid with f <= 0.01 and every point outside it or at most one per cent below it, geodetic_to_geocentric(geocentric_to_geodetic(v)) is within a*(0.36*(2f-f^2)^4*|1-1/L|^3 + 1e-16) of v, L >= 0.99 being the scale factor of the similar ellipsoid through v. On WGS84 this is at most 5 mm*|1-1/L|^3 + 1e-9 m.", "quantifier": "all ellipsoids with f <= 0.01, all points of size at least 0.99", "why_tests_cant": "a worst-case bound over an unbounded region; the existing test has one point", "anchors": ["crates/tofas/src/ellipsoid.rs:geocentric_to_geodetic", "crates/tofas/src/ellipsoid.rs:geodetic_to_geocentric"]}
{"id": "C60", "title": "Time scales reported by the Sun angle calculator", "statement": "The UTC, TAI, TT and UT1 dates in the result of compute are the civil date and time of day plus the offset (UTC), plus delta AT (TAI), plus 32.184 s (TT), and UTC - 0.072073685 s (UT1), exactly in exact arithmetic; in f64, for years -4799 to 8000 and offsets up to 1e9 s, every part is finite and the exact sums are off by at most (3*|N| + 9*|offset|/86400 + 15)*2^-53 days, N being the modified Julian day number.", "quantifier": "all dates, times of day, offsets, positions and all libm implementations", "why_tests_cant": "worst-case rounding bound over all f64 seconds and offsets", "anchors": ["crates/tofas_extras/src/sun_angle.rs:SunAngleCalculator::compute", "crates/tofas_extras/src/sun_angle.rs:SunAngleCalculator::new"]}
{"id": "C61", "title": "Mathematical and time constants", "statement": "The decimal constants stand for what their names say: TWO_PI is 2 pi, AS2R is pi/648000, MAS2R is a thousandth of it and DEGREE is pi/180, each to half a unit of the last of its 25 digits, TURNAS is exactly 360*3600; as f64 values each is within half a unit in the last place of the true constant; DJ00 is the Julian date the calendar code assigns to 2000-01-01 noon, DJC is 100 years of DJY days, D2S is 24*60*60.", "quantifier": "the real number pi (compared through proved bounds) and the rounding of each literal", "why_tests_cant": "a digit error far from the leading digits is invisible to tolerance tests", "anchors": ["crates/tofas/src/common.rs:TWO_PI", "crates/tofas/src/common.rs:AS2R", "crates/tofas/src/common.rs:DEGREE", "crates/tofas/src/time.rs:DJ00"]}
{"id": "C62", "title": "WGS84 is the published ellipsoid", "statement": "The converter built from WGS84 exists and its derived constants agree with NIMA TR8350.2: semi-minor axis 6356752.3142 m, first and second eccentricity squared 6.69437999014e-3 and 6.73949674228e-3, axis ratio 0.996647189335, polar radius of curvature 6399593.6258 m, to half a unit of the last printed digit, in exact arithmetic; the three of them that are fields of the converter (semi-minor axis, first eccentricity squared, axis ratio) also in f64.", "quantifier": "the exact and the bit-level evaluation of the constructor", "why_tests_cant": "an error in a low digit of the flattening moves points by less than test tolerances", "anchors": ["crates/tofas/src/ellipsoid.rs:WGS84", "crates/tofas/src/ellipsoid.rs:EllipsoidConverter::new"]}
{"id": "C63", "title": "Celestial-to-intermediate matrix is the IERS formula", "statement": "In exact arithmetic, for all x, y with x^2+y^2 < 1 and all s, celestial_to_intermediate_from_xys(x,y,s) is R3(-s) times the transpose of [[1-aX^2, -aXY, X],[-aXY, 1-aY^2, Y],[-X, -Y, 1-a(X^2+Y^2)]] with a = 1/(1+sqrt(1-X^2-Y^2)).", "quantifier": "all pole coordinates in the unit disc and all locators", "why_tests_cant": "continuum; the existing test has one point", "anchors": ["crates/tofas/src/frames.rs:celestial_to_intermediate_from_xys"]}
{"id": "C64", "title": "Bias, precession and nutation matrices are the IAU 2000 products", "statement": "In exact arithmetic, for every date and every pair of nutation angles, the bias matrix is R1(-eta0)*R2(xi0)*R3(da0) with the IAU 2000 offsets, the precession matrix is R3(chi)*R1(-omega)*R3(-psi)*R1(eps0) with the Lieske polynomials plus the IAU 2000 rate corrections, the nutation matrix is R1(-(eps+deps))*R3(-dpsi)*R1(eps), and the combined matrices are P*B and N*P*B, in that order.", "quantifier": "all dates and nutation angles", "why_tests_cant": "continuum; order and sign errors are of second order in small angles", "anchors": ["crates/tofas/src/frames.rs:bias_and_precession", "crates/tofas/src/frames.rs:PrecessionNutation::from_tt_with_nutation", "crates/tofas/src/frames.rs:precession_rate"]}
{"id": "C65", "title": "Nutation is the IAU 2000B series", "statement": "In exact arithmetic, for every date the nutation in longitude and obliquity is the published 77-term luni-solar series with the fixed planetary offsets, to 1e-21*(1+|t|) rad, t in centuries; every one of the 77 rows of multipliers and coefficients is the published one.", "quantifier": "all dates", "why_tests_cant": "a wrong coefficient in a small term changes results below the test tolerance", "anchors": ["crates/tofas/src/frames.rs:nutation"]}
{"id": "C66", "title": "CIO locator is the IERS series", "statement": "In exact arithmetic, for every date and all x, y, cio(tt,x,y) + x*y/2 is the published series of the IERS Conventions 2003 (66 trigonometric terms and a polynomial of degree 5), to 1e-23*(1+|t|)^6 rad.", "quantifier": "all dates and pole coordinates", "why_tests_cant": "a wrong coefficient in a small term changes results below the test tolerance", "anchors": ["crates/tofas/src/locator.rs:cio", "crates/tofas/src/fundargs.rs"]}
{"id": "C67", "title": "Accuracy of the f64 frame matrices", "statement": "For every date within a century of J2000.0 in two f64 parts (the first at most 4e6 days) and every mathematical library whose sin, cos, atan, acos and atan2 are within 2^-50 of the true values, the f64 nutation angles are within 3e-13 rad of the published series, and every entry of the f64 bias-precession, bias-precession-nutation, celestial-to-intermediate and celestial-to-terrestrial matrices is within 8e-14, 2e-12, 7e-12 and 2.1e-10 of the exact one.", "quantifier": "all f64 date pairs within a century, all polar motion angles up to 1 rad, all libm implementations meeting the bound", "why_tests_cant": "worst-case rounding bound over all bit patterns and over unspecified libm implementations", "anchors": ["crates/tofas/src/frames.rs:celestial_to_terrestrial", "crates/tofas/src/frames.rs:celestial_to_intermediate", "crates/tofas/src/frames.rs:PrecessionNutation", "crates/tofas/src/frames.rs:nutation", "crates/tofas/src/locator.rs:cio"]}
{"id": "C68", "title": "Accuracy of the f64 Earth ephemeris", "statement": "For every date within a century of J2000.0 in two f64 parts (the first at most 4e6 days) and every mathematical library whose sin and cos are within 2^-50 of the true values, From<TDB> for EarthPosVel does not panic, every component of the f64 heliocentric position is within 3e-11 au (4.5 m), of the barycentric position within 3.2e-11 au, and of both velocities within 6e-13 au/day of the exact-arithmetic value; the f64 date warning is right for every date more than 2e-9 days from the limits.", "quantifier": "all f64 date pairs within a century, all libm implementations meeting the bound", "why_tests_cant": "worst-case rounding bound over 2000 series terms and all bit patterns", "anchors": ["crates/tofas/src/earth.rs:From<TDB> for EarthPosVel"]}
{"id": "C69", "title": "Vector algebra and its f64 accuracy", "statement": "In exact arithmetic Vec3 addition, subtraction, negation and scaling are those of a real vector space (sub undoes add, neg is subtraction from zero, the norm of a scaled vector is |c| times the norm). In f64 every component of a difference is correctly rounded; for finite vectors of length between 1e-3 and 1e13 norm has relative error at most 1e-15, every component of normalize is within 1.3e-15, the cosine inside angle is within 1e-14, and for a library accurate to 2^-50 and an angle with sine at least 1e-6, angle is within 1.02e-14/sin + 2^-50 of the true angle. Sum and scalar product in f64 do not depend on the order, bit for bit.", "quantifier": "all real vectors; all finite f64 vectors in the range; all libm implementations meeting the bound", "why_tests_cant": "worst-case rounding bound over six independent f64 inputs", "anchors": ["crates/tofas/src/common.rs:Vec3", "crates/tofas/src/common.rs:angle"]}
{"id": "C70", "title": "Totals of two-part dates", "statement": "total() of a two-part f64 date is the f64 nearest to the exact sum of its parts, for all finite parts whose sum does not overflow; in exact arithmetic the totals of converted dates differ from the original by exactly the offset of the conversion (delta AT, 32.184 s, delta T, TDB-TT), with the right sign, whichever part the code adds it to.", "quantifier": "all finite f64 parts; all real dates and offsets", "why_tests_cant": "all bit patterns and a continuum of offsets", "anchors": ["crates/tofas/src/time.rs:total", "crates/tofas/src/time.rs:TAI::from_utc", "crates/tofas/src/time.rs:From<TAI> for TT"]}
{"id": "C71", "title": "Accuracy of the f64 geodetic to geocentric conversion and zenith", "statement": "For every finite longitude and latitude up to 360 degrees in magnitude, heights up to 1e7 m in magnitude and every library accurate to 2^-50, the f64 zenith is within 5e-15 per component of (cos phi cos lambda, cos phi sin lambda, sin phi), and the f64 WGS84 geodetic_to_geocentric succeeds with every coordinate within 3e-7 m of the point of the ellipsoid moved along its normal by the height.", "quantifier": "all f64 positions in the range, all libm implementations meeting the bound", "why_tests_cant": "worst-case rounding bound over all bit patterns and unspecified libm", "anchors": ["crates/tofas/src/ellipsoid.rs:geodetic_to_geocentric", "crates/tofas/src/ellipsoid.rs:zenith"]}
{"id": "C72", "title": "End-to-end accuracy of the f64 Sun zenith angle", "statement": "For every valid date, f64 time of day of at most 86400 s, f64 longitude and latitude up to 360 degrees, height up to 1e7 m and offset up to 1e9 s for which the instant is within a century less a day of J2000.0, and every mathematical library accurate to 2^-50: new and compute do not panic, and against exact arithmetic on the same values the observer position is within 3e-7 m, the heliocentric Earth within 3e-11 au and the terrestrial Sun vector within 85 m per coordinate, the cosine passed to acos is within 1.2e-9, and if the sine of the exact zenith angle is at least 1/2000 the zenith angle is within 1.23e-9/sin + 2^-50 rad; in all cases it is within 4.91e-5 rad, unless the exact angle is within 4.9e-5 rad of zenith or nadir and the cosine passed to acos exceeds one in magnitude.", "quantifier": "all f64 parameters and offsets in the range, both overflow profiles, all libm implementations meeting the bound", "why_tests_cant": "worst-case rounding bound over seven independent f64 inputs and unspecified libm; the program has one reference value", "anchors": ["crates/tofas_extras/src/sun_angle.rs:SunAngleCalculator::new", "crates/tofas_extras/src/sun_angle.rs:SunAngleCalculator::compute"]}
{"id": "C73", "title": "Printed positions", "statement": "Every finite Geodetic360 position prints as three comma-separated numerals, latitude, longitude, height, each with its sign, that a decimal reader reads back to within half a unit of the sixth, sixth and second decimal; 32 characters when below 99.9999995, 999.9999995 and 99999.995. A Geodetic position in radians inside (-pi,pi) x (-pi/2,pi/2) by 1e-13 prints without a panic and reads back to within 5.00001e-7 degrees.", "quantifier": "all finite f64 positions", "why_tests_cant": "all f64 bit patterns; padding, sign and carry cases interact", "anchors": ["crates/tofas/src/ellipsoid.rs:Display for Geodetic360", "crates/tofas/src/ellipsoid.rs:Display for Geodetic"]}
{"id": "C74", "title": "Printed dates and times read back", "statement": "Every accepted date, negative years included, prints as year-month-day with numerals that read back to exactly the three fields, two characters for month and day, ten characters in all for years -999 to 9999; different dates print differently. Every HMS with a finite second prints as three numerals separated by colons; hour and minute read back exactly, the second to within half a microsecond.", "quantifier": "all accepted dates over all i32 years; all hours, minutes and finite f64 seconds", "why_tests_cant": "injectivity quantifies over pairs of dates", "anchors": ["crates/tofas/src/calendar.rs:Display for GregorianDate", "crates/tofas/src/calendar.rs:Display for HMS"]}
{"id": "C75", "title": "Printed Sun angle report", "statement": "For all inputs in the range of the end-to-end accuracy property and every library accurate to 2^-50, the Display of the result bundle is fourteen lines that show the given date, time, offset and position, and numerals that read back to the exact Julian dates UTC, TAI, TT, UT1 within 5.01e-7 days, position within 5.1 cm, Earth rotation angle within 5.4e-7 degrees up to turns, heliocentric Earth within 3.1e-11 au, Sun vector within 86 m, and (unless the Sun is within a thirtieth of a degree of zenith or nadir) zenith angle and elevation within 0.00515 degrees (0.0079 degrees if the Sun is at least 0.0029 degrees from zenith and nadir).", "quantifier": "all f64 parameters and offsets in the range, both overflow profiles, all libm implementations meeting the bound", "why_tests_cant": "worst-case over rounding, libm and decimal formatting together", "anchors": ["crates/tofas_extras/src/sun_angle.rs:Display for SunAngleResultBundle", "crates/tofas_extras/src/sun_angle.rs:SunAngleCalculator::compute"]}
{"id": "C76", "title": "julian_tool gregorian: printed output", "statement": "For every accepted date up to year 1465072, hour and minute up to 255 and finite second up to 1e6 in magnitude, julian_tool gregorian ends normally with four lines: date, time, a numeral within 7e-7 days of the exact Julian date and a numeral within 5.01e-7 of the exact day fraction (noon when no time is given). An unreal date ends with the calendar error and no output; a year of 1465074 or later panics in a checked build after two lines.", "quantifier": "all dates, times and finite f64 seconds in range", "why_tests_cant": "unbounded dates and seconds; panic paths", "anchors": ["crates/tofas_extras/examples/julian_tool.rs:main", "crates/tofas/src/calendar.rs:GregorianDate::to_julian"]}
{"id": "C77", "title": "julian_tool julian: printed output and round trip", "statement": "For all finite f64 pairs whose f64 sum is in [-32000, 536802340], julian_tool julian ends normally with four lines; the date is real, date and printed day fraction denote the exact sum to (|min|+3)*2^-53 days, the time has hour <= 24, minute <= 59 and second in [0,60), and together they denote the exact sum of the arguments to (|min|+5)*2^-53 days. For any two f64, NaN and infinities included, it ends normally, or with the calendar error BadJulianDate after the first line, or (checked builds) with a panic after the first line, never with an error about the fraction. Below -32000 or above 1e9 it ends with the calendar error after the first line, between 536802344 and 1e9 a checked build panics. A numeral printed by the gregorian subcommand, parsed to the nearest f64 and given to the julian subcommand, yields a date and time within 7.8e-7 days of the original.", "quantifier": "all finite f64 pairs in range; all functions standing for {} on f64", "why_tests_cant": "composition of two programs over all inputs", "anchors": ["crates/tofas_extras/examples/julian_tool.rs:main", "crates/tofas/src/calendar.rs:GregorianDate::from_julian"]}
{"id": "C78", "title": "sun_angle_tool: printed output", "statement": "For every accepted date and all values in the range of the end-to-end accuracy property, sun_angle_tool without --scan prints exactly one correct report, for delta0 seconds after the given time (ten minutes before it when no delta0 is given), or nothing if delta0 is not at most delta1. With --scan and delta0 and step multiples of 2^-k, k <= 30, it ends, having printed a line with the bounds and the step and then, each after an empty line, one correct report for every delta0 + j*step <= delta1, in order; for any other finite bounds and step of magnitude at most B, 1 <= B <= 2^100, the step above B*2^-52, likewise with the j-th offset within j*B*2^-52 of delta0 + j*step and none missing or in excess beyond that error. Unreal dates end with the calendar error and no output.", "quantifier": "all arguments in the range, both profiles, all libm implementations meeting the bound", "why_tests_cant": "unbounded number of reports; composition of loop, astronomy and formatting", "anchors": ["crates/tofas_extras/examples/sun_angle_tool.rs:main", "crates/tofas_extras/src/sun_angle.rs:Display for SunAngleResultBundle"]}
{"id": "C79", "title": "Accuracy of the f64 geocentric to geodetic conversion", "statement": "For every finite point above the WGS84 ellipsoid or at most one per cent below it, up to ten thousand times its size, and every library with atan within 2^-50 of the true value (and LibmAcc for atan2), the f64 geocentric_to_geodetic returns finite longitude, latitude and height, the latitude at most pi/2 + 3e-14 in magnitude, and the point of the ellipsoid with the returned longitude and latitude, moved along its normal by the returned height, is within 0.005*|1-1/L|^3 + 1.1e-6*L metres of the given point, L being the size of the point relative to the ellipsoid (method error plus rounding).", "quantifier": "all f64 points in the range, all libm implementations meeting the bound", "why_tests_cant": "worst-case rounding bound over all bit patterns and unspecified libm; the poles and the axis cut-off are special cases", "anchors": ["crates/tofas/src/ellipsoid.rs:geocentric_to_geodetic"]}
{"id": "C80", "title": "The f64 conversion finds the geodetic coordinates of a point", "statement": "Let a finite f64 point be exactly the point of real longitude lambda, latitude phi (|phi| <= pi/2) and height h (-50 km to 6e10 m) over WGS84. For every library with atan within 2^-50 of the true value (and LibmAcc for the other functions) the f64 geocentric_to_geodetic returns a height within 1.01*D of h and a latitude within D/(0.98 a + 0.99 h) of phi, with D = 0.005*(|h|/(b+h))^3 + 1.06e-6*(1+|h|/b) metres; off the axis by a nanometre the longitude is within 2^-50 of lambda up to whole turns. The height is moreover within 1e-15*(6378137 m + |h|) of h (a few units in the last place: the height formula is stationary in the latitude). Every finite f64 point of size 0.9925 to 9400 relative to the ellipsoid has such coordinates.", "quantifier": "all f64 points in the range, all libm implementations meeting the bound", "why_tests_cant": "worst case over all bit patterns, poles included; a bound on the error of the answer, not only on the residual", "anchors": ["crates/tofas/src/ellipsoid.rs:geocentric_to_geodetic"]}
{"id": "C81", "title": "Round trip geodetic to geocentric and back in f64", "statement": "For every finite f64 longitude (up to 360 degrees), latitude (up to 90 degrees) and height (-50 km to 10000 km), geodetic_to_geocentric then geocentric_to_geodetic on WGS84 succeed and give back the height within 1.01*D and the latitude within D/(0.98 a + 0.99 h), D = 0.005*(|h|/(b+h))^3 + 1.06e-6*(1+|h|/b) + 5.25e-7 metres, and the longitude within 9e-7/rho + 2^-50 rad up to whole turns, rho the distance from the axis. In degrees through Geodetic360::from, latitudes at least 2e-8 degrees from the poles: no panic in either build profile, longitude in [-180,180], same errors plus 1e-12 degrees. Within 49.999 km of the ellipsoid: 21 nanometres and 1.6e-11 degrees. For every longitude and latitude up to 2^30 radians in magnitude and height from -49.999 km to 10000 km the height comes back within 3.1e-15*6378137 m + 4.2e-15*|h|.", "quantifier": "all f64 inputs in the range, both profiles, all libm implementations meeting the bound", "why_tests_cant": "the one existing round-trip test has a single point", "anchors": ["crates/tofas/src/ellipsoid.rs:geocentric_to_geodetic", "crates/tofas/src/ellipsoid.rs:geodetic_to_geocentric", "crates/tofas/src/ellipsoid.rs:From<&Geodetic> for Geodetic360"]}
{"id": "C82", "title": "The randomised tests pass for every draw", "statement": "For all f64 draws in [0,1) the loop bodies of test_calendar (both build profiles), test_hms, for every library within the LibmAcc bounds test_rotation, and, for every library also accurate to a relative 2^-51 in sin and cos and on the right side of the cut in atan2, test_ellipsoid (the whole test, poles and longitude -180 degrees included) in tests.rs do not panic: no unwrap fails, no assertion fails and every error is within the tolerance of the test.", "quantifier": "all f64 draws in [0,1)", "why_tests_cant": "a run of the tests draws at most ten million of the 2^53 values", "anchors": ["crates/tofas/src/tests.rs:test_calendar", "crates/tofas/src/tests.rs:test_hms", "crates/tofas/src/tests.rs:test_rotation", "crates/tofas/src/tests.rs:test_ellipsoid"]}
{"id": "C83", "title": "The Sun is where mean orbital elements put it", "statement": "For every accepted date, time and offset within a century less a day of J2000.0, the terrestrial Sun vector computed by the exact program is within 0.00155 au of a Sun built only from published mean elements (Keplerian ellipse to first order in eccentricity, obliquity, first-order precession, Earth rotation angle), and the cosine of the zenith angle times the distance is within 0.00155 of the height of that mean Sun over the horizon of the given longitude and latitude. Hence when the mean Sun is at least 0.0016 above (below) the horizon, the zenith angle is less (more) than a right angle, in exact arithmetic and, for every library accurate to 2^-50, in f64 (the cosine handed to acos has the sign, and the angle returned is on the right side whenever that cosine is in acos's domain).", "quantifier": "all accepted dates, times, positions and offsets in the range, both profiles, all libm implementations meeting the bound", "why_tests_cant": "a bound over two centuries of instants against an independent theory; the tests have one reference value", "anchors": ["crates/tofas_extras/src/sun_angle.rs:SunAngleCalculator::compute", "crates/tofas/src/earth.rs:From<TDB> for EarthPosVel", "crates/tofas/src/frames.rs:celestial_to_terrestrial"]}
{"id": "C84", "title": "Noon, midnight and the polar seasons", "statement": "For every accepted date within a century less a day of J2000.0 and every place up to 60 degrees of latitude, the Sun is up (zenith angle below a right angle) within two hours of noon and down within two hours of midnight, in local mean solar time (UT1 of day plus one hour per 15 degrees of east longitude). From 1901 to 2098, at any time of the UT1 day, the Sun at the north pole is up from 23 March to 20 September and down from 25 September to 18 March, and the other way round at the south pole. In exact arithmetic, and in f64 for every library accurate to 2^-50 in the sense of the previous property.", "quantifier": "all accepted dates, times, positions and offsets in the range, both profiles, all libm implementations meeting the bound", "why_tests_cant": "a statement about every day of two centuries and every place; no test checks the sign of the elevation", "anchors": ["crates/tofas_extras/src/sun_angle.rs:SunAngleCalculator::new", "crates/tofas_extras/src/sun_angle.rs:SunAngleCalculator::compute"]}
{"id": "C85", "title": "Numbers on the command line are read correctly", "statement": "The text forms accepted for an f64 argument are exactly those of the documented grammar (optional sign; digits with an optional point, at least one digit, optional exponent; inf, infinity, nan in any case). A decimal numeral reads to the f64 nearest its exact rational value, ties to even, with overflow to infinity past the largest finite value plus half a unit; an exponent scales by the power of ten (any exponent for numerals of at most 60000 characters, exponents below 65536 for longer ones). An i32 or u8 argument is accepted exactly when it is an optional sign (for u8 an optional plus) and digits with a value in range, and reads to that value.", "quantifier": "all character strings", "why_tests_cant": "strings and their values are unbounded; correct rounding is a statement about every rational", "anchors": ["crates/tofas_extras/examples/julian_tool.rs:main", "crates/tofas_extras/examples/sun_angle_tool.rs:main"]}
{"id": "C86", "title": "A printed f64 fraction reads back exactly", "statement": "The text of {} on a finite f64 is the shortest: it reads back to the same f64, no decimal with fewer significant digits does, and among those with as many it is a nearest; NaN and infinities read back too; the text has no newline and no exponent. In particular the third line of julian_tool julian shows the f64 day fraction exactly: the numeral reads back to it, and with the printed date it denotes the exact sum of the two arguments to (|min|+3)*2^-53 days.", "quantifier": "all f64 values", "why_tests_cant": "all f64 bit patterns; minimality quantifies over all decimals", "anchors": ["crates/tofas_extras/examples/julian_tool.rs:main"]}
{"id": "C87", "title": "Command lines of the tools", "statement": "julian_tool gregorian with any list of distinct options runs exactly when --year, --month, --day are given and all recognised options have values that parse; the run is the one for the numbers read, in whatever order the options are given. The language of julian_tool julian is exactly --jd t, optionally with --jd2 u after, before or around it; sun_angle_tool runs exactly when all options are known and parse. No or another subcommand, or a missing date part, is an error before anything is printed. The numeral that julian_tool gregorian prints, given as text to julian_tool julian --jd, prints a date and time within 7.8e-7 days of the instant of the first command line. An accepted command line of sun_angle_tool without --scan whose numbers are in the range of the accuracy property prints a correct report. Misspelt options of gregorian are silently ignored.", "quantifier": "all argument lists; all numerals", "why_tests_cant": "unbounded argument lists; composition of parsing, two programs and formatting", "anchors": ["crates/tofas_extras/examples/julian_tool.rs:main", "crates/tofas_extras/examples/sun_angle_tool.rs:main"]}
{"id": "C88", "title": "Default parameters of library and tool agree", "statement": "The parameters of sun_angle_tool when no option is given are those of SunAngleParameters::default: 2007-04-05 at midnight, latitude 0, longitude -120 degrees, height 0. sun_angle_tool without arguments prints one correct report (time, position, zenith angle within the error bound, ten minutes before that midnight) and ends normally, in both build profiles. With the default parameters and any f64 offset up to 1e9 seconds, the Sun is up from 18:00 to 22:00 UTC and down from 06:00 to 10:00.", "quantifier": "all f64 offsets up to 1e9 seconds, both profiles, all libm implementations meeting the bound", "why_tests_cant": "two independent sets of literals; no test runs the default parameters or the tool; day and night is a statement about every offset", "anchors": ["crates/tofas_extras/src/sun_angle.rs:Default for SunAngleParameters", "crates/tofas_extras/examples/sun_angle_tool.rs:main"]}
{"id": "C89", "title": "Speed of the Earth and Kepler's second law", "statement": "For every date within 100 Julian years of J2000.0, in exact arithmetic, the heliocentric velocity returned by EarthPosVel::from(TDB) has magnitude 0.01688 to 0.01753 au per day, and the vector product of heliocentric position and velocity is within 0.000075 au^2/day (0.44 per cent) of 0.0172021 (the Gaussian constant) times the unit vector along the pole of the ecliptic: the Earth goes around the Sun eastwards in the plane of the ecliptic with constant areal velocity.", "quantifier": "all real dates in the range", "why_tests_cant": "a physical law relating two outputs at every instant of two centuries; the tests have one reference date", "anchors": ["crates/tofas/src/earth.rs:From<TDB> for EarthPosVel"]}
{"id": "C90", "title": "Rate of change of the zenith angle; sunrise and sunset", "statement": "For one calculator and two offsets, both instants within a century less a day of J2000.0, in exact arithmetic, the two solar zenith angles differ by at most 7.33e-5 rad (15.12 arcsec, the sidereal rate is 15.04) per second of offset plus 1e-18. Between two offsets every zenith angle in between is taken to within 2e-18 rad. Up to 60 degrees of latitude, on every day of local mean solar time in the range, there is an offset between 2h and 10h and one between 14h and 22h at which the zenith angle is a right angle to within 2e-18 rad. In f64, for every library accurate to 2^-50, the rate bound holds with an additional 5.3e-9 rad for zenith angles between 0.5 and 2.6 rad.", "quantifier": "all accepted dates, times, positions and pairs of offsets in the range, both profiles, all libm implementations meeting the bound", "why_tests_cant": "a bound on the difference for every pair of instants (a modulus of continuity) and an existence statement for every day of two centuries; the tests never compare two offsets", "anchors": ["crates/tofas_extras/src/sun_angle.rs:SunAngleCalculator::compute", "crates/tofas_extras/src/sun_angle.rs:SunAngleCalculator::new"]}
{"id": "C91", "title": "Exactly one sunrise and one sunset a day", "statement": "In exact arithmetic, at every latitude and longitude and on every day of local mean solar time within a century less a day of J2000.0, between 2h and 10h the cosine of the solar zenith angle grows, and between 14h and 22h it falls, by at least 2.19e-5 cos(latitude) - 4.3e-7 per second of offset, up to 2e-18. Up to 60 degrees of latitude, each such day has one instant a between 2h and 10h and one instant b between 14h and 22h such that, over the 28 hours around the day, at least eps seconds after a and before b the Sun is above the horizon with cosine at least 1e-5 eps, and at least eps seconds before a or after b it is below with cosine at most -1e-5 eps, for every eps between 1e-11 and 1. In f64, for every library accurate to 2^-50, the sign of the cosine given to acos and the side of a right angle of the result are those, from 0.13 ms on either side of the exact sunrise and sunset.", "quantifier": "all accepted dates, times, positions and pairs of offsets in the range, both profiles, all libm implementations meeting the bound", "why_tests_cant": "monotonicity over every pair of instants and uniqueness of the crossing on every day of two centuries; the tests never compare two offsets", "anchors": ["crates/tofas_extras/src/sun_angle.rs:SunAngleCalculator::compute", "crates/tofas_extras/src/sun_angle.rs:SunAngleCalculator::new"]}
{"id": "C92", "title": "The tropics and the equator", "statement": "For every accepted date, time, place and offset with the instant within a century less a day of J2000.0, in exact arithmetic the solar zenith angle is at least |latitude| - 23.6 degrees and at most 180 degrees less that, for latitudes from -90 to 90: outside the tropics the Sun is never overhead. At latitude 0 the Sun is up from 6:24 to 17:36 and down from 18:24 to 5:36 local mean solar time, on every day at every longitude. In f64, for every library accurate to 2^-50, the first holds with 23.61 degrees from 24 degrees of latitude on (and the angle is a number, not NaN), and the second for the sign of the cosine given to acos.", "quantifier": "all accepted dates, times, positions and offsets in the range, both profiles, all libm implementations meeting the bound", "why_tests_cant": "a bound over every instant of two centuries and every place; the tests have one instant and place", "anchors": ["crates/tofas_extras/src/sun_angle.rs:SunAngleCalculator::compute", "crates/tofas_extras/src/sun_angle.rs:SunAngleCalculator::new"]}
{"id": "C93", "title": "The ephemeris tables are what the dump program prints", "statement": "fortran/dump_epv00.f90 prints each array as the text of a Rust constant. For every name, all sizes and every array whose elements are the f64 nearest to decimal numbers of at most fifteen significant digits (zero, or of magnitude 1e-100 to 1e99), the text is a constant item of type [[[R;o];n];m] whose elements, read as a Rust compiler reads them, are these f64 bit for bit, and the text can be read in no other way. For the arrays of fortran/epv00.for (zero where no DATA statement gives a value) the six constants are exactly the tables E0 to S2 of epv00_data.rs, padding included. Any other finite number with an exponent of two digits is printed to half a unit of the fifteenth digit with its sign. The program is limited: a number below 1e-101 or from 1e100 on is printed as text that is no Rust literal (blanks, sign, 0., fifteen digits right to half a unit, and a sign with exactly three digits of exponent without E), and 0.1+0.2 is printed as 0.3 and read as 0.3.", "quantifier": "all names, sizes and arrays of such numbers; every finite f64 in the stated ranges; the whole tables", "why_tests_cant": "round trip over all fifteen digit decimals and all array shapes; the repository has no test of the generated file", "anchors": ["fortran/dump_epv00.f90:dump_array", "crates/tofas/src/epv00_data.rs:E0", "crates/tofas/src/epv00_data.rs:S2"]}
{"id": "C94", "title": "What the test suite accepts", "statement": "compare_numbers, with a finite tolerance, accepts exactly: a NaN on either side, two infinities of the same sign, and two finite numbers whose rounded difference is within the tolerance; accepted finite numbers differ by less than any f64 above the tolerance. compare_matrices is that for every entry. Each of the eleven tests against a table passes exactly if every entry passes. With the tables of test_data.rs, test_rotation_angle, test_precession_rate and the time scale part of test_celestial_to_terrestrial pass in f64 arithmetic (the offsets dtr and dt of the latter are zero in every entry); test_geodetic_display, test_delta_at, test_calendar and test_hms pass in both build profiles whatever the random numbers, test_rotation with every library accurate to 2^-50, test_earth with every library. With a math library that always returns NaN the nine table tests that use it pass whatever their tables (given the time scales), and so does test_rotation; test_ellipsoid panics.", "quantifier": "all pairs of f64 and tolerances, all tables, all draws, both profiles; all 3000 table entries for the tests without libm", "why_tests_cant": "characterises the tests themselves: which wrong implementations they cannot detect", "anchors": ["crates/tofas/src/tests.rs:compare_numbers", "crates/tofas/src/tests.rs:compare_matrices", "crates/tofas/src/tests.rs:test_calendar", "crates/tofas/src/tests.rs:test_rotation_angle", "crates/tofas/src/tests.rs:test_celestial_to_terrestrial"]}
{"id": "C95", "title": "The program that wrote the test data loses nothing", "statement": "Every finite f64 that test_sofa.f90 prints with write (*,*) is a Rust literal for exactly that number (sign of zero included) in a field of 25 columns; so is every matrix entry printed with E25.17 that is zero or between 1e-100 and 1e99. With such numbers the whole output is a Rust file of eleven constants, each a slice of tuples of the type it declares, with the values of the run; the text can be read in only one way, and two runs with the same output had the same values. A matrix entry below 1e-101 or from 1e100 on is written as blanks, sign, 0., seventeen digits right to half a unit and a sign with exactly three digits of exponent without E, and no part of its field is a literal with an exponent.", "quantifier": "all finite f64, all tables of any length", "why_tests_cant": "the test data are the only evidence for the astronomical functions; whether a digit was lost on the way cannot be seen in them", "anchors": ["fortran/test_sofa.f90:write_mat", "fortran/test_sofa.f90:test_pom", "fortran/test_sofa.f90:test_rotation_angle", "fortran/test_sofa.f90:test_celestial_to_terrestrial_from_cio_components", "fortran/test_sofa.f90:test_bias_and_precession"]}
{"id": "C96", "title": "The Sun culminates within half an hour of mean noon", "statement": "In exact arithmetic, for every accepted date, time and place and offsets within a century of J2000.0: from 0:30 to 11:30 local mean solar time the cosine of the zenith angle grows by at least 1.67e-6 cos(latitude) - 4.3e-7 per second (positive up to 75 degrees), and from 12:30 to 23:30 it falls by at least that. So up to 75 degrees every day has an offset within half an hour of mean noon at which the Sun is highest between 0:30 and 23:30, and one within half an hour of mean midnight at which it is lowest between 12:30 and 11:30 of the next day, up to 5e-18 in the cosine. In f64, up to 60 degrees and for every library accurate to 2^-50, of two offsets a hundredth of a second or more apart in the same half day the one nearer noon has the larger cosine given to acos and the smaller angle.", "quantifier": "all accepted dates, times, positions and pairs of offsets in the range, every day, both profiles, all libm implementations meeting the bound", "why_tests_cant": "a comparison of every pair of instants of every day; the tests have single instants", "anchors": ["crates/tofas_extras/src/sun_angle.rs:SunAngleCalculator::compute", "crates/tofas_extras/src/sun_angle.rs:SunAngleCalculator::new"]}
{"id": "C97", "title": "Days are longer than twelve hours in summer and shorter in winter", "statement": "In exact arithmetic, for every accepted date, time and place and offsets within a century of J2000.0: the heights of the Sun (cosine of the zenith angle times distance) at two instants twelve hours apart sum to sin(latitude) times the sum of the z coordinates of the Sun, up to 0.01785 AU times cos(latitude). From 1901 to 2098, between 30 and 60 degrees of latitude, sunrise and sunset of the local day (the only ones, as in C91) are more than twelve hours apart from 26 March to 17 September and less than twelve hours apart up to 15 March and from 28 September in the north, and the other way round in the south. In f64, for every library accurate to 2^-50, the two instants that separate day from night up to 0.13 ms have the same property.", "quantifier": "all accepted dates, times, positions and offsets in the range, every day of the seasons, both profiles, all libm implementations meeting the bound", "why_tests_cant": "every day of two centuries at every place between two circles of latitude; the tests have single instants", "anchors": ["crates/tofas_extras/src/sun_angle.rs:SunAngleCalculator::compute", "crates/tofas_extras/src/sun_angle.rs:SunAngleCalculator::new"]}
{"id": "C98", "title": "The loops of nutation and locator stay inside their tables", "statement": "For every date, in exact arithmetic or f64 and with every mathematical library, the loops of nutation and cio as written (over indices, from the last row to the first, an index outside a table being a panic) return without panic the sums that the other properties are about; they read every row of every table, rows NLS of NALS and CLS would be outside.", "quantifier": "all dates and coordinates, any arithmetic, any libm", "why_tests_cant": "absence of a panic for every input, and the agreement of loop and sum", "anchors": ["crates/tofas/src/frames.rs:nutation", "crates/tofas/src/locator.rs:cio"]}
{"id": "C99", "title": "The ephemeris is turned to the equator by the Euler angles of the reference", "statement": "In exact arithmetic, for every date, both positions and both velocities returned by EarthPosVel::from(TDB) are the published series in ecliptic coordinates and their derivatives, turned by -23 26 21.4091 about the x axis and 0.0475 arcseconds about the z axis (the angles that the comment in epv00.for gives for the constants AM12 to AM33), up to 1.6e-12 of their length; distance and speed are those of the series to the same accuracy. In f64, for every library whose sine and cosine are within 2^-50 and every date within a century of J2000.0, each coordinate of the heliocentric position is within 3.2e-11 au and of the velocity within 6.3e-13 au per day of that.", "quantifier": "all dates, both kinds of arithmetic, all libm implementations meeting the bound", "why_tests_cant": "the constants are seven rounded decimals; that they are a rotation, and which, is not seen from values of the sum", "anchors": ["crates/tofas/src/earth.rs:EarthPosVel", "fortran/epv00.for:AM33"]}
{"id": "C100", "title": "At noon the zenith angle is latitude less declination", "statement": "In exact arithmetic, for every accepted date, time and place and every offset within a century of J2000.0, the zenith angle is at least the size of latitude less declination and at most 180 degrees less the size of latitude plus declination, the declination being that of the vector to the Sun that the program returns. On every day of local mean solar time the first is reached within half an hour of noon and the second within half an hour of midnight, to 4e-18 radians. In f64 from 24 degrees of latitude on, for every library whose functions are within 2^-50, the bounds hold to 2e-7 radians, and a whole number of seconds within half an hour (and a second) of noon reaches the first to 7.4e-5 radians.", "quantifier": "all dates within a century of J2000.0, all places, all offsets, both kinds of arithmetic, all libm implementations meeting the bound", "why_tests_cant": "an extremum over a continuum of instants, reached at an instant for which there is no formula", "anchors": ["crates/tofas_extras/src/sun_angle.rs:SunAngleCalculator::compute", "crates/tofas_extras/src/sun_angle.rs:SunAngleCalculator::new"]}
{"id": "C101", "title": "The time scales of the calculator are those of the Fortran program it was checked against", "statement": "For every date, time of day and position that SunAngleCalculator::new accepts, the UTC, TAI, TT and UT1 of compute(0) are those that test_sun.f90 computes for the same date, time and delta AT: equal sums in exact arithmetic, and in f64, for dates from 1859 through 8000 and every mathematical library, the same bits for UTC, TAI and TT and a UT1 within (3 N + 8) 2^-53 days (N the day number). On 2007-04-05 at 12:00:00, the moment in the Fortran program, UT1 agrees bit for bit; at 12:02:00 it does not, because the terms are added in another order. Two reports of the Fortran program with finite numbers are the same text only if all numbers are.", "quantifier": "all dates, times, positions, any libm; all finite numbers for the text", "why_tests_cant": "bit equality for all dates and the order of additions cannot be sampled", "anchors": ["crates/tofas_extras/examples/sun_angle_tool.rs:compute", "fortran/test_sun.f90:TUT"]}
{"id": "C102", "title": "The arguments drawn for the test data stay in their ranges, except that the angles exceed a turn", "statement": "For every stream of random bits and every implementation of the library, test_sofa.f90 makes eleven tables of 1000 rows; the 41000 draws are each used once, in the order in which they were made (arrays column by column), and the results in a row are the library's values at the arguments of the row; every drawn argument is finite and printable and lies in [0,1), [0,36525) or, for the dates, in [2451545, 2488070] or [2451545, 2451546], whose upper ends are attained; so the text of every run is a list of Rust constants with these values if the library returns printable ones. The angles of test_nutation_matrix lie below 13176795/2^21, the single precision number nearest to the literal TWO_PI (which has no exponent letter), and can exceed 2 pi; an angle in NUMAT_DATA is a draw times that number, and is not a draw times 2 pi in double precision.", "quantifier": "all streams of 53-bit draws, all library implementations", "why_tests_cant": "the extreme draws have probability 2^-53 each", "anchors": ["fortran/test_sofa.f90:TWO_PI", "fortran/test_sofa.f90:random_number"]}
{"id": "C103", "title": "The Sun is nearest in January and farthest in July", "statement": "In exact arithmetic, for every date within a century of J2000.0, the heliocentric distance of EarthPosVel::from(TDB) is 1 - e cos M with the published eccentricity and mean anomaly, less at most 0.001146 au and plus at most 0.001146 au and 0.00057 sin^2 M. For every accepted place, every date from 1901 to 2098 and every offset within the day, the vector to the Sun that compute returns is at most 0.98454 au long from 1 to 7 January and at least 0.98467 au from 7 February to 30 November, at least 1.01549 au from 1 to 8 July and at most 1.015485 au from 9 August to 31 May. In f64, for every library accurate to 2^-50, its computed length in metres meets the same bounds to 1e-6 au.", "quantifier": "all dates in the range, all places and offsets within the day, both kinds of arithmetic, all libm implementations meeting the bound", "why_tests_cant": "every moment of two centuries; the tests have single instants", "anchors": ["crates/tofas/src/earth.rs:EarthPosVel", "crates/tofas_extras/src/sun_angle.rs:SunAngleCalculator::compute"]}
{"id": "C104", "title": "Error messages and exit status of the tools", "statement": "For every list of arguments, including arguments that are not UTF-8, julian_tool and sun_angle_tool end with status 0 and nothing on standard error, with status 1 and one line `Error: ...`, or by a panic with status 101; an error in the arguments leaves standard output empty. Of several errors in the options the one reported is the first in the order in which the program reads them, in whatever order they are on the command line. The reason given for a text that is not an i32 or a u8 is exactly that of its form: empty, no digit, too large, too small. Two different faults never have the same line. An argument that is not UTF-8 is an error in `julian` and in sun_angle_tool wherever it stands; `gregorian`, which does not look at what is left over, ignores it. On arguments that are texts the processes are the programs of C87.", "quantifier": "all lists of arguments, both build profiles, all libm implementations", "why_tests_cant": "there are no tests of the tools at all, and the lists of arguments are infinitely many", "anchors": ["crates/tofas_extras/examples/julian_tool.rs:main", "crates/tofas_extras/examples/julian_tool.rs:gregorian", "crates/tofas_extras/examples/julian_tool.rs:julian", "crates/tofas_extras/examples/sun_angle_tool.rs:main", "crates/tofas/src/calendar.rs:CalendarError"]}
{"id": "C105", "title": "The Sun between the solstices", "statement": "For two dates from 1901 to 2098, any two places, and two instants at least six hours apart: if both dates are from 25 December to 18 June of the same winter and spring, the declination of the computed vector to the Sun is greater at the later instant, by at least 2.6e-5 radians for each day less 5.3e-6; if both are from 24 June to 18 December of the same year, it is smaller. The comparison holds in binary64 as well. From 24 degrees of latitude on, the Sun at noon climbs from day to day from winter to summer and sinks from summer to winter: there is a moment near noon of the one day when the Sun is higher than at any moment within an hour and a half of mean noon of the other.", "quantifier": "all pairs of dates from 1901 to 2098 in the same half year, all places, all offsets within the dates, both build profiles; in binary64 all finite parameters and any libm accurate to 2^-50", "why_tests_cant": "the repository compares single instants with a reference; monotonicity over half a year is a statement about all pairs of instants", "anchors": ["crates/tofas_extras/src/sun_angle.rs:SunAngleCalculator::compute", "crates/tofas/src/earth.rs:EarthPosVel"]}
{"id": "C106", "title": "The equation of time", "statement": "At local mean noon (UTC advanced by one hour for each 15 degrees of longitude reads 12) the computed Sun is on the noon side of the axis of the Earth, at most 15.52 minutes of hour angle east of the meridian and at most 17.54 minutes west of it, at every place and on every day within 36524 days of 2000-01-01 12:00. On dates from 1901 to 2098 it is east of the meridian (the sundial is slow) from 29 December to 10 April and from 19 June to 27 August, and west of it from 21 April to 7 June and from 5 September to 21 December. The same holds for the vectors computed in binary64.", "quantifier": "all accepted dates, times, places and offsets whose instant is local mean noon, both build profiles; in binary64 all finite parameters and any libm accurate to 2^-50", "why_tests_cant": "the repository compares single instants with a reference; the sign of the equation of time over two centuries and all longitudes is beyond any list of instants, and an error of the Earth rotation angle, of the obliquity or of the perihelion by a degree would break it", "anchors": ["crates/tofas_extras/src/sun_angle.rs:SunAngleCalculator::compute", "crates/tofas/src/earth.rs:EarthPosVel"]}
{"id": "C107", "title": "Places of the Earth at one moment", "statement": "For one date, time and offset the results of the calculator for two places agree in every field except the position and the zenith angle, in any arithmetic and so bit for bit in binary64, and the height of the place does not influence the zenith angle. In exact arithmetic there is at every moment one point of the globe towards which the Sun stands, and the zenith angle of any place is its angle on the sphere from that point (spherical law of cosines), 0 at the point itself. So the angles of two places differ by at most the angle between the places, antipodal places have supplementary angles, and whole turns of the longitude do not matter. In binary64 the cosines computed at antipodal places are opposite to within 2.4e-9.", "quantifier": "all accepted dates and times of day, both build profiles, all pairs of places, all offsets within 36524 days of 2000-01-01 12:00; the first part for every arithmetic and mathematical library; the last for all finite parameters and any libm accurate to 2^-50", "why_tests_cant": "the tests of the repository compute one place at a time; that no field leaks from the place into the position of the Sun and that the law of cosines holds for every pair of places cannot be sampled", "anchors": ["crates/tofas_extras/src/sun_angle.rs:SunAngleCalculator::compute", "crates/tofas_extras/src/sun_angle.rs:SunAngleCalculator::new"]}
{"id": "C108", "title": "One moment written in two ways", "statement": "Let two calculators of one place, with whatever dates, times of day and offsets, be asked for the same moment of UTC. In exact arithmetic UTC, UT1 and the Earth rotation angle agree, the zenith angles differ by at most 3.4e-7 radians per second of difference between the delta AT of the two dates, and if these are equal the vectors and the zenith angle are equal. So the result depends on the moment alone for two dates before 1960, for two dates of one month after January 1972 and for any two dates after January 2017; 24:00 and 0:00 of the next day differ by at most 3.5e-7 radians (the leap second), any two dates after January 1972 by at most 9.2e-6 radians. In binary64 the cosines differ by at most 2.4e-9 (same month) and 3.6e-7 (next day).", "quantifier": "all pairs of accepted dates, times of day and offsets denoting one moment within 36524 days of 2000-01-01 12:00, all places, both build profiles; in binary64 all finite parameters and any libm accurate to 2^-50", "why_tests_cant": "no test of the repository uses an offset that leaves the day; the pairs of dates and offsets which denote one moment are infinitely many, and the behaviour at month ends depends on the leap second table", "anchors": ["crates/tofas_extras/src/sun_angle.rs:SunAngleCalculator::compute", "crates/tofas_extras/src/sun_angle.rs:SunAngleCalculator::new", "crates/tofas/src/delta_at.rs:delta_at"]}
{"id": "C109", "title": "The height is the distance from the ellipsoid", "statement": "In exact arithmetic, for every ellipsoid the library accepts and every geodetic point higher than -b*b/a, the point returned by geodetic_to_geocentric has exactly one nearest point on the ellipsoid, at a distance equal to the magnitude of the height; it lies outside for positive and inside for negative heights. So two geodetic points above that bound with the same geocentric point have the same height, vertical and latitude, and off the poles the same longitude up to whole turns. Under that bound this fails below the equator of every flattened ellipsoid. In binary64 the distance of the computed WGS84 point from the ellipsoid is the height within 0.52 micrometres, and the height computed from a point is its true height over the ellipsoid within 1e-15 of 6378137 plus the height.", "quantifier": "All accepted ellipsoids and real coordinates; all finite binary64 longitudes and latitudes up to 360 degrees, heights from -6300 km to 10000 km, and all finite binary64 points from 47 km under the ellipsoid to 9400 times its size.", "why_tests_cant": "The nearest point is a minimum over all points of a surface; a test compares with points it chose.", "anchors": ["crates/tofas/src/ellipsoid.rs:geodetic_to_geocentric", "crates/tofas/src/ellipsoid.rs:geocentric_to_geodetic"]}
{"id": "C110", "title": "The order of moments in UTC and TAI", "statement": "For any two dates from 1960 on and fractions of the day, in exact arithmetic: delta_at of the later moment is at most 0.1 s less than that of the earlier one, so that of two UTC moments more than 0.1 s apart the later one is later in TAI too; from March 1968 on delta_at never goes back and TAI keeps the order of UTC for moments however close. The exception is real: the binary64 code gives a later TAI for 0.08 s before the end of 29 February 1968 than for 1 March 1968 0h. In binary64 delta_at goes back by at most 0.1 s + 2^-44 s, and TAI pairs with the same first part and a delta AT that has not gone back are never reversed by rounding.", "quantifier": "all pairs of accepted dates from 1960 to year 178956969, all fractions of the day from 0 to 1 (real, and finite binary64), both build profiles", "why_tests_cant": "a statement on all pairs of moments; the three months at which the table goes back are 1961-09, 1962-02 and 1968-03 because of the month late steps, which no test visits", "anchors": ["crates/tofas/src/delta_at.rs:delta_at", "crates/tofas/src/time.rs:TAI::from_utc_delta_at"]}
{"id": "C111", "title": "Lengths of degrees of latitude and longitude", "statement": "In exact arithmetic, for every ellipsoid the library accepts: the points returned by geodetic_to_geocentric for two places of one meridian at one height h are at least the chord of a circle of radius b*b/a + h and at most the arc of a circle of radius a*a/b + h apart, and between the equator and the pole at least the chord with the radius of curvature at the lower and at most the arc with that at the higher latitude, so that degrees of latitude grow towards the pole; two places of one parallel are exactly 2 (N+h) cos(lat) sin(half the difference of longitude) apart. The binary64 points for WGS84 satisfy the same within 1.04 micrometres, and one degree of latitude at height 0 is between 110.572 km and 111.694 km.", "quantifier": "all accepted ellipsoids, all real coordinates with h at least -b*b/a; all finite binary64 longitudes and latitudes up to 360 degrees and heights up to 10000 km, any libm accurate to 2^-50", "why_tests_cant": "a statement on all pairs of places; single points in a test do not show how far apart neighbouring results are", "anchors": ["crates/tofas/src/ellipsoid.rs:geodetic_to_geocentric"]}
{"id": "C112", "title": "The celestial pole moves 2004 seconds of arc per century", "statement": "For every date within a Julian century of J2000.0, with t centuries since J2000.0: the mean pole of bias_and_precession has its first coordinate within 0.65|t| seconds of arc of 2004.19 t and its second within 0.11|t| of -22.458 t^2; the true pole, third row of precession_nutation and of celestial_to_intermediate, is within 8.1 and 10.4 seconds more. The first coordinate of the pole of any date is greater than that of every date 320 or more days earlier. The same in binary64 with 0.01 seconds more.", "quantifier": "all dates within a Julian century of J2000.0, in every split; all finite binary64 dates with first part up to 4000000 days, any libm accurate to 2^-50", "why_tests_cant": "a statement on all dates of two centuries and on all pairs of them; the tests of the code compare matrices at single dates", "anchors": ["crates/tofas/src/frames.rs:bias_and_precession", "crates/tofas/src/frames.rs:precession_nutation", "crates/tofas/src/frames.rs:celestial_to_intermediate"]}
{"id": "C113", "title": "NaN and infinities are passed on, except by geocentric_to_geodetic", "statement": "With a mathematical library that returns NaN where the C standard requires it: a NaN or infinite part of a date gives NaN in all nine entries of precession_nutation and celestial_to_intermediate, and in all twelve components of the ephemeris together with the warning; one such number among the six arguments of celestial_to_terrestrial gives nine NaN entries; a latitude that is no number is refused by geodetic_to_geocentric and makes SunAngleCalculator::new panic; such a longitude, time of day or offset gives a NaN zenith angle; the zenith angle never depends on the height. geocentric_to_geodetic does not pass NaN on: for every converter and every point with a NaN first or second coordinate it returns longitude 0 and the latitude of a pole.", "quantifier": "all binary64 arguments, NaN and infinities included; all ellipsoids", "why_tests_cant": "no test passes NaN or an infinity to these functions", "anchors": ["crates/tofas/src/frames.rs:celestial_to_terrestrial", "crates/tofas/src/frames.rs:precession_nutation", "crates/tofas/src/ellipsoid.rs:geocentric_to_geodetic", "crates/tofas/src/ellipsoid.rs:geodetic_to_geocentric", "crates/tofas_extras/src/sun_angle.rs:compute"]}
{"id": "C114", "title": "The frames do not jump, and the Earth turns once a sidereal day", "statement": "For any two dates within a century of J2000.0, however split, in exact arithmetic: precession_nutation carries no vector to places further apart than 0.52 arcsec per day between the dates (times its length, plus 2e-20 of it), celestial_to_intermediate no further than 0.78 arcsec per day; celestial_to_terrestrial no further than 2 pi |1.00273781191135448 (difference of UT1) - k| for any whole k, plus the 0.78 arcsec per day of TT and the changes of the polar motion: it is continuous where a reduction modulo a turn begins anew (k = 0) and comes back after a sidereal day (k = 1). In f64 every entry changes by at most the same amounts plus 4.1e-12, 1.41e-11 and 4.21e-10.", "quantifier": "all pairs of dates within a century of J2000.0, all UT1 dates and polar motions, all splits", "why_tests_cant": "tests compare values at single dates; a jump between two dates, at a table boundary or a modulo reduction, would be invisible to them", "anchors": ["crates/tofas/src/frames.rs:precession_nutation", "crates/tofas/src/frames.rs:celestial_to_intermediate", "crates/tofas/src/frames.rs:celestial_to_terrestrial", "crates/tofas/src/frames.rs:nutation", "crates/tofas/src/earth.rs:rotation_angle"]}
{"id": "C115", "title": "In f64 the frame matrices are rotations, for every date", "statement": "In f64, with a mathematical library accurate to 2^-50: for every date in two parts of up to 2^27 days each the bias, precession, bias-precession and bias-precession-nutation matrices have finite entries, change no length by more than a fraction 9e-14, have rows orthonormal to 3 times that and determinant 1 to 4 times that (3e-14 for bias and precession, 6e-14 for their product); so do polar_motion_matrix and nutation_matrix (3e-14) for all angles of up to 2^29 radians, celestial_to_intermediate_from_xys (3e-14) for every pole with X^2 + Y^2 <= 1 - 2^-50 and every locator up to 2^29 radians (for a pole with X^2 + Y^2 >= 1 + 2^-50 all nine entries are NaN), and, within a century of J2000.0, celestial_to_intermediate (3e-14) and celestial_to_terrestrial (6e-14, any UT1 date up to 2^1000 days).", "quantifier": "all dates with parts up to 2^27 days, all angles up to 2^29 radians, all poles inside the unit disc and outside it", "why_tests_cant": "a test compares nine numbers with a reference at one date; that no date, however far from the validity of the series, gives a sheared, reflected or non-finite matrix is a statement about all of them", "anchors": ["crates/tofas/src/frames.rs:bias_and_precession", "crates/tofas/src/frames.rs:precession_nutation", "crates/tofas/src/frames.rs:nutation_matrix", "crates/tofas/src/frames.rs:celestial_to_intermediate_from_xys", "crates/tofas/src/frames.rs:celestial_to_intermediate", "crates/tofas/src/frames.rs:celestial_to_terrestrial", "crates/tofas/src/earth.rs:polar_motion_matrix"]}
{"id": "C116", "title": "Vectors turned in f64 keep their lengths and angles and come back", "statement": "In f64, with a mathematical library accurate to 2^-50, for all vectors with lengths between 2^-200 and 2^200: applying the bias-precession-nutation matrix (any date in parts up to 2^27 days) or its transpose gives finite components, keeps every length to a fraction 9e-14 and every scalar product of two vectors to 1.9e-13 of the product of their lengths, and applying the other of the two afterwards gives the vector back to 1.9e-13 of its length; for an elementary rotation through up to 2^30 radians the fraction is 6e-15, for celestial_to_intermediate 3e-14 and for celestial_to_terrestrial 6e-14 within a century of J2000.0.", "quantifier": "all vectors of length 2^-200 to 2^200, all dates with parts up to 2^27 days, all rotation angles up to 2^30 radians", "why_tests_cant": "the tests compare matrices with reference values and never turn a vector forth and back; the claim is over all vectors, of any scale, and all dates", "anchors": ["crates/tofas/src/common.rs:apply", "crates/tofas/src/common.rs:transpose", "crates/tofas/src/common.rs:rotation", "crates/tofas/src/frames.rs:precession_nutation", "crates/tofas/src/frames.rs:celestial_to_intermediate", "crates/tofas/src/frames.rs:celestial_to_terrestrial"]}
{"id": "C117", "title": "The Earth obeys the law of gravitation", "statement": "For every date within a century of J2000.0 the heliocentric velocity from EarthPosVel::from(TDB), as a function of the date in exact arithmetic, has a derivative, and that acceleration is the attraction -k^2 p/|p|^3 of the Sun at the reported position p, with Gauss's constant k = 0.01720209895, to within 0.019 k^2 (1.9 per cent of the attraction at 1 au). In f64, with a mathematical library accurate to 2^-50, for any two dates of that span d days apart, |d| >= 0.0001, the computed change of velocity divided by d is the attraction at the computed position of the first date to within (0.019 + 0.09 |d|) k^2.", "quantifier": "all dates within a century of J2000.0, all splits, all pairs of f64 dates at least 8.64 seconds apart", "why_tests_cant": "the tests compare position and velocity at one date with reference values; that the motion follows the inverse square law is a statement about second derivatives at every date", "anchors": ["crates/tofas/src/earth.rs:From<TDB> for EarthPosVel"]}
{"id": "C118", "title": "The Earth comes back to its place after one sidereal year, and not before", "statement": "For any two dates within a century of J2000.0, d days apart, the distance between the two heliocentric positions from EarthPosVel::from(TDB) is 2 |sin(pi d/Y)| with Y = 365.256363 days, to 0.019 au; and if d is Y to 0.001 day, the positions agree to 0.0018 au and the velocities to 5.6e-5 au per day (0.33 per cent). Both in exact arithmetic and in f64 with a mathematical library accurate to 2^-50.", "quantifier": "all pairs of dates within a century of J2000.0", "why_tests_cant": "a relation between the results for two different dates, over all pairs of them; the tests use one date", "anchors": ["crates/tofas/src/earth.rs:From<TDB> for EarthPosVel"]}
{"id": "C119", "title": "The orbit is an ellipse with the Sun in one focus", "statement": "For every date within a century of J2000.0 the heliocentric position p from EarthPosVel::from(TDB) satisfies |p| = 1 - c.p to 0.0018 au with the constant vector c = (-0.0037405, 0.0149375, 0.0064762), the equation of an ellipse with one focus in the Sun, eccentricity |c| = 0.016705 and semi-latus rectum 1 au; and p is within 0.0003 au of the plane through the Sun perpendicular to (0, -0.397776982902, 0.917482137087). Both in exact arithmetic and in f64 with a mathematical library accurate to 2^-50.", "quantifier": "all dates within a century of J2000.0", "why_tests_cant": "a geometrical law for a curve, at every date of two centuries; the tests have one reference date", "anchors": ["crates/tofas/src/earth.rs:From<TDB> for EarthPosVel"]}
{"id": "C120", "title": "The Sun moves slowly about the centre of mass", "statement": "For every date within a century of J2000.0, the barycentric less the heliocentric position from EarthPosVel::from(TDB), i.e. the place of the Sun, is at most 0.0153 au from the centre of mass; the difference of the velocities is at most 1.4e-5 au per day; its derivative, the acceleration of the Sun, is at most 8e-5 k^2 with k the Gaussian constant, so that the barycentric acceleration of the Earth also equals the attraction of the Sun to 0.019 k^2. In f64, with a mathematical library accurate to 2^-50, the same bounds on place and speed hold and the Sun's velocity changes by at most 8e-5 k^2 d + 5e-12 between two dates d days apart.", "quantifier": "all dates, and all pairs of dates, within a century of J2000.0", "why_tests_cant": "a bound on a difference of two outputs and on its rate, over two centuries; the tests have one reference date", "anchors": ["crates/tofas/src/earth.rs:From<TDB> for EarthPosVel"]}
{"id": "C121", "title": "The energy of the Earth on its orbit is constant", "statement": "For every date within a century of J2000.0 the speed v and the distance r of the heliocentric state from EarthPosVel::from(TDB) satisfy v^2 = k^2 (2/r - 1), k the Gaussian constant, to 0.009 k^2: the energy is that of an orbit of semi-major axis 1 au; hence the energies v^2/2 - k^2/r at any two dates differ by at most 0.009 k^2 (v^2 alone varies by 0.067 k^2). In exact arithmetic, and in f64 with a mathematical library accurate to 2^-50.", "quantifier": "all dates, and all pairs of dates, within a century of J2000.0", "why_tests_cant": "a conserved quantity relating position and velocity at every date; the tests have one reference date", "anchors": ["crates/tofas/src/earth.rs:From<TDB> for EarthPosVel"]}
{"id": "C122", "title": "The celestial pole moves on a cone around the pole of the ecliptic", "statement": "For every date (no bound) the mean pole, third row of the precession matrix of bias_and_precession, is cos(om) E + sin(om) (sin(psi) e1 + cos(psi) E') with E = (0, -sin e, cos e) the pole of the ecliptic of J2000.0, E' = (0, cos e, sin e), e = 84381.448 seconds of arc, om and psi the published angles: it is at the distance om from E. For every date within a century of J2000.0 the true pole, third row of precession_nutation and of celestial_to_intermediate, is at the distance e from E to 10.5 seconds of arc, in exact arithmetic and in f64 with a mathematical library accurate to 2^-50.", "quantifier": "all dates; all dates within a century of J2000.0", "why_tests_cant": "a geometrical law of a product of seven rotations with a series of 77 terms at every date; the tests compare matrices at random dates", "anchors": ["crates/tofas/src/frames.rs:bias_and_precession", "crates/tofas/src/frames.rs:precession_nutation", "crates/tofas/src/frames.rs:celestial_to_intermediate"]}
{"id": "C123", "title": "The unit of length does not matter to the ellipsoid conversions", "statement": "In exact arithmetic, for every ellipsoid accepted by EllipsoidConverter::new, every s > 0 and every point: with the equatorial radius and the coordinates multiplied by s, geocentric_to_geodetic gives the same longitude and latitude and s times the height, and geodetic_to_geocentric of the same angles and s times the height gives s times the vector; the larger ellipsoid is accepted whenever the other is.", "quantifier": "all ellipsoids, all points, all positive factors", "why_tests_cant": "the tests use one ellipsoid in metres; a threshold or a constant with a unit in the algorithm (aeps2 has one) would only show for another unit", "anchors": ["crates/tofas/src/ellipsoid.rs:geocentric_to_geodetic", "crates/tofas/src/ellipsoid.rs:geodetic_to_geocentric", "crates/tofas/src/ellipsoid.rs:new"]}
{"id": "C124", "title": "The equinoxes", "statement": "For every date from 1901 to 2098, every place and every instant of the day of UTC, the vector to the Sun returned by compute points north of the equator (z > 0) from 23 March to 20 September and south of it (z < 0) up to 18 March and from 25 September on, in exact arithmetic and in f64 with a mathematical library accurate to 2^-50: the equinoxes are between 19 and 22 March and between 21 and 24 September. At the north pole, in exact arithmetic, there is in every one of those years an instant between the beginning of 19 and of 23 March, and one between the beginning of 21 and of 25 September, at which the zenith angle is a right angle to 2e-18 rad.", "quantifier": "all dates from 1901 to 2098, all instants and places", "why_tests_cant": "the tests compare one day with another program; the claim joins calendar, leap years, time scales, ephemeris and precession over two centuries", "anchors": ["crates/tofas_extras/src/sun_angle.rs:compute", "crates/tofas_extras/src/sun_angle.rs:new"]}
{"id": "C125", "title": "The mean obliquity falls", "statement": "In exact arithmetic mean_obliquity is 84381.448 seconds of arc at J2000.0, strictly falls between any two dates within 92 Julian centuries of J2000.0, by 46.80 to 46.82 seconds of arc per century within one century, and strictly rises between any two dates 93 centuries or more after J2000.0, where the cubic is no longer that of the Earth. In f64 the value for a date within a century, however split (first part at most four million days), is within 4e-16 rad of the exact one, and of two such dates at least a quarter of a second apart the later has the smaller value.", "quantifier": "all dates; all f64 dates within a century of J2000.0", "why_tests_cant": "the tests compare at random dates with one tolerance; a changed sign or term of the cubic passes them near J2000.0", "anchors": ["crates/tofas/src/frames.rs:mean_obliquity"]}
{"id": "C126", "title": "The vertical and the direction away from the centre", "statement": "In exact arithmetic, for every ellipsoid the library accepts (a > 0), the geocentric position of a geodetic point is height + a sqrt(d) along the vertical and a e2 sin(phi) cos(phi)/sqrt(d) towards the equator, d = cos^2 phi + (1-f)^2 sin^2 phi, e2 = 1-(1-f)^2; the second part does not depend on the height. Higher than -a(1-f) the angle between zenith and position, computed by angle, is the arc tangent of the ratio. On or above the ellipsoid it is at most arctan(e2/(2(1-f))), reached at height 0 at the latitude with tangent 1/(1-f), zero at the equator and the poles, and does not grow with the height. On WGS84 it is below 0.003365 rad, and above 0.00335 rad at latitude 45 degrees and height 0.", "quantifier": "all accepted ellipsoids, all geodetic points", "why_tests_cant": "the round-trip tests pass for a geocentric latitude used consistently in both directions; no test compares vertical and position", "anchors": ["crates/tofas/src/ellipsoid.rs:geodetic_to_geocentric", "crates/tofas/src/ellipsoid.rs:zenith", "crates/tofas/src/common.rs:angle"]}
{"id": "C127", "title": "Symmetries of geodetic_to_geocentric", "statement": "In exact arithmetic a change of longitude turns position and zenith about the polar axis by Mat3::rotation of the same angle (as applied by apply); negating the latitude mirrors them in the plane of the equator, negating the longitude in the plane of the zero meridian; latitude pi-phi on the opposite meridian and whole turns of either angle give the same position and zenith. In f64 both mirror symmetries hold bit for bit, for every converter and all inputs (NaN and infinities included, and for failures), for every library with odd sine and even cosine.", "quantifier": "all accepted ellipsoids, all geodetic points; all f64 inputs", "why_tests_cant": "the tests compare at random points with one tolerance, never two points with each other", "anchors": ["crates/tofas/src/ellipsoid.rs:geodetic_to_geocentric", "crates/tofas/src/ellipsoid.rs:zenith", "crates/tofas/src/common.rs:rotation"]}
{"id": "C128", "title": "The months and years of the fundamental arguments", "statement": "In exact arithmetic, from every date within a century of J2000.0 on, l03, lp03, f03, d03 first come back to their values (up to whole turns of 1296000 arcsec) after the anomalistic month (27.554548 to 27.554552 days), the anomalistic year (365.25963 to 365.25964), the draconic month (27.212220 to 27.212222) and the synodic month (29.530588 to 29.530590), advancing, and om03 after 6798.36 to 6798.40 days, going back; from every date on e03 and ve03 come back after the sidereal years of Earth and Venus (365.256363, 224.700800 days). At the published times of mean new moon, perigee, passage of the node and perihelion (2481 lunations, 2657, 2691 and 201 periods around 2000) d03, l03, f03 and lp03 are within 20, 3, 4.2 and 0.1 arcsec of whole turns.", "quantifier": "all dates within a century of J2000.0; all periods in the stated ranges", "why_tests_cant": "the tests compare the finished matrices with one tolerance, in which most of the terms of these arguments drown; no test looks at the motion of the Moon", "anchors": ["crates/tofas/src/fundargs.rs:l03", "crates/tofas/src/fundargs.rs:lp03", "crates/tofas/src/fundargs.rs:f03", "crates/tofas/src/fundargs.rs:d03", "crates/tofas/src/fundargs.rs:om03", "crates/tofas/src/fundargs.rs:ve03", "crates/tofas/src/fundargs.rs:e03"]}
{"id": "C129", "title": "The arguments of the Moon, the Sun and the Earth agree", "statement": "In exact arithmetic, within a century of J2000.0, f03 + om03 - d03 (the mean longitude of the Sun from the arguments of the Moon) is e03 + pi + pa03 up to whole turns within 0.33 arcsec, and e03 + pa03 - lp03 (the longitude of the perihelion) is the published 102.93735 + 1.71946 t + 0.00046 t^2 degrees up to whole turns within 0.4 arcsec.", "quantifier": "all dates within a century of J2000.0", "why_tests_cant": "a wrong digit in one of the six arguments changes the tested matrices by less than their tolerance; the tests never compare the arguments with each other", "anchors": ["crates/tofas/src/fundargs.rs:f03", "crates/tofas/src/fundargs.rs:om03", "crates/tofas/src/fundargs.rs:d03", "crates/tofas/src/fundargs.rs:lp03", "crates/tofas/src/fundargs.rs:e03", "crates/tofas/src/fundargs.rs:pa03"]}
{"id": "C130", "title": "UT1 is mean solar time", "statement": "In exact arithmetic, within a century of J2000.0, mean sidereal time (rotation_angle plus the published precession in right ascension, 4612.156534 T + 1.3915817 T^2 arcsec) less UT1 is, up to whole turns, the mean longitude of the Sun f03 + om03 - d03 less 20.5 arcsec of aberration, within 1.1 arcsec (0.08 seconds of time), the arguments taken at the same date.", "quantifier": "all dates within a century of J2000.0, however split", "why_tests_cant": "the tests compare rotation angle and arguments with the reference each for itself, with one tolerance; a wrong rate shows only after decades", "anchors": ["crates/tofas/src/earth.rs:rotation_angle", "crates/tofas/src/fundargs.rs:f03", "crates/tofas/src/fundargs.rs:om03", "crates/tofas/src/fundargs.rs:d03"]}
{"id": "C131", "title": "The four largest terms of the nutation", "statement": "In exact arithmetic, for every date within a Julian century of J2000.0 however split, the nutation in longitude is within 0.54 seconds of arc of -17.20 sin(N) - 1.32 sin(2S) - 0.23 sin(2M) + 0.21 sin(2N) and the nutation in obliquity within 0.14 of 9.20 cos(N) + 0.57 cos(2S) + 0.10 cos(2M) - 0.09 cos(2N), N the longitude of the node of the Moon (om03), S the mean longitude of the Sun (f03 - d03 + om03) and M that of the Moon (f03 + om03).", "quantifier": "all dates within a century of J2000.0, all splits", "why_tests_cant": "the tests compare the series with another program at random dates; this ties it to the short formula in print and to the separately coded fundamental arguments", "anchors": ["crates/tofas/src/frames.rs:nutation", "crates/tofas/src/fundargs.rs:om03", "crates/tofas/src/fundargs.rs:f03", "crates/tofas/src/fundargs.rs:d03"]}
