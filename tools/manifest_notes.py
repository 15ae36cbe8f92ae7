NOTES.update({
 "C07": "The expectation f < 1 is false; the negation is proved with a witness, and 0 <= f <= 1 for every finite input, f < 1 for every pair in the Modified Julian Date form.",
 "C08": "NaN is a single value in the model (payload not modelled).",
 "C15": "Exact arithmetic: proved. f64: field-by-field round trip is false (witness); total seconds preserved to 3*2^-37, hour and minute kept away from the ends of the minute.",
 "C19": "The user's expectation is false; the negation is proved for every step month (one second short in every leap-second month), and the positive statement for every other month.",
 "C26": "f64: the half-open range is refuted by a witness; the closed range is proved for every finite argument, and exactly when the end is reached.",
 "C45": "f64: BadEccentricity and NaN acceptance by witness; success for every f in [0, 0.9999] and every radius not below zero.",
 "C48": "A NaN result inside the ellipsoid is exhibited (finding).",
 "C50": "The user's expectation is false at the north pole; the negation is proved in exact arithmetic and f64, the positive statement for all other latitudes; in f64 exactly two latitudes are moved.",
 "C51": "Exact panic condition proved; the documented range lon < 180 is refuted by a witness.",
 "C59": "Exact arithmetic: method error, not rounding error.",
 "C52": "Exact panic condition in exact arithmetic and in f64 for every libm; NaN seconds are accepted (finding).",
 "C54": "The delta AT condition holds automatically outside 1960-01..1972-01; inside, delta AT differs by rate times shift (proved).",
 "C67": "Conditional on the library accuracy hypothesis LibmAcc (2^-50 absolute), shown satisfiable.",
 "C68": "Conditional on the library accuracy hypothesis LibmAcc (2^-50 absolute), shown satisfiable.",
 "C69": "The accuracy of angle (not of norm, normalize and the cosine) is conditional on LibmAcc, shown satisfiable.",
 "C71": "Conditional on the library accuracy hypothesis LibmAcc (2^-50 absolute), shown satisfiable.",
 "C72": "Conditional on the library accuracy hypothesis LibmAcc (2^-50 absolute), shown satisfiable.",
 "C75": "Conditional on the library accuracy hypothesis LibmAcc (2^-50 absolute), shown satisfiable.",
 "C77": "Rust's {} on f64 (shortest digits) is a parameter; only that it prints no newline is assumed. Parsing is assumed correctly rounded in the round trip.",
 "C78": "Conditional on LibmAcc, shown satisfiable. Argument parsing is not modelled.",
 "C79": "Conditional on LibmAcc and on atan within 2^-50 at every finite argument, shown satisfiable together.",
 "C80": "Conditional on LibmAcc and on atan within 2^-50 at every finite argument, shown satisfiable together.",
 "C82": "test_rotation is conditional on LibmAcc, test_ellipsoid also on LibmRel and atan within 2^-50, shown satisfiable together.",
 "C81": "Conditional on LibmAcc and on atan within 2^-50 at every finite argument, shown satisfiable together.",
 "C55": "Exact arithmetic and f64 (termination iff, exact dyadic scans).",
 "C83": "Exact arithmetic unconditional; the f64 part is conditional on LibmAcc (2^-50 absolute), shown satisfiable, and the angle (not the cosine) on the f64 cosine not exceeding one in magnitude, which is acos's domain.",
 "C84": "Exact arithmetic unconditional; the f64 part is conditional on LibmAcc (2^-50 absolute), shown satisfiable, and the angle (not the cosine) on the f64 cosine not exceeding one in magnitude, which is acos's domain.",
 "C85": "A property of the model of the standard library's number parsing, which is written from its documentation.",
 "C86": "A property of the model of `{}` on f64, which is written from its documentation, and of the tool that uses it.",
 "C87": "pico_args 0.5 is modelled with default features (values as the next argument; its `--key=value` form is an optional feature).",
 "C88": "The report and the day and night are conditional on LibmAcc (2^-50 absolute), shown satisfiable.",
 "C89": "Exact arithmetic; the f64 velocity is within the bound of C68 of it.",
 "C90": "The f64 rate is conditional on LibmAcc (2^-50 absolute), shown satisfiable.",
 "C91": "One sunrise: uniqueness to within 1e-11 s, since the decimal 2 pi of the code makes the exact angle jump by about 1e-20 rad. The f64 statement is conditional on LibmAcc (2^-50 absolute), shown satisfiable.",
 "C92": "The f64 statements are conditional on LibmAcc (2^-50 absolute), shown satisfiable.",
 "C93": "gfortran's E edit descriptor and the zero fill of static arrays are modelled, not derived from a source. Includes two negative results on numbers outside the tables.",
 "C94": "test_rotation is conditional on LibmAcc (2^-50 absolute), shown satisfiable. Includes the negative result that the tests cannot detect NaN. The eight tests that compare libm results with a table to 2^-52 are characterised, not proved to pass, since that depends on the library.",
 "C95": "The SOFA library and the random numbers are arbitrary. List-directed output is modelled as gfortran does it; tools/check_test_data.py writes test_data.rs again from its values with the same formats and gets the same bytes.",
 "C96": "The f64 statement is conditional on LibmAcc (2^-50 absolute), shown satisfiable.",
 "C97": "The f64 statement is conditional on LibmAcc (2^-50 absolute), shown satisfiable. The fortnight around each equinox is left open on purpose: the lengths differ too little there for the error bounds.",
 "C98": "Indices that are constants inside a row of fixed size are not checked (the compiler does).",
 "C99": "The f64 statement is conditional on LibmAcc (2^-50 absolute), shown satisfiable.",
 "C100": "Noon is that of local mean solar time. The f64 statements are conditional on LibmAcc (2^-50 absolute), shown satisfiable, and on 24 degrees of latitude or more (nearer the equator the program can return NaN, see C28).",
 "C101": "iau_CAL2JD, iau_DAT, iau_C2T00B and iau_EPV00 are not in the repository: day number, delta AT, matrix and position are arguments.",
 "C102": "random_number is modelled as gfortran has it (a multiple of 2^-53 below 1), the SOFA functions are arguments; products and sums are rounded separately.",
 "C103": "The mean elements are those of the published table used for C83.",
 "C104": "The texts of pico_args, of the standard library and of anyhow are assumptions; what a panic writes is a parameter.",
 "C105": "The days of the solstices themselves, 19 to 23 June and 19 to 24 December, are left out.",
 "C106": "About ten days around each of the four dates on which the equation of time vanishes are left out of the signs, not of the range.",
 "C107": "In binary64 the angles themselves are compared where the sine of the exact angle is at least 1/2000, the cosines everywhere.",
 "C108": "Dates from 1960 to January 1972 are covered by the bound in terms of the difference of delta AT, not by a fixed number.",
 "C109": "Exact statements over the reals, with the bound on the height shown to be the right one below the equator. Binary64 statements for WGS84 with a library accurate to 2^-50.",
 "C110": "The steps back themselves are those of the published table (1961 and 1968) and, in February 1962, an effect of the month late change of rate.",
 "C111": "The specification of distance is that of C109 (`Spec/Ellipsoid.lean`).",
 "C112": "The second of arc of the statement is pi/648000, not the constant of the code.",
 "C113": "Includes a finding: a NaN coordinate is reported as a pole by geocentric_to_geodetic (C113_nan_is_pole, C113_nan_is_pole_case).",
 "C114": "Bounds on the rates are sums of magnitudes over the terms of the series.",
 "C115": "celestial_to_intermediate is claimed within a century only: further away the angles of the series have no bound, and C115_outside_disc shows what a pole outside the unit disc gives.",
 "C116": "`apply` multiplies by the transpose (C30), so both orders are claimed.",
 "C117": "Most of the 1.9 per cent is the motion of the Earth about the barycentre of Earth and Moon, which is real.",
 "C118": "The chord formula excludes an earlier return: for d between 2 and 363 days the distance is positive.",
 "C119": "Kepler's first law; the second is C89, the law behind both C117.",
 "C120": "Relates the two halves of the result; C117 is the heliocentric law.",
 "C121": "With C89, C117 and C119: the conserved quantities of the two-body problem.",
 "C122": "Where the pole is on the cone is C112.",
 "C123": "Exact arithmetic; in f64 the accuracy of both conversions (for the Earth in metres) is C71, C79 and C80.",
 "C124": "On the four days of each window either side is possible, according to the year; that the declination grows or falls there is C105.",
 "C125": "The obliquity of the true pole is C122.",
 "C126": "Exact arithmetic; the f64 error of position and zenith is C71.",
 "C127": "The f64 part is conditional on an odd sine and an even cosine, shown satisfiable.",
 "C128": "Exact arithmetic; the published times of mean new moon, perigee, node and perihelion are part of the statements.",
 "C129": "Exact arithmetic.",
 "C130": "Exact arithmetic; the difference of TT and UT1 is neglected in the argument of the Sun (a minute of time moves the mean Sun by 2.5 arcsec).",
 "C131": "The whole series is C65.",
})
