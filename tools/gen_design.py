#!/usr/bin/env python3
"""Writes DESIGN.md from tools/design.md (hand-written), tools/plan.json-like PLAN below, MANIFEST.json and axioms.txt."""
import json, os, re
ROOT = os.path.dirname(os.path.dirname(os.path.abspath(__file__)))
PLAN = {
"C01": ("`GregorianDate::new`", "case analysis against the month lengths of the Gregorian calendar (Spec/Calendar)"),
"C02": ("`to_julian` on i32, result through the float model", "`omega` on the closed formula against a successor-day specification; small integers are exact in binary64"),
"C03": ("same, with the two overflow profiles", "a witness date and the exact set of overflowing dates"),
"C04": ("`to_julian` then `from_julian`", "integer identity; exactness of `%` and `round` on the values that occur"),
"C05": ("`from_julian` in f64", "error analysis of the split into day and fraction; integer part by residue analysis"),
"C06": ("`from_julian` in exact arithmetic", "same over the reals, no rounding"),
"C07": ("`from_julian` in f64", "witness for f = 1, closed bound for all inputs; below 1 for half-integer larger part by the grid of the smaller one"),
"C08": ("range test of `from_julian`", "comparison semantics of binary64 including NaN"),
"C09": ("i32 arithmetic inside `from_julian`", "exact threshold of the first overflowing day"),
"C10": ("`from_julian` composed with `new`", "consequence of C05/C06 and C01"),
"C11": ("argument ordering in `from_julian`", "equality of the two programs for all pairs"),
"C12": ("`to_julian`, `from_julian`", "lexicographic order against day count; monotonicity of each float step"),
"C13": ("`HMS::from_fraction_of_day`", "exactness of `trunc`/`fract`; bounds of each product"),
"C14": ("both `HMS` conversions", "error bounds at f64, algebra at ℝ"),
"C15": ("both `HMS` conversions", "algebra at ℝ; f64 witness and total-seconds bound; fields kept away from the ends of the minute"),
"C16": ("`GregorianDateHMS`", "composition of C04-C06 and C13-C15"),
"C17": ("`Display for GregorianDate`", "model of `{:04}`/`{:02}`; digits against positional value"),
"C18": ("`delta_at` errors and early dates", "search in the table as `rposition`; comparison semantics"),
"C19": ("`delta_at` table search", "negation for every step month, positive statement for all others"),
"C20": ("`delta_at` after 1972", "table facts by kernel evaluation lifted to all months; monotone in month"),
"C21": ("`delta_at` before 1972", "linear formula at ℝ, rounding bound at f64"),
"C22": ("`TT::from(TAI)`", "algebra at ℝ; rounding bound at f64"),
"C23": ("`TAI::from_utc_delta_at`", "same"),
"C24": ("`TT::from_ut1`, `UT1::from_tt`", "algebra, both branches of the size test"),
"C25": ("`TDB::from_tt`", "algebra; exact f64 identity for dtr = 0"),
"C26": ("`anp`", "`x % T = x - T k`; f64 bound and witness at the upper end; exact condition by the midpoint below TWO_PI, which rounds up"),
"C27": ("`Vector::angle`", "Cauchy-Schwarz, `Real.arccos`"),
"C28": ("`Vector::angle` at f64", "kernel evaluation of a concrete vector (rounding makes the dot product exceed 1)"),
"C29": ("`Mat3::rotation`", "matrix identities; explicit panic for axes above 2"),
"C30": ("`Mat3` operations", "ring identities; `apply` is the transposed product (finding)"),
"C31": ("`fundargs.rs`", "remainder identity and bounds"),
"C32": ("`rotation_angle`", "remainder identity modulo one turn"),
"C33": ("`rotation_angle` at f64", "commutativity and range for all finite inputs"),
"C34": ("`EarthPosVel::from` with the full tables", "`HasDerivAt` of each term, induction over the tables"),
"C35": ("range flag of `EarthPosVel::from`", "comparison semantics"),
"C36": ("position magnitudes", "triangle inequality with table sums evaluated in the kernel"),
"C37": ("table accesses", "every index in bounds; equality with the Fortran tables in /repo/fortran"),
"C38": ("frame matrices", "products of rotations are rotations"),
"C39": ("`celestial_to_intermediate_from_xys`", "trigonometric identities for `atan2` and `atan(sqrt ..)`"),
"C40": ("precession and nutation at their origin", "evaluation at t = 0 and zero nutation angles"),
"C41": ("`nutation`", "triangle inequality with table sums"),
"C42": ("date split of the frame functions", "equality of the programs for equal totals"),
"C43": ("`celestial_to_terrestrial`, `polar_motion_matrix`", "matrix identities, periodicity"),
"C44": ("`cio`", "triangle inequality with table sums"),
"C45": ("`EllipsoidConverter::new`", "case analysis; f64 witnesses and success range"),
"C46": ("`geodetic_to_geocentric`", "ellipsoid equation and surface normal"),
"C47": ("round trip on surface, sphere, equator, pole", "Fukushima's step evaluated exactly on those sets"),
"C48": ("`geocentric_to_geodetic`", "symmetries, ranges, f64 NaN witness"),
"C49": ("`Geodetic360` conversions", "`rem_euclid` range at ℝ and f64"),
"C50": ("latitude of `Geodetic360`", "negation at the north pole, positive elsewhere; in f64 by monotonicity of rounding from the values at the three largest latitudes"),
"C51": ("debug assertions", "exact panic condition, witnesses"),
"C52": ("`SunAngleCalculator::new`", "exact panic condition in both arithmetics"),
"C53": ("`SunAngleCalculator::compute`", "unfolding to angle of zenith and Sun vectors, distance"),
"C54": ("time offset", "shift of the fraction of day, delta AT condition"),
"C55": ("scan loop of `sun_angle_tool`", "fuel-indexed loop, termination and non-termination for all fuels"),
"C56": ("`Display for HMS`", "decimal rendering of binary64 with rounding to nearest, ties to even"),
"C57": ("`rotation_angle` at f64", "error analysis over the stated date range"),
"C58": ("`geocentric_to_geodetic`", "height formula against latitude formula"),
"C59": ("`geocentric_to_geodetic`", "bound of the one-step method error"),
"C60": ("time scales inside the calculator", "algebra and rounding bounds"),
"C61": ("constants of `common.rs`, `time.rs`", "exact comparisons, bounds for the series of pi"),
"C62": ("`WGS84`", "exact values; nearest binary64"),
"C63": ("`celestial_to_intermediate_from_xys`", "closed IERS formula"),
"C64": ("bias, precession, nutation products", "matrix identities against elementary rotations (Spec/Rotation)"),
"C65": ("`nutation`", "term by term against Spec/Nut00b, modulo 2π"),
"C66": ("`cio`", "term by term against Spec/S00, modulo 2π"),
}
exec(open(os.path.join(ROOT, "tools", "plan_more.py")).read()) if os.path.exists(os.path.join(ROOT, "tools", "plan_more.py")) else None
P = [json.loads(l) for l in open(os.path.join(ROOT, "properties.jsonl"))]
M = {c["property"]: c for c in json.load(open(os.path.join(ROOT, "MANIFEST.json")))["claims"]}
rows = ["| id | property | modelled | how proved | status | theorems |", "|---|---|---|---|---|---|"]
for p in P:
    m = M[p["id"]]; a, b = PLAN[p["id"]]
    rows.append("| %s | %s | %s | %s | %s | %s |" % (p["id"], p["title"].replace("|", "\\|"), a, b, m["status"],
        ", ".join("`%s`" % t.split(".", 1)[1] for t in m["theorems"])))
ax = {}
f = os.path.join(ROOT, "tools", "axioms.txt")
for l in open(f).read().replace("\n ", " ").splitlines():
    r = re.match(r"'(\S+)' depends on axioms: \[(.*)\]", l)
    if r: ax[r.group(1)] = r.group(2)
    else:
        r = re.match(r"'(\S+)' does not depend on any axioms", l)
        if r: ax[r.group(1)] = "none"
groups = {}
for c in M.values():
    for t in c["theorems"]:
        groups.setdefault(ax.get(t, "NOT CHECKED"), []).append(t.split(".", 1)[1])
axs = []
for g, ts in sorted(groups.items()):
    axs.append("* **%s** — %d theorems: %s" % (g, len(ts), ", ".join("`%s`" % t for t in sorted(ts))))
s = open(os.path.join(ROOT, "tools", "design.md")).read()
s = s.replace("@@PLAN@@", "\n".join(rows)).replace("@@AXIOMS@@", "\n".join(axs))
open(os.path.join(ROOT, "DESIGN.md"), "w").write(s)
if "NOT CHECKED" in groups: print("not checked:", groups["NOT CHECKED"])
