# Formal model of berke/tofas in Lean 4 — design

(Generated by `tools/gen_design.py` from `tools/design.md`, `MANIFEST.json` and `tools/axioms.txt`.)

## 1. Approach

`tofas` is numerical code: almost everything is `f64` arithmetic plus some `i32` arithmetic.
The model writes every Rust function **once**, generically over an arithmetic `α` with the
operations the code uses (`Verif.Arith α`: `+ - * / %`, `sqrt`, `round`, `trunc`, `floor`, comparisons, casts,
decimal literals) and, separately, the transcendental functions (`Verif.Libm α`: `sin`, `cos`, `atan`,
`atan2`, `acos`, ...). The model is then instantiated twice:

* `α = F64` — a bit-accurate model of IEEE-754 binary64 with round-to-nearest-even, signed zeros,
  infinities and NaN, written in this project (`Verif/Float`). Theorems at `F64` speak about what the
  compiled program computes. Rust does not specify the accuracy of `sin`, `cos`, `atan`, ..., so at `F64`
  these are *parameters* (`[Libm F64]`). A theorem that needs something of them says so as a hypothesis;
  a theorem without such a hypothesis holds for every library.
* `α = ℝ` — exact real arithmetic with Mathlib's `Real.sin`, etc. Theorems at `ℝ` speak about the
  algorithm, and are labelled "exact arithmetic" in the property text.

`i32` arithmetic is modelled with overflow: every operation of the code goes through
`I32.add/sub/mul/...` parameterised by the build profile (`.checked` panics = `Except.error`, `.wrapping`
wraps modulo 2^32). A Rust panic is the explicit value `.error _` of the monad `Rust = Except Panic`.
Loops of the code are folds over the literal tables; the one unbounded loop (`sun_angle_tool` scan) is
indexed by fuel and statements quantify over all fuels.

## 2. Layout (all under `lean/Verif`)

* `Float/*`   — the binary64 model and its theory (nearest, monotone, exact cases, error bounds, square root).
* `Arith.lean`, `I32.lean` — the generic arithmetic interface with its two instances; i32 with profiles.
* `Model/*`   — one file per Rust file; every definition cites the file and lines.
* `Spec/*`    — independent specifications: calendar successor, leap-second steps (`Spec/DeltaAt`), elementary
  rotations, the published IAU 2000B nutation series (`Spec/Nut00b`), the IERS locator series (`Spec/S00`), the
  reference ephemeris tables (`Spec/EpvRef`), a reader of decimal numerals (`Spec/Numeral`),
  a low precision Sun from published mean elements (`Spec/MeanSun`).
* `Lemmas/*`  — helper lemmas.
* `Props/*`   — the property theorems, named by property (`Cnn_...`), with non-vacuity examples beside them.

## 3. Per property: what is modelled and how it is proved

@@PLAN@@

## 4. Trusted base

* **Kernel.** Lean 4.33.0's kernel, and Mathlib as installed. No `native_decide`, no `bv_decide`, no `sorry`, no axiom of
  this project. `decide +kernel` is used for whole-table facts; it is checked by the kernel by evaluation.
* **Transcription.** The hand transcription of `/repo` into `Verif/Model` (each definition cites its lines). The big
  tables were transcribed by script from the Rust source; `C37_tables_match_fortran` compares the ephemeris tables
  with the Fortran source in `/repo/fortran`, and C65/C66 compare the nutation and locator tables with separately
  written specifications.
  As a check of the transcription (a test, not part of any proof), `tools/validate/run.sh` executes the `F64` model with
  the machine's own libm on all 11,000 reference entries of `test_data.rs` and on the literal cases of `tests.rs`, with
  the tolerances of `tests.rs`; all agree.
* **Floating point.** Fidelity of `Verif/Float` to IEEE-754 binary64 as Rust uses it: round to nearest even, no extended
  precision, no contraction into FMA. NaN payload and sign are not modelled (one NaN value).
* **Published data.** `Spec/EpvRef`, `Spec/Nut00b`, `Spec/S00` are written from the published series;
  `tools/check_reference.py` evaluates them numerically and compares with the published SOFA test values (a sanity
  check of the specification, not part of any proof).
* **libm.** At `F64` the functions `sin cos tan asin acos atan atan2` are arbitrary parameters. The accuracy theorems
  at f64 take as hypothesis that they are within a stated error of the real functions: absolute (`LibmAcc`) or relative (`LibmRel`). A library
  meeting both exists (`relLibm_acc`, `relLibm_rel`), so no such theorem is vacuous.
* **Formatting.** Rust's `{:w.p}` on an f64 is modelled as: the exact binary value rounded to `p` decimals, ties to
  even; a sign is printed for negative numbers and for `-0.0`, and for others under the `+` flag; padding with spaces on the
  left, or with zeros after the sign under the `0` flag. Nothing is claimed about the text of NaN or infinities. `{}` on an
  f64 is the shortest decimal that reads back, the nearest to the number among those, written without exponent (`shortest`);
  C77 holds for any other choice too. Text written by `print!` is modelled as a list of characters; errors of the output stream are not.

* **Command lines.** `f64`, `i32` and `u8` are read from text as documented for the standard library, with correct rounding
  (`Model/Parse`). `pico_args` 0.5 is modelled without its optional features: an option takes the argument after its
  first occurrence, both are removed; a flag is removed at its first occurrence; the subcommand is the first argument unless that
  begins with `-`. Neither source is in `/repo`, so these are trusted. `tools/validate/text.sh` compares reading and writing
  with another implementation on 20000 texts. `Model/Process` has arguments that are not UTF-8 and the texts of errors: those of
  `pico_args::Error`, of `ParseIntError` and `ParseFloatError`, and the line `Error: …` with exit status 1 that the standard library and
  `anyhow` give for an error returned from `main` when `RUST_BACKTRACE` is not set. The text of a panic is a parameter; its exit status is 101.

* **Fortran.** `Model/Dump` follows gfortran: `Ew.d` rounds the exact binary value half-even, writes `0.` and `d` digits, and drops the
  `E` when the exponent needs three digits; static arrays are zero where no `DATA` statement gives a value. As a check,
  `tools/validate/dump.sh` runs the model and compares its output with `epv00_data.rs`: the same characters after the first line. List-directed
  output of a double (`Model/TestSofa`) has seventeen significant digits, without exponent from 0.1 up to 10^17. As a check,
  `tools/check_test_data.py` is the same formats in another language and writes `test_data.rs` again from the values in it, byte for byte.

### Axioms of each property theorem (`tools/axioms.sh`)

@@AXIOMS@@

## 5. Findings (places where the code does not do what a user would expect)

| id | finding |
|---|---|
| C03 | `to_julian` overflows i32 for accepted far-future years: a panic in debug builds, a wrong date in release builds. |
| C07 | `from_julian` can return a day fraction equal to 1 (never for the pairs that `to_julian` returns). |
| C08 | `from_julian` accepts NaN and returns a date. |
| C09 | `from_julian` overflows i32 inside its accepted range (threshold proved). |
| C15 | `HMS` does not survive the round trip field by field in f64. |
| C19 | `delta_at` applies each leap second one month late: during the whole month of a step it returns the previous value. |
| C20 | `delta_at` overflows i32 from August 178956970 on: a panic in debug builds, a long replaced value for some years in release builds. |
| C26 | `anp` can return 2π in f64 although the range is documented half open: exactly for negative angles within 2^-51 below a multiple of 2π. |
| C28 | The angle of a vector with itself can be NaN (`acos` of a value above 1). |
| C30 | `Mat3::apply` multiplies by the transpose; callers compensate. |
| C31 | Some fundamental arguments are not reduced to one turn. |
| C45 | `EllipsoidConverter::new` accepts NaN parameters. |
| C48 | `geocentric_to_geodetic` returns NaN for some points inside the ellipsoid. |
| C113 | `geocentric_to_geodetic` reports a point with a NaN first or second coordinate as a pole: longitude 0, latitude ±90°, a finite height. |
| C50 | `Geodetic360::from` maps the north pole to the south pole, in f64 also the latitude before it, and no other. |
| C51 | The documented longitude range `lon < 180` can be violated; the exact condition for a debug assertion is proved. |
| C52 | NaN seconds are accepted by `SunAngleCalculator::new`. |
| C54 | Inside 1960-1972 an offset is not equivalent to shifting the time of day, because delta AT drifts. |
| C78 | `sun_angle_tool` without `--scan` reports the Sun for ten minutes before the time asked for (default `delta0` of -600 s). |
| C87 | `julian_tool gregorian` ignores options it does not know: `--hours 7` leaves the time at noon without a word (`julian` and `sun_angle_tool` refuse). |
| C87 | `julian_tool julian --jd2 --jd 1 2` is accepted and means `--jd 1 --jd2 2`. |
| C93 | The dump program prints numbers with a three digit exponent as text that is no Rust literal, and fifteen digits do not identify every f64; neither occurs in the tables. Its first line, `use common::*;`, was edited by hand to `use crate::common::*;` in `epv00_data.rs`. |
| C94 | `compare_numbers` and `compare_matrices` are written `if e > tol { panic!() }`, which NaN does not trigger: an implementation that returns NaN everywhere passes nine of the eleven table tests, whatever the tables, and `test_rotation`. `dtr` and `dt` are zero in every entry of `C2T00B_DATA`, so that the time scale conversions are tested with zero offset only. |
| C95 | A matrix entry with an exponent of three digits would be printed without `E` and not compile, or be read as a difference; the values drawn in `test_sofa.f90` do not come near. |
| C102 | `TWO_PI` in `test_sofa.f90` is a single precision literal, 1.7e-7 more than 2π: the angles of `NUMAT_DATA` are draws from a range that exceeds a turn (harmless; the data show it). |
| C101 | `SunAngleParameters::default` has the date of `test_sun.f90` but not its time (00:00 instead of 12:00), so the default run does not reproduce its report; UT1 is added up in another order and can differ in the last bit. |
| C55 | The scan loop never stops when the step is too small to change the offset, or for non-positive steps, or with `--delta1 inf`. |

Each is proved as a theorem with a concrete witness; where the expected statement is false, the strongest true part is a
`_partial` theorem.

## 6. Which code is modelled

| source | modelled | not modelled |
|---|---|---|
| `tofas/src/calendar.rs` | `GregorianDate::{new,to_julian,from_julian}`, `HMS::{new,from_fraction_of_day,to_fraction_of_day}`, `GregorianDateHMS::{from_julian,to_julian}`, the three `Display` impls | the `Debug` texts |
| `tofas/src/delta_at.rs` | table, `delta_at` | the `Debug` texts |
| `tofas/src/time.rs` | all conversions, `total`, constants | — |
| `tofas/src/common.rs` | constants, `sq`, `anp`, all of `Vector` and `Matrix` | `mod` re-exports |
| `tofas/src/fundargs.rs` | all | — |
| `tofas/src/earth.rs`, `epv` tables | `EarthPosVel::from`, `rotation_angle`, `polar_motion_matrix`, all tables | — |
| `tofas/src/locator.rs` | `cio`, also as the loops written (`Model/Loops`), all tables | — |
| `tofas/src/frames.rs` | all functions, `nutation` also as the loop written (`Model/Loops`), all tables | — |
| `tofas/src/ellipsoid.rs` | `Geodetic`/`Geodetic360` conversions, `zenith`, `EllipsoidConverter`, the two `Display` impls | — |
| `tofas_extras/src/sun_angle.rs` | `SunAngleParameters::default`, `SunAngleCalculator::{new,compute}`, `Display` of the result bundle | — |
| `examples/sun_angle_tool.rs` | everything: argument parsing, computation, scan loop, printed text, error line, exit status | inside of `pico_args`, text of panics |
| `examples/julian_tool.rs` | everything: argument parsing, both subcommands, printed text, error line, exit status | inside of `pico_args`, text of panics |
| `fortran/dump_epv00.f90`, `fortran/epv00.for` | `dump_array`, the program, all `DATA` statements | NaN and infinities; `Makefile` |
| `fortran/test_sun.f90` | time scales and all output (`Model/TestSun`) | the SOFA library |
| `fortran/test_sofa.f90` | all output (`Model/TestSofa`), all draws (`Model/Draws`) | the SOFA library; `random_number` is a multiple of 2^-53 below 1 |
| `tests.rs` (15-39, 112-126, 164-185, 199-212, 326-332) | `Model/Tests` | four randomised loops (one iteration; `test_ellipsoid` whole); printing left out |
| rest of `tests.rs` | `Model/TestsWhole` | all tests as functions of draws or table; printing, and what is computed only for printing, left out |
| `test_data.rs` | `Model/TestData/*` | `ERA00_DATA`, `PR00_DATA`, the numbers of `C2T00B_DATA`; the others need a libm: `tools/validate` runs the model on them |

Simplifications are stated in the comment of the definition concerned (for example: `usize` axis as `Fin 3` with a separate
`rotationU` that has the panic; references and moves are erased).

## 7. Testing the theorems against wrong programs

`seeded/LOG.jsonl` has one line per wrong program: the definition of the model that was edited, the edit, the claim it
breaks, the property theorems that no longer check, and the theorems tightened as a result. Each edit was made in a scratch
copy, all modules that depend on it were recompiled, and a theorem counts as failed when its own proof or one of the
proofs it uses no longer checks.
