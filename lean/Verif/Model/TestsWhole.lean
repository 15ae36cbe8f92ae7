import Verif.Model.Tests
import Verif.Model.Format
import Verif.Model.Frames
import Verif.Model.DeltaAt

/-!
# Model of the tests of `crates/tofas/src/tests.rs`, whole functions

Each test as a function of the numbers drawn from `fastrand::f64()`, if it draws any.  A failed `unwrap`, `assert!` or `panic!`
is a panic; what is printed is left out, and so is what is computed only to be printed.  The tests against `test_data.rs` (tests.rs:187-194, 216-321) are
functions of the table.
-/

namespace Verif
open Arith
namespace Tests

/-- tests.rs:41-49 `test_geodetic_display`. -/
def testGeodeticDisplay (p : Profile) : Rust Unit := do
  let gd : Geodetic F64 := ⟨lit 123.456789 *. DEGREE, lit 22.654321 *. DEGREE, lit 33333.333⟩
  let buf ← gd.display p
  if buf = "+22.654321,+123.456789,+33333.33".toList then .ok () else .error .assert

/-- tests.rs:58-69, the first loop of `test_calendar`. -/
def calendarKnown1 (p : Profile) (dj1 : F64) (year month day : ℤ) (f1 : F64) : Rust Unit :=
  match GregorianDate.new year month day with
  | .error _ => .error .unwrap
  | .ok gd1 => do
    match ← GregorianDate.fromJulian p dj1 (lit 0) with
    | .error _ => .error .unwrap
    | .ok (_, _) =>
      let (dj2a, dj2b) ← gd1.toJulian p
      let dj2 := (dj2a +. dj2b) +. f1
      let e := Arith.abs (dj1 -. dj2)
      if Arith.sqrt EPSILON <=. e then .error .assert else .ok ()

/-- tests.rs:76-108, the second loop of `test_calendar`. -/
def calendarKnown2 (p : Profile) (jd0 : F64) (year month day hour minute : ℤ) (second : F64) : Rust Unit :=
  let tol : F64 := Arith.sqrt EPSILON
  match GregorianDate.new year month day with
  | .error _ => .error .unwrap
  | .ok gd1 => do
    let hms1 : HMS F64 := ⟨hour, minute, second⟩
    let fd1 := hms1.toFractionOfDay
    let (jd1, jd2) ← gd1.toJulian p
    let jd := (jd1 +. jd2) +. fd1
    if tol <=. Arith.abs (jd -. jd0) then .error .assert
    else
      match ← GregorianDate.fromJulian p jd1 (jd2 +. fd1) with
      | .error _ => .error .unwrap
      | .ok (gd2, fd2) =>
        match HMS.fromFractionOfDay fd2 with
        | .error _ => .error .unwrap
        | .ok hms2 =>
          if gd1 ≠ gd2 then .error .assert
          else if hms1.hour ≠ hms2.hour ∨ hms1.minute ≠ hms2.minute ∨
              (lit 100 *. tol <=. Arith.abs (hms1.second -. hms2.second)) = true then .error .assert
          else .ok ()

/-- tests.rs:51-128 `test_calendar`, with the `n`-th two draws. -/
def testCalendar (p : Profile) (u : ℕ → F64 × F64) : Rust Unit := do
  calendarKnown1 p (lit 2436116.31) 1957 10 4 (lit 0.81)
  calendarKnown2 p (lit 2460623.50) 2024 11 9 0 0 (lit 0)
  calendarKnown2 p (lit 2433282.623611111) 1950 1 1 2 58 (lit 0)
  (List.range 10000000).forM fun n => calendarIter p (u n).1 (u n).2

/-- tests.rs:140-155, body of the loops of `test_earth`. -/
def earthIter [Libm F64] (iday ihour : ℤ) : Rust Unit := do
  let tt : F64 × F64 := (DJ00, ofInt iday +. ofInt ihour /. lit 24)
  let tdb := TDB.fromTT tt (lit 0)
  let _ut1 := UT1.fromTT tt (lit 0)
  let epv ← EarthPosVel.fromTDB tdb
  if epv.warning then .error .assert else .ok ()

/-- tests.rs:130-162 `test_earth`. -/
def testEarth [Libm F64] : Rust Unit :=
  (List.range 24).forM fun h => earthIter 0 h

/-- tests.rs:196-214 `test_rotation`, with the `n`-th three draws. -/
def testRotation [Libm F64] (u : ℕ → F64 × F64 × F64) : Rust Unit :=
  (List.range 100).forM fun n => rotationIter (u n).1 (u n).2.1 (u n).2.2

/-- tests.rs:323-335 `test_hms`, with the `n`-th draw. -/
def testHms (u : ℕ → F64) : Rust Unit := (List.range 1000).forM fun n => hmsIter (u n)

/-- tests.rs:337-344 `test_delta_at`. -/
def testDeltaAt (p : Profile) : Rust Unit :=
  match GregorianDate.new 2007 4 5 with
  | .error _ => .error .unwrap
  | .ok gd => do
    match ← deltaAt p gd (lit 0.5 : F64) with
    | .ok (some dat) => compareNumbers dat (lit 33) EPSILON
    | _ => .error .unwrap

/-! ### The tests against `test_data.rs` -/

/-- tests.rs:187-194 `test_polar_motion_matrix`. -/
def testPolarMotionMatrix [Libm F64] (data : List (F64 × F64 × F64 × Mat3 F64)) : Rust Unit :=
  data.forM fun (xp, yp, sp, rpom1) => compareMatrices rpom1 (polarMotionMatrix xp yp sp) EPSILON

/-- tests.rs:216-222 `test_nutation_matrix`. -/
def testNutationMatrix [Libm F64] (data : List (F64 × F64 × F64 × Mat3 F64)) : Rust Unit :=
  data.forM fun (epsa, dpsi, deps, rmatn1) => compareMatrices rmatn1 (nutationMatrix epsa dpsi deps) EPSILON

/-- tests.rs:224-231 `test_nutation`. -/
def testNutation [Libm F64] (data : List (F64 × F64 × F64 × F64)) : Rust Unit :=
  data.forM fun (date1, date2, dpsi1, deps1) => do
    let (dpsi2, deps2) := nutation (date1, date2)
    compareNumbers dpsi1 dpsi2 EPSILON
    compareNumbers deps1 deps2 EPSILON

/-- tests.rs:235-244 `test_bias_and_precession`. -/
def testBiasAndPrecession [Libm F64] (data : List (F64 × F64 × Mat3 F64 × Mat3 F64 × Mat3 F64)) : Rust Unit :=
  data.forM fun (date1, date2, rb1, rp1, rbp1) => do
    let (rb2, rp2, rbp2) := biasAndPrecession (date1, date2)
    compareMatrices rb1 rb2 EPSILON
    compareMatrices rp1 rp2 EPSILON
    compareMatrices rbp1 rbp2 EPSILON

/-- tests.rs:246-253 `test_rotation_angle`. -/
def testRotationAngle (data : List (F64 × F64 × F64)) : Rust Unit :=
  data.forM fun (ut11, ut12, era1) => compareNumbers era1 (rotationAngle (ut11, ut12)) EPSILON

/-- tests.rs:255-263 `test_precession_rate`. -/
def testPrecessionRate (data : List (F64 × F64 × F64 × F64)) : Rust Unit :=
  data.forM fun (tt1, tt2, dpsipr1, depspr1) => do
    let (dpsipr2, depspr2) := precessionRate (tt1, tt2)
    compareNumbers dpsipr1 dpsipr2 EPSILON
    compareNumbers depspr1 depspr2 EPSILON

/-- tests.rs:265-273 `test_precession_nutation`. -/
def testPrecessionNutation [Libm F64] (data : List (F64 × F64 × Mat3 F64)) : Rust Unit :=
  data.forM fun (tt1, tt2, rbpn1) => compareMatrices rbpn1 (precessionNutation (tt1, tt2)) (lit 2 *. EPSILON)

/-- tests.rs:275-283 `test_celestial_to_intermediate`. -/
def testCelestialToIntermediate [Libm F64] (data : List (F64 × F64 × Mat3 F64)) : Rust Unit :=
  data.forM fun (tt1, tt2, rc2i1) => compareMatrices rc2i1 (celestialToIntermediate (tt1, tt2)) EPSILON

/-- tests.rs:285-293 `test_locator`. -/
def testLocator [Libm F64] (data : List (F64 × F64 × F64 × F64 × F64)) : Rust Unit :=
  data.forM fun (tt1, tt2, x, y, s001) => compareNumbers s001 (cio (tt1, tt2) x y) EPSILON

/-- tests.rs:295-302 `test_celestial_to_terrestrial_from_cio_components`. -/
def testC2tFromCio [Libm F64] (data : List (Mat3 F64 × F64 × Mat3 F64 × Mat3 F64)) : Rust Unit :=
  data.forM fun (rc2i, era, rpom, rc2t1) => compareMatrices rc2t1 (celestialToTerrestrialFromCio rc2i era rpom) EPSILON

/-- tests.rs:311-317: the part of the loop of `test_celestial_to_terrestrial` about the time scales. -/
def timesIter (tt1 tt2 dtr tdb1 tdb2 dt ut11 ut12 : F64) : Rust Unit := do
  let tdb := TDB.fromTT (tt1, tt2) dtr
  let ut1 := UT1.fromTT (tt1, tt2) dt
  compareNumbers tdb1 tdb.1 EPSILON
  compareNumbers tdb2 tdb.2 EPSILON
  compareNumbers ut11 ut1.1 EPSILON
  compareNumbers ut12 ut1.2 EPSILON

/-- tests.rs:304-321 `test_celestial_to_terrestrial`. -/
def testCelestialToTerrestrial [Libm F64]
    (data : List (F64 × F64 × F64 × F64 × F64 × F64 × F64 × F64 × Mat3 F64)) : Rust Unit :=
  data.forM fun (tt1, tt2, dtr, tdb1, tdb2, dt, ut11, ut12, rc2t1) => do
    timesIter tt1 tt2 dtr tdb1 tdb2 dt ut11 ut12
    compareMatrices rc2t1 (celestialToTerrestrial (tt1, tt2) (UT1.fromTT (tt1, tt2) dt) (lit 0) (lit 0)) EPSILON

/-- A decimal of test_data.rs as an `f64`. -/
def num (d : Epv.Dec) : F64 := lit d.q

end Tests
end Verif
