import Verif.Model.Calendar
import Verif.Model.Common
import Verif.Model.Ellipsoid

/-!
# Model of the randomised tests of `crates/tofas/src/tests.rs`

One iteration of each loop, as a function of the numbers drawn from `fastrand::f64()` (finite, in `[0,1)`).  A failed
`unwrap`, `assert!` or `panic!` is a panic; what is printed is left out.
-/

namespace Verif
open Arith
namespace Tests
variable {α : Type} [Arith α]

/-- common.rs:22 `EPSILON = f64::EPSILON`. -/
def EPSILON : α := lit (1 / 2 ^ 52)

/-- tests.rs:180-185 `compare_numbers`. -/
def compareNumbers (a b tol : α) : Rust Unit :=
  if tol <. Arith.abs (a -. b) then .error .assert else .ok ()

/-- tests.rs:164-178 `compare_matrices`. -/
def compareMatrices (a b : Mat3 α) (tol : α) : Rust Unit :=
  if (List.finRange 3).any fun i => (List.finRange 3).any fun j => tol <. Arith.abs (a.get i j -. b.get i j) then
    .error .assert
  else .ok ()

/-- tests.rs:112-126, body of the loop of `test_calendar`; `u` and `f1` are the two draws. -/
def calendarIter (p : Profile) (u f1 : α) : Rust Unit := do
  let dj1a := Arith.floor (GregorianDate.DJ_MIN +. (GregorianDate.MJD_ZERO +. lit 36500.0) *. u) +. lit 0.5
  let dj1 := dj1a +. f1
  match ← GregorianDate.fromJulian p dj1a f1 with
  | .error _ => .error .unwrap
  | .ok (gd, f2) =>
    let (dj2a, dj2b) ← gd.toJulian p
    let dj2 := (dj2a +. dj2b) +. f2
    let e := Arith.abs (dj1 -. dj2)
    if Arith.sqrt EPSILON <=. e then .error .assert else .ok ()

/-- tests.rs:199-212, body of the loop of `test_rotation`. -/
def rotationIter [Libm α] (u0 u1 u2 : α) : Rust Unit := do
  let theta0 := u0 *. TWO_PI
  let theta1 := u1 *. TWO_PI
  let theta2 := u2 *. TWO_PI
  let rot0 ← Mat3.rotationU 0 theta0
  let rot1 ← Mat3.rotationU 0 theta1
  let rot2 ← Mat3.rotationU 0 theta2
  let a := rot0.compose (rot1.compose rot2)
  let irot0 ← Mat3.rotationU 0 (Arith.neg theta0)
  let irot1 ← Mat3.rotationU 0 (Arith.neg theta1)
  let irot2 ← Mat3.rotationU 0 (Arith.neg theta2)
  let ia := irot2.compose (irot1.compose irot0)
  compareMatrices (a.compose ia) Mat3.identity (Arith.sqrt EPSILON)

/-- tests.rs:20-37, body of the loop of `test_ellipsoid`; the converter is made before the loop. -/
def ellipsoidIter [Libm α] (ec : EllipsoidConverter α) (u0 u1 u2 : α) : Rust Unit :=
  let elong := (Arith.neg (lit 180) +. lit 360 *. u0) *. DEGREE
  let phi := (Arith.neg (lit 90) +. lit 90 *. u1) *. DEGREE
  let height := lit 10000 *. u2
  let gd : Geodetic α := ⟨elong, phi, height⟩
  match ec.geodeticToGeocentric gd with
  | .error _ => .error .unwrap
  | .ok gc =>
    let gd' := ec.geocentricToGeodetic gc
    let e := (Arith.abs (gd.elong -. gd'.elong) +. Arith.abs (gd.phi -. gd'.phi)) +. Arith.abs (gd.height -. gd'.height)
    if Arith.sqrt EPSILON <. e then .error .assert else .ok ()

/-- tests.rs:15-39 `test_ellipsoid`, with the `n`-th three draws. -/
def testEllipsoid [Libm α] (u : ℕ → α × α × α) : Rust Unit :=
  match EllipsoidConverter.new (WGS84 : Ellipsoid α) with
  | .error _ => .error .unwrap
  | .ok ec => (List.range 1000).forM fun n => ellipsoidIter ec (u n).1 (u n).2.1 (u n).2.2

/-- tests.rs:326-332, body of the loop of `test_hms`. -/
def hmsIter (f1 : α) : Rust Unit :=
  match HMS.fromFractionOfDay f1 with
  | .error _ => .error .unwrap
  | .ok hms =>
    if hms.hour < 24 ∧ hms.minute < 60 ∧ (lit 0 <=. hms.second) = true ∧ (hms.second <. lit 60) = true then
      compareNumbers f1 hms.toFractionOfDay EPSILON
    else .error .assert

end Tests
end Verif
