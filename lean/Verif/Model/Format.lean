import Verif.Model.Display
import Verif.Model.SunAngle
import Verif.Model.DeltaAt

/-!
# Model of the remaining `Display` implementations and of the text printed by the tools

`ellipsoid.rs:81-96`, `sun_angle.rs:78-110`, `examples/sun_angle_tool.rs`, `examples/julian_tool.rs`.

Rust's float formatting with a precision (`std::fmt`, exact mode): the sign is `-` when the sign bit is set, else `+`
with the `+` flag and nothing without; `NaN` has no sign; the digits are the exact decimal expansion rounded half-even;
numbers are right aligned, padded with spaces, or, with the `0` flag, with zeros between sign and digits.
`{}` without precision (the shortest digits that read back) is a parameter: it occurs in one line of `julian_tool`.
-/

namespace Verif
open F64 Arith

/-- A magnitude of `n` units of `2^-1074` with `prec` decimals. -/
def fmtMag (prec n : ℕ) : List Char :=
  if prec = 0 then dec (rhe n UN) else fixedMag prec n

/-- The sign Rust prints. -/
def fmtSign (plus : Bool) (s : Bool) : List Char :=
  if s then ['-'] else if plus then ['+'] else []

/-- Sign and body of a formatted float. -/
def fmtParts (plus : Bool) (prec : ℕ) : F64 → List Char × List Char
  | nan => ([], ['N', 'a', 'N'])
  | inf s => (fmtSign plus s, ['i', 'n', 'f'])
  | fin s n _ => (fmtSign plus s, fmtMag prec n)

/-- `{:w.prec}` and, with `plus`, `{:+w.prec}`; `{:.prec}` is `w = 0`. -/
def fmtSpace (plus : Bool) (w prec : ℕ) (x : F64) : List Char :=
  let p := fmtParts plus prec x
  let l := p.1 ++ p.2
  List.replicate (w - l.length) ' ' ++ l

/-- `{:0w.prec}` and, with `plus`, `{:+0w.prec}`. -/
def fmtZero (plus : Bool) (w prec : ℕ) (x : F64) : List Char :=
  let p := fmtParts plus prec x
  p.1 ++ padLeft (w - p.1.length) p.2

/-- ellipsoid.rs:88-96. -/
def Geodetic360.display (g : Geodetic360 F64) : List Char :=
  fmtZero true 10 6 g.lat ++ ',' :: (fmtZero true 11 6 g.lon ++ ',' :: fmtZero true 9 2 g.height)

/-- ellipsoid.rs:81-85. -/
def Geodetic.display (p : Profile) (g : Geodetic F64) : Rust (List Char) := do
  return (← Geodetic360.fromGeodetic p g).display

/-- A line of output. -/
def line (l : List Char) : List Char := l ++ ['\n']

/-- sun_angle.rs:78-110. -/
def bundleDisplay (q : SunAngleParameters F64) (r : SunAngleResult F64) : List Char :=
  let f6 := fmtSpace false 0 6
  let szaD := r.sza /. DEGREE
  line ("Date:                ".toList ++ q.date.display) ++
  line ("Time:                ".toList ++ q.time.display ++ ' ' :: fmtSpace true 13 6 r.delta_s ++ ['s']) ++
  line ("Julian date:         ".toList ++ f6 (r.jd0 +. r.jd1) ++ " = ".toList ++ f6 r.jd0 ++ " + ".toList ++ f6 r.jd1) ++
  line ("Position:            ".toList ++ q.position.display) ++
  line ("                     X=".toList ++ fmtSpace false 16 1 r.p.x ++ " Y=".toList ++ fmtSpace false 16 1 r.p.y ++
    " Z=".toList ++ fmtSpace false 16 1 r.p.z) ++
  line ("UTC:                 ".toList ++ f6 (total r.utc)) ++
  line ("Delta AT:            ".toList ++ f6 r.dat) ++
  line ("TAI:                 ".toList ++ f6 (total r.tai)) ++
  line ("TT:                  ".toList ++ f6 (total r.tt)) ++
  line ("UT1:                 ".toList ++ f6 (total r.ut1)) ++
  line ("ERA:                 ".toList ++ f6 (r.era /. DEGREE) ++ ['°']) ++
  line ("Earth position (AU): X=".toList ++ fmtSpace true 15 13 r.earth.x ++ " Y=".toList ++ fmtSpace true 15 13 r.earth.y ++
    " Z=".toList ++ fmtSpace true 15 13 r.earth.z) ++
  line ("Sun position (m):    X=".toList ++ fmtSpace true 16 0 r.sun_e.x ++ " Y=".toList ++ fmtSpace true 16 0 r.sun_e.y ++
    " Z=".toList ++ fmtSpace true 16 0 r.sun_e.z) ++
  line ("Sun Zenith angle:    ".toList ++ fmtSpace false 7 2 szaD ++ "° or elevation: ".toList ++
    fmtSpace false 7 2 (lit 90 -. szaD) ++ ['°'])

/-- How a tool ends. -/
inductive Stop where
  | done
  /-- `Err` of the calendar code returned from `main` -/
  | error (e : CalendarError)
  | panic (e : Panic)
  deriving DecidableEq

/-- What a tool printed, and how it ended. -/
structure Run where
  text : List Char
  stop : Stop

/-- sun_angle_tool.rs:14-71 after argument parsing; `none`: still running after `fuel` tests of the loop condition.
`new` is the only call that can panic, and nothing is printed before it. -/
def sunAngleToolText [Libm F64] (p : Profile) (a : ToolArgs F64) (fuel : ℕ) : Option Run :=
  match GregorianDate.new (a.year.getD 2007) (a.month.getD 4) (a.day.getD 5) with
  | .error e => some ⟨[], .error e⟩
  | .ok date =>
    let q : SunAngleParameters F64 := ⟨date, ⟨a.hour.getD 0, a.minute.getD 0, a.second.getD (lit 0)⟩,
        { lat := a.lat.getD (lit 0), lon := a.lon.getD (lit (-120)), height := a.height.getD (lit 0) }⟩
    match SunAngleCalculator.new p q with
    | .error e => some ⟨[], .panic e⟩
    | .ok cal =>
      let d0 := a.delta0.getD (lit (-600))
      let d1 := a.delta1.getD (lit 600)
      let st := a.delta_step.getD (lit 60)
      let head := if a.scan then line ("Will scan from ".toList ++ fmtSpace true 13 6 d0 ++ "s to ".toList ++
        fmtSpace true 13 6 d1 ++ "s in steps of ".toList ++ fmtSpace false 13 6 st) else []
      (whileLoop cal.compute d1 st a.scan fuel d0).map fun
        | .error e => ⟨head, .panic e⟩
        | .ok l => ⟨head ++ (l.map fun r => (if a.scan then ['\n'] else []) ++ bundleDisplay q r).flatten, .done⟩

/-- julian_tool.rs:6-22 after argument parsing. -/
def julianToolGregorian (p : Profile) (year month day : ℤ) (hour minute : Option ℤ) (second : Option F64) : Run :=
  match GregorianDate.new year month day with
  | .error e => ⟨[], .error e⟩
  | .ok gd =>
    let hms : HMS F64 := ⟨hour.getD 12, minute.getD 0, second.getD (lit 0)⟩
    let t1 := line ("Gregorian date: ".toList ++ gd.display) ++ line ("Time: ".toList ++ hms.display)
    let fd := hms.toFractionOfDay
    match gd.toJulian p with
    | .error e => ⟨t1, .panic e⟩
    | .ok (jd1, jd2) =>
      ⟨t1 ++ line ("Julian date: ".toList ++ fmtSpace false 0 6 ((jd1 +. jd2) +. fd)) ++
        line ("Fraction of day: ".toList ++ fmtSpace false 0 6 fd), .done⟩

/-- julian_tool.rs:24-37 after argument parsing; `shortest` is `{}` on an `f64`. -/
def julianToolJulian (shortest : F64 → List Char) (p : Profile) (jd : F64) (jd2 : Option F64) : Run :=
  let j2 := jd2.getD (lit 0)
  let t0 := line ("Julian date: ".toList ++ fmtSpace false 18 14 (jd +. j2))
  match GregorianDate.fromJulian p jd j2 with
  | .error e => ⟨t0, .panic e⟩
  | .ok (.error e) => ⟨t0, .error e⟩
  | .ok (.ok (gd, fod)) =>
    let t1 := t0 ++ line ("Gregorian date: ".toList ++ gd.display) ++ line ("Fraction of day: ".toList ++ shortest fod)
    match HMS.fromFractionOfDay fod with
    | .error e => ⟨t1, .error e⟩
    | .ok hms => ⟨t1 ++ line ("Time: ".toList ++ hms.display), .done⟩

end Verif
