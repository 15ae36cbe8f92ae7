import Verif.Model.Frames
import Verif.Model.Locator
import Verif.Model.Earth
import Verif.Model.Time
import Verif.Model.Format

/-!
Runs the bit-level model on every entry of the tables of `/repo/crates/tofas/src/test_data.rs` and compares with the expected
values there, with the tolerances of `tests.rs`.  The functions of the mathematical library are those of the machine.
This is a test of the transcription, not part of any proof.  Usage: `tools/validate/run.sh`.
-/

open Verif

def toFloat : F64 → Float
  | .nan => 0.0 / 0.0
  | .inf s => if s then -1.0 / 0.0 else 1.0 / 0.0
  | .fin s n _ =>
    let m := if n < 2 ^ 52 then n else let e := n.log2 - 52; ((e + 1) <<< 52) + (n >>> e - 2 ^ 52)
    Float.ofBits (UInt64.ofNat (m + if s then 2 ^ 63 else 0))

def ofFloat (x : Float) : F64 :=
  let b := x.toBits.toNat
  let s := b ≥ 2 ^ 63
  let b := b % 2 ^ 63
  let e := b >>> 52
  let f := b % 2 ^ 52
  if e == 2047 then (if f == 0 then .inf s else .nan)
  else .ofQuot s (if e == 0 then f else (f + 2 ^ 52) <<< (e - 1)) 1

instance : Libm F64 where
  sin x := ofFloat (toFloat x).sin
  cos x := ofFloat (toFloat x).cos
  tan x := ofFloat (toFloat x).tan
  acos x := ofFloat (toFloat x).acos
  asin x := ofFloat (toFloat x).asin
  atan x := ofFloat (toFloat x).atan
  atan2 y x := ofFloat (Float.atan2 (toFloat y) (toFloat x))

instance : Inhabited F64 := ⟨.nan⟩

/-- Correctly rounded value of a decimal numeral with an optional exponent. -/
def parse (s : String) : F64 :=
  let neg := s.startsWith "-"
  let s := if neg || s.startsWith "+" then (s.drop 1).toString else s
  let (m, e) := match (s.replace "e" "E").splitOn "E" with
    | [m, e] => (m, (if e.startsWith "+" then (e.drop 1).toString else e).toInt!)
    | _ => (s, 0)
  let (a, b) := match m.splitOn "." with
    | [a, b] => (a, b)
    | _ => (m, "")
  let n := ((a ++ b).toNat!)
  let e := e - b.length
  if e ≥ 0 then .ofQuot neg (n * 10 ^ e.toNat * UN) 1 else .ofQuot neg (n * UN) (10 ^ (-e).toNat)

def diff (a b : F64) : Float := (toFloat a - toFloat b).abs

def entries (m : Mat3 F64) : List F64 := [m.r0.x, m.r0.y, m.r0.z, m.r1.x, m.r1.y, m.r1.z, m.r2.x, m.r2.y, m.r2.z]

def mat (a : Array F64) (i : Nat) : Mat3 F64 :=
  ⟨⟨a[i]!, a[i+1]!, a[i+2]!⟩, ⟨a[i+3]!, a[i+4]!, a[i+5]!⟩, ⟨a[i+6]!, a[i+7]!, a[i+8]!⟩⟩

/-- Runs `f` on every line; reports the largest difference from the numbers from position `i` on. -/
def check (dir name : String) (limit i : Nat) (tol : Float) (f : Array F64 → List F64) : IO Bool := do
  let lines := (← IO.FS.lines (dir ++ "/" ++ name ++ ".txt")).toList.take limit
  let mut worst : Float := 0
  let mut bad := 0
  for l in lines do
    let a := ((l.splitOn " ").map parse).toArray
    let got := f a
    if got.length + i != a.size then throw (IO.userError s!"{name}: {got.length} + {i} ≠ {a.size}")
    let mut e : Float := 0
    for (g, k) in got.zipIdx do
      let d := diff g a[i + k]!
      if d > e || d.isNaN then e := d
    if e > worst || e.isNaN then worst := e
    if !(e ≤ tol) then bad := bad + 1
  IO.println s!"{name}: {lines.length} entries, largest difference {worst * 4503599627370496} * 2^-52, {bad} above {tol * 4503599627370496} * 2^-52"
  (← IO.getStdout).flush
  return bad == 0

/-- Pseudo-random numbers of `[0, 1)`. -/
def rand (seed : Nat) : F64 × Nat :=
  let s := (6364136223846793005 * seed + 1442695040888963407) % 2 ^ 64
  (ofFloat ((s >>> 11).toFloat / 9007199254740992), s)

def say (name : String) (ok : Bool) : IO Bool := do
  IO.println s!"{name}: {if ok then "ok" else "FAILED"}"
  return ok

/-- The checks of `tests.rs` that have no table, with our own random numbers and fewer repetitions. -/
def others (n : Nat) : IO Bool := do
  let tol : Float := Float.sqrt (1 / 4503599627370496)
  let some conv := (EllipsoidConverter.new (WGS84 : Ellipsoid F64)).toOption | return false
  let mut seed := 1
  let mut worst : Float := 0
  for _ in [0:n] do
    let (a, s1) := rand seed
    let (b, s2) := rand s1
    let (c, s3) := rand s2
    seed := s3
    let gd : Geodetic F64 := ⟨(Arith.lit (-180) +. Arith.lit 360 *. a) *. DEGREE, (Arith.lit (-90) +. Arith.lit 90 *. b) *. DEGREE,
      Arith.lit 10000 *. c⟩
    let some gc := (conv.geodeticToGeocentric gd).toOption | return false
    let g2 := conv.geocentricToGeodetic gc
    let e := diff gd.elong g2.elong + diff gd.phi g2.phi + diff gd.height g2.height
    if !(e ≤ worst) then worst := e
  let r1 ← say s!"test_ellipsoid, {n} points, largest difference {worst * 1e9} * 1e-9" (worst ≤ tol)
  let disp := Geodetic.display .checked (⟨parse "123.456789" *. DEGREE, parse "22.654321" *. DEGREE, parse "33333.333"⟩ : Geodetic F64)
  let r2 ← say "test_geodetic_display" (match disp with
    | .ok l => String.ofList l == "+22.654321,+123.456789,+33333.33" | _ => false)
  let julian (y m d : Int) : F64 × F64 := match GregorianDate.toJulian .checked ⟨y, m, d⟩ with | .ok r => r | _ => (.nan, .nan)
  let r3 ← say "test_calendar (1)" (let r := julian 1957 10 4
    diff ((r.1 +. r.2) +. parse "0.81") (parse "2436116.31") < tol)
  let mut r4 := true
  for (jd, y, mo, d, h, mi) in [("2460623.50", (2024 : Int), (11 : Int), (9 : Int), (0 : Int), (0 : Int)), ("2433282.623611111", 1950, 1, 1, 2, 58)] do
    let f := (⟨h, mi, Arith.lit 0⟩ : HMS F64).toFractionOfDay
    let r := julian y mo d
    r4 := r4 && diff ((r.1 +. r.2) +. f) (parse jd) < tol
    r4 := r4 && match GregorianDate.fromJulian .checked r.1 (r.2 +. f) with
      | .ok (.ok (g, f2)) => g.year == y && g.month == mo && g.day == d && (match HMS.fromFractionOfDay f2 with
        | .ok t => t.hour == h && t.minute == mi && (toFloat t.second).abs < 100 * tol
        | _ => false)
      | _ => false
  r4 ← say "test_calendar (2)-(4)" r4
  let mut r5 := true
  for _ in [0:n] do
    let (a, s1) := rand seed
    let (f, s2) := rand s1
    seed := s2
    let dj := Arith.floor (GregorianDate.DJ_MIN +. ((GregorianDate.MJD_ZERO +. Arith.lit 36500) *. a)) +. Arith.lit 0.5
    r5 := r5 && match GregorianDate.fromJulian .checked dj f with
      | .ok (.ok (g, f2)) => let r := julian g.year g.month g.day; diff (dj +. f) ((r.1 +. r.2) +. f2) < tol
      | _ => false
  r5 ← say s!"test_calendar (random), {n} dates" r5
  let mut r6 := true
  for _ in [0:n] do
    let (f, s1) := rand seed
    seed := s1
    r6 := r6 && match HMS.fromFractionOfDay f with
      | .ok t => t.hour < 24 && t.minute < 60 && 0 ≤ toFloat t.second && toFloat t.second < 60 &&
          diff f t.toFractionOfDay ≤ 1 / 4503599627370496
      | _ => false
  r6 ← say s!"test_hms, {n} fractions" r6
  let r7 ← say "test_delta_at" (match deltaAt .checked ⟨2007, 4, 5⟩ (parse "0.5") with
    | .ok (.ok (some x)) => toFloat x == 33 | _ => false)
  -- the values published with the original routine (t_sofa_f, EPV00), which tests.rs does not have
  let r8 ← say "EPV00" (match EarthPosVel.fromTDB (parse "2400000.5", parse "53411.52501161") with
    | .ok e => (e.heliocentric.p.x, e.heliocentric.p.y, e.heliocentric.p.z) |> fun (x, y, z) =>
        [(x, "-0.7757238809297706813"), (y, "0.5598052241363340596"), (z, "0.2426998466481686993"),
         (e.heliocentric.v.x, "-0.1091891824147313846e-1"), (e.heliocentric.v.y, "-0.1247187268440845008e-1"),
         (e.heliocentric.v.z, "-0.5407569418065039061e-2"), (e.barycentric.p.x, "-0.7714104440491111971"),
         (e.barycentric.p.y, "0.5598412061824171323"), (e.barycentric.p.z, "0.2425996277722452400"),
         (e.barycentric.v.x, "-0.1091874268116823295e-1"), (e.barycentric.v.y, "-0.1246525461732861538e-1"),
         (e.barycentric.v.z, "-0.5404773180966231279e-2")].all fun (a, b) => diff a (parse b) < 1e-14
    | _ => false)
  return r1 && r2 && r3 && r4 && r5 && r6 && r7 && r8

def main (args : List String) : IO UInt32 := do
  let dir := args[0]!
  let n := (args[1]?.bind String.toNat?).getD 1000000
  let eps : Float := 1 / 4503599627370496
  let c := check dir
  let zero : F64 := Arith.lit 0
  let rs ← [
    c "POM00" n 3 eps fun a => entries (polarMotionMatrix a[0]! a[1]! a[2]!),
    c "NUT00B" n 2 eps fun a => let r := nutation (a[0]!, a[1]!); [r.1, r.2],
    c "NUMAT" n 3 eps fun a => entries (nutationMatrix a[0]! a[1]! a[2]!),
    c "BP00" n 2 eps fun a => let (rb, rp, rbp) := biasAndPrecession (a[0]!, a[1]!); entries rb ++ entries rp ++ entries rbp,
    c "ERA00" n 2 eps fun a => [rotationAngle (a[0]!, a[1]!)],
    c "PR00" n 2 eps fun a => let r := precessionRate (a[0]!, a[1]!); [r.1, r.2],
    c "PNM00B" n 2 (2 * eps) fun a => entries (precessionNutation (a[0]!, a[1]!)),
    c "C2I00B" n 2 eps fun a => entries (celestialToIntermediate (a[0]!, a[1]!)),
    c "C2TCIO" n 19 eps fun a => entries (celestialToTerrestrialFromCio (mat a 0) a[9]! (mat a 10)),
    c "S00" n 4 eps fun a => [cio (a[0]!, a[1]!) a[2]! a[3]!],
    c "C2T00B" n 8 eps fun a =>
      let tt := (a[0]!, a[1]!)
      let ut1 := UT1.fromTT tt a[5]!
      let tdb := TDB.fromTT tt a[2]!
      if diff tdb.1 a[3]! > eps || diff tdb.2 a[4]! > eps || diff ut1.1 a[6]! > eps || diff ut1.2 a[7]! > eps then
        List.replicate 9 .nan
      else entries (celestialToTerrestrial tt ut1 zero zero)].mapM id
  let o ← others (min n 1000)
  match sunAngleToolText .checked ⟨none, none, none, none, none, none, none, none, none, some zero, none, none, false⟩ 2 with
  | some r => IO.println (String.ofList r.text)
  | none => return 1
  return if rs.all id && o then 0 else 1
