import Verif.Model.Calendar
import Verif.Model.DeltaAt
import Verif.Model.Earth
import Verif.Model.Frames
import Verif.Model.Ellipsoid

/-!
# Model of `crates/tofas_extras/src/sun_angle.rs` and of `examples/sun_angle_tool.rs`

`expect` on an `Err` is the panic `.unwrap`.
-/

namespace Verif
open Arith

/-- sun_angle.rs:14-18. -/
structure SunAngleParameters (α : Type) where
  date : GregorianDate
  time : HMS α
  position : Geodetic360 α

/-- sun_angle.rs:42-53. -/
structure SunAngleCalculator (α : Type) where
  jd0 : α
  jd1_date : α
  dat : α
  fr : α
  dut1 : α
  dtr : α
  xp : α
  yp : α
  p : Vec3 α
  zen : Vec3 α

/-- sun_angle.rs:62-76. -/
structure SunAngleResult (α : Type) where
  jd0 : α
  jd1 : α
  delta_s : α
  p : Vec3 α
  utc : α × α
  dat : α
  tai : α × α
  tt : α × α
  ut1 : α × α
  era : α
  earth : Vec3 α
  sun_e : Vec3 α
  sza : α

variable {α : Type} [Arith α]

/-- sun_angle.rs:20-40. -/
def SunAngleParameters.default : SunAngleParameters α :=
  ⟨⟨2007, 4, 5⟩, ⟨0, 0, lit 0⟩, { height := lit 0, lat := lit 0, lon := lit (-120) }⟩

/-- `.expect(..)` on a `Result`. -/
def expect {ε β : Type} : Except ε β → Rust β
  | .ok b => .ok b
  | .error _ => .error .unwrap

variable [Libm α]

namespace SunAngleCalculator

/-- sun_angle.rs:113-150. -/
def new (p : Profile) (q : SunAngleParameters α) : Rust (SunAngleCalculator α) := do
  let dtr := lit 0
  let xp := lit 0.0349282 *. AS2R
  let yp := lit 0.4833163 *. AS2R
  let dut1 := lit (-0.072073685)
  let fr := q.time.toFractionOfDay
  let (jd0, jd1_date) ← q.date.toJulian p
  let dat := (← expect (← deltaAt p q.date fr)).getD (lit 0)
  let wgs84 ← expect (EllipsoidConverter.new WGS84)
  let p_gd := Geodetic.from360 q.position
  let pos ← expect (wgs84.geodeticToGeocentric p_gd)
  let zen := p_gd.zenith
  return { jd0, jd1_date, fr, dat, dut1, dtr, xp, yp, p := pos, zen }

/-- sun_angle.rs:152-203. -/
def compute (c : SunAngleCalculator α) (delta_s : α) : Rust (SunAngleResult α) := do
  let fr := c.fr +. delta_s /. lit 86400
  let jd1 := c.jd1_date +. fr
  let utc := (c.jd0, jd1)
  let tai := TAI.fromUTC utc c.dat
  let tt := TT.fromTAI tai
  let ut1 := (c.jd0, jd1 +. c.dut1 /. lit 86400)
  let era := rotationAngle ut1
  let tdb := TDB.fromTT tt c.dtr
  let epv ← EarthPosVel.fromTDB tdb
  let c2t := celestialToTerrestrial tt ut1 c.xp c.yp
  let earth := epv.heliocentric.p
  let sun := earth.neg.scale AUM
  let sun_e := c2t.transpose.apply sun
  let sza := c.zen.angle sun_e
  return { jd0 := c.jd0, jd1, delta_s, p := c.p, utc, dat := c.dat, tt, tai, ut1, era, earth, sun_e, sza }

end SunAngleCalculator

/-! ## The tool -/

/-- The command line of `sun_angle_tool` after parsing (sun_angle_tool.rs:17-31); `none` is an absent option.
The parsing itself is in `Verif.Model.Args` and `Verif.Model.Parse`. -/
structure ToolArgs (α : Type) where
  year : Option ℤ
  month : Option ℤ
  day : Option ℤ
  hour : Option ℤ
  minute : Option ℤ
  second : Option α
  lat : Option α
  lon : Option α
  height : Option α
  delta0 : Option α
  delta1 : Option α
  delta_step : Option α
  scan : Bool

/-- The `while` loop sun_angle_tool.rs:53-68 on an arbitrary body, run for at most `fuel` tests of the
condition.  `none`: still running.  Otherwise the values the body produced, in order, or its panic. -/
def whileLoop {β : Type} (body : α → Rust β) (delta1 step : α) (scan : Bool) : ℕ → α → Option (Rust (List β))
  | 0, _ => none
  | fuel + 1, delta =>
    if delta <=. delta1 then
      match body delta with
      | .error e => some (.error e)
      | .ok r =>
        if !scan then some (.ok [r])
        else (whileLoop body delta1 step scan fuel (delta +. step)).map fun l => l.map (r :: ·)
    else some (.ok [])

/-- How the tool ends: the error of `GregorianDate::new`, or the values printed. -/
inductive ToolOutcome (β : Type) where
  | badDate (e : CalendarError)
  | results (l : List β)

/-- sun_angle_tool.rs:36-70. -/
def sunAngleTool (p : Profile) (a : ToolArgs α) (fuel : ℕ) : Option (Rust (ToolOutcome (SunAngleResult α))) :=
  match GregorianDate.new (a.year.getD 2007) (a.month.getD 4) (a.day.getD 5) with
  | .error e => some (.ok (.badDate e))
  | .ok date =>
    match SunAngleCalculator.new p ⟨date, ⟨a.hour.getD 0, a.minute.getD 0, a.second.getD (lit 0)⟩,
        { lat := a.lat.getD (lit 0), lon := a.lon.getD (lit (-120)), height := a.height.getD (lit 0) }⟩ with
    | .error e => some (.error e)
    | .ok cal =>
      (whileLoop cal.compute (a.delta1.getD (lit 600)) (a.delta_step.getD (lit 60)) a.scan fuel
        (a.delta0.getD (lit (-600)))).map fun l => l.map .results

end Verif
