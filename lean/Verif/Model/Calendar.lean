import Verif.Arith
import Verif.I32

/-!
# Model of `crates/tofas/src/calendar.rs`

`i32` fields are integers; the code only ever holds values in the `i32` range, every operation goes
through `I32.add/sub/mul` with the build profile `p`.  `i32` division and remainder by a positive
constant cannot overflow and are `Int.tdiv`/`Int.tmod`.  `u8` fields are integers, `as u8` is
reduction modulo 256.
-/

namespace Verif
open Arith

/-- calendar.rs:4-10. -/
inductive CalendarError where
  | badYear | badMonth | badDay | badJulian | badFract
  deriving DecidableEq, Repr

/-- calendar.rs:12-17. -/
structure GregorianDate where
  year : ℤ
  month : ℤ
  day : ℤ
  deriving DecidableEq, Repr

/-- calendar.rs:19-24. -/
structure HMS (α : Type) where
  hour : ℤ
  minute : ℤ
  second : α
  deriving DecidableEq

/-- calendar.rs:26-30. -/
structure GregorianDateHMS (α : Type) where
  date : GregorianDate
  hms : HMS α
  deriving DecidableEq

/-- calendar.rs:34. -/
def YEAR_MIN : ℤ := -4799

/-- calendar.rs:37. -/
def MTAB : List ℤ := [31, 28, 31, 30, 31, 30, 31, 31, 30, 31, 30, 31]

namespace GregorianDate

/-- calendar.rs:44-69.  The index `month as usize - 1` is in `0..12` where it is used, so the
out-of-bounds panic cannot happen; `getD` is never given an index outside the table. -/
def new (year month day : ℤ) : Except CalendarError GregorianDate :=
  if year < YEAR_MIN then .error .badYear
  else if month < 1 || month > 12 then .error .badMonth
  else
    let ndays0 := MTAB.getD (month - 1).toNat 0
    let ndays :=
      if month = 2 then
        let n1 := if year.tmod 4 = 0 then 29 else ndays0
        if year.tmod 100 = 0 && year.tmod 400 ≠ 0 then 28 else n1
      else ndays0
    if day < 1 || day > ndays then .error .badDay
    else .ok ⟨year, month, day⟩

/-- calendar.rs:75-81, the integer part of `to_julian` (`djm`). -/
def toJulianDay (p : Profile) (d : GregorianDate) : Rust ℤ := do
  let my := (← I32.sub p d.month 14).tdiv 12
  let iypmy ← I32.add p d.year my
  let a := (← I32.mul p 1461 (← I32.add p iypmy 4800)).tdiv 4
  let b := (← I32.mul p 367
    (← I32.sub p (← I32.sub p d.month 2) (← I32.mul p 12 my))).tdiv 12
  let c := (← I32.mul p 3 ((← I32.add p iypmy 4900).tdiv 100)).tdiv 4
  I32.sub p (← I32.add p (← I32.sub p (← I32.add p a b) c) d.day) 2432076

variable {α : Type} [Arith α]

/-- calendar.rs:32. -/
def MJD_ZERO : α := lit 2400000.5

/-- calendar.rs:35. -/
def DJ_MIN : α := lit (-32000.0)

/-- calendar.rs:36. -/
def DJ_MAX : α := lit 1e9

/-- calendar.rs:74-83. -/
def toJulian (p : Profile) (d : GregorianDate) : Rust (α × α) := do
  let djm ← toJulianDay p d
  return (MJD_ZERO, ofInt djm)

/-- calendar.rs:94-99: the larger component first. -/
def order (dj1 dj2 : α) : α × α := if dj2 <=. dj1 then (dj1, dj2) else (dj2, dj1)

/-- calendar.rs:100-108: the day count `d` (a float) and the fraction `f`. -/
def split (d1 d2 : α) : α × α :=
  let d2 := d2 -. lit 0.5
  let f1 := d1 %. lit 1
  let f2 := d2 %. lit 1
  let f0 := (f1 +. f2) %. lit 1
  let f := if f0 <. lit 0 then f0 +. lit 1 else f0
  let d := (round (d1 -. f1) +. round (d2 -. f2)) +. round ((f1 +. f2) -. f)
  (d, f)

/-- calendar.rs:111-120: Julian day number to civil date. -/
def ofDay (p : Profile) (jd : ℤ) : Rust GregorianDate := do
  let l ← I32.add p jd 68569
  let n := (← I32.mul p 4 l).tdiv 146097
  let l ← I32.sub p l ((← I32.add p (← I32.mul p 146097 n) 3).tdiv 4)
  let i := (← I32.mul p 4000 (← I32.add p l 1)).tdiv 1461001
  let l ← I32.add p (← I32.sub p l ((← I32.mul p 1461 i).tdiv 4)) 31
  let k := (← I32.mul p 80 l).tdiv 2447
  let id ← I32.sub p l ((← I32.mul p 2447 k).tdiv 80)
  let l := k.tdiv 11
  let im ← I32.sub p (← I32.add p k 2) (← I32.mul p 12 l)
  let iy ← I32.add p (← I32.add p (← I32.mul p 100 (← I32.sub p n 49)) i) l
  return ⟨iy, im, id⟩

/-- calendar.rs:88-128. -/
def fromJulian (p : Profile) (dj1 dj2 : α) : Rust (Except CalendarError (GregorianDate × α)) :=
  let dj := dj1 +. dj2
  if dj <. DJ_MIN || DJ_MAX <. dj then .ok (.error .badJulian)
  else do
    let (d1, d2) := order dj1 dj2
    let (d, f) := split d1 d2
    let jd ← I32.add p (castSat (-2147483648) 2147483647 d) 1
    let date ← ofDay p jd
    return .ok (date, f)

end GregorianDate

namespace HMS
variable {α : Type} [Arith α]

/-- `f64::fract` (std): `self - self.trunc()`. -/
def fract (x : α) : α := x -. trunc x

/-- calendar.rs:142-156.  `t` is a `u32`; `as u8` keeps the low 8 bits. -/
def fromFractionOfDay (f : α) : Except CalendarError (HMS α) :=
  if f <. lit 0 || lit 1 <. f then .error .badFract
  else
    let s := lit 86400 *. f
    let t := castSat 0 4294967295 (trunc s)
    .ok ⟨t / 3600 % 256, t % 3600 / 60 % 256, ofInt (t % 60) +. fract s⟩

/-- calendar.rs:158-160. -/
def toFractionOfDay (h : HMS α) : α :=
  (h.second +. lit 60 *. (ofInt h.minute +. lit 60 *. ofInt h.hour)) /. lit 86400

end HMS

namespace GregorianDateHMS
variable {α : Type} [Arith α]

/-- calendar.rs:164-168. -/
def fromJulian (p : Profile) (dj1 dj2 : α) : Rust (Except CalendarError (GregorianDateHMS α)) := do
  match ← GregorianDate.fromJulian p dj1 dj2 with
  | .error e => return .error e
  | .ok (date, fod) =>
    match HMS.fromFractionOfDay fod with
    | .error e => return .error e
    | .ok hms => return .ok ⟨date, hms⟩

/-- calendar.rs:170-174. -/
def toJulian (p : Profile) (x : GregorianDateHMS α) : Rust (α × α) := do
  let (dj1, dj2) ← GregorianDate.toJulian p x.date
  let fod := x.hms.toFractionOfDay
  return (dj1, dj2 +. fod)

end GregorianDateHMS
end Verif
