import Verif.Model.Args

/-!
# Model of the tools as processes

`examples/julian_tool.rs` and `examples/sun_angle_tool.rs` from the arguments that the operating system passes to what is
written to standard output and standard error and the exit status.  Beyond `Model/Args` this has arguments that are not
UTF-8, the reason why a text is not a number, and the texts of all errors:

* `pico_args::Error` as `pico_args` 0.5 displays it;
* `ParseIntError` and `ParseFloatError` of the Rust standard library;
* the errors of `custom_error!` (calendar.rs:4-10);
* the texts of `bail!`;
* the line `Error: …` that the standard library writes for an `anyhow::Error` returned from `main` (none of these errors has a
  source, and `RUST_BACKTRACE` is not set), with exit status 1.

What is written to standard error in a panic is not modelled (a parameter); the status is then 101.  Writing to standard output
does not fail.
-/

namespace Verif
open F64 Arith

/-- An argument: `none` stands for any that is not UTF-8, since no such argument equals the name of an option, and its bytes
are not looked at otherwise. -/
abbrev OsArg := Option (List Char)

/-- `core::num::IntErrorKind` and `core::num::dec2flt::FloatErrorKind`. -/
inductive ParseFail where
  | emptyInt | invalidDigit | tooLarge | tooSmall | emptyFloat | invalidFloat
  deriving DecidableEq

/-- How they are displayed. -/
def ParseFail.text : ParseFail → List Char
  | .emptyInt => "cannot parse integer from empty string".toList
  | .invalidDigit => "invalid digit found in string".toList
  | .tooLarge => "number too large to fit in target type".toList
  | .tooSmall => "number too small to fit in target type".toList
  | .emptyFloat => "cannot parse float from empty string".toList
  | .invalidFloat => "invalid float literal".toList

/-- The loop of `from_str_radix`, with the sign and the bounds of the type: a character that is no digit is found before an
overflow in the same step. -/
def intLoop (neg : Bool) (lo hi : ℤ) : ℤ → List Char → Except ParseFail ℤ
  | acc, [] => .ok acc
  | acc, c :: r =>
    if isDigit c = false then .error .invalidDigit
    else
      let d : ℤ := (c.toNat - 48 : ℕ)
      if neg then
        if 10 * acc < lo ∨ 10 * acc - d < lo then .error .tooSmall else intLoop neg lo hi (10 * acc - d) r
      else
        if hi < 10 * acc ∨ hi < 10 * acc + d then .error .tooLarge else intLoop neg lo hi (10 * acc + d) r

/-- `from_str_radix(src, 10)` of an integer type. -/
def fromStrInt (signed : Bool) (lo hi : ℤ) : List Char → Except ParseFail ℤ
  | [] => .error .emptyInt
  | ['+'] => .error .invalidDigit
  | ['-'] => .error .invalidDigit
  | '+' :: r => intLoop false lo hi 0 r
  | '-' :: r => if signed then intLoop true lo hi 0 r else intLoop false lo hi 0 ('-' :: r)
  | r => intLoop false lo hi 0 r

/-- `i32::from_str`. -/
def fromStrI32 : List Char → Except ParseFail ℤ := fromStrInt true (-2 ^ 31) (2 ^ 31 - 1)

/-- `u8::from_str`. -/
def fromStrU8 : List Char → Except ParseFail ℤ := fromStrInt false 0 255

/-- `f64::from_str`. -/
def fromStrF64 (l : List Char) : Except ParseFail F64 :=
  if l = [] then .error .emptyFloat
  else match parseF64 l with
    | none => .error .invalidFloat
    | some x => .ok x

/-- Errors that end a tool before it prints anything: `pico_args::Error`, and `bail!`. -/
inductive OsError where
  | nonUtf8
  | missing (key : List Char)
  | noValue (key : List Char)
  | parseFailed (value : List Char) (cause : ParseFail)
  | bail (message : List Char)
  deriving DecidableEq

/-- How they are displayed. -/
def OsError.text : OsError → List Char
  | .nonUtf8 => "argument is not a UTF-8 string".toList
  | .missing key => "the '".toList ++ key ++ "' option must be set".toList
  | .noValue key => "the '".toList ++ key ++ "' option doesn't have an associated value".toList
  | .parseFailed v c => "failed to parse '".toList ++ v ++ "': ".toList ++ c.text
  | .bail m => m

/-- calendar.rs:4-10. -/
def CalendarError.text : CalendarError → List Char
  | .badYear => "bad year".toList
  | .badMonth => "bad month".toList
  | .badDay => "bad day".toList
  | .badJulian => "bad Julian day".toList
  | .badFract => "bad fraction of day".toList

/-- The arguments before and after the first one equal to `key`. -/
def osSplit (key : List Char) : List OsArg → Option (List OsArg × List OsArg)
  | [] => none
  | x :: r => if x = some key then some ([], r) else (osSplit key r).map fun s => (x :: s.1, s.2)

/-- A computation that uses up arguments and may fail. -/
abbrev OsCli := StateT (List OsArg) (Except OsError)

/-- `pico_args::Arguments::opt_value_from_str`. -/
def osOpt {β : Type} (parse : List Char → Except ParseFail β) (key : String) : OsCli (Option β) := fun a =>
  match osSplit key.toList a with
  | none => .ok (none, a)
  | some (_, []) => .error (.noValue key.toList)
  | some (_, none :: _) => .error .nonUtf8
  | some (b, some v :: r) =>
    match parse v with
    | .error c => .error (.parseFailed v c)
    | .ok y => .ok (some y, b ++ r)

/-- `pico_args::Arguments::value_from_str`. -/
def osReq {β : Type} (parse : List Char → Except ParseFail β) (key : String) : OsCli β := do
  match ← osOpt parse key with
  | none => throw (.missing key.toList)
  | some y => return y

/-- `pico_args::Arguments::contains`. -/
def osFlag (key : String) : OsCli Bool := fun a =>
  match osSplit key.toList a with
  | none => .ok (false, a)
  | some (b, r) => .ok (true, b ++ r)

/-- `if !args.finish().is_empty() { bail!(message) }`. -/
def osFinish (message : String) : OsCli Unit := fun a => if a = [] then .ok ((), a) else .error (.bail message.toList)

/-- julian_tool.rs:7-12. -/
def osGregorian : OsCli GregorianArgs := do
  let year ← osReq fromStrI32 "--year"
  let month ← osReq fromStrI32 "--month"
  let day ← osReq fromStrI32 "--day"
  let hour ← osOpt fromStrU8 "--hour"
  let minute ← osOpt fromStrU8 "--minute"
  let second ← osOpt fromStrF64 "--second"
  return ⟨year, month, day, hour, minute, second⟩

/-- julian_tool.rs:25-29. -/
def osJulian : OsCli (F64 × Option F64) := do
  let jd1 ← osReq fromStrF64 "--jd"
  let jd2 ← osOpt fromStrF64 "--jd2"
  osFinish "Invalid extra arguments"
  return (jd1, jd2)

/-- sun_angle_tool.rs:17-34. -/
def osSunAngle : OsCli (ToolArgs F64) := do
  let year ← osOpt fromStrI32 "--year"
  let month ← osOpt fromStrI32 "--month"
  let day ← osOpt fromStrI32 "--day"
  let hour ← osOpt fromStrU8 "--hour"
  let minute ← osOpt fromStrU8 "--min"
  let second ← osOpt fromStrF64 "--sec"
  let lat ← osOpt fromStrF64 "--lat"
  let lon ← osOpt fromStrF64 "--lon"
  let height ← osOpt fromStrF64 "--height"
  let delta0 ← osOpt fromStrF64 "--delta0"
  let delta1 ← osOpt fromStrF64 "--delta1"
  let delta_step ← osOpt fromStrF64 "--delta_step"
  let scan ← osFlag "--scan"
  osFinish "Unhandled extra arguments"
  return ⟨year, month, day, hour, minute, second, lat, lon, height, delta0, delta1, delta_step, scan⟩

/-- `pico_args::Arguments::subcommand`: the first argument, unless it starts with a dash. -/
def osSubcommand : List OsArg → Except OsError (Option (List Char) × List OsArg)
  | [] => .ok (none, [])
  | none :: _ => .error .nonUtf8
  | some x :: r => if x.head? = some '-' then .ok (none, some x :: r) else .ok (some x, r)

/-- What is seen of a process that has ended. -/
structure Outcome where
  stdout : List Char
  stderr : List Char
  status : ℕ
  deriving DecidableEq

/-- `main` returned this error. -/
def errorLine (text : List Char) : List Char := "Error: ".toList ++ text ++ ['\n']

/-- The end of a run; `pt` is what a panic writes. -/
def Run.outcome (pt : Panic → List Char) (r : Run) : Outcome :=
  match r.stop with
  | .done => ⟨r.text, [], 0⟩
  | .error e => ⟨r.text, errorLine e.text, 1⟩
  | .panic e => ⟨r.text, pt e, 101⟩

/-- julian_tool.rs:39-47. -/
def julianToolRun (p : Profile) (args : List OsArg) : Except OsError Run := do
  match ← osSubcommand args with
  | (some c, r) =>
    if c = "gregorian".toList ∨ c = "g".toList then
      (osGregorian.run r).map fun s => julianToolGregorian p s.1.year s.1.month s.1.day s.1.hour s.1.minute s.1.second
    else if c = "julian".toList ∨ c = "j".toList then
      (osJulian.run r).map fun s => julianToolJulian shortest p s.1.1 s.1.2
    else .error (.bail "Specify gregorian or julian".toList)
  | (none, _) => .error (.bail "Specify gregorian or julian".toList)

/-- `julian_tool` as a process. -/
def julianToolProcess (pt : Panic → List Char) (p : Profile) (args : List OsArg) : Outcome :=
  match julianToolRun p args with
  | .error e => ⟨[], errorLine e.text, 1⟩
  | .ok r => r.outcome pt

/-- `sun_angle_tool` as a process; `none`: still running after `fuel` tests of the loop condition. -/
def sunAngleToolProcess [Libm F64] (pt : Panic → List Char) (p : Profile) (args : List OsArg) (fuel : ℕ) : Option Outcome :=
  match osSunAngle.run args with
  | .error e => some ⟨[], errorLine e.text, 1⟩
  | .ok s => (sunAngleToolText p s.1 fuel).map (Run.outcome pt)

end Verif
