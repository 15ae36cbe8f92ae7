import Verif.Model.Parse

/-!
# Model of the command lines of the tools

`examples/julian_tool.rs`, `examples/sun_angle_tool.rs` from the argument list on, with the part of `pico_args` 0.5 (default
features) that they use: `subcommand`, `value_from_str`, `opt_value_from_str`, `contains`, `finish`.  An argument is a list of
characters; arguments that are not UTF-8 are left out.
-/

namespace Verif
open F64 Arith

/-- The arguments not yet used. -/
abbrev Args := List (List Char)

/-- Errors that end a tool before it prints anything. -/
inductive UsageError where
  /-- `MissingOption` -/
  | missing (key : List Char)
  /-- `OptionWithoutAValue` -/
  | noValue (key : List Char)
  /-- `Utf8ArgumentParsingFailed` -/
  | badValue (value : List Char)
  /-- `bail!` on arguments that nobody asked for -/
  | extra
  /-- `bail!` on the subcommand -/
  | subcommand
  deriving DecidableEq

/-- The arguments before and after the first one equal to `key`. -/
def splitKey (key : List Char) : Args → Option (Args × Args)
  | [] => none
  | x :: r => if x = key then some ([], r) else (splitKey key r).map fun s => (x :: s.1, s.2)

/-- A computation that uses up arguments and may fail. -/
abbrev Cli := StateT Args (Except UsageError)

/-- `pico_args::Arguments::opt_value_from_str`: the argument after the first one equal to the key; both are removed. -/
def optValue {β : Type} (parse : List Char → Option β) (key : String) : Cli (Option β) := fun a =>
  match splitKey key.toList a with
  | none => .ok (none, a)
  | some (_, []) => .error (.noValue key.toList)
  | some (b, v :: r) =>
    match parse v with
    | none => .error (.badValue v)
    | some y => .ok (some y, b ++ r)

/-- `pico_args::Arguments::value_from_str`. -/
def reqValue {β : Type} (parse : List Char → Option β) (key : String) : Cli β := do
  match ← optValue parse key with
  | none => throw (.missing key.toList)
  | some y => return y

/-- `pico_args::Arguments::contains`: removes the first occurrence. -/
def hasFlag (key : String) : Cli Bool := fun a =>
  match splitKey key.toList a with
  | none => .ok (false, a)
  | some (b, r) => .ok (true, b ++ r)

/-- `if !args.finish().is_empty() { bail!(..) }`. -/
def finish : Cli Unit := fun a => if a = [] then .ok ((), a) else .error .extra

/-- The arguments of `julian_tool gregorian`. -/
structure GregorianArgs where
  year : ℤ
  month : ℤ
  day : ℤ
  hour : Option ℤ
  minute : Option ℤ
  second : Option F64

/-- julian_tool.rs:7-12.  What is left over is not looked at. -/
def gregorianArgs : Cli GregorianArgs := do
  let year ← reqValue parseI32 "--year"
  let month ← reqValue parseI32 "--month"
  let day ← reqValue parseI32 "--day"
  let hour ← optValue parseU8 "--hour"
  let minute ← optValue parseU8 "--minute"
  let second ← optValue parseF64 "--second"
  return ⟨year, month, day, hour, minute, second⟩

/-- julian_tool.rs:25-29. -/
def julianArgs : Cli (F64 × Option F64) := do
  let jd1 ← reqValue parseF64 "--jd"
  let jd2 ← optValue parseF64 "--jd2"
  finish
  return (jd1, jd2)

/-- `pico_args::Arguments::subcommand`: the first argument, unless it starts with a dash. -/
def subcommand : Args → Option (List Char) × Args
  | [] => (none, [])
  | x :: r => if x.head? = some '-' then (none, x :: r) else (some x, r)

/-- julian_tool.rs:39-47, the whole program: an error before anything is printed, or a run. -/
def julianToolMain (p : Profile) (args : Args) : Except UsageError Run :=
  match subcommand args with
  | (some c, r) =>
    if c = "gregorian".toList ∨ c = "g".toList then
      (gregorianArgs.run r).map fun s => julianToolGregorian p s.1.year s.1.month s.1.day s.1.hour s.1.minute s.1.second
    else if c = "julian".toList ∨ c = "j".toList then
      (julianArgs.run r).map fun s => julianToolJulian shortest p s.1.1 s.1.2
    else .error .subcommand
  | (none, _) => .error .subcommand

/-- sun_angle_tool.rs:17-34. -/
def sunAngleArgs : Cli (ToolArgs F64) := do
  let year ← optValue parseI32 "--year"
  let month ← optValue parseI32 "--month"
  let day ← optValue parseI32 "--day"
  let hour ← optValue parseU8 "--hour"
  let minute ← optValue parseU8 "--min"
  let second ← optValue parseF64 "--sec"
  let lat ← optValue parseF64 "--lat"
  let lon ← optValue parseF64 "--lon"
  let height ← optValue parseF64 "--height"
  let delta0 ← optValue parseF64 "--delta0"
  let delta1 ← optValue parseF64 "--delta1"
  let delta_step ← optValue parseF64 "--delta_step"
  let scan ← hasFlag "--scan"
  finish
  return ⟨year, month, day, hour, minute, second, lat, lon, height, delta0, delta1, delta_step, scan⟩

/-- sun_angle_tool.rs:14-71, the whole program; `none` inside: still running after `fuel` tests of the loop condition. -/
def sunAngleToolMain [Libm F64] (p : Profile) (args : Args) (fuel : ℕ) : Except UsageError (Option Run) :=
  (sunAngleArgs.run args).map fun s => sunAngleToolText p s.1 fuel

end Verif
