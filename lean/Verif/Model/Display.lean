import Verif.Model.Calendar

/-!
# Model of the `Display` implementations of `calendar.rs`

A formatted string is a list of (ASCII) characters.  Rust's integer formatting `{:0w}` prints the sign,
then pads the digits with zeros to the width.  Float formatting with a precision prints the exact decimal
expansion rounded half-even to that number of digits (std's exact mode).
-/

namespace Verif
open F64

/-- Decimal digits of a natural number. -/
def dec (n : ℕ) : List Char := Nat.toDigits 10 n

/-- Left padding with `'0'` to width `w`. -/
def padLeft (w : ℕ) (l : List Char) : List Char := List.replicate (w - l.length) '0' ++ l

/-- Rust `{:0w}` on an integer. -/
def fmtInt (w : ℕ) (z : ℤ) : List Char :=
  if z < 0 then '-' :: padLeft (w - 1) (dec z.natAbs) else padLeft w (dec z.natAbs)

/-- calendar.rs:131-135, `{:04}-{:02}-{:02}`. -/
def GregorianDate.display (d : GregorianDate) : List Char :=
  fmtInt 4 d.year ++ '-' :: (fmtInt 2 d.month ++ '-' :: fmtInt 2 d.day)

/-- `n` units of `2^-1074` with `prec > 0` decimals. -/
def fixedMag (prec n : ℕ) : List Char :=
  let k := rhe (n * 10 ^ prec) UN
  dec (k / 10 ^ prec) ++ '.' :: padLeft prec (dec (k % 10 ^ prec))

/-- Rust `{:0>w.prec}` on an `f64`: fill character `0`, right aligned, not sign-aware. -/
def fmtFill (w prec : ℕ) : F64 → List Char
  | nan => padLeft w ['N', 'a', 'N']
  | inf s => padLeft w ((if s then ['-'] else []) ++ ['i', 'n', 'f'])
  | fin s n _ => padLeft w ((if s then ['-'] else []) ++ fixedMag prec n)

/-- calendar.rs:177-181, `{:02}:{:02}:{:0>9.6}`. -/
def HMS.display (h : HMS F64) : List Char :=
  fmtInt 2 h.hour ++ ':' :: (fmtInt 2 h.minute ++ ':' :: fmtFill 9 6 h.second)

/-- calendar.rs:183-187, `{} {}`. -/
def GregorianDateHMS.display (x : GregorianDateHMS F64) : List Char :=
  x.date.display ++ ' ' :: x.hms.display

end Verif
