import Mathlib.Data.Rat.Defs
import Mathlib.Algebra.Order.Ring.Rat

/-!
# Reading decimal numerals (specification)
-/

namespace Verif.Spec

/-- The value of a decimal digit. -/
def digit? (c : Char) : Option ℕ := if '0' ≤ c ∧ c ≤ '9' then some (c.toNat - '0'.toNat) else none

/-- A nonempty string of digits as a number. -/
def readNat (l : List Char) : Option ℕ :=
  if l = [] then none else l.foldl (fun acc c => acc.bind fun a => (digit? c).map fun d => 10 * a + d) (some 0)

/-- Digits, with an optional point followed by digits. -/
def readMag (l : List Char) : Option ℚ :=
  match l.takeWhile (· != '.'), l.dropWhile (· != '.') with
  | a, [] => (readNat a).map fun (n : ℕ) => (n : ℚ)
  | a, _ :: f => (readNat a).bind fun (n : ℕ) => (readNat f).map fun (m : ℕ) => (n : ℚ) + (m : ℚ) / 10 ^ f.length

/-- A decimal numeral: optional leading spaces, optional sign, digits, optional fraction. -/
def readDec (l : List Char) : Option ℚ :=
  match l.dropWhile (· == ' ') with
  | '-' :: r => (readMag r).map fun x => -x
  | '+' :: r => readMag r
  | r => readMag r

end Verif.Spec
