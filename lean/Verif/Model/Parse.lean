import Verif.Model.Format
import Mathlib.Data.Int.Log
import Mathlib.Algebra.Order.Floor.Semiring

/-!
# Model of `str::parse` on `i32`, `u8` and `f64`, and of `{}` on an `f64`

These are functions of the Rust standard library (`core::num`, `core::num::dec2flt`, `core::fmt::float`) that the tools call
through `pico_args` and `println!`.  Strings are lists of characters.

`f64::from_str` is documented to return the nearest `f64`; its result is written here as the correctly rounded quotient.
Its scanner is followed step by step, including that an exponent stops growing once it has reached 65536.
-/

namespace Verif
open F64

/-- An ASCII digit. -/
def isDigit (c : Char) : Bool := '0' ≤ c && c ≤ '9'

/-- Digits in base ten. -/
def digitsVal (l : List Char) : ℕ := l.foldl (fun a c => 10 * a + (c.toNat - 48)) 0

/-- An optional sign (is it a minus?) and the rest. -/
def takeSign : List Char → Bool × List Char
  | '-' :: r => (true, r)
  | '+' :: r => (false, r)
  | r => (false, r)

/-- `i32::from_str`: optional sign, digits, range check. -/
def parseI32 (l : List Char) : Option ℤ :=
  let neg := (takeSign l).1
  let r := (takeSign l).2
  if r ≠ [] ∧ r.all isDigit then
    let z : ℤ := if neg then -(digitsVal r : ℤ) else digitsVal r
    if -2 ^ 31 ≤ z ∧ z < 2 ^ 31 then some z else none
  else none

/-- An optional plus sign is dropped. -/
def dropPlus : List Char → List Char
  | '+' :: r => r
  | r => r

/-- `u8::from_str`: optional `+`, digits, range check. -/
def parseU8 (l : List Char) : Option ℤ :=
  let r := dropPlus l
  if r ≠ [] ∧ r.all isDigit then
    if digitsVal r < 256 then some (digitsVal r) else none
  else none

/-- `m * 10^e`, correctly rounded. -/
def ofDec (neg : Bool) (m : ℕ) (e : ℤ) : F64 :=
  if 0 ≤ e then ofQuot neg (m * 10 ^ e.toNat * UN) 1 else ofQuot neg (m * UN) (10 ^ (-e).toNat)

/-- The digits of an exponent; it stops growing at 65536. -/
def expVal (l : List Char) : ℕ := l.foldl (fun a c => if a < 65536 then 10 * a + (c.toNat - 48) else a) 0

/-- The part after `e`. -/
def parseExp (l : List Char) : Option ℤ :=
  let neg := (takeSign l).1
  let r := (takeSign l).2
  if r ≠ [] ∧ r.all isDigit then some (if neg then -(expVal r : ℤ) else expVal r) else none

/-- Digits, an optional point with digits, an optional exponent; at least one digit before the exponent. -/
def parseNumber (l : List Char) : Option (ℕ × ℤ) :=
  let i := l.takeWhile isDigit
  let r := l.dropWhile isDigit
  let (f, r) := match r with
    | '.' :: t => (t.takeWhile isDigit, t.dropWhile isDigit)
    | _ => ([], r)
  if i = [] ∧ f = [] then none else
  match r with
  | [] => some (digitsVal (i ++ f), -(f.length : ℤ))
  | c :: t => if c = 'e' ∨ c = 'E' then (parseExp t).map fun k => (digitsVal (i ++ f), k - f.length) else none

/-- `f64::from_str`. -/
def parseF64 (l : List Char) : Option F64 :=
  let neg := (takeSign l).1
  let r := (takeSign l).2
  match parseNumber r with
  | some (m, e) => some (ofDec neg m e)
  | none =>
    let w := r.map Char.toLower
    if w = "inf".toList ∨ w = "infinity".toList then some (inf neg)
    else if w = "nan".toList then some nan
    else none

/-! ## The shortest digits that read back -/

/-- Does `m * 10^e` round to `n` units of `2^-1074`? -/
def ReadsBack (n m : ℕ) (e : ℤ) : Prop :=
  (if 0 ≤ e then rndMag (m * 10 ^ e.toNat * UN) 1 else rndMag (m * UN) (10 ^ (-e).toNat)) = n

instance (n m : ℕ) (e : ℤ) : Decidable (ReadsBack n m e) := inferInstanceAs (Decidable (_ = _))

/-- The exponent of the last of `k` significant digits of `n` units. -/
def lastExp (n k : ℕ) : ℤ := Int.log 10 ((n : ℚ) / U) - k + 1

/-- `n` units in units of that digit. -/
def inUnits (n k : ℕ) : ℚ := (n : ℚ) / U / 10 ^ lastExp n k

/-- One of the two neighbours with `k` significant digits reads back. -/
def Enough (n k : ℕ) : Prop :=
  1 ≤ k ∧ (ReadsBack n ⌊inUnits n k⌋₊ (lastExp n k) ∨ ReadsBack n (⌊inUnits n k⌋₊ + 1) (lastExp n k))

instance (n : ℕ) : DecidablePred (Enough n) := fun _ => inferInstanceAs (Decidable (_ ∧ _))

/-- The digits and the exponent for a number of digits: the nearest of the neighbours that read back, the upper one if they
are equally near; a last digit of zero is dropped. -/
def digitsAt (n k : ℕ) : ℕ × ℤ :=
  let a := ⌊inUnits n k⌋₊
  let e := lastExp n k
  let m := if ReadsBack n a e ∧ (¬ReadsBack n (a + 1) e ∨ inUnits n k - a < 1 / 2) then a else a + 1
  if m % 10 = 0 then (m / 10, e + 1) else (m, e)

/-- `m * 10^e` written out without an exponent. -/
def plainText (m : ℕ) (e : ℤ) : List Char :=
  if 0 ≤ e then dec (m * 10 ^ e.toNat)
  else dec (m / 10 ^ (-e).toNat) ++ '.' :: padLeft (-e).toNat (dec (m % 10 ^ (-e).toNat))

/-- With enough digits the expansion is exact. -/
theorem enough_exists {n : ℕ} (h : RepNat n) : ∃ k, Enough n k := by
  obtain ⟨D, hD⟩ : ∃ D : ℕ, D = 1074 := ⟨_, rfl⟩
  refine ⟨(Int.log 10 ((n : ℚ) / U) + 1 + D).toNat + 1, by omega, Or.inl ?_⟩
  generalize hk : (Int.log 10 ((n : ℚ) / U) + 1 + D).toNat + 1 = k
  obtain ⟨r, hr⟩ : ∃ r : ℕ, lastExp n k = -((D + r : ℕ) : ℤ) := by
    refine ⟨(-lastExp n k - D).toNat, ?_⟩
    unfold lastExp
    push_cast
    omega
  have hU : U = (2 : ℚ) ^ D := by
    have := UN_eq_pow D hD
    show (UN : ℚ) = _
    rw [this]; push_cast; rfl
  have hi : inUnits n k = ((n * 5 ^ D * 10 ^ r : ℕ) : ℚ) := by
    unfold inUnits
    rw [hr, hU, zpow_neg, zpow_natCast, div_inv_eq_mul, pow_add]
    push_cast
    have : (10 : ℚ) ^ D = 2 ^ D * 5 ^ D := by rw [← mul_pow]; norm_num
    rw [this]
    field_simp
  rw [hi, Nat.floor_natCast, hr]
  unfold ReadsBack
  have e2 : (- -((D + r : ℕ) : ℤ)).toNat = D + r := by omega
  rw [if_neg (by omega), e2]
  have e3 : n * 5 ^ D * 10 ^ r * UN = n * 10 ^ (D + r) := by
    rw [UN_eq_pow D hD, pow_add]
    have : 10 ^ D = 2 ^ D * 5 ^ D := (mul_pow 2 5 D)
    rw [this]; ring
  rw [e3]
  exact rndMag_exact n _ (by positivity) h

/-- The number of digits printed. -/
def digitCount {n : ℕ} (h : RepNat n) : ℕ := Nat.find (enough_exists h)

/-- Rust `{}` on an `f64`: the fewest significant digits that read back, the nearest of these, written without an
exponent. -/
def shortest : F64 → List Char
  | nan => ['N', 'a', 'N']
  | inf s => fmtSign false s ++ ['i', 'n', 'f']
  | fin s n h => fmtSign false s ++
    (if n = 0 then ['0'] else plainText (digitsAt n (digitCount h.1)).1 (digitsAt n (digitCount h.1)).2)

end Verif
