import Mathlib.Data.Int.Basic
import Mathlib.Logic.Function.Iterate

/-!
# The proleptic Gregorian calendar (specification)

Independent of the model: leap years, month lengths, and the calendar day that follows a given day.
-/

namespace Verif.Spec

/-- Leap year of the proleptic Gregorian calendar (astronomical year numbering). -/
def Leap (y : ℤ) : Prop := 4 ∣ y ∧ (¬ 100 ∣ y ∨ 400 ∣ y)

instance (y : ℤ) : Decidable (Leap y) := by unfold Leap; infer_instance

/-- Number of days of a month (0 if there is no such month). -/
def monthLen (y m : ℤ) : ℤ :=
  if m = 2 then (if Leap y then 29 else 28)
  else if m = 4 ∨ m = 6 ∨ m = 9 ∨ m = 11 then 30
  else if 1 ≤ m ∧ m ≤ 12 then 31
  else 0

/-- A civil date `(year, month, day)`. -/
abbrev Civil := ℤ × ℤ × ℤ

/-- The date exists. -/
def IsDate (c : Civil) : Prop := 1 ≤ c.2.1 ∧ c.2.1 ≤ 12 ∧ 1 ≤ c.2.2 ∧ c.2.2 ≤ monthLen c.1 c.2.1

instance (c : Civil) : Decidable (IsDate c) := by unfold IsDate; infer_instance

/-- The next calendar day. -/
def next (c : Civil) : Civil :=
  if c.2.2 < monthLen c.1 c.2.1 then (c.1, c.2.1, c.2.2 + 1)
  else if c.2.1 < 12 then (c.1, c.2.1 + 1, 1)
  else (c.1 + 1, 1, 1)

/-- `n` is the signed number of days from `a` to `b`. -/
def DaysFrom (a b : Civil) (n : ℤ) : Prop :=
  (0 ≤ n → next^[n.toNat] a = b) ∧ (n ≤ 0 → next^[(-n).toNat] b = a)

/-- Calendar order: year, then month, then day. -/
def Before (a b : Civil) : Prop :=
  a.1 < b.1 ∨ (a.1 = b.1 ∧ (a.2.1 < b.2.1 ∨ (a.2.1 = b.2.1 ∧ a.2.2 < b.2.2)))

/-- The day with Modified Julian Date 0. -/
def mjdEpoch : Civil := (1858, 11, 17)

end Verif.Spec
