import Mathlib.Data.Int.Basic

/-!
# Halves of the year (specification)
-/

namespace Verif.Spec

/-- From 26 March to 17 September, the month being `m` and the day `d`. -/
def NorthSummer (m d : ℤ) : Prop := (3 < m ∨ (m = 3 ∧ 26 ≤ d)) ∧ (m < 9 ∨ (m = 9 ∧ d ≤ 17))

/-- Up to 15 March or from 28 September on. -/
def NorthWinter (m d : ℤ) : Prop := (m < 3 ∨ (m = 3 ∧ d ≤ 15)) ∨ (9 < m ∨ (m = 9 ∧ 28 ≤ d))

end Verif.Spec
