import Mathlib.Data.Rat.Defs
import Mathlib.Tactic.NormNum

/-!
# Decimal tables
-/

namespace Verif.Epv

/-- A decimal number `m * 10^-e`. -/
structure Dec where
  m : ℤ
  e : ℕ
  deriving DecidableEq

/-- Its value. -/
def Dec.q (d : Dec) : ℚ := d.m / 10 ^ d.e

/-- `[R;3]`. -/
structure Row where
  x : Dec
  y : Dec
  z : Dec
  deriving DecidableEq

/-- Row constructor used in the data files. -/
@[reducible] def row (a : ℤ) (i : ℕ) (b : ℤ) (j : ℕ) (c : ℤ) (k : ℕ) : Row := ⟨⟨a, i⟩, ⟨b, j⟩, ⟨c, k⟩⟩

/-- `[[[R;3];n];3]`. -/
abbrev Table := List (List Row)

end Verif.Epv
