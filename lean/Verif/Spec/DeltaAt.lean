import Mathlib.Data.Rat.Defs
import Mathlib.Tactic.NormNum

/-!
# TAI - UTC (specification)

The published steps and drifts of TAI - UTC: from the first day of the given month,
`TAI - UTC = offset + (MJD - origin) * rate` seconds (rate 0 from 1972 on).
-/

namespace Verif.Spec

/-- One published step. -/
structure Step where
  year : ℤ
  month : ℤ
  offset : ℚ
  origin : ℚ
  rate : ℚ
  deriving DecidableEq

/-- Months counted from year 0. -/
def monthNo (y m : ℤ) : ℤ := 12 * y + m

/-- The published table. -/
def steps : List Step := [
  ⟨1960, 1, 1.417818, 37300.0, 0.001296⟩,
  ⟨1961, 1, 1.422818, 37300.0, 0.001296⟩,
  ⟨1961, 8, 1.372818, 37300.0, 0.001296⟩,
  ⟨1962, 1, 1.845858, 37665.0, 0.0011232⟩,
  ⟨1963, 11, 1.945858, 37665.0, 0.0011232⟩,
  ⟨1964, 1, 3.240130, 38761.0, 0.001296⟩,
  ⟨1964, 4, 3.340130, 38761.0, 0.001296⟩,
  ⟨1964, 9, 3.440130, 38761.0, 0.001296⟩,
  ⟨1965, 1, 3.540130, 38761.0, 0.001296⟩,
  ⟨1965, 3, 3.640130, 38761.0, 0.001296⟩,
  ⟨1965, 7, 3.740130, 38761.0, 0.001296⟩,
  ⟨1965, 9, 3.840130, 38761.0, 0.001296⟩,
  ⟨1966, 1, 4.313170, 39126.0, 0.002592⟩,
  ⟨1968, 2, 4.213170, 39126.0, 0.002592⟩,
  ⟨1972, 1, 10.0, 0, 0⟩,
  ⟨1972, 7, 11.0, 0, 0⟩,
  ⟨1973, 1, 12.0, 0, 0⟩,
  ⟨1974, 1, 13.0, 0, 0⟩,
  ⟨1975, 1, 14.0, 0, 0⟩,
  ⟨1976, 1, 15.0, 0, 0⟩,
  ⟨1977, 1, 16.0, 0, 0⟩,
  ⟨1978, 1, 17.0, 0, 0⟩,
  ⟨1979, 1, 18.0, 0, 0⟩,
  ⟨1980, 1, 19.0, 0, 0⟩,
  ⟨1981, 7, 20.0, 0, 0⟩,
  ⟨1982, 7, 21.0, 0, 0⟩,
  ⟨1983, 7, 22.0, 0, 0⟩,
  ⟨1985, 7, 23.0, 0, 0⟩,
  ⟨1988, 1, 24.0, 0, 0⟩,
  ⟨1990, 1, 25.0, 0, 0⟩,
  ⟨1991, 1, 26.0, 0, 0⟩,
  ⟨1992, 7, 27.0, 0, 0⟩,
  ⟨1993, 7, 28.0, 0, 0⟩,
  ⟨1994, 7, 29.0, 0, 0⟩,
  ⟨1996, 1, 30.0, 0, 0⟩,
  ⟨1997, 7, 31.0, 0, 0⟩,
  ⟨1999, 1, 32.0, 0, 0⟩,
  ⟨2006, 1, 33.0, 0, 0⟩,
  ⟨2009, 1, 34.0, 0, 0⟩,
  ⟨2012, 7, 35.0, 0, 0⟩,
  ⟨2015, 7, 36.0, 0, 0⟩,
  ⟨2017, 1, 37.0, 0, 0⟩
]

/-- `e` is the step in force in month `y`-`m`: the latest one that is not after that month. -/
def InForce (e : Step) (y m : ℤ) : Prop :=
  e ∈ steps ∧ monthNo e.year e.month ≤ monthNo y m ∧
    ∀ e' ∈ steps, monthNo e'.year e'.month ≤ monthNo y m →
      monthNo e'.year e'.month ≤ monthNo e.year e.month

instance (e : Step) (y m : ℤ) : Decidable (InForce e y m) := by unfold InForce; infer_instance

/-- A step takes effect in month `y`-`m`. -/
def HasStep (y m : ℤ) : Prop := ∃ e ∈ steps, monthNo e.year e.month = monthNo y m

instance (y m : ℤ) : Decidable (HasStep y m) := by unfold HasStep; infer_instance

/-- TAI - UTC in seconds at the given Modified Julian Date under step `e`. -/
def Step.value (e : Step) (mjd : ℚ) : ℚ := e.offset + (mjd - e.origin) * e.rate

end Verif.Spec
