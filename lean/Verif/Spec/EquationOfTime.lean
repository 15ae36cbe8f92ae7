import Verif.Spec.MeanSun

/-!
# The equation of time

The Sun against the meridian at local mean noon.
-/

namespace Verif.Spec

/-- Component of a vector of the frame turning with the Earth towards the east of a place, the longitude being in degrees. -/
noncomputable def eastward (lon : ℝ) (v : Fin 3 → ℝ) : ℝ :=
  -(Real.sin (lon * (Real.pi / 180)) * v 0) + Real.cos (lon * (Real.pi / 180)) * v 1

/-- Component in the meridian plane of the place, away from the axis of the Earth. -/
noncomputable def outward (lon : ℝ) (v : Fin 3 → ℝ) : ℝ :=
  Real.cos (lon * (Real.pi / 180)) * v 0 + Real.sin (lon * (Real.pi / 180)) * v 1

/-- The sundial is slow: from 29 December to 10 April and from 19 June to 27 August. -/
def SundialSlow (m d : ℤ) : Prop :=
  (m = 12 ∧ 29 ≤ d) ∨ m ≤ 3 ∨ (m = 4 ∧ d ≤ 10) ∨ (m = 6 ∧ 19 ≤ d) ∨ m = 7 ∨ (m = 8 ∧ d ≤ 27)

/-- The sundial is fast: from 21 April to 7 June and from 5 September to 21 December. -/
def SundialFast (m d : ℤ) : Prop :=
  (m = 4 ∧ 21 ≤ d) ∨ m = 5 ∨ (m = 6 ∧ d ≤ 7) ∨ (m = 9 ∧ 5 ≤ d) ∨ m = 10 ∨ m = 11 ∨ (m = 12 ∧ d ≤ 21)

end Verif.Spec
