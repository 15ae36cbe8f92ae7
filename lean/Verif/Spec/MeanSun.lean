import Verif.Spec.Rotation
import Mathlib.Data.Matrix.Mul
import Mathlib.Data.Complex.Basic

/-!
# The Sun from mean orbital elements

A low precision Sun in the rotating frame of the Earth, from published elements only.  `n` is the number of days since
2000-01-01 12:00.  The elements of the orbit of the Earth are those of Standish's table of Keplerian elements (JPL, mean
ecliptic and equinox of J2000.0), the orbit is expanded to first order in the eccentricity, the obliquity is the one of
IAU 1976, precession is the rotation of the pole to first order (2004.3109 arcseconds per century), and the rotation angle
of the Earth is the one of IAU 2000.
-/

namespace Verif.Spec
open Real Matrix

/-- Mean longitude of the Earth, in radians. -/
noncomputable def meanLongitude (n : ℝ) : ℝ := (100.46457166 + 35999.37244981 * (n / 36525)) * (π / 180)

/-- Longitude of the perihelion of the Earth, in radians. -/
noncomputable def perihelion : ℝ := 102.93768193 * (π / 180)

/-- Eccentricity of the orbit of the Earth. -/
noncomputable def eccentricity : ℝ := 0.01671123

/-- Obliquity of the ecliptic, in radians. -/
noncomputable def obliquity : ℝ := 84381.448 / 3600 * (π / 180)

/-- Direction from the Sun to the Earth in the plane of the ecliptic, in astronomical units: for an ellipse,
`x = cos L - (3 cos P - cos (2 L - P)) e / 2` up to terms in `e^2`, and the same with sines for `y`. -/
noncomputable def meanEarth (n : ℝ) : Fin 3 → ℝ :=
  ![cos (meanLongitude n) - eccentricity / 2 * (3 * cos perihelion - cos (2 * meanLongitude n - perihelion)),
    sin (meanLongitude n) - eccentricity / 2 * (3 * sin perihelion - sin (2 * meanLongitude n - perihelion)), 0]

/-- Angle through which precession has turned the pole, in radians. -/
noncomputable def precessionAngle (n : ℝ) : ℝ := 2004.3109 / 3600 * (π / 180) * (n / 36525)

/-- Precession to first order. -/
noncomputable def meanPrecession (n : ℝ) : Matrix (Fin 3) (Fin 3) ℝ :=
  !![1, 0, -precessionAngle n; 0, 1, 0; precessionAngle n, 0, 1]

/-- Rotation angle of the Earth, in radians. -/
noncomputable def earthAngle (n : ℝ) : ℝ := 2 * π * (0.7790572732640 + 1.00273781191135448 * n)

/-- Direction of the Sun in the frame turning with the Earth, in astronomical units. -/
noncomputable def meanSun (n : ℝ) : Fin 3 → ℝ :=
  R3 (earthAngle n) *ᵥ (meanPrecession n *ᵥ (R1 (-obliquity) *ᵥ (-meanEarth n)))

/-- Height of the mean Sun above the horizon times its distance. -/
noncomputable def meanHeight (lon lat n : ℝ) : ℝ :=
  Real.cos (lat * (Real.pi / 180)) * Real.cos (lon * (Real.pi / 180)) * meanSun n 0 +
  Real.cos (lat * (Real.pi / 180)) * Real.sin (lon * (Real.pi / 180)) * meanSun n 1 +
  Real.sin (lat * (Real.pi / 180)) * meanSun n 2

/-- From 23 March to 20 September, the month being `m` and the day `d`. -/
def NorthLight (m d : ℤ) : Prop := (3 < m ∨ (m = 3 ∧ 23 ≤ d)) ∧ (m < 9 ∨ (m = 9 ∧ d ≤ 20))

/-- Up to 18 March or from 25 September on. -/
def NorthDark (m d : ℤ) : Prop := (m < 3 ∨ (m = 3 ∧ d ≤ 18)) ∨ (9 < m ∨ (m = 9 ∧ 25 ≤ d))

end Verif.Spec
