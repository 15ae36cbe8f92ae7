import Verif.Spec.Nut00b

/-!
# The series for the CIO locator (IERS Conventions 2003, table 5.2c; SOFA `s00`)

`s + XY/2` in microarcseconds: polynomial coefficients 94.00, 3808.35, -119.94, -72574.09, 27.70, 15.61 and, for each
power of `t`, the rows below: multipliers of l, l', F, D, Omega, Venus, Earth, general precession; then the
coefficients of sin and cos in units of 0.01 microarcsecond.  `tools/check_reference.py` compares the series as written
in this file with the published value of the SOFA test program.
-/

namespace Verif.Spec

structure S00Row where
  l : ℤ
  lp : ℤ
  f : ℤ
  d : ℤ
  om : ℤ
  ve : ℤ
  e : ℤ
  pa : ℤ
  s : ℤ
  c : ℤ
  deriving DecidableEq

/-- Terms in `t^0`. -/
def s00_0 : List S00Row := [
  ⟨0, 0, 0, 0, 1, 0, 0, 0, -264073, 39⟩,
  ⟨0, 0, 0, 0, 2, 0, 0, 0, -6353, 2⟩,
  ⟨0, 0, 2, -2, 3, 0, 0, 0, -1175, -1⟩,
  ⟨0, 0, 2, -2, 1, 0, 0, 0, -1121, -1⟩,
  ⟨0, 0, 2, -2, 2, 0, 0, 0, 457, 0⟩,
  ⟨0, 0, 2, 0, 3, 0, 0, 0, -202, 0⟩,
  ⟨0, 0, 2, 0, 1, 0, 0, 0, -198, 0⟩,
  ⟨0, 0, 0, 0, 3, 0, 0, 0, 172, 0⟩,
  ⟨0, 1, 0, 0, 1, 0, 0, 0, 141, 1⟩,
  ⟨0, 1, 0, 0, -1, 0, 0, 0, 126, 1⟩,
  ⟨1, 0, 0, 0, -1, 0, 0, 0, 63, 0⟩,
  ⟨1, 0, 0, 0, 1, 0, 0, 0, 63, 0⟩,
  ⟨0, 1, 2, -2, 3, 0, 0, 0, -46, 0⟩,
  ⟨0, 1, 2, -2, 1, 0, 0, 0, -45, 0⟩,
  ⟨0, 0, 4, -4, 4, 0, 0, 0, -36, 0⟩,
  ⟨0, 0, 1, -1, 1, -8, 12, 0, 24, 12⟩,
  ⟨0, 0, 2, 0, 0, 0, 0, 0, -32, 0⟩,
  ⟨0, 0, 2, 0, 2, 0, 0, 0, -28, 0⟩,
  ⟨1, 0, 2, 0, 3, 0, 0, 0, -27, 0⟩,
  ⟨1, 0, 2, 0, 1, 0, 0, 0, -26, 0⟩,
  ⟨0, 0, 2, -2, 0, 0, 0, 0, 21, 0⟩,
  ⟨0, 1, -2, 2, -3, 0, 0, 0, -19, 0⟩,
  ⟨0, 1, -2, 2, -1, 0, 0, 0, -18, 0⟩,
  ⟨0, 0, 0, 0, 0, 8, -13, -1, 10, -5⟩,
  ⟨0, 0, 0, 2, 0, 0, 0, 0, -15, 0⟩,
  ⟨2, 0, -2, 0, -1, 0, 0, 0, 14, 0⟩,
  ⟨0, 1, 2, -2, 2, 0, 0, 0, 14, 0⟩,
  ⟨1, 0, 0, -2, 1, 0, 0, 0, -14, 0⟩,
  ⟨1, 0, 0, -2, -1, 0, 0, 0, -14, 0⟩,
  ⟨0, 0, 4, -2, 4, 0, 0, 0, -13, 0⟩,
  ⟨0, 0, 2, -2, 4, 0, 0, 0, 11, 0⟩,
  ⟨1, 0, -2, 0, -3, 0, 0, 0, -11, 0⟩,
  ⟨1, 0, -2, 0, -1, 0, 0, 0, -11, 0⟩]

/-- Terms in `t^1`. -/
def s00_1 : List S00Row := [
  ⟨0, 0, 0, 0, 2, 0, 0, 0, -7, 357⟩,
  ⟨0, 0, 0, 0, 1, 0, 0, 0, 171, -3⟩,
  ⟨0, 0, 2, -2, 3, 0, 0, 0, 0, 48⟩]

/-- Terms in `t^2`. -/
def s00_2 : List S00Row := [
  ⟨0, 0, 0, 0, 1, 0, 0, 0, 74353, -17⟩,
  ⟨0, 0, 2, -2, 2, 0, 0, 0, 5691, 6⟩,
  ⟨0, 0, 2, 0, 2, 0, 0, 0, 984, -1⟩,
  ⟨0, 0, 0, 0, 2, 0, 0, 0, -885, 1⟩,
  ⟨0, 1, 0, 0, 0, 0, 0, 0, -638, -5⟩,
  ⟨1, 0, 0, 0, 0, 0, 0, 0, -307, 0⟩,
  ⟨0, 1, 2, -2, 2, 0, 0, 0, 223, 0⟩,
  ⟨0, 0, 2, 0, 1, 0, 0, 0, 167, 0⟩,
  ⟨1, 0, 2, 0, 2, 0, 0, 0, 130, 0⟩,
  ⟨0, 1, -2, 2, -2, 0, 0, 0, 93, 0⟩,
  ⟨1, 0, 0, -2, 0, 0, 0, 0, 68, 0⟩,
  ⟨0, 0, 2, -2, 1, 0, 0, 0, -55, 0⟩,
  ⟨1, 0, -2, 0, -2, 0, 0, 0, 53, 0⟩,
  ⟨0, 0, 0, 2, 0, 0, 0, 0, -27, 0⟩,
  ⟨1, 0, 0, 0, 1, 0, 0, 0, -27, 0⟩,
  ⟨1, 0, -2, -2, -2, 0, 0, 0, -26, 0⟩,
  ⟨1, 0, 0, 0, -1, 0, 0, 0, -25, 0⟩,
  ⟨1, 0, 2, 0, 1, 0, 0, 0, 22, 0⟩,
  ⟨2, 0, 0, -2, 0, 0, 0, 0, -21, 0⟩,
  ⟨2, 0, -2, 0, -1, 0, 0, 0, 20, 0⟩,
  ⟨0, 0, 2, 2, 2, 0, 0, 0, 17, 0⟩,
  ⟨2, 0, 2, 0, 2, 0, 0, 0, 13, 0⟩,
  ⟨2, 0, 0, 0, 0, 0, 0, 0, -13, 0⟩,
  ⟨1, 0, 2, -2, 2, 0, 0, 0, -12, 0⟩,
  ⟨0, 0, 2, 0, 0, 0, 0, 0, -11, 0⟩]

/-- Terms in `t^3`. -/
def s00_3 : List S00Row := [
  ⟨0, 0, 0, 0, 1, 0, 0, 0, 30, -2351⟩,
  ⟨0, 0, 2, -2, 2, 0, 0, 0, -3, -139⟩,
  ⟨0, 0, 2, 0, 2, 0, 0, 0, -1, -24⟩,
  ⟨0, 0, 0, 0, 2, 0, 0, 0, 0, 22⟩]

/-- Terms in `t^4`. -/
def s00_4 : List S00Row := [
  ⟨0, 0, 0, 0, 1, 0, 0, 0, -26, -1⟩]

/-- Argument of a term, `t` in Julian centuries of TT since J2000.0 (IERS Conventions 2003, eqs. 5.43 and 5.44). -/
noncomputable def S00Row.arg (r : S00Row) (t : ℝ) : ℝ :=
  (r.l * (485868.249036 + 1717915923.2178 * t + 31.8792 * t ^ 2 + 0.051635 * t ^ 3 - 0.00024470 * t ^ 4) +
    r.lp * (1287104.793048 + 129596581.0481 * t - 0.5532 * t ^ 2 + 0.000136 * t ^ 3 - 0.00001149 * t ^ 4) +
    r.f * (335779.526232 + 1739527262.8478 * t - 12.7512 * t ^ 2 - 0.001037 * t ^ 3 + 0.00000417 * t ^ 4) +
    r.d * (1072260.703692 + 1602961601.2090 * t - 6.3706 * t ^ 2 + 0.006593 * t ^ 3 - 0.00003169 * t ^ 4) +
    r.om * (450160.398036 - 6962890.5431 * t + 7.4722 * t ^ 2 + 0.007702 * t ^ 3 - 0.00005939 * t ^ 4)) * arcsec +
  r.ve * (3.176146697 + 1021.3285546211 * t) + r.e * (1.753470314 + 628.3075849991 * t) +
  r.pa * (0.024381750 * t + 0.00000538691 * t ^ 2)

/-- Sum of the terms of a list, in microarcseconds. -/
noncomputable def s00Sum (L : List S00Row) (t : ℝ) : ℝ :=
  (L.map fun r => (r.s * Real.sin (r.arg t) + r.c * Real.cos (r.arg t)) / 100).sum

/-- `s + XY/2` in radians. -/
noncomputable def s00 (t : ℝ) : ℝ :=
  ((94.00 + s00Sum s00_0 t) + (3808.35 + s00Sum s00_1 t) * t + (-119.94 + s00Sum s00_2 t) * t ^ 2 +
    (-72574.09 + s00Sum s00_3 t) * t ^ 3 + (27.70 + s00Sum s00_4 t) * t ^ 4 + 15.61 * t ^ 5) / 10 ^ 6 * arcsec

end Verif.Spec
