import Verif.Props.Frames
import Verif.Spec.Rotation

/-!
# C63, C64: the frame matrices against the formulas of the IERS Conventions
-/

namespace Verif
open Arith Matrix Spec

theorem rot_R1 (t : ℝ) : (Mat3.rotation 0 t : Mat3 ℝ).toMatrix = R1 t := Mat3.toMatrix_rotation 0 t
theorem rot_R2 (t : ℝ) : (Mat3.rotation 1 t : Mat3 ℝ).toMatrix = R2 t := Mat3.toMatrix_rotation 1 t
theorem rot_R3 (t : ℝ) : (Mat3.rotation 2 t : Mat3 ℝ).toMatrix = R3 t := Mat3.toMatrix_rotation 2 t

/-! ## C63 -/

/-- **C63.** For all pole coordinates inside the unit circle and every locator, the celestial-to-intermediate matrix is
the one of IERS Conventions (2003) section 5.4.1: `R3(-s)` times the transpose of the pole matrix, with
`a = 1/(1 + sqrt(1 - X^2 - Y^2))`. -/
theorem C63_cio_matrix (x y s : ℝ) (h : x ^ 2 + y ^ 2 < 1) :
    let a := 1 / (1 + Real.sqrt (1 - (x ^ 2 + y ^ 2)))
    (celestialToIntermediateFromXys x y s).toMatrix = R3 (-s) *
      !![1 - a * x ^ 2, -a * x * y, x; -a * x * y, 1 - a * y ^ 2, y; -x, -y, 1 - a * (x ^ 2 + y ^ 2)]ᵀ := by
  intro a
  obtain ⟨e, d, hx, hy, hz, hM⟩ := xys_angles x y s h
  have hz0 : 0 ≤ Real.cos d := by rw [hz]; positivity
  have hd := Real.sin_sq_add_cos_sq d
  have he := Real.sin_sq_add_cos_sq e
  have ha : a * (Real.sin d) ^ 2 = 1 - Real.cos d := by
    have : a = 1 / (1 + Real.cos d) := by rw [hz]
    rw [this]
    field_simp
    linarith
  clear_value a
  have axx : a * x ^ 2 = (1 - Real.cos d) * Real.cos e ^ 2 := by rw [← hx, ← ha]; ring
  have ayy : a * y ^ 2 = (1 - Real.cos d) * Real.sin e ^ 2 := by rw [← hy, ← ha]; ring
  have axy : a * x * y = (1 - Real.cos d) * (Real.cos e * Real.sin e) := by rw [← ha, ← hx, ← hy]; ring
  have axy2 : a * (x ^ 2 + y ^ 2) = 1 - Real.cos d := by
    rw [mul_add, axx, ayy, ← mul_add, add_comm, he, mul_one]
  have hR : (Mat3.rotation 2 (-(e + s)) : Mat3 ℝ).toMatrix = R3 (-s) * R3 (-e) := by
    rw [rot_R3, neg_add]
    unfold R3
    ext i j
    fin_cases i <;> fin_cases j <;>
      simp [Matrix.mul_apply, Fin.sum_univ_three, Real.sin_add, Real.cos_add] <;> ring
  rw [hM, hR, rot_R2, rot_R3, Matrix.mul_assoc, Matrix.mul_assoc]
  congr 1
  rw [neg_mul, neg_mul, axx, ayy, axy, axy2, ← hx, ← hy]
  unfold R2 R3
  ext i j
  fin_cases i <;> fin_cases j <;>
    simp [Matrix.mul_apply, Fin.sum_univ_three] <;> first | ring1 | linear_combination he

example : (0.0005 : ℝ) ^ 2 + 0.0001 ^ 2 < 1 := by norm_num

/-! ## C64 -/

/-- **C64.** For every date, with `t` Julian centuries since J2000.0 and `as` one arcsecond (the constant `AS2R`), the
frame bias, precession, nutation and combined matrices are the IAU 2000 ones (IERS Conventions 2003, sections 5.4 and
5.5.2): bias from the offsets of the pole and equinox at J2000.0, precession from the Lieske angles with the IAU 2000
corrections to the rates, nutation about the mean obliquity of date, combined as `N * P * B`. -/
theorem C64_bias_precession_nutation (a b dpsi deps : ℝ) :
    let t := (a + b - 2451545) / 36525
    let as : ℝ := AS2R
    let eps0 := 84381.448 * as
    let psi := (5038.7784 * t - 1.07259 * t ^ 2 - 0.001147 * t ^ 3 - 0.29965 * t) * as
    let om := eps0 + (0.05127 * t ^ 2 - 0.007726 * t ^ 3 - 0.02524 * t) * as
    let chi := (10.5526 * t - 2.38064 * t ^ 2 - 0.001125 * t ^ 3) * as
    let eps := (84381.448 - 46.84024 * t - 0.00059 * t ^ 2 + 0.001813 * t ^ 3) * as
    let B := R1 (0.0068192 * as) * R2 (-0.041775 * as * Real.sin eps0) * R3 (-0.0146 * as)
    let P := R3 chi * R1 (-om) * R3 (-psi) * R1 eps0
    let N (dpsi deps : ℝ) := R1 (-(eps + deps)) * R3 (-dpsi) * R1 eps
    let p := PrecessionNutation.fromTTWithNutation (a, b) dpsi deps
    (biasAndPrecession (a, b)).1.toMatrix = B ∧
    (biasAndPrecession (a, b)).2.1.toMatrix = P ∧
    (biasAndPrecession (a, b)).2.2.toMatrix = P * B ∧
    p.dpsi = dpsi ∧ p.epsa = eps ∧ p.rb.toMatrix = B ∧ p.rp.toMatrix = P ∧ p.rbp.toMatrix = P * B ∧
    p.rn.toMatrix = N dpsi deps ∧ p.rbpn.toMatrix = N dpsi deps * P * B ∧
    (precessionNutation (a, b)).toMatrix = N (nutation (a, b)).1 (nutation (a, b)).2 * P * B := by
  intro t as eps0 psi om chi eps B P N p
  have ht : centuries (a, b) = t := centuries_real (a, b)
  have h0 : (EPS0 : ℝ) = eps0 := by unfold EPS0; norm_num [eps0, as]
  have hB : (biasAndPrecession (a, b)).1.toMatrix = B := by
    unfold biasAndPrecession frameBias
    simp only [Mat3.toMatrix_compose, Mat3.toMatrix_identity, one_mul, rot_R1, rot_R2, rot_R3]
    simp only [lit_real, mul_real, neg_real, sin_real, h0]
    push_cast
    congr 3
    ring
  have hP : (biasAndPrecession (a, b)).2.1.toMatrix = P := by
    unfold biasAndPrecession precessionRate
    simp only [Mat3.toMatrix_compose, Mat3.toMatrix_identity, one_mul, rot_R1, rot_R3, ht]
    simp only [lit_real, mul_real, add_real, neg_real, h0]
    push_cast
    have e1 : (10.5526 + (-2.38064 + -0.001125 * t) * t) * t * AS2R = chi := by simp only [chi, as]; ring
    have e2 : -(eps0 + (0.05127 + -0.007726 * t) * t * t * AS2R + -0.02524 * AS2R * t) = -om := by
      simp only [om, as]; ring
    have e3 : -((5038.7784 + (-1.07259 + -0.001147 * t) * t) * t * AS2R + -0.29965 * AS2R * t) = -psi := by
      simp only [psi, as]; ring
    rw [e1, e2, e3]
  have hPB : (biasAndPrecession (a, b)).2.2.toMatrix = P * B := by
    rw [← hP, ← hB]
    exact Mat3.toMatrix_compose _ _
  have hE : meanObliquity (a, b) +. (precessionRate (a, b)).2 = eps := by
    unfold meanObliquity precessionRate
    simp only [ht]
    simp only [lit_real, mul_real, add_real, eps, as]
    push_cast
    ring
  have hN : ∀ dpsi deps, (nutationMatrix eps dpsi deps).toMatrix = N dpsi deps := by
    intro dpsi deps
    unfold nutationMatrix
    simp only [Mat3.toMatrix_compose, Mat3.toMatrix_identity, one_mul, rot_R1, rot_R3, add_real, neg_real]
    rfl
  have hA : ∀ dpsi deps, (PrecessionNutation.fromTTWithNutation (a, b) dpsi deps).rbpn.toMatrix
      = N dpsi deps * P * B := by
    intro dpsi deps
    unfold PrecessionNutation.fromTTWithNutation
    simp only [hE]
    rw [Mat3.toMatrix_compose, hPB, hN]
    exact (Matrix.mul_assoc (N dpsi deps) P B).symm
  refine ⟨hB, hP, hPB, rfl, hE, hB, hP, hPB, ?_, hA _ _, hA _ _⟩
  show (nutationMatrix (meanObliquity (a, b) +. (precessionRate (a, b)).2) dpsi deps).toMatrix = _
  rw [hE, hN]

/-! ## C43 -/

/-- **C43.** The polar motion matrix for every `s'`: `R1(-yp) * R2(-xp) * R3(s')` (IERS Conventions 2003, eq. 5.3,
from the intermediate to the terrestrial frame). -/
theorem C43_polar_motion_general (xp yp sp : ℝ) :
    (polarMotionMatrix xp yp sp).toMatrix = R1 (-yp) * R2 (-xp) * R3 sp := by
  unfold polarMotionMatrix
  simp only [Mat3.toMatrix_compose, Mat3.toMatrix_identity, one_mul, rot_R1, rot_R2, rot_R3]
  rfl

end Verif
