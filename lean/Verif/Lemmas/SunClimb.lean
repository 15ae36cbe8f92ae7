import Verif.Lemmas.SunRate
import Verif.Lemmas.MeanSunVec
import Verif.Lemmas.MeanSunSky

/-!
# Motion of the Sun across the sky over several hours
-/

namespace Verif
open Arith Matrix Spec

/-- Direction of the diurnal motion. -/
def KJ : M3 := !![0, 1, 0; -1, 0, 0; 0, 0, 0]

theorem R3_split (m α : ℝ) : R3 (m + α) - R3 (m - α) = (2 * Real.sin α) • (KJ * R3 m) := by
  ext i j
  fin_cases i <;> fin_cases j <;>
    simp [R3, KJ, Real.cos_add, Real.cos_sub, Real.sin_add, Real.sin_sub] <;> ring

theorem MB.smul {A : M3} {e : ℝ} (h : MB A e) (k : ℝ) : MB (k • A) (|k| * e) := by
  refine MB.of_vec (mul_nonneg (abs_nonneg _) h.nonneg) (fun v => ?_)
  have e : len ((k • A) *ᵥ v) = |k| * len (A *ᵥ v) := by
    rw [Matrix.smul_mulVec, len_eq, len_eq, ← Real.norm_eq_abs, ← norm_smul]
    rfl
  rw [e, mul_assoc]
  exact mul_le_mul_of_nonneg_left (h.vec v) (abs_nonneg _)

theorem MB.KJ : MB KJ 1 := by
  refine MB.of_vec (by norm_num) (fun v => ?_)
  rw [one_mul]
  unfold len
  apply Real.sqrt_le_sqrt
  simp [Verif.KJ, Matrix.mulVec, dotProduct, Fin.sum_univ_three]
  nlinarith [sq_nonneg (v 2)]

/-- Polar motion of the program. -/
theorem wobble : MB ((polarMotionMatrix (0.0349282 * AS2R) (0.4833163 * AS2R) 0 : Mat3 ℝ).toMatrix - 1) 2.6e-6 := by
  rw [C43_polar_motion_general]
  refine (MB.mul_one (MB.R3 _) (MB.mul_one (MB.R2 _) (MB.R1_one _) (MB.R2_one _)) (MB.R3_one _)).mono ?_
  rw [as2r_val]
  norm_num [abs_of_pos, abs_of_neg]

/-- Between two instants `D` days apart the Sun in the terrestrial frame moves as if it stood still at its place of the middle
of the interval and the Earth turned. -/
theorem climb_vec {a b a' b' am bm u v u' v' um vm D : ℝ} (h : |a + b - 2451545| ≤ 36525) (h' : |a' + b' - 2451545| ≤ 36525)
    (hm : |am + bm - 2451545| ≤ 36525) (D0 : 0 ≤ D)
    (ht : a + b = am + bm - D / 2) (ht' : a' + b' = am + bm + D / 2) (hu : u + v = um + vm - D / 2)
    (hu' : u' + v' = um + vm + D / 2) {s s' sm : Fin 3 → ℝ}
    (hs : s = (celestialToTerrestrial (a, b) (u, v) (0.0349282 * AS2R) (0.4833163 * AS2R)).toMatrix *ᵥ (-(earthAt (a + b)).heliocentric.p.toVec))
    (hs' : s' = (celestialToTerrestrial (a', b') (u', v') (0.0349282 * AS2R) (0.4833163 * AS2R)).toMatrix *ᵥ (-(earthAt (a' + b')).heliocentric.p.toVec))
    (hsm : sm = (celestialToTerrestrial (am, bm) (um, vm) (0.0349282 * AS2R) (0.4833163 * AS2R)).toMatrix *ᵥ (-(earthAt (am + bm)).heliocentric.p.toVec)) :
    len (s' - s - (2 * Real.sin (Real.pi * 1.00273781191135448 * D)) • (KJ *ᵥ sm)) ≤ 0.01819 * D + 1e-18 := by
  have prod : ∀ a b u v : ℝ, (celestialToTerrestrial (a, b) (u, v) (0.0349282 * AS2R) (0.4833163 * AS2R)).toMatrix *ᵥ (-(earthAt (a + b)).heliocentric.p.toVec) =
      (polarMotionMatrix (0.0349282 * AS2R) (0.4833163 * AS2R) 0).toMatrix *ᵥ (R3 (rotationAngle (u, v)) *ᵥ
        ((celestialToIntermediate (a, b)).toMatrix *ᵥ (-(earthAt (a + b)).heliocentric.p.toVec))) := by
    intro a b u v
    rw [C43_product, ← Matrix.mulVec_mulVec, ← Matrix.mulVec_mulVec]
    rfl
  have g1 := g_lip (D := D / 2) hm h (by rw [ht, show am + bm - (am + bm - D / 2) = D / 2 by ring]; exact abs_of_nonneg (by linarith))
  have g2 := g_lip (D := D / 2) h' hm (by rw [ht', show am + bm + D / 2 - (am + bm) = D / 2 by ring]; exact abs_of_nonneg (by linarith))
  have e := era_turn u v
  have e' := era_turn u' v'
  have em := era_turn um vm
  have nm : len ((celestialToIntermediate (am, bm)).toMatrix *ᵥ (-(earthAt (am + bm)).heliocentric.p.toVec)) ≤ 1.019 := by
    have mC : MB (celestialToIntermediate (am, bm)).toMatrix 1 := MB.of_rotation (C38_celestial_to_intermediate (am, bm) 0 0 0).2
    have := mC.vec (-(earthAt (am + bm)).heliocentric.p.toVec)
    rw [one_mul] at this
    exact this.trans (earth_len hm).2
  have mW : MB (polarMotionMatrix (0.0349282 * AS2R) (0.4833163 * AS2R) 0 : Mat3 ℝ).toMatrix 1 := MB.of_rotation (C38_polar_motion _ _ _)
  have hW := wobble
  rw [prod] at hs hs' hsm
  rw [hs, hs', hsm]
  clear prod hs hs' hsm
  have x0 : 2 * Real.pi * (0.7790572732640 + 1.00273781191135448 * (u + v - 2451545)) =
      2 * Real.pi * (0.7790572732640 + 1.00273781191135448 * (um + vm - 2451545)) - Real.pi * 1.00273781191135448 * D := by rw [hu]; ring
  have x1 : 2 * Real.pi * (0.7790572732640 + 1.00273781191135448 * (u' + v' - 2451545)) =
      2 * Real.pi * (0.7790572732640 + 1.00273781191135448 * (um + vm - 2451545)) + Real.pi * 1.00273781191135448 * D := by rw [hu']; ring
  rw [x0] at e
  rw [x1] at e'
  clear x0 x1
  generalize 2 * Real.pi * (0.7790572732640 + 1.00273781191135448 * (um + vm - 2451545)) = m at *
  have hα : |Real.sin (Real.pi * 1.00273781191135448 * D)| ≤ 3.1502 * D := by
    refine (Real.abs_sin_le_abs).trans ?_
    rw [abs_of_nonneg (by positivity)]
    refine mul_le_mul_of_nonneg_right ?_ D0
    have p2 := Real.pi_lt_d6
    norm_num at p2 ⊢; linarith
  generalize Real.pi * 1.00273781191135448 * D = α at *
  have sp := R3_split m α
  have mR := MB.R3 (rotationAngle (u, v))
  have mR' := MB.R3 (rotationAngle (u', v'))
  have mm := MB.R3 m
  generalize (celestialToIntermediate (a, b)).toMatrix *ᵥ (-(earthAt (a + b)).heliocentric.p.toVec) = g at *
  generalize (celestialToIntermediate (a', b')).toMatrix *ᵥ (-(earthAt (a' + b')).heliocentric.p.toVec) = g' at *
  generalize (celestialToIntermediate (am, bm)).toMatrix *ᵥ (-(earthAt (am + bm)).heliocentric.p.toVec) = gm at *
  generalize R3 (rotationAngle (u, v)) = R at *
  generalize R3 (rotationAngle (u', v')) = R' at *
  generalize R3 (rotationAngle (um, vm)) = Rm at *
  generalize R3 m = M at *
  generalize R3 (m + α) = P at *
  generalize R3 (m - α) = Q at *
  generalize Mat3.toMatrix (polarMotionMatrix (0.0349282 * AS2R) (0.4833163 * AS2R) 0) = W at *
  generalize Real.sin α = σ at *
  have em' : MB (M - Rm) 2e-20 := by rw [show M - Rm = -(Rm - M) by abel]; exact em.neg
  have hC : MB ((2 * σ) • ((W - 1) * KJ * M - KJ * (W - 1) * M + KJ * W * (M - Rm))) (2 * |σ| * (5.3e-6)) := by
    have k1 := ((((hW.mul MB.KJ).mul mm).sub ((MB.KJ.mul hW).mul mm)).add ((MB.KJ.mul mW).mul em'))
    have := k1.smul (2 * σ)
    rw [abs_mul, abs_of_pos (show (0 : ℝ) < 2 by norm_num)] at this
    refine this.mono ?_
    gcongr
    norm_num
  have key : W *ᵥ (R' *ᵥ g') - W *ᵥ (R *ᵥ g) - (2 * σ) • (KJ *ᵥ (W *ᵥ (Rm *ᵥ gm))) =
      (W * R') *ᵥ (g' - gm) + (W * R) *ᵥ (gm - g) + (W * (R' - P) - W * (R - Q)) *ᵥ gm +
      ((2 * σ) • ((W - 1) * KJ * M - KJ * (W - 1) * M + KJ * W * (M - Rm))) *ᵥ gm := by
    have e1 : P = Q + (2 * σ) • (KJ * M) := by rw [← sp]; abel
    rw [e1]
    simp only [Matrix.smul_mulVec, Matrix.sub_mulVec, Matrix.add_mulVec, Matrix.mulVec_sub, Matrix.mul_sub, Matrix.mul_add, Matrix.sub_mul, Matrix.one_mul, Matrix.mul_one,
      Matrix.mulVec_mulVec, Matrix.mul_smul, smul_sub, smul_add, Matrix.mul_assoc, Matrix.mul_one]
    abel
  rw [key]
  have l1 := (mW.mul mR').vec (g' - gm)
  have l2 := (mW.mul mR).vec (gm - g)
  have l3 := ((mW.mul e').sub (mW.mul e)).vec gm
  have l4 := hC.vec gm
  have n0 := len_nonneg gm
  have l3' := l3.trans (mul_le_mul_of_nonneg_left nm (by norm_num))
  have l4' := l4.trans (mul_le_mul_of_nonneg_left nm (by positivity))
  refine (len_add _ _).trans ?_
  refine (add_le_add (len_add _ _) le_rfl).trans ?_
  refine (add_le_add (add_le_add (len_add _ _) le_rfl) le_rfl).trans ?_
  norm_num at *
  linarith

end Verif
