import Verif.Props.FramesSpec
import Verif.Props.IcrfAxes

/-!
# The pole of the precession matrix (C112)

Code: `tofas/src/frames.rs`, `bias_and_precession`, `nutation_matrix`, `precession_nutation`, `celestial_to_intermediate`.
-/

namespace Verif

open Arith F64 Matrix Spec

theorem AS2R_real : (AS2R : ℝ) = 4.848136811095359935899141e-6 := by unfold AS2R; norm_num

theorem obliquity_bounds : 0.397777155 ≤ Real.sin (84381.448 * (AS2R : ℝ)) ∧ Real.sin (84381.448 * (AS2R : ℝ)) ≤ 0.397777157 ∧
    0.91748206 ≤ Real.cos (84381.448 * (AS2R : ℝ)) ∧ Real.cos (84381.448 * (AS2R : ℝ)) ≤ 0.917482063 := by
  have e : 84381.448 * (AS2R : ℝ) = 0.409092804222 + 3.3e-13 + (84381.448 * 4.848136811095359935899141e-6 - 0.40909280422233) := by
    rw [AS2R_real]; norm_num
  set ε := 84381.448 * (AS2R : ℝ) with hε
  have near : |ε - 0.4090928042| ≤ 1e-10 := by
    rw [e, abs_le]; constructor <;> norm_num
  obtain ⟨c1, s1⟩ := cos_sin_series 0.4090928042 (by norm_num [abs_le])
  have s2 := sin_near _ _ _ near
  have c2 : |Real.cos ε - Real.cos 0.4090928042| ≤ 1e-10 := by
    have := sin_near (Real.pi / 2 - ε) (Real.pi / 2 - 0.4090928042) 1e-10 (by rw [abs_sub_comm]; simpa using near)
    rwa [Real.sin_pi_div_two_sub, Real.sin_pi_div_two_sub] at this
  rw [abs_le] at c1 s1 c2 s2
  norm_num at c1 s1 c2 s2
  refine ⟨?_, ?_, ?_, ?_⟩ <;> norm_num <;> linarith [c1.1, c1.2, c2.1, c2.2, s1.1, s1.2, s2.1, s2.2]

/-- Products of bounds. -/
theorem abs_mul_le' {a b A B : ℝ} (ha : |a| ≤ A) (hb : |b| ≤ B) : |a * b| ≤ A * B := by
  rw [abs_mul]
  exact mul_le_mul ha hb (abs_nonneg _) ((abs_nonneg _).trans ha)

theorem abs_pow_le {t : ℝ} (ht : |t| ≤ 1) (n : ℕ) : |t| ^ (n + 1) ≤ |t| := by
  rw [pow_succ]
  exact mul_le_of_le_one_left (abs_nonneg _) (pow_le_one₀ (abs_nonneg _) ht)

set_option maxHeartbeats 1000000 in
/-- The pole of the precession matrix: 2004.19 seconds of arc per century along the first axis and -22.458 seconds per square
century along the second. -/
theorem mean_pole (t psi om : ℝ) (ht : |t| ≤ 1) (A : ℝ) (hA : A = AS2R)
    (hpsi : psi = (5038.7784 * t - 1.07259 * t ^ 2 - 0.001147 * t ^ 3 - 0.29965 * t) * A)
    (hom : om = 84381.448 * A + (0.05127 * t ^ 2 - 0.007726 * t ^ 3 - 0.02524 * t) * A) :
    |Real.sin psi * Real.sin om - 2004.19 * A * t| ≤ 0.64 * A * |t| ∧
    |Real.cos psi * Real.sin om * Real.cos (84381.448 * A) - Real.cos om * Real.sin (84381.448 * A) + 22.458 * A * t ^ 2| ≤
      0.1 * A * |t| := by
  obtain ⟨S1, S2, C1, C2⟩ := obliquity_bounds
  rw [← hA] at S1 S2 C1 C2
  have hA' := hA.trans AS2R_real
  have A1 : 4.848136811e-6 ≤ A := by rw [hA']; norm_num
  have A2 : A ≤ 4.848136812e-6 := by rw [hA']; norm_num
  have A0 : 0 < A := lt_of_lt_of_le (by norm_num) A1
  have t0 := abs_nonneg t
  have t2 : |t ^ 2| ≤ |t| := by rw [abs_pow]; exact abs_pow_le ht 1
  have t3 : |t ^ 3| ≤ |t| := by rw [abs_pow]; exact abs_pow_le ht 2
  have aA : |A| ≤ A := (abs_of_pos A0).le
  -- the angle in longitude
  have p2 : |psi - 5038.47875 * A * t| ≤ 1.073737 * A * |t| := by
    have e : psi - 5038.47875 * A * t = (-1.07259 * t ^ 2 + -0.001147 * t ^ 3) * A := by rw [hpsi]; ring
    rw [e]
    refine (abs_mul_le' (A := 1.073737 * |t|) ?_ aA).trans (le_of_eq (by ring))
    refine (abs_add_le _ _).trans ?_
    rw [abs_mul, abs_mul]
    norm_num at *
    linarith
  have p1 : |psi| ≤ 0.02444 * |t| := by
    have e : psi = (psi - 5038.47875 * A * t) + 5038.47875 * A * t := by ring
    rw [e]
    refine (abs_add_le _ _).trans ?_
    rw [abs_mul (5038.47875 * A), abs_of_pos (show 0 < 5038.47875 * A by positivity)]
    nlinarith
  have p0 : |psi| ≤ 1 := p1.trans (by nlinarith)
  -- the inclination
  have d1 : |om - 84381.448 * A| ≤ 0.084236 * A * |t| := by
    have e : om - 84381.448 * A = ((0.05127 * t ^ 2 + -0.007726 * t ^ 3) + -0.02524 * t) * A := by rw [hom]; ring
    rw [e]
    refine (abs_mul_le' (A := 0.084236 * |t|) ?_ aA).trans (le_of_eq (by ring))
    refine (abs_add_le _ _).trans ((add_le_add (abs_add_le _ _) le_rfl).trans ?_)
    rw [abs_mul, abs_mul, abs_mul]
    norm_num at *
    linarith
  have s1 := sin_near _ _ _ d1
  have q3 : |psi| ^ 3 ≤ 1.4599e-5 * |t| := by
    have : |psi| ^ 3 ≤ (0.02444 * |t|) ^ 3 := pow_le_pow_left₀ (abs_nonneg _) p1 3
    rw [mul_pow] at this
    have := abs_pow_le ht 2
    norm_num at *; linarith [abs_nonneg t]
  have q4 : |psi| ^ 4 ≤ 3.57e-7 * |t| := by
    have : |psi| ^ 4 ≤ (0.02444 * |t|) ^ 4 := pow_le_pow_left₀ (abs_nonneg _) p1 4
    rw [mul_pow] at this
    have := abs_pow_le ht 3
    norm_num at *; linarith [abs_nonneg t]
  have sn : |Real.sin psi - psi| ≤ 0.51 * A * |t| := by
    have := Real.sin_bound p0
    have e : Real.sin psi - psi = (Real.sin psi - (psi - psi ^ 3 / 6)) + -(psi ^ 3 / 6) := by ring
    rw [e]
    refine (abs_add_le _ _).trans ?_
    rw [abs_neg, abs_div, abs_pow psi 3, abs_of_pos (show (0:ℝ) < 6 by norm_num)]
    have q5 : |psi| ^ 5 ≤ |psi| ^ 4 := pow_le_pow_of_le_one (abs_nonneg _) p0 (by norm_num)
    have : 0.51 * 4.848136811e-6 * |t| ≤ 0.51 * A * |t| := by gcongr
    norm_num at *; linarith [abs_nonneg t]
  have sp : |Real.sin psi| ≤ 0.02444 := by
    refine Real.abs_sin_le_abs.trans (p1.trans ?_)
    linarith
  set S := Real.sin (84381.448 * A) with hS
  set C := Real.cos (84381.448 * A) with hC
  have aS : |S| ≤ 0.397777157 := abs_le.mpr ⟨by linarith, S2⟩
  have aC : |C| ≤ 0.917482063 := abs_le.mpr ⟨by linarith, C2⟩
  constructor
  · have e : Real.sin psi * Real.sin om - 2004.19 * A * t = S * (Real.sin psi - psi) + Real.sin psi * (Real.sin om - S)
        + S * (psi - 5038.47875 * A * t) + (5038.47875 * S - 2004.19) * (A * t) := by ring
    rw [e]
    have k1 := abs_mul_le' aS sn
    have k2 := abs_mul_le' sp s1
    have k3 := abs_mul_le' aS p2
    have k4 := abs_mul_le' (a := 5038.47875 * S - 2004.19) (b := A * t) (A := 0.002) (B := A * |t|)
      (abs_le.mpr ⟨by linarith, by linarith⟩) (by rw [abs_mul, abs_of_pos A0])
    refine (abs_add_le _ _).trans ((add_le_add ((abs_add_le _ _).trans (add_le_add ((abs_add_le _ _).trans (add_le_add k1 k2)) k3)) k4).trans ?_)
    have : 0 ≤ A * |t| := by positivity
    norm_num; linarith
  · have e : Real.cos psi * Real.sin om * C - Real.cos om * S + 22.458 * A * t ^ 2 =
        Real.sin (om - 84381.448 * A) + C * Real.sin om * (Real.cos psi - (1 - psi ^ 2 / 2)) - C * (Real.sin om - S) * (psi * (psi / 2))
          - C * S * ((psi - 5038.47875 * A * t) * ((psi + 5038.47875 * A * t) / 2))
          + (22.458 - C * S * (5038.47875 ^ 2 * A / 2)) * (A * t ^ 2) := by
      rw [Real.sin_sub, ← hC, ← hS]; ring
    rw [e]
    have k1 : |Real.sin (om - 84381.448 * A)| ≤ 0.084236 * A * |t| := Real.abs_sin_le_abs.trans d1
    have k2 : |C * Real.sin om * (Real.cos psi - (1 - psi ^ 2 / 2))| ≤ 0.004 * A * |t| := by
      have := Real.cos_bound p0
      have so : |C * Real.sin om| ≤ 1 * 1 := abs_mul_le' (aC.trans (by norm_num)) (Real.abs_sin_le_one _)
      refine (abs_mul_le' so this).trans ?_
      have : 0.004 * 4.848136811e-6 * |t| ≤ 0.004 * A * |t| := by gcongr
      norm_num at *; linarith [abs_nonneg t]
    have k3 : |C * (Real.sin om - S) * (psi * (psi / 2))| ≤ 0.0001 * A * |t| := by
      have b1 := abs_mul_le' (aC.trans (show (0.917482063 : ℝ) ≤ 1 by norm_num)) s1
      have b2 : |psi * (psi / 2)| ≤ 0.02444 * (0.02444 / 2) := by
        have : |psi| ≤ 0.02444 := p1.trans (by linarith)
        refine abs_mul_le' this ?_
        rw [abs_div, abs_of_pos (show (0:ℝ) < 2 by norm_num)]
        linarith
      refine (abs_mul_le' b1 b2).trans ?_
      have : 0 ≤ A * |t| := by positivity
      norm_num; linarith
    have k4 : |C * S * ((psi - 5038.47875 * A * t) * ((psi + 5038.47875 * A * t) / 2))| ≤ 0.0097 * A * |t| := by
      have b1 := abs_mul_le' aC aS
      have b3 : |(psi + 5038.47875 * A * t) / 2| ≤ 0.02444 := by
        rw [abs_div, abs_of_pos (show (0:ℝ) < 2 by norm_num), div_le_iff₀ (by norm_num)]
        refine (abs_add_le _ _).trans ?_
        rw [abs_mul (5038.47875 * A), abs_of_pos (show 0 < 5038.47875 * A by positivity)]
        nlinarith
      refine (abs_mul_le' b1 (abs_mul_le' p2 b3)).trans ?_
      have : 0 ≤ A * |t| := by positivity
      norm_num; linarith
    have k5 : |(22.458 - C * S * (5038.47875 ^ 2 * A / 2)) * (A * t ^ 2)| ≤ 0.001 * (A * |t|) := by
      refine abs_mul_le' ?_ (by rw [abs_mul, abs_of_pos A0]; gcongr)
      have m1 := mul_le_mul C1 S1 (by norm_num) (le_trans (by norm_num) C1)
      have m2 := mul_le_mul C2 S2 (le_trans (by norm_num) S1) (by norm_num)
      have m3 := mul_le_mul m1 A1 (by norm_num) (le_trans (by norm_num) m1)
      have m4 := mul_le_mul m2 A2 A0.le (by norm_num)
      rw [abs_le]
      constructor <;> norm_num at m3 m4 ⊢ <;> nlinarith
    have : 0 ≤ A * |t| := by positivity
    rw [abs_le] at k1 k2 k3 k4 k5 ⊢
    norm_num at k1 k2 k3 k4 k5 ⊢
    constructor <;> linarith [k1.1, k1.2, k2.1, k2.2, k3.1, k3.2, k4.1, k4.2, k5.1, k5.2]
end Verif
