import Verif.Lemmas.EarthAcc

/-!
# The acceleration of the Earth in the ecliptic frame
-/

namespace Verif
open Arith Epv

/-- Square of Gauss's constant, for years. -/
noncomputable def gaussYear : ℝ := (0.01720209895 * 365.25) ^ 2

theorem inv_cube {y : ℝ} (h : |y| ≤ 0.0185) : 0 ≤ 1 / (1 + y) ^ 3 - (1 - 3 * y) ∧ 1 / (1 + y) ^ 3 - (1 - 3 * y) ≤ 0.0024 := by
  obtain ⟨h1, h2⟩ := abs_le.mp h
  have hy : y ^ 2 ≤ 0.0185 ^ 2 := sq_le_sq' h1 h2
  have hy0 := sq_nonneg y
  have hp : 0 < (1 + y) ^ 3 := by have : 0 < 1 + y := by linarith
                                  positivity
  have m1 : y ^ 2 * y ≤ y ^ 2 * 0.0185 := mul_le_mul_of_nonneg_left h2 hy0
  have m2 : y ^ 2 * (-0.0185) ≤ y ^ 2 * y := mul_le_mul_of_nonneg_left h1 hy0
  have m3 : 0 ≤ y ^ 2 * y ^ 2 := by positivity
  have m4 : y ^ 2 * y ^ 2 ≤ y ^ 2 * 0.0185 ^ 2 := mul_le_mul_of_nonneg_left hy hy0
  constructor
  · rw [sub_nonneg, le_div_iff₀ hp]
    norm_num at *
    linarith
  · rw [sub_le_iff_le_add, div_le_iff₀ hp]
    norm_num at *
    linarith

set_option maxHeartbeats 1000000 in
/-- Newton's law in the ecliptic frame, for a distance `ρ` that may differ slightly. -/
theorem newton_ecl (t : ℝ) (ht : |t| ≤ 100) (ρ : ℝ) (hρ : 0 < ρ)
    (hd : |ρ ^ 2 - (helioEcl 0 t ^ 2 + helioEcl 1 t ^ 2 + helioEcl 2 t ^ 2)| ≤ 1e-9) :
    (helioEcl'' 0 t + gaussYear / ρ ^ 3 * helioEcl 0 t) ^ 2 + (helioEcl'' 1 t + gaussYear / ρ ^ 3 * helioEcl 1 t) ^ 2
      + (helioEcl'' 2 t + gaussYear / ρ ^ 3 * helioEcl 2 t) ^ 2 ≤ 0.731 ^ 2 := by
  obtain ⟨C, S, a, q, f, g, l, m, hC, h1, h2, h3, h4, ha, hq, hf, hg, hlm⟩ := helio_accel t ht
  have hz := helioZ t ht
  have hz'' := helioZ'' t ht
  generalize helioEcl 0 t = x at *
  generalize helioEcl 1 t = y at *
  generalize helioEcl 2 t = z at *
  generalize helioEcl'' 0 t = x' at *
  generalize helioEcl'' 1 t = y' at *
  generalize helioEcl'' 2 t = z' at *
  have e1 : x ^ 2 + y ^ 2 = (1 + a) ^ 2 + q ^ 2 := by
    rw [← h1, ← h2]; linear_combination (-(x ^ 2 + y ^ 2)) * hC
  rw [e1] at hd
  have hq2 := sq_le_sq' (abs_le.mp hq).1 (abs_le.mp hq).2
  have hz2 := sq_le_sq' (abs_le.mp hz).1 (abs_le.mp hz).2
  obtain ⟨d1, d2⟩ := abs_le.mp hd
  obtain ⟨a1, a2⟩ := abs_le.mp ha
  have a3 := sq_le_sq' a1 a2
  obtain ⟨d, hdd⟩ : ∃ d, d = ρ - (1 + a) := ⟨_, rfl⟩
  have r1 : -1e-8 ≤ d := by
    have : (1 + a - 1e-8) ^ 2 ≤ ρ ^ 2 := by
      have := sq_nonneg q
      have := sq_nonneg z
      norm_num at *
      linarith
    have := abs_le_of_sq_le_sq' this hρ.le
    linarith [this.2]
  have r2 : d ≤ 0.0007 := by
    have : ρ ^ 2 ≤ (1 + a + 0.0007) ^ 2 := by
      norm_num at *
      linarith
    have := abs_le_of_sq_le_sq' this (by linarith)
    linarith [this.2]
  have hy : |a + d| ≤ 0.0185 := by rw [abs_le]; constructor <;> norm_num at * <;> linarith
  obtain ⟨k1, k2⟩ := inv_cube hy
  have e2 : 1 + (a + d) = ρ := by rw [hdd]; ring
  rw [e2] at k1 k2
  obtain ⟨s, hs⟩ : ∃ s, s = 1 / ρ ^ 3 := ⟨_, rfl⟩
  have e3 : gaussYear / ρ ^ 3 = gaussYear * s := by rw [hs, mul_one_div]
  rw [e3]
  rw [← hs] at k1 k2
  obtain ⟨κ, hκ⟩ : ∃ κ, κ = s - (1 - 3 * (a + d)) := ⟨_, rfl⟩
  rw [← hκ] at k1 k2
  have s1 : |s - 1| ≤ 0.058 := by
    rw [abs_le] at hy ⊢
    constructor <;> linarith [hy.1, hy.2]
  obtain ⟨s2, s3⟩ := abs_le.mp s1
  have hG : gaussYear = 39.47692642137301285621265625 := by unfold gaussYear; norm_num
  rw [hG]
  -- along and across
  have rad : C * (x' + 39.47692642137301285621265625 * s * x) + S * (y' + 39.47692642137301285621265625 * s * y)
      = l + (-(6.283075850446 ^ 2 * f) + 39.47692642137301285621265625 * ((1 + a) * s - (1 - 2 * a))
        - (6.283075850446 ^ 2 - 39.47692642137301285621265625) * (1 - 2 * a)) := by
    linear_combination h3 + 39.47692642137301285621265625 * s * h1
  have tra : C * (y' + 39.47692642137301285621265625 * s * y) - S * (x' + 39.47692642137301285621265625 * s * x)
      = m + (-(6.283075850446 ^ 2 * g) + 39.47692642137301285621265625 * (q * (s - 1))
        - (6.283075850446 ^ 2 - 39.47692642137301285621265625) * q) := by
    linear_combination h4 + 39.47692642137301285621265625 * s * h2
  have p1 : |(1 + a) * s - (1 - 2 * a)| ≤ 0.0031 := by
    have : (1 + a) * s - (1 - 2 * a) = -3 * a ^ 2 - 3 * (d + a * d) + (κ + a * κ) := by rw [hκ]; ring
    rw [this]
    have u1 : |a * κ| ≤ 0.01777 * 0.0024 := by
      rw [abs_mul]; exact mul_le_mul ha (by rw [abs_of_nonneg k1]; exact k2) (abs_nonneg _) (by norm_num)
    have u2 : |a * d| ≤ 0.01777 * 0.0007 := by
      rw [abs_mul]; exact mul_le_mul ha (by rw [abs_le]; constructor <;> linarith) (abs_nonneg _) (by norm_num)
    have := sq_nonneg a
    have u3 : 0 ≤ (1 + a) * κ := mul_nonneg (by linarith) k1
    rw [abs_le] at u1 u2 ⊢
    norm_num at *
    constructor <;> linarith [u1.1, u1.2, u2.1, u2.2]
  have p2 : |q * (s - 1)| ≤ 0.0368 * 0.058 := by
    rw [abs_mul]; exact mul_le_mul hq s1 (abs_nonneg _) (by norm_num)
  obtain ⟨F, hF⟩ : ∃ F, F = -(6.283075850446 ^ 2 * f) + 39.47692642137301285621265625 * ((1 + a) * s - (1 - 2 * a))
        - (6.283075850446 ^ 2 - 39.47692642137301285621265625) * (1 - 2 * a) := ⟨_, rfl⟩
  obtain ⟨H, hH⟩ : ∃ H, H = -(6.283075850446 ^ 2 * g) + 39.47692642137301285621265625 * (q * (s - 1))
        - (6.283075850446 ^ 2 - 39.47692642137301285621265625) * q := ⟨_, rfl⟩
  rw [← hF] at rad
  rw [← hH] at tra
  generalize (1 + a) * s - (1 - 2 * a) = P at *
  generalize q * (s - 1) = Q at *
  rw [abs_le] at hf hg p1 p2 hq
  have bF : |F| ≤ 0.2302 := by
    rw [hF, abs_le]
    norm_num at *
    constructor <;> linarith [hf.1, hf.2, p1.1, p1.2]
  have bH : |H| ≤ 0.1384 := by
    rw [hH, abs_le]
    norm_num at *
    constructor <;> linarith [hg.1, hg.2, p2.1, p2.2, hq.1, hq.2]
  have F2 := sq_le_sq' (abs_le.mp bF).1 (abs_le.mp bF).2
  have H2 := sq_le_sq' (abs_le.mp bH).1 (abs_le.mp bH).2
  have FH : F ^ 2 + H ^ 2 ≤ 0.2687 ^ 2 := by norm_num at *; linarith
  have cs : l * F + m * H ≤ 0.4605 * 0.2687 := by
    refine (abs_le.mp (abs_le_of_sq_le_sq (?_ : (l * F + m * H) ^ 2 ≤ (0.4605 * 0.2687) ^ 2) (by norm_num))).2
    have w := mul_le_mul hlm FH (by positivity) (by norm_num)
    rw [mul_pow]
    nlinarith [sq_nonneg (l * H - m * F)]
  have zz : |z' + 39.47692642137301285621265625 * s * z| ≤ 0.0445 := by
    have : |s * z| ≤ 1.058 * 0.00025 := by
      rw [abs_mul]
      exact mul_le_mul (by rw [abs_le]; constructor <;> linarith) hz (abs_nonneg _) (by norm_num)
    rw [mul_assoc]
    rw [abs_le] at *
    norm_num at *
    constructor <;> linarith [this.1, this.2, hz''.1, hz''.2]
  have z2 := sq_le_sq' (abs_le.mp zz).1 (abs_le.mp zz).2
  have e4 : (x' + 39.47692642137301285621265625 * s * x) ^ 2 + (y' + 39.47692642137301285621265625 * s * y) ^ 2
      = (l + F) ^ 2 + (m + H) ^ 2 := by
    rw [← rad, ← tra]
    linear_combination (-((x' + 39.47692642137301285621265625 * s * x) ^ 2 + (y' + 39.47692642137301285621265625 * s * y) ^ 2)) * hC
  rw [e4]
  norm_num at *
  linarith

end Verif
