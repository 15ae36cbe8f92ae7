import Verif.Float.SB

/-!
# Error of one operation, relative to the exact value

As in `NB` and `SB`, but the rounding error is bounded relative to the value itself, plus a tiny multiple of a scale for
underflow.
-/

namespace Verif
open Arith F64

theorem RN_err_tiny (x : ℚ) {σ : ℝ} (hσ : Ok σ) : |((RN x : ℚ) : ℝ) - x| ≤ |(x : ℝ)| / 2 ^ 53 + σ / 2 ^ 100 := by
  have h1 : |RN x - x| ≤ |x| / 2 ^ 53 + 1 / 2 ^ 100 * (1 / 2 ^ 230) := by
    refine (RN_err x).trans (max_le ?_ ?_)
    · have : (0 : ℚ) < 1 / 2 ^ 100 * (1 / 2 ^ 230) := by positivity
      linarith
    · refine U_inv_small'.trans ?_
      have : 0 ≤ |x| / 2 ^ 53 := by positivity
      linarith
  have h3 := (Rat.cast_le (K := ℝ)).mpr h1
  push_cast at h3
  have h4 : (1 : ℝ) / 2 ^ 100 * (1 / 2 ^ 230) ≤ 1 / 2 ^ 100 * σ := mul_le_mul_of_nonneg_left hσ.1 (by positivity)
  have e : σ / 2 ^ 100 = 1 / 2 ^ 100 * σ := by ring
  rw [e]
  linarith

namespace Near
variable {x y : F64} {a b e e' D m σ : ℝ}

/-- One rounding. -/
theorem rnd {z : F64} {r : ℚ} {q : ℝ} (hσ : Ok σ) (hz : |r| ≤ HUGE → Is z (RN r)) (hd : |(r : ℝ) - q| ≤ D) (hq : |q| ≤ m)
    (hm : m + D ≤ 2 ^ 250) : Near z q (D + (m + D) / 2 ^ 53 + σ / 2 ^ 100) := by
  have hr : |(r : ℝ)| ≤ m + D := by
    have : (r : ℝ) = q + (r - q) := by ring
    rw [this]
    exact (abs_add_le _ _).trans (add_le_add hq hd)
  have hh : |r| ≤ HUGE := by
    have : |(r : ℝ)| ≤ 2 ^ 250 := hr.trans hm
    exact le_HUGE (k := 250) (by exact_mod_cast this) (by norm_num)
  refine ⟨_, hz hh, ?_⟩
  have h1 := RN_err_tiny r hσ
  have : ((RN r : ℚ) : ℝ) - q = ((RN r : ℚ) - r) + (r - q) := by ring
  rw [this]
  refine (abs_add_le _ _).trans ((add_le_add h1 hd).trans ?_)
  have : |(r : ℝ)| / 2 ^ 53 ≤ (m + D) / 2 ^ 53 := by gcongr
  linarith

theorem mul_s (hσ : Ok σ) (hx : Near x a e) (hy : Near y b e') (hD : |a| * e' + |b| * e + e * e' ≤ D) (hq : |a * b| ≤ m)
    (hm : m + D ≤ 2 ^ 250) : Near (x *. y) (a * b) (D + (m + D) / 2 ^ 53 + σ / 2 ^ 100) := by
  obtain ⟨r, hr, hr'⟩ := hx
  obtain ⟨s, hs, hs'⟩ := hy
  have e0 := (abs_nonneg _).trans hr'
  have e0' := (abs_nonneg _).trans hs'
  refine rnd hσ (r := r * s) (hr.mul hs) ?_ hq hm
  push_cast
  have : (r : ℝ) * s - a * b = a * (s - b) + (r - a) * b + (r - a) * (s - b) := by ring
  rw [this]
  refine (abs_add_le _ _).trans (le_trans (add_le_add ((abs_add_le _ _).trans (add_le_add ?_ ?_)) ?_) hD)
  · rw [abs_mul]; gcongr
  · rw [abs_mul, mul_comm]; gcongr
  · rw [abs_mul]; gcongr

theorem add_s (hσ : Ok σ) (hx : Near x a e) (hy : Near y b e') (hD : e + e' ≤ D) (hq : |a + b| ≤ m)
    (hm : m + D ≤ 2 ^ 250) : Near (x +. y) (a + b) (D + (m + D) / 2 ^ 53 + σ / 2 ^ 100) := by
  obtain ⟨r, hr, hr'⟩ := hx
  obtain ⟨s, hs, hs'⟩ := hy
  refine rnd hσ (r := r + s) (hr.add hs) ?_ hq hm
  push_cast
  have : (r : ℝ) + s - (a + b) = (r - a) + (s - b) := by ring
  rw [this]
  exact (abs_add_le _ _).trans ((add_le_add hr' hs').trans hD)

theorem sub_s (hσ : Ok σ) (hx : Near x a e) (hy : Near y b e') (hD : e + e' ≤ D) (hq : |a - b| ≤ m)
    (hm : m + D ≤ 2 ^ 250) : Near (x -. y) (a - b) (D + (m + D) / 2 ^ 53 + σ / 2 ^ 100) := by
  obtain ⟨r, hr, hr'⟩ := hx
  obtain ⟨s, hs, hs'⟩ := hy
  refine rnd hσ (r := r - s) (hr.sub hs) ?_ hq hm
  push_cast
  have : (r : ℝ) - s - (a - b) = (r - a) - (s - b) := by ring
  rw [this]
  exact (abs_sub _ _).trans ((add_le_add hr' hs').trans hD)

/-- A divisor of relative error at most `κ`. -/
theorem div_s {κ : ℝ} (hσ : Ok σ) (hx : Near x a e) (hb : 0 < b) (hy : Near y b (κ * b)) (hκ : κ ≤ 1 / 2)
    (hD : e / b * (1 + 2 * κ) + |a / b| * (κ + 2 * κ ^ 2) ≤ D) (hq : |a / b| ≤ m) (hm : m + D ≤ 2 ^ 250) :
    Near (x /. y) (a / b) (D + (m + D) / 2 ^ 53 + σ / 2 ^ 100) := by
  obtain ⟨r, hr, hr'⟩ := hx
  obtain ⟨s, hs, hs'⟩ := hy
  have e0 := (abs_nonneg _).trans hr'
  have κ0 : 0 ≤ κ := nonneg_of_mul_nonneg_left ((abs_nonneg _).trans hs') hb
  have s1 : b * (1 - κ) ≤ s := by have := (abs_le.mp hs').1; linarith
  have s0 : (0 : ℝ) < s := lt_of_lt_of_le (by nlinarith) s1
  have s0' : (s : ℚ) ≠ 0 := by
    have : (0 : ℚ) < s := by exact_mod_cast s0
    exact this.ne'
  refine rnd hσ (r := r / s) (hr.div hs s0') ?_ hq hm
  push_cast
  -- b / s
  have t1 : b / s ≤ 1 + 2 * κ := by
    rw [div_le_iff₀ s0]
    have h1 : (1 + 2 * κ) * (b * (1 - κ)) ≤ (1 + 2 * κ) * s := mul_le_mul_of_nonneg_left s1 (by linarith)
    have h2 : b ≤ (1 + 2 * κ) * (b * (1 - κ)) := by
      have : 0 ≤ b * (κ * (1 - 2 * κ)) := mul_nonneg hb.le (mul_nonneg κ0 (by linarith))
      nlinarith
    linarith
  have t2 : |b - (s : ℝ)| ≤ κ * b := by rw [abs_sub_comm]; exact hs'
  have e1 : (r : ℝ) / s - a / b = (r - a) / b * (b / s) + a / b * ((b - s) / s) := by field_simp; ring
  rw [e1]
  refine (abs_add_le _ _).trans (le_trans (add_le_add ?_ ?_) hD)
  · rw [abs_mul, abs_div, abs_of_pos hb, abs_of_pos (div_pos hb s0)]
    gcongr
  · rw [abs_mul]
    apply mul_le_mul_of_nonneg_left _ (abs_nonneg _)
    rw [abs_div, abs_of_pos s0, div_le_iff₀ s0]
    have h1 : (κ + 2 * κ ^ 2) * (b * (1 - κ)) ≤ (κ + 2 * κ ^ 2) * s := mul_le_mul_of_nonneg_left s1 (by positivity)
    have h2 : κ * b ≤ (κ + 2 * κ ^ 2) * (b * (1 - κ)) := by
      have : 0 ≤ b * κ ^ 2 * (1 - 2 * κ) := mul_nonneg (by positivity) (by linarith)
      nlinarith
    linarith

/-- A square root, with relative errors. -/
theorem sqrt_s {κ : ℝ} (ha : 0 < a) (hx : Near x a (κ * a)) (hκ : κ ≤ 1 / 2) :
    Near (Arith.sqrt x) (√a) ((κ / 2 + κ ^ 2 + (1 + κ) / 2 ^ 53) * √a) := by
  obtain ⟨r, hr, hr'⟩ := hx
  have κ0 : 0 ≤ κ := nonneg_of_mul_nonneg_left ((abs_nonneg _).trans hr') ha
  obtain ⟨h1, h2⟩ := abs_le.mp hr'
  have r0 : (0 : ℝ) ≤ r := by nlinarith
  obtain ⟨s, hs, -, hs'⟩ := hr.sqrt (by exact_mod_cast r0)
  refine ⟨s, hs, ?_⟩
  have w := Real.sqrt_nonneg a
  have u1 : √(r : ℝ) ≤ (1 + κ / 2) * √a := by
    apply Real.sqrt_le_iff.mpr
    refine ⟨by positivity, ?_⟩
    rw [mul_pow, Real.sq_sqrt ha.le]
    nlinarith [mul_nonneg (sq_nonneg κ) ha.le]
  have u2 : (1 - κ / 2 - κ ^ 2) * √a ≤ √(r : ℝ) := by
    rcases le_or_gt (1 - κ / 2 - κ ^ 2) 0 with h | h
    · exact (mul_nonpos_of_nonpos_of_nonneg h w).trans (Real.sqrt_nonneg _)
    refine Real.le_sqrt_of_sq_le ?_
    rw [mul_pow, Real.sq_sqrt ha.le]
    have : (1 - κ / 2 - κ ^ 2) ^ 2 ≤ 1 - κ := by nlinarith [mul_nonneg κ0 κ0, mul_nonneg (mul_nonneg κ0 κ0) κ0, mul_nonneg (mul_nonneg (mul_nonneg κ0 κ0) κ0) κ0]
    nlinarith
  have e : (s : ℝ) - √a = (s - √(r : ℝ)) + (√(r : ℝ) - √a) := by ring
  rw [e]
  refine (abs_add_le _ _).trans ?_
  have v1 : √(r : ℝ) / 2 ^ 53 ≤ (1 + κ) * √a / 2 ^ 53 := by
    gcongr
    refine u1.trans ?_
    gcongr
    linarith
  have v2 : |√(r : ℝ) - √a| ≤ (κ / 2 + κ ^ 2) * √a := by
    rw [abs_le]
    constructor
    · linarith
    · have := mul_nonneg (sq_nonneg κ) w
      linarith
  have : (κ / 2 + κ ^ 2 + (1 + κ) / 2 ^ 53) * √a = (1 + κ) * √a / 2 ^ 53 + (κ / 2 + κ ^ 2) * √a := by ring
  rw [this]
  linarith

end Near
end Verif
