import Verif.Props.GeocentricRoundTrip

/-!
# Two points of a meridian plane determine their latitudes and heights stably
-/

namespace Verif

/-- `D(φ)`, the support function of the ellipse over `a`. -/
noncomputable def dsup (ε φ : ℝ) : ℝ := √(Real.cos φ ^ 2 + ε ^ 2 * Real.sin φ ^ 2)

theorem dsup_sq (ε φ : ℝ) : dsup ε φ ^ 2 = Real.cos φ ^ 2 + ε ^ 2 * Real.sin φ ^ 2 := Real.sq_sqrt (by positivity)

theorem dsup_ge {ε : ℝ} (ε0 : 0 ≤ ε) (ε2 : ε ≤ 1) (φ : ℝ) : ε ≤ dsup ε φ := by
  refine Real.le_sqrt_of_sq_le ?_
  have := Real.sin_sq_add_cos_sq φ
  have : ε ^ 2 ≤ 1 := pow_le_one₀ ε0 ε2
  nlinarith [sq_nonneg (Real.cos φ)]

theorem dsup_le {ε : ℝ} (ε0 : 0 ≤ ε) (ε2 : ε ≤ 1) (φ : ℝ) : dsup ε φ ≤ 1 := by
  refine Real.sqrt_le_iff.mpr ⟨by norm_num, ?_⟩
  have := Real.sin_sq_add_cos_sq φ
  have : ε ^ 2 ≤ 1 := pow_le_one₀ ε0 ε2
  nlinarith [sq_nonneg (Real.sin φ)]

/-- A linear functional of a difference is at most the distance. -/
theorem dot2_le (x y c s : ℝ) (h : c ^ 2 + s ^ 2 = 1) : |x * c + y * s| ≤ √(x ^ 2 + y ^ 2) := by
  apply Real.abs_le_sqrt
  nlinarith [sq_nonneg (x * s - y * c)]

theorem cos_small {x : ℝ} (h : |x| ≤ 3.2) (hc : 1 / 2 < Real.cos x) : |x| ≤ Real.pi / 3 := by
  by_contra hn
  push Not at hn
  rw [← Real.cos_abs] at hc
  rcases le_or_gt |x| Real.pi with h1 | h1
  · have := Real.cos_le_cos_of_nonneg_of_le_pi (by positivity) h1 hn.le
    rw [Real.cos_pi_div_three] at this
    linarith
  · have p := Real.pi_gt_d2
    have := Real.cos_nonpos_of_pi_div_two_le_of_le (x := |x|) (by linarith) (by norm_num at h p; linarith)
    linarith

theorem sin_ge_small {x : ℝ} (x0 : 0 ≤ x) (x1 : x ≤ 0.002) : 0.9999 * x ≤ Real.sin x := by
  rcases x0.eq_or_lt with h0 | h0
  · rw [← h0]; simp
  · have := Real.sin_gt_sub_cube h0
    have h2 : x ^ 2 ≤ 0.0004 := by nlinarith
    have h3 : x * x ^ 2 ≤ x * 0.0004 := mul_le_mul_of_nonneg_left h2 x0
    have : x ^ 3 = x * x ^ 2 := by ring
    linarith

set_option maxHeartbeats 1000000 in
/-- If two points of the meridian plane, neither far below the ellipse, are close,
their latitudes and heights are. -/
theorem inv_lip (ε a φ ψ h k d : ℝ) (ha : 0 < a) (ε1 : 0.99664 ≤ ε) (ε2 : ε ≤ 1) (hδ : |ψ - φ| ≤ 3.2) (hh : -0.01 * a ≤ h)
    (hk : -0.05 * a ≤ k) (hd' : d ≤ 0.001 * a)
    (hd : √(((a / dsup ε ψ + k) * Real.cos ψ - (a / dsup ε φ + h) * Real.cos φ) ^ 2 +
      ((ε ^ 2 * (a / dsup ε ψ) + k) * Real.sin ψ - (ε ^ 2 * (a / dsup ε φ) + h) * Real.sin φ) ^ 2) ≤ d) :
    |k - h| ≤ 1.01 * d ∧ |ψ - φ| * (0.98 * a + 0.99 * h) ≤ d := by
  have d0 : 0 ≤ d := (Real.sqrt_nonneg _).trans hd
  have ep : 0 < ε := by linarith
  have A1 := dsup_ge ep.le ε2 φ
  have A2 := dsup_le ep.le ε2 φ
  have B1 := dsup_ge ep.le ε2 ψ
  have B2 := dsup_le ep.le ε2 ψ
  have A3 := dsup_sq ε φ
  have B3 := dsup_sq ε ψ
  set A := dsup ε φ
  set B := dsup ε ψ
  have A0 : 0 < A := by linarith
  have B0 : 0 < B := by linarith
  have t1 := Real.sin_sq_add_cos_sq φ
  have t2 := Real.sin_sq_add_cos_sq ψ
  have q0 : 0 ≤ 1 - ε ^ 2 := by nlinarith
  have q1 : 1 - ε ^ 2 ≤ 0.0068 := by nlinarith
  -- normal and tangential components of the difference
  have c1 := (abs_le.mp ((dot2_le _ _ (Real.cos φ) (Real.sin φ) (by linarith)).trans hd)).1
  have c2 := (abs_le.mp ((dot2_le _ _ (Real.cos ψ) (Real.sin ψ) (by linarith)).trans hd)).2
  have c3 := (dot2_le _ _ (-Real.sin φ) (Real.cos φ) (by rw [neg_sq]; linarith)).trans hd
  have cδ : Real.cos (ψ - φ) = Real.cos ψ * Real.cos φ + Real.sin ψ * Real.sin φ := Real.cos_sub _ _
  have sδ : Real.sin (ψ - φ) = Real.sin ψ * Real.cos φ - Real.cos ψ * Real.sin φ := Real.sin_sub _ _
  -- support function inequality
  set G := Real.cos φ * Real.cos ψ + ε ^ 2 * (Real.sin φ * Real.sin ψ) with hG
  have cs : G ≤ A * B := by
    have h1 : G ^ 2 ≤ (A * B) ^ 2 := by
      rw [mul_pow, A3, B3, hG]
      nlinarith [sq_nonneg (ε * (Real.cos φ * Real.sin ψ - Real.sin φ * Real.cos ψ))]
    exact (abs_le_of_sq_le_sq' h1 (by positivity)).2
  have e1 : ((a / B + k) * Real.cos ψ - (a / A + h) * Real.cos φ) * Real.cos φ +
      ((ε ^ 2 * (a / B) + k) * Real.sin ψ - (ε ^ 2 * (a / A) + h) * Real.sin φ) * Real.sin φ =
      a / B * G - a / A * A ^ 2 + k * Real.cos (ψ - φ) - h := by
    rw [A3, cδ, hG]; linear_combination -h * t1
  have e2 : ((a / B + k) * Real.cos ψ - (a / A + h) * Real.cos φ) * Real.cos ψ +
      ((ε ^ 2 * (a / B) + k) * Real.sin ψ - (ε ^ 2 * (a / A) + h) * Real.sin φ) * Real.sin ψ =
      a / B * B ^ 2 - a / A * G + k - h * Real.cos (ψ - φ) := by
    rw [B3, cδ, hG]; linear_combination k * t2
  rw [e1] at c1
  rw [e2] at c2
  have f1 : a / A * A ^ 2 = a * A := by field_simp
  have f2 : a / B * B ^ 2 = a * B := by field_simp
  rw [f1] at c1
  rw [f2] at c2
  have g1 : a / B * G ≤ a * A := by
    rw [div_mul_eq_mul_div, div_le_iff₀ B0, mul_assoc]; exact (mul_le_mul_of_nonneg_left cs ha.le)
  have g2 : a / A * G ≤ a * B := by
    rw [div_mul_eq_mul_div, div_le_iff₀ A0, mul_assoc, mul_comm B A]; exact (mul_le_mul_of_nonneg_left cs ha.le)
  -- the angle is below 60 degrees
  have hcos : 1 / 2 < Real.cos (ψ - φ) := by
    by_contra hn
    push Not at hn
    have G1 : G ≤ 0.5068 := by
      have : G = Real.cos (ψ - φ) - (1 - ε ^ 2) * (Real.sin φ * Real.sin ψ) := by rw [cδ, hG]; ring
      have h1 : |Real.sin φ * Real.sin ψ| ≤ 1 := by
        rw [abs_mul]; exact mul_le_one₀ (Real.abs_sin_le_one _) (abs_nonneg _) (Real.abs_sin_le_one _)
      have h2 := (abs_le.mp h1).1
      have h3 : (1 - ε ^ 2) * -1 ≤ (1 - ε ^ 2) * (Real.sin φ * Real.sin ψ) := mul_le_mul_of_nonneg_left h2 q0
      linarith
    have g3 : a / B * G ≤ a * 0.5086 := by
      rw [div_mul_eq_mul_div, div_le_iff₀ B0, mul_assoc]
      exact mul_le_mul_of_nonneg_left (by linarith) ha.le
    have g4 : a / A * G ≤ a * 0.5086 := by
      rw [div_mul_eq_mul_div, div_le_iff₀ A0, mul_assoc]
      exact mul_le_mul_of_nonneg_left (by linarith) ha.le
    have c0 := Real.neg_one_le_cos (ψ - φ)
    have k1 : -0.1 * a ≤ k * (1 - Real.cos (ψ - φ)) := by
      rcases le_or_gt 0 k with h0 | h0
      · have : 0 ≤ k * (1 - Real.cos (ψ - φ)) := mul_nonneg h0 (by linarith)
        linarith
      · have : k * 2 ≤ k * (1 - Real.cos (ψ - φ)) := mul_le_mul_of_nonpos_left (by linarith) h0.le
        linarith
    have h1 : -0.02 * a ≤ h * (1 - Real.cos (ψ - φ)) := by
      rcases le_or_gt 0 h with h0 | h0
      · have : 0 ≤ h * (1 - Real.cos (ψ - φ)) := mul_nonneg h0 (by linarith)
        linarith
      · have : h * 2 ≤ h * (1 - Real.cos (ψ - φ)) := mul_le_mul_of_nonpos_left (by linarith) h0.le
        linarith
    have h2 : a * 0.99664 ≤ a * A := mul_le_mul_of_nonneg_left (by linarith) ha.le
    have h3 : a * 0.99664 ≤ a * B := mul_le_mul_of_nonneg_left (by linarith) ha.le
    rw [mul_sub, mul_one] at k1 h1
    linarith
  have hδ' := cos_small hδ hcos
  have c1' : h - k * Real.cos (ψ - φ) ≤ d := by linarith
  have c2' : k - h * Real.cos (ψ - φ) ≤ d := by linarith
  have cle := Real.cos_le_one (ψ - φ)
  -- tangential component
  obtain ⟨n1, -⟩ := normal_lip ε (by linarith) ε2 φ ψ
  have n1' : |Real.cos ψ / B - Real.cos φ / A| ≤ 1.01 * |ψ - φ| := n1
  have e3 : ((a / B + k) * Real.cos ψ - (a / A + h) * Real.cos φ) * -Real.sin φ +
      ((ε ^ 2 * (a / B) + k) * Real.sin ψ - (ε ^ 2 * (a / A) + h) * Real.sin φ) * Real.cos φ =
      (a * ε ^ 2 / B + k) * Real.sin (ψ - φ) - a * (1 - ε ^ 2) * Real.sin φ * (Real.cos ψ / B - Real.cos φ / A) := by
    rw [sδ]; ring
  rw [e3] at c3
  have r1 : |a * (1 - ε ^ 2) * Real.sin φ * (Real.cos ψ / B - Real.cos φ / A)| ≤ a * 0.0068 * 1 * (1.01 * |ψ - φ|) := by
    rw [abs_mul, abs_mul, abs_of_nonneg (show 0 ≤ a * (1 - ε ^ 2) by positivity)]
    gcongr
    exact Real.abs_sin_le_one _
  have ab : a * 0.9932 ≤ a * ε ^ 2 / B := by
    rw [le_div_iff₀ B0, mul_assoc]
    refine mul_le_mul_of_nonneg_left ?_ ha.le
    linarith
  have r2 : |(a * ε ^ 2 / B + k) * Real.sin (ψ - φ)| ≤ d + a * 0.0069 * |ψ - φ| := by
    have e : (a * ε ^ 2 / B + k) * Real.sin (ψ - φ) =
      ((a * ε ^ 2 / B + k) * Real.sin (ψ - φ) - a * (1 - ε ^ 2) * Real.sin φ * (Real.cos ψ / B - Real.cos φ / A)) +
        a * (1 - ε ^ 2) * Real.sin φ * (Real.cos ψ / B - Real.cos φ / A) := by ring
    rw [e]
    refine (abs_add_le _ _).trans ((add_le_add c3 r1).trans ?_)
    have : 0 ≤ a * |ψ - φ| := by positivity
    linarith
  have sabs : |Real.sin (ψ - φ)| = Real.sin |ψ - φ| := by
    have p := Real.pi_pos
    rcases abs_cases (ψ - φ) with ⟨h1, h2⟩ | ⟨h1, h2⟩
    · rw [h1] at hδ' ⊢
      exact abs_of_nonneg (Real.sin_nonneg_of_nonneg_of_le_pi h2 (by linarith))
    · rw [h1] at hδ' ⊢
      rw [Real.sin_neg]
      have := Real.sin_nonneg_of_nonneg_of_le_pi (x := -(ψ - φ)) (by linarith) (by linarith)
      rw [Real.sin_neg] at this
      exact abs_of_nonpos (by linarith)
  have kpos : 0 ≤ a * ε ^ 2 / B + k := by linarith
  rw [abs_mul, abs_of_nonneg kpos, sabs] at r2
  have x0 := abs_nonneg (ψ - φ)
  have cge : 1 - |ψ - φ| ^ 2 / 2 ≤ Real.cos (ψ - φ) := by rw [sq_abs]; exact Real.one_sub_sq_div_two_le_cos
  generalize |ψ - φ| = x at *
  have s1 : 0.63 * x ≤ Real.sin x := by
    have p := Real.pi_lt_d2
    have p' := Real.pi_pos
    have := Real.mul_le_sin x0 (by linarith)
    refine le_trans ?_ this
    have : (0.63 : ℝ) ≤ 2 / Real.pi := by rw [le_div_iff₀ p']; norm_num at p ⊢; linarith
    gcongr
  have x1 : x ≤ 0.002 := by
    have h1 : a * 0.94 * (0.63 * x) ≤ (a * ε ^ 2 / B + k) * Real.sin x :=
      mul_le_mul (by linarith) s1 (by positivity) kpos
    have : a * (x * 0.58) ≤ a * 0.001 := by linarith
    have := le_of_mul_le_mul_left this ha
    linarith
  have s2 := sin_ge_small x0 x1
  have ax : a * x ≤ 1.1 * d := by
    have h1 : a * 0.94 * (0.9999 * x) ≤ (a * ε ^ 2 / B + k) * Real.sin x :=
      mul_le_mul (by linarith) s2 (by positivity) kpos
    have : 0 ≤ a * x := by positivity
    linarith
  have ax2 : a * x * x ≤ 1.1 * d * 0.002 := mul_le_mul ax x1 x0 (by positivity)
  have cu : 1 - Real.cos (ψ - φ) ≤ x ^ 2 / 2 := by linarith
  have cl : 0 ≤ 1 - Real.cos (ψ - φ) := by linarith
  have small : ∀ t : ℝ, -0.05 * a ≤ t → -(0.001 * d) ≤ t * (1 - Real.cos (ψ - φ)) := by
    intro t ht
    have h1 : -0.05 * a * (1 - Real.cos (ψ - φ)) ≤ t * (1 - Real.cos (ψ - φ)) := mul_le_mul_of_nonneg_right ht cl
    have h2 : a * (1 - Real.cos (ψ - φ)) ≤ a * (x ^ 2 / 2) := mul_le_mul_of_nonneg_left cu ha.le
    have h3 : a * (x ^ 2 / 2) = a * x * x / 2 := by ring
    rw [h3] at h2
    linarith
  have k1 : h - 1.01 * d ≤ k := by
    have := small k hk
    linarith
  have k2 : k ≤ h + 1.01 * d := by
    have := small h (by linarith)
    linarith
  refine ⟨abs_le.mpr ⟨by linarith, by linarith⟩, ?_⟩
  have h1 : (a * 0.9932 + k) * (0.9999 * x) ≤ (a * ε ^ 2 / B + k) * Real.sin x :=
    mul_le_mul (by linarith) s2 (by positivity) kpos
  have h2 : x * (0.98 * a + 0.99 * h) ≤ x * ((a * 0.9932 + k) * 0.9999 - a * 0.0069) :=
    mul_le_mul_of_nonneg_left (by linarith) x0
  linarith

end Verif
