import Verif.Lemmas.MeanSunVec

/-!
# Where the mean Sun stands: noon, midnight and the seasons at the poles
-/

namespace Verif
open Matrix Spec

/-- Coordinates of the mean Sun before the rotation of the Earth. -/
theorem meanSun_coords (n : ℝ) : ∃ x y z : ℝ,
    x = -meanEarth n 0 + precessionAngle n * (Real.sin obliquity * meanEarth n 1) ∧
    y = -(Real.cos obliquity * meanEarth n 1) ∧
    z = -(precessionAngle n * meanEarth n 0) - Real.sin obliquity * meanEarth n 1 ∧
    meanSun n 0 = Real.cos (earthAngle n) * x + Real.sin (earthAngle n) * y ∧
    meanSun n 1 = -Real.sin (earthAngle n) * x + Real.cos (earthAngle n) * y ∧
    meanSun n 2 = z := by
  refine ⟨_, _, _, rfl, rfl, rfl, ?_⟩
  have e2 : meanEarth n 2 = 0 := rfl
  refine ⟨?_, ?_, ?_⟩ <;>
  · simp [meanSun, R1, R3, meanPrecession, Matrix.mulVec, dotProduct, Fin.sum_univ_three, e2]
    try ring

/-- The terms of the orbit in the eccentricity. -/
theorem ecc_terms (n : ℝ) : ∃ u v : ℝ,
    meanEarth n 0 = Real.cos (meanLongitude n) - u ∧ meanEarth n 1 = Real.sin (meanLongitude n) - v ∧
    |u| ≤ 0.01398 ∧ u ^ 2 + v ^ 2 ≤ 0.0335 ^ 2 ∧ |v| ≤ 0.0335 ∧
    v = 0.008355615 * (3 * Real.sin perihelion - Real.sin (2 * meanLongitude n - perihelion)) := by
  refine ⟨eccentricity / 2 * (3 * Real.cos perihelion - Real.cos (2 * meanLongitude n - perihelion)),
    eccentricity / 2 * (3 * Real.sin perihelion - Real.sin (2 * meanLongitude n - perihelion)), rfl, rfl, ?_⟩
  obtain ⟨o1, o2⟩ := perihelion_bounds
  have hP := Real.sin_sq_add_cos_sq perihelion
  have hQ := Real.sin_sq_add_cos_sq (2 * meanLongitude n - perihelion)
  have c2 := abs_le.mp (Real.abs_cos_le_one (2 * meanLongitude n - perihelion))
  generalize Real.cos perihelion = a at *
  generalize Real.sin perihelion = b at *
  generalize Real.cos (2 * meanLongitude n - perihelion) = c at *
  generalize Real.sin (2 * meanLongitude n - perihelion) = d at *
  have he : eccentricity / 2 = 0.008355615 := by unfold eccentricity; norm_num
  rw [he]
  have q : (0.008355615 * (3 * a - c)) ^ 2 + (0.008355615 * (3 * b - d)) ^ 2 ≤ 0.0335 ^ 2 := by
    have : (3 * a - c) ^ 2 + (3 * b - d) ^ 2 ≤ 16 := by nlinarith [sq_nonneg (a + c), sq_nonneg (b + d)]
    have e : (0.008355615 * (3 * a - c)) ^ 2 + (0.008355615 * (3 * b - d)) ^ 2 =
      0.008355615 ^ 2 * ((3 * a - c) ^ 2 + (3 * b - d) ^ 2) := by ring
    rw [e]
    norm_num at this ⊢
    linarith
  refine ⟨?_, q, ?_, rfl⟩
  · rw [abs_le] at o1 ⊢
    constructor <;> norm_num at * <;> linarith
  · exact abs_le_of_sq_le_sq (by nlinarith [sq_nonneg (0.008355615 * (3 * a - c))]) (by norm_num)

theorem precession_le {n : ℝ} (h : |n| ≤ 36525) : |precessionAngle n| ≤ 0.009718 := by
  have ht : |n / 36525| ≤ 1 := by
    rw [abs_div, abs_of_pos (show (0 : ℝ) < 36525 by norm_num), div_le_one (by norm_num)]; exact h
  unfold precessionAngle
  have p1 := Real.pi_gt_d20
  have p2 := Real.pi_lt_d20
  rw [abs_mul]
  refine (mul_le_mul (b := 0.009718) ?_ ht (abs_nonneg _) (by norm_num)).trans (by norm_num)
  rw [abs_le]; constructor <;> norm_num at p1 p2 ⊢ <;> linarith

/-- The estimate behind `meridian`, on plain numbers. -/
theorem meridian_bound {S C A B p so' co' cg sg ch sh u v : ℝ} (hb : S ^ 2 + C ^ 2 = 1) (hbg : B ^ 2 + A ^ 2 = 1)
    (hp : |p| ≤ 0.009718) (so : |so' - 0.397777| ≤ 5e-7) (co : |co' - 0.917482| ≤ 5e-7)
    (huv : u ^ 2 + v ^ 2 ≤ 0.0335 ^ 2) (hv : |v| ≤ 0.0335) (h0 : 0 ≤ ch) (g1 : ch - 0.00211 ≤ cg) (hsh : 0 ≤ sh)
    (g2 : |sg| ≤ sh + 0.00211) :
    0.9174 * ch - 0.0414 * sh - 0.0398 ≤ cg * (1 - (1 - co') * S ^ 2) - sg * ((1 - co') * (S * C))
      + (A * u + B * (co' * v)) - A * (p * (so' * (S + v))) := by
  have co1 : 0.917481 ≤ co' := by rw [abs_le] at co; norm_num at co ⊢; linarith [co.1]
  have co2 : co' ≤ 1 := by rw [abs_le] at co; norm_num at co ⊢; linarith [co.2]
  have k2 : |so'| ≤ 0.39778 := by rw [abs_le] at so ⊢; norm_num at so ⊢; constructor <;> linarith
  clear so co
  have S1 : S ^ 2 ≤ 1 := by nlinarith only [sq_nonneg C, hb]
  have A1 : A ^ 2 ≤ 1 := by nlinarith only [sq_nonneg B, hbg]
  have t1 : (0.917481 * cg - 0.0002) ≤ cg * (1 - (1 - co') * S ^ 2) := by
    have w0 : 0 ≤ (1 - co') * S ^ 2 := mul_nonneg (by linarith) (sq_nonneg _)
    have w1 : (1 - co') * S ^ 2 ≤ 0.082519 * 1 := mul_le_mul (by linarith) S1 (sq_nonneg _) (by norm_num)
    generalize (1 - co') * S ^ 2 = w at *
    have : cg * w ≤ 0.082519 * cg + 0.0002 := by
      rcases le_total 0 cg with h | h
      · have := mul_le_mul_of_nonneg_left w1 h
        linarith
      · have := mul_nonneg (neg_nonneg.mpr h) w0
        linarith
    linarith
  have t2 : |sg * ((1 - co') * (S * C))| ≤ (sh + 0.00211) * 0.04126 := by
    rw [abs_mul]
    refine mul_le_mul g2 ?_ (abs_nonneg _) ((abs_nonneg _).trans g2)
    have w1 : |S * C| ≤ 1 / 2 := by
      rw [abs_le]; constructor <;> nlinarith only [sq_nonneg (S + C), sq_nonneg (S - C), hb]
    rw [abs_mul, abs_of_nonneg (by linarith)]
    have := mul_le_mul (show 1 - co' ≤ 0.08252 by linarith) w1 (abs_nonneg _) (by norm_num)
    linarith
  have t3 : |A * u + B * (co' * v)| ≤ 0.0335 := by
    apply cauchy2 (by norm_num) (by linarith)
    have h1 : co' ^ 2 ≤ 1 := pow_le_one₀ (by linarith) co2
    have h2 := mul_le_mul_of_nonneg_right h1 (sq_nonneg v)
    rw [mul_pow]
    linarith
  have t4 : |A * (p * (so' * (S + v)))| ≤ 0.004 := by
    rw [abs_mul, abs_mul, abs_mul]
    have s1 : |S| ≤ 1 := abs_le_of_sq_le_sq (by linarith) (by norm_num)
    have a1 : |A| ≤ 1 := abs_le_of_sq_le_sq (by linarith) (by norm_num)
    have k1 : |S + v| ≤ 1.0335 := (abs_add_le _ _).trans (by norm_num at hv ⊢; linarith)
    have k3 := mul_le_mul k2 k1 (abs_nonneg _) (by norm_num)
    have k4 := mul_le_mul hp k3 (by positivity) (by norm_num)
    have k5 := mul_le_mul a1 k4 (by positivity) (by norm_num)
    norm_num at k5 ⊢; linarith
  rw [abs_le] at t2 t3 t4
  linarith [t2.2, t3.1, t4.2]

/-- Component of the mean Sun along the meridian at hour angle `h` from mean noon, in the plane of the equator. -/
theorem meridian {n lam h : ℝ} (hn : |n| ≤ 36525) (hh : ∃ k : ℤ, 2 * Real.pi * n + lam = h + k * (2 * Real.pi)) (h0 : 0 ≤ Real.cos h) :
    0.9174 * Real.cos h - 0.0414 * |Real.sin h| - 0.0398 ≤ Real.cos lam * meanSun n 0 + Real.sin lam * meanSun n 1 := by
  obtain ⟨x, y, z, hx, hy, hz, s0, s1, s2⟩ := meanSun_coords n
  obtain ⟨u, v, e0, e1, hu, huv, hv, -⟩ := ecc_terms n
  have hp := precession_le hn
  obtain ⟨so, co⟩ := sincos_obl obliquity_near
  obtain ⟨k, hk⟩ := hh
  have p1 := Real.pi_gt_d20
  have p2 := Real.pi_lt_d20
  -- the difference between the rotation of the Earth and the longitude of the Sun
  obtain ⟨η, hη, hang⟩ : ∃ η : ℝ, |η| ≤ 0.00211 ∧ earthAngle n + lam = (meanLongitude n + Real.pi) + (h + η) + k * (2 * Real.pi) := by
    refine ⟨earthAngle n + lam - (meanLongitude n + Real.pi) - h - k * (2 * Real.pi), ?_, by ring⟩
    have : earthAngle n + lam - (meanLongitude n + Real.pi) - h - k * (2 * Real.pi) =
        Real.pi * (2 * 0.7790572732640 - 100.46457166 / 180 - 1) + Real.pi * (2 * 0.00273781191135448 * 36525 - 35999.37244981 / 180) * (n / 36525) := by
      have : lam = h + k * (2 * Real.pi) - 2 * Real.pi * n := by linarith
      rw [this]
      unfold earthAngle meanLongitude
      ring
    rw [this]
    have ht : |n / 36525| ≤ 1 := by
      rw [abs_div, abs_of_pos (show (0 : ℝ) < 36525 by norm_num), div_le_one (by norm_num)]; exact hn
    refine (abs_add_le _ _).trans ?_
    rw [abs_mul _ (n / 36525)]
    have a1 : |Real.pi * (2 * 0.7790572732640 - 100.46457166 / 180 - 1)| ≤ 0.00007 := by
      rw [abs_le]; constructor <;> norm_num at p1 p2 ⊢ <;> linarith
    have a2 : |Real.pi * (2 * 0.00273781191135448 * 36525 - 35999.37244981 / 180)| ≤ 0.002035 := by
      rw [abs_le]; constructor <;> norm_num at p1 p2 ⊢ <;> linarith
    have := mul_le_mul a2 ht (abs_nonneg _) (by norm_num)
    norm_num at *
    linarith
  set β := meanLongitude n + Real.pi with hβ
  have eA : Real.cos lam * meanSun n 0 + Real.sin lam * meanSun n 1 =
      Real.cos (β + (h + η)) * x + Real.sin (β + (h + η)) * y := by
    have c1 : Real.cos (earthAngle n + lam) = Real.cos (β + (h + η)) := by
      rw [hang, Real.cos_add_int_mul_two_pi]
    have c2 : Real.sin (earthAngle n + lam) = Real.sin (β + (h + η)) := by
      rw [hang, Real.sin_add_int_mul_two_pi]
    rw [s0, s1, ← c1, ← c2, Real.cos_add, Real.sin_add]
    ring
  have f0 : meanEarth n 0 = -Real.cos β - u := by rw [e0, hβ, Real.cos_add_pi]; ring
  have f1 : meanEarth n 1 = -Real.sin β - v := by rw [e1, hβ, Real.sin_add_pi]; ring
  rw [eA, hx, hy, f0, f1]
  clear eA hx hy hz s0 s1 s2 e0 e1 f0 f1 hang hk
  clear_value β
  set γ := h + η with hγ
  have g1 := abs_le.mp (cos_near γ h 0.00211 (by rw [hγ, add_sub_cancel_left]; exact hη))
  have g2 : |Real.sin γ| ≤ |Real.sin h| + 0.00211 := by
    have := abs_sub_abs_le_abs_sub (Real.sin γ) (Real.sin h)
    have := sin_near γ h 0.00211 (by rw [hγ, add_sub_cancel_left]; exact hη)
    linarith
  clear_value γ
  have key : Real.cos (β + γ) * (-(-Real.cos β - u) + precessionAngle n * (Real.sin obliquity * (-Real.sin β - v))) +
      Real.sin (β + γ) * -(Real.cos obliquity * (-Real.sin β - v)) =
      Real.cos γ * (1 - (1 - Real.cos obliquity) * Real.sin β ^ 2)
      - Real.sin γ * ((1 - Real.cos obliquity) * (Real.sin β * Real.cos β))
      + (Real.cos (β + γ) * u + Real.sin (β + γ) * (Real.cos obliquity * v))
      - Real.cos (β + γ) * (precessionAngle n * (Real.sin obliquity * (Real.sin β + v))) := by
    have := Real.sin_sq_add_cos_sq β
    rw [Real.cos_add, Real.sin_add]
    linear_combination (Real.cos γ) * this
  rw [key]
  exact meridian_bound (Real.sin_sq_add_cos_sq β) (Real.sin_sq_add_cos_sq (β + γ)) hp so co huv hv h0 (by linarith [g1.1])
    (abs_nonneg _) g2

/-- The same around midnight. -/
theorem antimeridian {n lam h : ℝ} (hn : |n| ≤ 36525)
    (hh : ∃ k : ℤ, 2 * Real.pi * n + lam + Real.pi = h + k * (2 * Real.pi)) (h0 : 0 ≤ Real.cos h) :
    Real.cos lam * meanSun n 0 + Real.sin lam * meanSun n 1 ≤ -(0.9174 * Real.cos h - 0.0414 * |Real.sin h| - 0.0398) := by
  obtain ⟨k, hk⟩ := hh
  have := meridian (lam := lam + Real.pi) hn ⟨k, by rw [← hk]; ring⟩ h0
  rw [Real.cos_add_pi, Real.sin_add_pi] at this
  linarith

/-- Height of the mean Sun above the equator. -/
theorem declination {n : ℝ} (hn : |n| ≤ 36525) : |meanSun n 2| ≤ 0.4212 := by
  obtain ⟨x, y, z, hx, hy, hz, s0, s1, s2⟩ := meanSun_coords n
  obtain ⟨u, v, e0, e1, hu, huv, hv, -⟩ := ecc_terms n
  have hp := precession_le hn
  obtain ⟨so, co⟩ := sincos_obl obliquity_near
  have k2 : |Real.sin obliquity| ≤ 0.39778 := by rw [abs_le] at so ⊢; norm_num at so ⊢; constructor <;> linarith
  rw [s2, hz, e0, e1]
  have c1 := Real.abs_cos_le_one (meanLongitude n)
  have c2 := Real.abs_sin_le_one (meanLongitude n)
  have k3 : |Real.cos (meanLongitude n) - u| ≤ 1.014 := (abs_sub _ _).trans (by norm_num at *; linarith)
  have k4 : |Real.sin (meanLongitude n) - v| ≤ 1.0335 := (abs_sub _ _).trans (by norm_num at *; linarith)
  refine (abs_sub _ _).trans ?_
  rw [abs_neg, abs_mul, abs_mul]
  have m1 := mul_le_mul hp k3 (abs_nonneg _) (by norm_num)
  have m2 := mul_le_mul k2 k4 (abs_nonneg _) (by norm_num)
  norm_num at m1 m2 ⊢
  linarith

/-- The longitude of the Sun from the equinox of date, in exact units: `w = L - pi + p / sin eps` up to `1e-6`. -/
theorem season {n w : ℝ} {k : ℤ} (hn : |n| ≤ 36525)
    (hw : meanLongitude n - Real.pi + 0.0244287 * (n / 36525) = w + k * (2 * Real.pi)) :
    |meanSun n 2 - 0.397777 * (Real.sin w + 0.03257 + 0.008355615 * (-2 * 0.97451 * Real.sin w ^ 2
      + 2 * 0.22388 * (Real.sin w * Real.cos w)))| ≤ 0.397777 * 0.0012 := by
  obtain ⟨x, y, z, hx, hy, hz, s0, s1, s2⟩ := meanSun_coords n
  obtain ⟨u, v, e0, e1, hu, huv, hv, hv'⟩ := ecc_terms n
  obtain ⟨so, co⟩ := sincos_obl obliquity_near
  obtain ⟨o1, o2⟩ := perihelion_bounds
  have ht : |n / 36525| ≤ 1 := by
    rw [abs_div, abs_of_pos (show (0 : ℝ) < 36525 by norm_num), div_le_one (by norm_num)]; exact hn
  have p1 := Real.pi_gt_d20
  have p2 := Real.pi_lt_d20
  set T := n / 36525 with hT
  have hp : |precessionAngle n - 0.397777 * (0.0244287 * T)| ≤ 2e-7 := by
    have : precessionAngle n - 0.397777 * (0.0244287 * T) = (2004.3109 / 3600 / 180 * Real.pi - 0.397777 * 0.0244287) * T := by
      unfold precessionAngle; rw [← hT]; ring
    rw [this, abs_mul]
    refine (mul_le_mul (b := 2e-7) ?_ ht (abs_nonneg _) (by norm_num)).trans (by norm_num)
    rw [abs_le]; constructor <;> norm_num at p1 p2 ⊢ <;> linarith
  have hp' := precession_le hn
  have hq : |0.0244287 * T| ≤ 0.0244287 := by
    rw [abs_mul, abs_of_pos (by norm_num : (0 : ℝ) < 0.0244287)]; linarith
  set q := 0.0244287 * T with hqd
  clear_value q
  have eL : meanLongitude n = (w - q) + Real.pi + k * (2 * Real.pi) := by linarith
  have hs : Real.sin (meanLongitude n) = -Real.sin (w - q) := by
    rw [eL, Real.sin_add_int_mul_two_pi, Real.sin_add_pi]
  have hc : Real.cos (meanLongitude n) = -Real.cos (w - q) := by
    rw [eL, Real.cos_add_int_mul_two_pi, Real.cos_add_pi]
  -- the eccentricity terms
  have h2 : |Real.sin (2 * meanLongitude n - perihelion) - Real.sin (2 * w - perihelion)| ≤ 0.0488574 := by
    have e : 2 * meanLongitude n - perihelion = (2 * w - 2 * q - perihelion) + (2 * k + 1 : ℤ) * (2 * Real.pi) := by
      rw [eL]; push_cast; ring
    rw [e, Real.sin_add_int_mul_two_pi]
    apply sin_near
    rw [show 2 * w - 2 * q - perihelion - (2 * w - perihelion) = -(2 * q) by ring, abs_neg, abs_mul, abs_two]
    linarith
  have h3 : Real.sin (2 * w - perihelion) = 2 * Real.sin w * Real.cos w * Real.cos perihelion -
      (1 - 2 * Real.sin w ^ 2) * Real.sin perihelion := by
    have := Real.sin_sq_add_cos_sq w
    rw [Real.sin_sub, Real.sin_two_mul, Real.cos_two_mul]
    linear_combination (-2 * Real.sin perihelion) * this
  have hsc := Real.sin_sq_add_cos_sq w
  have hV : |v - (0.03257 + 0.008355615 * (-2 * 0.97451 * Real.sin w ^ 2 + 2 * 0.22388 * (Real.sin w * Real.cos w)))| ≤ 4.2e-4 := by
    have S1 : Real.sin w ^ 2 ≤ 1 := by nlinarith only [sq_nonneg (Real.cos w), hsc]
    have S0 := sq_nonneg (Real.sin w)
    have SC : |Real.sin w * Real.cos w| ≤ 1 / 2 := by
      rw [abs_le]; constructor <;> nlinarith only [sq_nonneg (Real.sin w + Real.cos w), sq_nonneg (Real.sin w - Real.cos w), hsc]
    have m1 : |(Real.sin perihelion - 0.97451) * (4 - 2 * Real.sin w ^ 2)| ≤ 1.5e-4 * 4 := by
      rw [abs_mul]
      refine mul_le_mul o2 ?_ (abs_nonneg _) (by norm_num)
      rw [abs_of_nonneg (by linarith)]; linarith
    have m2 : |(Real.cos perihelion + 0.22388) * (Real.sin w * Real.cos w)| ≤ 1e-4 * (1 / 2) := by
      rw [abs_mul]; exact mul_le_mul o1 SC (abs_nonneg _) (by norm_num)
    have e : v - (0.03257 + 0.008355615 * (-2 * 0.97451 * Real.sin w ^ 2 + 2 * 0.22388 * (Real.sin w * Real.cos w))) =
        0.008355615 * ((Real.sin perihelion - 0.97451) * (4 - 2 * Real.sin w ^ 2) - 2 * ((Real.cos perihelion + 0.22388) *
        (Real.sin w * Real.cos w)) - (Real.sin (2 * meanLongitude n - perihelion) - Real.sin (2 * w - perihelion))) +
        (0.008355615 * 4 * 0.97451 - 0.03257) := by
      rw [hv', h3]; ring
    rw [e]
    rw [abs_le] at m1 m2 h2
    norm_num at m1 m2 h2
    rw [abs_le]; constructor <;> norm_num <;> linarith [m1.1, m1.2, m2.1, m2.2, h2.1, h2.2]
  -- precession turns the equinox
  have hrot : |q * Real.cos (w - q) + Real.sin (w - q) - Real.sin w| ≤ 3.02e-4 := by
    have e : Real.sin w = Real.sin (w - q) * Real.cos q + Real.cos (w - q) * Real.sin q := by
      rw [← Real.sin_add, sub_add_cancel]
    have d1 := sin_cube (hq.trans (by norm_num))
    have d2 : |1 - Real.cos q| ≤ 0.000299 := by
      have h1 := Real.one_sub_sq_div_two_le_cos (x := q)
      have h2 := Real.cos_le_one q
      have h3 : q ^ 2 ≤ 0.0244287 ^ 2 := sq_le_sq' (by linarith [(abs_le.mp hq).1]) (abs_le.mp hq).2
      rw [abs_le]; norm_num at h3 ⊢; constructor <;> linarith
    have e' : q * Real.cos (w - q) + Real.sin (w - q) - Real.sin w =
        -(Real.cos (w - q) * (Real.sin q - q)) + Real.sin (w - q) * (1 - Real.cos q) := by rw [e]; ring
    rw [e']
    refine (abs_add_le _ _).trans ?_
    rw [abs_neg, abs_mul, abs_mul]
    have k1 := mul_le_mul (Real.abs_cos_le_one (w - q)) d1 (abs_nonneg _) (by norm_num)
    have k2 := mul_le_mul (Real.abs_sin_le_one (w - q)) d2 (abs_nonneg _) (by norm_num)
    norm_num at k1 k2 ⊢
    linarith
  have hcb := Real.abs_cos_le_one (w - q)
  have hsb := Real.abs_sin_le_one (w - q)
  rw [s2, hz, e0, e1, hs, hc]
  have m1 : |(precessionAngle n - 0.397777 * q) * Real.cos (w - q)| ≤ 2e-7 * 1 := by
    rw [abs_mul]; exact mul_le_mul hp hcb (abs_nonneg _) (by norm_num)
  have m2 : |precessionAngle n * u| ≤ 0.009718 * 0.01398 := by
    rw [abs_mul]; exact mul_le_mul hp' hu (abs_nonneg _) (by norm_num)
  have m3 : |(Real.sin obliquity - 0.397777) * (Real.sin (w - q) + v)| ≤ 5e-7 * 1.04 := by
    rw [abs_mul]
    exact mul_le_mul so ((abs_add_le _ _).trans (by norm_num at *; linarith)) (abs_nonneg _) (by norm_num)
  generalize hG : 0.03257 + 0.008355615 * (-2 * 0.97451 * Real.sin w ^ 2 + 2 * 0.22388 * (Real.sin w * Real.cos w)) = V at *
  have e : -(precessionAngle n * (-Real.cos (w - q) - u)) - Real.sin obliquity * (-Real.sin (w - q) - v) -
      0.397777 * (Real.sin w + 0.03257 + 0.008355615 * (-2 * 0.97451 * Real.sin w ^ 2 + 2 * 0.22388 * (Real.sin w * Real.cos w))) =
      0.397777 * ((q * Real.cos (w - q) + Real.sin (w - q) - Real.sin w) + (v - V)) +
      (precessionAngle n - 0.397777 * q) * Real.cos (w - q) + precessionAngle n * u +
      (Real.sin obliquity - 0.397777) * (Real.sin (w - q) + v) := by rw [← hG]; ring
  rw [e]
  clear e hG
  rw [abs_le] at m1 m2 m3 hrot hV ⊢
  norm_num at m1 m2 m3 hrot hV ⊢
  constructor <;> linarith [m1.1, m1.2, m2.1, m2.2, m3.1, m3.2, hrot.1, hrot.2, hV.1, hV.2]

/-- Northern summer. -/
theorem summer {n w : ℝ} {k : ℤ} (hn : |n| ≤ 36525)
    (hw : meanLongitude n - Real.pi + 0.0244287 * (n / 36525) = w + k * (2 * Real.pi)) (h1 : -0.017 ≤ w)
    (h2 : w ≤ Real.pi + 0.017) : 0.0016 ≤ meanSun n 2 := by
  have h := (abs_le.mp (season hn hw)).1
  have hs : -0.017 ≤ Real.sin w := by
    rcases le_total 0 w with h0 | h0
    · rcases le_total w Real.pi with h3 | h3
      · linarith [Real.sin_nonneg_of_nonneg_of_le_pi h0 h3]
      · have := (abs_le.mp (Real.abs_sin_le_abs (x := Real.pi - w))).1
        rw [abs_of_nonpos (by linarith), Real.sin_pi_sub] at this
        linarith
    · have := (abs_le.mp (Real.abs_sin_le_abs (x := w))).1
      rw [abs_of_nonpos h0] at this
      linarith
  have hs1 := Real.sin_le_one w
  have hsc := Real.sin_sq_add_cos_sq w
  have SC : |Real.sin w * Real.cos w| ≤ |Real.sin w| := by
    rw [abs_mul]; exact mul_le_of_le_one_right (abs_nonneg _) (Real.abs_cos_le_one w)
  generalize Real.sin w * Real.cos w = sc at *
  generalize Real.sin w = s at *
  have : |s| ≤ s + 0.034 := by rw [abs_le]; constructor <;> linarith
  have hsq : s ^ 2 ≤ s + 0.034 := by nlinarith
  rw [abs_le] at SC
  norm_num at *
  linarith [SC.1]

/-- Northern winter. -/
theorem winter {n w : ℝ} {k : ℤ} (hn : |n| ≤ 36525)
    (hw : meanLongitude n - Real.pi + 0.0244287 * (n / 36525) = w + k * (2 * Real.pi)) (h : Real.sin w ≤ -0.041) :
    meanSun n 2 ≤ -0.0016 := by
  have h' := (abs_le.mp (season hn hw)).2
  have SC : |Real.sin w * Real.cos w| ≤ |Real.sin w| := by
    rw [abs_mul]; exact mul_le_of_le_one_right (abs_nonneg _) (Real.abs_cos_le_one w)
  have hsq := sq_nonneg (Real.sin w)
  generalize Real.sin w * Real.cos w = sc at *
  generalize Real.sin w = s at *
  rw [abs_of_neg (show s < 0 by linarith), abs_le] at SC
  norm_num at *
  linarith [SC.2]

end Verif
