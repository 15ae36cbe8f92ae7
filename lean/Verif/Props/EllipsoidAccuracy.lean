import Verif.Props.Ellipsoid

/-!
# C58, C59: `geocentric_to_geodetic` outside the ellipsoid

Scaled coordinates.  With `e = 1-f`, a point at distance `p` from the axis and height `|z|` over the equator is
written `p = a L u`, `|z| = a e L s` with `u² + s² = 1`; `L` is the factor by which the ellipsoid must be
scaled to pass through the point.  `L ≥ 1` outside.  `q = 1 - e²`.
-/

namespace Verif
open Arith

namespace Halley

/-- `J`, `W`, `y` of the scaled Halley step. -/
noncomputable def J (q L u : ℝ) : ℝ := L - q * u ^ 2
noncomputable def W (q L u s : ℝ) : ℝ := J q L u ^ 2 - 1.5 * q ^ 2 * s ^ 2 * u ^ 2 * (L - 1)
noncomputable def y (q L u : ℝ) : ℝ := q * (L - 1) * J q L u
/-- The scaled `cc / ec` and `s1`. -/
noncomputable def X (q L u s : ℝ) : ℝ := u * W q L u s
noncomputable def Y (q L u s : ℝ) : ℝ := s * (W q L u s - y q L u)

variable {q L u s : ℝ}

theorem W_pos (q0 : 0 ≤ q) (q1 : q < 1) (hL : 1 ≤ L) (us : u ^ 2 + s ^ 2 = 1) : 0 < W q L u s := by
  unfold W J
  have w0 := sq_nonneg u
  have w1 := sq_nonneg s
  set w := u ^ 2
  have hs : s ^ 2 = 1 - w := by linarith
  rw [hs] at w1 ⊢
  have k1 : 0 < 1 - q * w := by nlinarith
  have k2 : q ^ 2 * (1 - w) * w ≤ (1 - q * w) := by
    have : q ^ 2 * w ≤ 1 := by
      have : q * w ≤ 1 := by nlinarith
      nlinarith
    have : q * w ≤ w := by nlinarith
    nlinarith
  have k3 : (L - q * w) ^ 2 = (L - 1 - (1 - q * w)) ^ 2 + 4 * (L - 1) * (1 - q * w) := by ring
  rcases hL.eq_or_lt with h | h
  · rw [← h]; nlinarith
  · have hx : 0 < L - 1 := by linarith
    have : 0 < (L - 1) * (1 - q * w) := mul_pos hx k1
    nlinarith [sq_nonneg (L - 1 - (1 - q * w)), mul_le_mul_of_nonneg_left k2 hx.le]

theorem W_pos' (q0 : 0 ≤ q) (q1 : q < 1) (hL : q < L) (us : u ^ 2 + s ^ 2 = 1) : 0 < W q L u s := by
  rcases le_or_gt 1 L with h | h
  · exact W_pos q0 q1 h us
  · have u1 : u ^ 2 ≤ 1 := by have := sq_nonneg s; linarith
    have j : 0 < J q L u := by
      unfold J
      have := mul_le_mul_of_nonneg_left u1 q0
      linarith
    unfold W
    have : 0 ≤ 1.5 * q ^ 2 * s ^ 2 * u ^ 2 * (1 - L) := by
      have : 0 ≤ 1 - L := by linarith
      positivity
    have : 0 < J q L u ^ 2 := by positivity
    linarith

end Halley

open Halley

/-- Latitude and height in scaled coordinates. -/
theorem latHeight_scaled (a f L u s : ℝ) (ha : 0 < a) (f1 : f < 1) (Lp : 0 < L) (hu : 0 < u)
    (us : u ^ 2 + s ^ 2 = 1) :
    (convR a f).latHeight ((a * L * u) ^ 2) (a * (1 - f) * L * s) =
      (Real.arctan (Y (1 - (1 - f) ^ 2) L u s / ((1 - f) * X (1 - (1 - f) ^ 2) L u s)),
       a * (L * u * ((1 - f) * X (1 - (1 - f) ^ 2) L u s) + (1 - f) * L * s * Y (1 - (1 - f) ^ 2) L u s -
         (1 - f) * √(X (1 - (1 - f) ^ 2) L u s ^ 2 + Y (1 - (1 - f) ^ 2) L u s ^ 2)) /
         √(Y (1 - (1 - f) ^ 2) L u s ^ 2 + ((1 - f) * X (1 - (1 - f) ^ 2) L u s) ^ 2)) := by
  have he : 0 < 1 - f := by linarith
  unfold EllipsoidConverter.latHeight convR
  simp only [add_real, sub_real, mul_real, div_real, sqrt_real, atan_real]
  rw [Real.sqrt_sq (by positivity)]
  set e := 1 - f with hedef
  clear_value e
  have k1 : a * e * L * s / a = e * L * s := by field_simp
  have k2 : a * L * u / a = L * u := by field_simp
  rw [k1, k2]
  have k3 : e * (L * u) * (e * (L * u)) + e * L * s * (e * L * s) = (e * L) ^ 2 := by
    linear_combination (e * L) ^ 2 * us
  rw [k3, Real.sqrt_sq (by positivity)]
  have hs : s ^ 2 = 1 - u ^ 2 := by linarith
  set k := (e * L) ^ 6 * u with hk
  have kp : 0 < k := by positivity
  have e1 : (e * (e * L * s) * ((e * L) ^ 2 * (e * L)) + (1 - e ^ 2) * (e * L * s * (e * L * s) * (e * L * s))) *
        (L * u * ((e * L) ^ 2 * (e * L)) - (1 - e ^ 2) * (e * (L * u) * (e * (L * u)) * (e * (L * u)))) -
      (1 - e ^ 2) ^ 2 * 1.5 * (e * L * s * (e * L * s)) * (e * (L * u) * (e * (L * u))) * (L * u) *
        (e * L - e) * (e * L * s) = k * Y (1 - e ^ 2) L u s := by
    rw [hk]
    unfold Y W y J
    rw [hs]
    linear_combination (e ^ 6 * L ^ 6 * u * s * (1 - e ^ 2) * ((L - (1 - e ^ 2) * u ^ 2))) * hs
      - (1.5 * (1 - e ^ 2) ^ 2 * e ^ 6 * L ^ 6 * u ^ 3 * (L - 1) * s) * hs
  have e2 : e * ((L * u * ((e * L) ^ 2 * (e * L)) - (1 - e ^ 2) * (e * (L * u) * (e * (L * u)) * (e * (L * u)))) *
        (L * u * ((e * L) ^ 2 * (e * L)) - (1 - e ^ 2) * (e * (L * u) * (e * (L * u)) * (e * (L * u)))) -
      (1 - e ^ 2) ^ 2 * 1.5 * (e * L * s * (e * L * s)) * (e * (L * u) * (e * (L * u))) * (L * u) *
        (e * L - e) * (e * (L * u))) = k * (e * X (1 - e ^ 2) L u s) := by
    rw [hk]
    unfold X W J
    ring
  rw [e1, e2]
  clear_value k
  generalize X (1 - e ^ 2) L u s = x
  generalize Y (1 - e ^ 2) L u s = y
  have r1 : e ^ 2 * (k * y * (k * y)) + k * (e * x) * (k * (e * x)) = (e * k) ^ 2 * (x ^ 2 + y ^ 2) := by ring
  have r2 : k * y * (k * y) + k * (e * x) * (k * (e * x)) = k ^ 2 * (y ^ 2 + (e * x) ^ 2) := by ring
  rw [r1, r2, Real.sqrt_mul (by positivity), Real.sqrt_mul (by positivity), Real.sqrt_sq (by positivity),
    Real.sqrt_sq kp.le]
  refine Prod.ext ?_ ?_
  · simp only; rw [mul_div_mul_left _ _ kp.ne']
  · simp only
    rw [← mul_div_mul_left (a * (L * u * (e * x) + e * L * s * y - e * √(x ^ 2 + y ^ 2))) _ kp.ne']
    congr 1
    ring

/-- The residual of the round trip in the meridian plane: it is tangential, of size `|T|`. -/
theorem scaled_residual (a f L u s : ℝ) (ha : 0 < a) (f0 : 0 ≤ f) (f1 : f < 1) (hL : 1 - (1 - f) ^ 2 < L) (hu : 0 < u)
    (us : u ^ 2 + s ^ 2 = 1) (φ h : ℝ)
    (hφ : (φ, h) = (convR a f).latHeight ((a * L * u) ^ 2) (a * (1 - f) * L * s)) :
    ∃ T M N : ℝ,
      (a / √(Real.cos φ ^ 2 + (1 - f) ^ 2 * Real.sin φ ^ 2) + h) * Real.cos φ = a * L * u - T * Real.sin φ ∧
      ((1 - f) ^ 2 * (a / √(Real.cos φ ^ 2 + (1 - f) ^ 2 * Real.sin φ ^ 2)) + h) * Real.sin φ =
        a * (1 - f) * L * s + T * Real.cos φ ∧
      M = √(X (1 - (1 - f) ^ 2) L u s ^ 2 + Y (1 - (1 - f) ^ 2) L u s ^ 2) ∧
      0 < M ∧ (1 - f) * M ≤ N ∧
      T = a * ((1 - (1 - f) ^ 2) * u * s * (L * (W (1 - (1 - f) ^ 2) L u s -
            (L - 1) * J (1 - (1 - f) ^ 2) L u) -
          W (1 - (1 - f) ^ 2) L u s * (W (1 - (1 - f) ^ 2) L u s - y (1 - (1 - f) ^ 2) L u) / M)) / N := by
  have he : 0 < 1 - f := by linarith
  have he1 : 1 - f ≤ 1 := by linarith
  rw [latHeight_scaled a f L u s ha f1 (lt_of_le_of_lt (by nlinarith) hL) hu us, Prod.mk.injEq] at hφ
  obtain ⟨hp, hh⟩ := hφ
  set e := 1 - f with hedef
  set q := 1 - e ^ 2 with hq
  have q0 : 0 ≤ q := by rw [hq]; nlinarith
  have q1 : q < 1 := by rw [hq]; nlinarith
  have Wp := W_pos' (u := u) (s := s) q0 q1 hL us
  have hX : X q L u s = u * W q L u s := rfl
  have hY : Y q L u s = s * (W q L u s - y q L u) := rfl
  have hy : y q L u = q * (L - 1) * J q L u := rfl
  have Xp : 0 < X q L u s := by rw [hX]; positivity
  set x := X q L u s
  set Yv := Y q L u s
  set w := W q L u s
  set j := J q L u
  set yy := y q L u
  set N := √(Yv ^ 2 + (e * x) ^ 2) with hN
  set M := √(x ^ 2 + Yv ^ 2) with hM
  have N2 : N ^ 2 = Yv ^ 2 + (e * x) ^ 2 := Real.sq_sqrt (by positivity)
  have M2 : M ^ 2 = x ^ 2 + Yv ^ 2 := Real.sq_sqrt (by positivity)
  have Np : 0 < N := Real.sqrt_pos.mpr (by positivity)
  have Mp : 0 < M := Real.sqrt_pos.mpr (by positivity)
  clear_value N M x Yv w j yy
  have ex : 0 < e * x := by positivity
  have sq1 : 1 + (Yv / (e * x)) ^ 2 = (N / (e * x)) ^ 2 := by
    rw [div_pow, div_pow, N2]; field_simp; ring
  have c : Real.cos φ = e * x / N := by
    rw [hp, Real.cos_arctan, sq1, Real.sqrt_sq (by positivity)]; field_simp
  have sn : Real.sin φ = Yv / N := by
    rw [hp, Real.sin_arctan, sq1, Real.sqrt_sq (by positivity)]; field_simp
  have D : √(Real.cos φ ^ 2 + e ^ 2 * Real.sin φ ^ 2) = e * M / N := by
    have : Real.cos φ ^ 2 + e ^ 2 * Real.sin φ ^ 2 = (e * M / N) ^ 2 := by
      rw [c, sn, div_pow, div_pow, div_pow, mul_pow e M, M2]; ring
    rw [this, Real.sqrt_sq (by positivity)]
  have e2 : e ^ 2 = 1 - q := by rw [hq]; ring
  refine ⟨a * (L * u * Yv - (1 - q) * L * s * x - q * x * Yv / M) / N, M, N, ?_, ?_, rfl, Mp, ?_, ?_⟩
  · rw [D, c, sn, hh, ← e2]
    field_simp
    linear_combination (x - M * L * u) * N2 - e ^ 2 * x * M2 - x * Yv ^ 2 * e2
  · rw [D, c, sn, hh, ← e2]
    field_simp
    linear_combination (Yv - M * L * s) * N2 - Yv * M2 + x ^ 2 * Yv * e2
  · refine abs_le_of_sq_le_sq' ?_ Np.le |>.2
    rw [mul_pow, M2, N2]
    nlinarith [mul_nonneg (sq_nonneg Yv) q0]
  · congr 2
    rw [hX, hY, hy]
    field_simp
    ring

/-! ### The size of the residual -/

/-- The third-order remainder polynomial of the step, after removing the factor `q³ x³ w (1-w)`. -/
theorem remainder_bound (q x w : ℝ) (q0 : 0 ≤ q) (q1 : q ≤ 0.02) (hx : -0.01 ≤ x) (w0 : 0 ≤ w) (w1 : w ≤ 1) :
    |(1 + x) ^ 3 * (4 - 5 * w)
      + q * ((-15 / 2 * w + 21 / 2 * w ^ 2) + (-3 - 21 / 2 * w + 39 / 2 * w ^ 2) * x
          + (-6 + 3 / 2 * w + 15 / 2 * w ^ 2) * x ^ 2 + (-3 + 9 / 2 * w - 3 / 2 * w ^ 2) * x ^ 3)
      + q ^ 2 * ((3 * w ^ 2 - 6 * w ^ 3) + (-3 * w + 12 * w ^ 2 - 12 * w ^ 3) * x
          + (-3 * w + 9 * w ^ 2 - 6 * w ^ 3) * x ^ 2)
      + q ^ 3 * ((1 / 2 * w ^ 3 + 1 / 2 * w ^ 4) + (-3 / 4 * w ^ 2 + 3 / 4 * w ^ 4) * x)|
      ≤ 4.1 * (1 + x) ^ 3 := by
  have w2 : 0 ≤ w ^ 2 := by positivity
  have w3 : 0 ≤ w ^ 3 := by positivity
  have w4 : 0 ≤ w ^ 4 := by positivity
  have w21 : w ^ 2 ≤ 1 := pow_le_one₀ w0 w1
  have w31 : w ^ 3 ≤ 1 := pow_le_one₀ w0 w1
  have w41 : w ^ 4 ≤ 1 := pow_le_one₀ w0 w1
  have e3 : (1 + x) ^ 3 = 1 + 3 * x + 3 * x ^ 2 + x ^ 3 := by ring
  have cub : ∀ a b c d B : ℝ, |a| ≤ 0.75 * B → |b| ≤ 3 * B → |c| ≤ 3 * B → |d| ≤ B →
      |a + b * x + c * x ^ 2 + d * x ^ 3| ≤ B * (1 + x) ^ 3 := by
    intro a b c d B h1 h2 h3 h4
    have B0 : 0 ≤ B := (abs_nonneg _).trans h4
    rcases le_or_gt 0 x with hx0 | hx0
    · have x2 : 0 ≤ x ^ 2 := by positivity
      have x3 : 0 ≤ x ^ 3 := by positivity
      have h1' : |a| ≤ B := by linarith
      rw [e3]
      clear h1
      rw [abs_le] at *
      constructor <;> nlinarith
    · have ax : |x| ≤ 0.01 := by rw [abs_le]; constructor <;> linarith
      have k1 : |b * x| ≤ 3 * B * 0.01 := by rw [abs_mul]; exact mul_le_mul h2 ax (abs_nonneg _) (by positivity)
      have k2 : |c * x ^ 2| ≤ 3 * B * 0.01 ^ 2 := by
        rw [abs_mul, abs_pow]; exact mul_le_mul h3 (pow_le_pow_left₀ (abs_nonneg _) ax 2) (by positivity) (by positivity)
      have k3 : |d * x ^ 3| ≤ B * 0.01 ^ 3 := by
        rw [abs_mul, abs_pow]; exact mul_le_mul h4 (pow_le_pow_left₀ (abs_nonneg _) ax 3) (by positivity) (by positivity)
      have k4 : (0.99 : ℝ) ^ 3 ≤ (1 + x) ^ 3 := pow_le_pow_left₀ (by norm_num) (by linarith) 3
      have k5 : B * 0.99 ^ 3 ≤ B * (1 + x) ^ 3 := mul_le_mul_of_nonneg_left k4 B0
      refine le_trans ?_ k5
      refine (abs_add_le _ _).trans ((add_le_add ((abs_add_le _ _).trans (add_le_add ((abs_add_le _ _).trans (add_le_add h1 k1)) k2)) k3).trans ?_)
      linarith
  have t1 := cub (-15 / 2 * w + 21 / 2 * w ^ 2) (-3 - 21 / 2 * w + 39 / 2 * w ^ 2)
    (-6 + 3 / 2 * w + 15 / 2 * w ^ 2) (-3 + 9 / 2 * w - 3 / 2 * w ^ 2) 4 (by rw [abs_le]; constructor <;> nlinarith)
    (by rw [abs_le]; constructor <;> nlinarith) (by rw [abs_le]; constructor <;> nlinarith)
    (by rw [abs_le]; constructor <;> nlinarith)
  have t2 := cub (3 * w ^ 2 - 6 * w ^ 3) (-3 * w + 12 * w ^ 2 - 12 * w ^ 3) (-3 * w + 9 * w ^ 2 - 6 * w ^ 3) 0 9
    (by rw [abs_le]; constructor <;> nlinarith) (by rw [abs_le]; constructor <;> nlinarith)
    (by rw [abs_le]; constructor <;> nlinarith) (by norm_num)
  have t3 := cub (1 / 2 * w ^ 3 + 1 / 2 * w ^ 4) (-3 / 4 * w ^ 2 + 3 / 4 * w ^ 4) 0 0 2
    (by rw [abs_le]; constructor <;> nlinarith) (by rw [abs_le]; constructor <;> nlinarith)
    (by norm_num) (by norm_num)
  rw [zero_mul, add_zero] at t2
  rw [zero_mul, zero_mul, add_zero, add_zero] at t3
  generalize (-15 / 2 * w + 21 / 2 * w ^ 2) + (-3 - 21 / 2 * w + 39 / 2 * w ^ 2) * x
          + (-6 + 3 / 2 * w + 15 / 2 * w ^ 2) * x ^ 2 + (-3 + 9 / 2 * w - 3 / 2 * w ^ 2) * x ^ 3 = A at *
  generalize (3 * w ^ 2 - 6 * w ^ 3) + (-3 * w + 12 * w ^ 2 - 12 * w ^ 3) * x
          + (-3 * w + 9 * w ^ 2 - 6 * w ^ 3) * x ^ 2 = B at *
  generalize (1 / 2 * w ^ 3 + 1 / 2 * w ^ 4) + (-3 / 4 * w ^ 2 + 3 / 4 * w ^ 4) * x = C at *
  have hK : 0 < (1 + x) ^ 3 := by
    have : 0 < 1 + x := by linarith
    positivity
  clear e3
  generalize (1 + x) ^ 3 = K at *
  have h0 : |K * (4 - 5 * w)| ≤ 4 * K := by
    rw [abs_mul, abs_of_pos hK, mul_comm]
    refine mul_le_mul_of_nonneg_right ?_ hK.le
    rw [abs_le]; constructor <;> linarith
  have h1 : |q * A| ≤ 0.02 * (4 * K) := by
    rw [abs_mul, abs_of_nonneg q0]; exact mul_le_mul q1 t1 (abs_nonneg _) (by norm_num)
  have h2 : |q ^ 2 * B| ≤ 0.0004 * (9 * K) := by
    rw [abs_mul, abs_of_nonneg (by positivity)]
    exact mul_le_mul (by nlinarith) t2 (abs_nonneg _) (by norm_num)
  have h3 : |q ^ 3 * C| ≤ 0.000008 * (2 * K) := by
    rw [abs_mul, abs_of_nonneg (by positivity)]
    refine mul_le_mul ?_ t3 (abs_nonneg _) (by norm_num)
    calc q ^ 3 ≤ 0.02 ^ 3 := pow_le_pow_left₀ q0 q1 3
      _ = _ := by norm_num
  rw [abs_le] at *
  norm_num at *
  constructor <;> linarith [h0.1, h0.2, h1.1, h1.2, h2.1, h2.2, h3.1, h3.2]

set_option maxHeartbeats 1000000 in
/-- Size of the scaled residual after one Halley step. -/
theorem step_bound (q L u s M : ℝ) (q0 : 0 ≤ q) (q1 : q ≤ 0.02) (hL : 0.99 ≤ L) (u0 : 0 ≤ u) (s0 : 0 ≤ s)
    (us : u ^ 2 + s ^ 2 = 1) (hM : M = √(X q L u s ^ 2 + Y q L u s ^ 2)) :
    |q * u * s * (L * (W q L u s - (L - 1) * J q L u) - W q L u s * (W q L u s - y q L u) / M)| ≤
      0.35 * q ^ 4 * |1 - 1 / L| ^ 3 * M := by
  have Lp : 0 < L := by linarith
  obtain ⟨x, hx⟩ : ∃ x, x = L - 1 := ⟨_, rfl⟩
  have x0 : -0.01 ≤ x := by linarith
  have ax0 := abs_nonneg x
  obtain ⟨w, hw⟩ : ∃ w, w = u ^ 2 := ⟨_, rfl⟩
  have w0 : 0 ≤ w := by rw [hw]; positivity
  have hs : s ^ 2 = 1 - w := by linarith
  have w1 : w ≤ 1 := by have := sq_nonneg s; linarith only [this, hs]
  have jd : J q L u = 1 + x - q * w := by unfold J; rw [hx, hw]; ring
  have wd : W q L u s = (1 + x - q * w) ^ 2 - 1.5 * q ^ 2 * (1 - w) * w * x := by
    unfold W; rw [jd, hs, ← hw, ← hx]
  have yd : y q L u = q * x * (1 + x - q * w) := by unfold y; rw [jd, ← hx]
  have L1 : L = 1 + x := by linarith
  obtain ⟨j, hj⟩ : ∃ j, j = 1 + x - q * w := ⟨_, rfl⟩
  obtain ⟨Wv, hW⟩ : ∃ Wv, Wv = W q L u s := ⟨_, rfl⟩
  have qw : q * w ≤ 0.02 := (mul_le_of_le_one_right q0 w1).trans q1
  have qw0 : 0 ≤ q * w := by positivity
  -- v and h
  obtain ⟨v, hv⟩ : ∃ v, v = Wv - (1 - w) * (q * x * j) := ⟨_, rfl⟩
  obtain ⟨h, hh⟩ : ∃ h, h = (1 - w) * w * (q * x * j) ^ 2 := ⟨_, rfl⟩
  have h0 : 0 ≤ h := by rw [hh]; have : 0 ≤ 1 - w := by linarith
                        positivity
  have ww : 0 ≤ (1 - w) * w := mul_nonneg (by linarith) w0
  have ww4 : (1 - w) * w ≤ 1 / 4 := by
    have := sq_nonneg (w - 1 / 2)
    linarith only [this]
  have jl : 0.979 * L ≤ j := by rw [hj, L1]; linarith only [qw, x0]
  have ju : j ≤ L := by rw [hj, L1]; linarith
  have jp : 0 < j := lt_of_lt_of_le (by positivity) jl
  have xL : |x| ≤ L := by rw [abs_le]; constructor <;> linarith
  have LL : L ≤ 1.02 * L ^ 2 := by nlinarith only [hL, Lp]
  have Wd : Wv = j ^ 2 - 1.5 * q ^ 2 * ((1 - w) * w) * x := by rw [hW, wd, hj]; ring
  have c1 : |1.5 * q ^ 2 * ((1 - w) * w) * x| ≤ 0.0002 * |x| := by
    rw [abs_mul, abs_of_nonneg (show 0 ≤ 1.5 * q ^ 2 * ((1 - w) * w) by positivity)]
    have b1 : q ^ 2 ≤ 0.02 ^ 2 := pow_le_pow_left₀ q0 q1 2
    have b2 : q ^ 2 * ((1 - w) * w) ≤ 0.02 ^ 2 * (1 / 4) := mul_le_mul b1 ww4 ww (by norm_num)
    refine mul_le_mul_of_nonneg_right ?_ ax0
    rw [mul_assoc]
    norm_num at b2 ⊢
    linarith only [b2]
  have c1' : -(q * w) ≤ 1.5 * q ^ 2 * ((1 - w) * w) * x := by
    have b1 : 1.5 * q ^ 2 * ((1 - w) * w) * (-0.01) ≤ 1.5 * q ^ 2 * ((1 - w) * w) * x :=
      mul_le_mul_of_nonneg_left x0 (by positivity)
    have b2 : q * (1 - w) ≤ 0.02 * 1 := mul_le_mul q1 (by linarith only [w0]) (by linarith only [w1]) (by norm_num)
    have b3 : q * w * (q * (1 - w)) ≤ q * w * (0.02 * 1) := mul_le_mul_of_nonneg_left b2 qw0
    have b4 : 1.5 * q ^ 2 * ((1 - w) * w) * (-0.01) = -0.015 * (q * w * (q * (1 - w))) := by ring
    rw [b4] at b1
    linarith only [b1, b3, qw0]
  have vl : 0.93 * L ^ 2 ≤ v := by
    have c2 : (1 - w) * (q * x * j) ≤ 0.02 * L ^ 2 := by
      have a1 : |x| * j ≤ L ^ 2 := by rw [pow_two]; exact mul_le_mul xL ju jp.le Lp.le
      have a2 : (1 - w) * q ≤ 0.02 := by
        refine le_trans (mul_le_of_le_one_left q0 ?_) q1
        linarith only [w0]
      have a3 : 0 ≤ |x| * j := by positivity
      have a4 : 0 ≤ (1 - w) * q := mul_nonneg (by linarith) q0
      calc (1 - w) * (q * x * j) = ((1 - w) * q) * (x * j) := by ring
        _ ≤ ((1 - w) * q) * (|x| * j) := by gcongr; exact le_abs_self x
        _ ≤ 0.02 * L ^ 2 := mul_le_mul a2 a1 a3 (by norm_num)
    have c3 : (0.979 * L) ^ 2 ≤ j ^ 2 := pow_le_pow_left₀ (by positivity) jl 2
    rw [hv, Wd]
    rw [mul_pow] at c3
    have c4 := (abs_le.mp c1).2
    linarith only [c4, c2, c3, xL, LL, sq_nonneg L]
  have vp : 0 < v := lt_of_lt_of_le (by positivity) vl
  have M2 : M ^ 2 = v ^ 2 + h := by
    rw [hM, Real.sq_sqrt (by positivity)]
    unfold X Y
    rw [mul_pow, mul_pow, hs, ← hw, yd, ← hW, hv, hh, ← hj]
    ring
  have Mn : 0 ≤ M := by rw [hM]; exact Real.sqrt_nonneg _
  have Mv : v ≤ M := abs_le_of_sq_le_sq' (by rw [M2]; linarith) Mn |>.2
  have Mp : 0 < M := by linarith
  have Md : M - v ≤ h / (2 * v) := by
    rw [le_div_iff₀ (by positivity)]
    have := sq_nonneg (M - v)
    linarith only [this, M2]
  obtain ⟨B, hB⟩ : ∃ B, B = L * (Wv - x * j) := ⟨_, rfl⟩
  obtain ⟨D, hD⟩ : ∃ D, D = Wv * (Wv - q * x * j) := ⟨_, rfl⟩
  have B0 : 0 ≤ B := by
    rw [hB, Wd]
    refine mul_nonneg Lp.le ?_
    have b1 : j ^ 2 - x * j = j * (1 - q * w) := by rw [hj]; ring
    have b2 : 0.979 * L * 0.98 ≤ j * (1 - q * w) :=
      mul_le_mul jl (by norm_num at qw ⊢; linarith only [qw]) (by norm_num) jp.le
    have c4 := (abs_le.mp c1).2
    linarith only [b1, b2, c4, xL, Lp]
  have B1 : B ≤ L ^ 2 := by
    rw [hB, Wd, pow_two L]
    refine mul_le_mul_of_nonneg_left ?_ Lp.le
    have b1 : j ^ 2 - x * j = j * (1 - q * w) := by rw [hj]; ring
    have b2 : j * (1 - q * w) ≤ j := mul_le_of_le_one_right jp.le (by linarith only [qw0])
    have b3 : j = L - q * w := by rw [hj, L1]
    linarith only [b1, b2, c1', b3]
  have id1 : 2 * v * (B * M - D) = (B * (2 * v ^ 2 + h) - 2 * v * D) - B * (M - v) ^ 2 := by
    linear_combination B * M2
  have id2 : B * (2 * v ^ 2 + h) - 2 * v * D = q ^ 3 * x ^ 3 * ((1 - w) * w) *
      ((1 + x) ^ 3 * (4 - 5 * w)
      + q * ((-15 / 2 * w + 21 / 2 * w ^ 2) + (-3 - 21 / 2 * w + 39 / 2 * w ^ 2) * x
          + (-6 + 3 / 2 * w + 15 / 2 * w ^ 2) * x ^ 2 + (-3 + 9 / 2 * w - 3 / 2 * w ^ 2) * x ^ 3)
      + q ^ 2 * ((3 * w ^ 2 - 6 * w ^ 3) + (-3 * w + 12 * w ^ 2 - 12 * w ^ 3) * x
          + (-3 * w + 9 * w ^ 2 - 6 * w ^ 3) * x ^ 2)
      + q ^ 3 * ((1 / 2 * w ^ 3 + 1 / 2 * w ^ 4) + (-3 / 4 * w ^ 2 + 3 / 4 * w ^ 4) * x)) := by
    rw [hB, hD, hv, hh, Wd, hj, L1]
    ring
  have rb := remainder_bound q x w q0 q1 x0 w0 w1
  rw [← L1] at rb
  have F0 : 0 ≤ q ^ 3 * |x| ^ 3 * ((1 - w) * w) := by positivity
  have F1 : |q ^ 3 * x ^ 3 * ((1 - w) * w)| = q ^ 3 * |x| ^ 3 * ((1 - w) * w) := by
    rw [abs_mul, abs_mul, abs_pow x, abs_of_nonneg (show 0 ≤ q ^ 3 by positivity), abs_of_nonneg ww]
  have id3 : |B * (2 * v ^ 2 + h) - 2 * v * D| ≤ q ^ 3 * |x| ^ 3 * ((1 - w) * w) * (4.1 * L ^ 3) := by
    rw [id2, abs_mul, F1, ← L1]
    exact mul_le_mul_of_nonneg_left rb F0
  have d1 : M - v ≤ (1 - w) * w * q ^ 2 * x ^ 2 := by
    refine Md.trans ?_
    rw [div_le_iff₀ (by positivity), hh]
    have : j ^ 2 ≤ 2 * v := by
      have : j ^ 2 ≤ L ^ 2 := pow_le_pow_left₀ jp.le ju 2
      linarith
    have k : 0 ≤ (1 - w) * w * q ^ 2 * x ^ 2 := by positivity
    calc (1 - w) * w * (q * x * j) ^ 2 = (1 - w) * w * q ^ 2 * x ^ 2 * j ^ 2 := by ring
      _ ≤ _ := mul_le_mul_of_nonneg_left this k
  have d2 : B * (M - v) ^ 2 ≤ q ^ 3 * |x| ^ 3 * ((1 - w) * w) * (0.01 * L ^ 3) := by
    have e1 : (M - v) ^ 2 ≤ ((1 - w) * w * q ^ 2 * x ^ 2) ^ 2 := pow_le_pow_left₀ (by linarith) d1 2
    have e2 : ((1 - w) * w * q ^ 2 * x ^ 2) ^ 2 = q ^ 3 * |x| ^ 3 * ((1 - w) * w) * (((1 - w) * w) * q * |x|) := by
      linear_combination ((1 - w) * w) ^ 2 * q ^ 4 * (|x| ^ 2 + x ^ 2) * (-(sq_abs x))
    have e3 : ((1 - w) * w) * q * |x| ≤ 0.01 * L := by
      have : ((1 - w) * w) * q ≤ 1 / 4 * 0.02 := mul_le_mul ww4 q1 q0 (by norm_num)
      have b2 : ((1 - w) * w) * q * |x| ≤ (1 / 4 * 0.02) * L := mul_le_mul this xL ax0 (by norm_num)
      refine b2.trans (mul_le_mul_of_nonneg_right (by norm_num) Lp.le)
    have e4 : (M - v) ^ 2 ≤ q ^ 3 * |x| ^ 3 * ((1 - w) * w) * (0.01 * L) :=
      e1.trans (e2.le.trans (mul_le_mul_of_nonneg_left e3 F0))
    calc B * (M - v) ^ 2 ≤ L ^ 2 * (q ^ 3 * |x| ^ 3 * ((1 - w) * w) * (0.01 * L)) :=
          mul_le_mul B1 e4 (sq_nonneg _) (by positivity)
      _ = _ := by ring
  have d3 : 2 * v * |B * M - D| ≤ q ^ 3 * |x| ^ 3 * ((1 - w) * w) * (4.11 * L ^ 3) := by
    have : 2 * v * |B * M - D| = |2 * v * (B * M - D)| := by
      rw [abs_mul, abs_of_pos (show 0 < 2 * v by positivity)]
    rw [this, id1]
    refine (abs_sub _ _).trans ?_
    rw [abs_of_nonneg (mul_nonneg B0 (sq_nonneg (M - v)))]
    calc _ ≤ q ^ 3 * |x| ^ 3 * ((1 - w) * w) * (4.1 * L ^ 3) + q ^ 3 * |x| ^ 3 * ((1 - w) * w) * (0.01 * L ^ 3) :=
          add_le_add id3 d2
      _ = _ := by ring
  have us8 : u * s * ((1 - w) * w) ≤ 1 / 8 := by
    have a1 : u * s ≤ 1 / 2 := by
      have a0 := sq_nonneg (u - s)
      have a00 : (u - s) ^ 2 = 1 - 2 * (u * s) := by linear_combination us
      linarith only [a0, a00]
    have a2 : 0 ≤ u * s := by positivity
    calc u * s * ((1 - w) * w) ≤ 1 / 2 * (1 / 4) := mul_le_mul a1 ww4 ww (by norm_num)
      _ = _ := by norm_num
  have goal1 : |q * u * s * (B - D / M)| ≤ 0.35 * q ^ 4 * (|x| / L) ^ 3 * M := by
    have e1 : q * u * s * (B - D / M) = q * u * s * (B * M - D) / M := by field_simp
    rw [e1, abs_div, abs_of_pos Mp, div_le_iff₀ Mp, abs_mul, abs_of_nonneg (show 0 ≤ q * u * s by positivity)]
    have e2 : 2 * v * (q * u * s * |B * M - D|) ≤ q ^ 4 * |x| ^ 3 * L ^ 3 * (4.11 / 8) := by
      calc 2 * v * (q * u * s * |B * M - D|) = q * u * s * (2 * v * |B * M - D|) := by ring
        _ ≤ q * u * s * (q ^ 3 * |x| ^ 3 * ((1 - w) * w) * (4.11 * L ^ 3)) :=
          mul_le_mul_of_nonneg_left d3 (by positivity)
        _ = q ^ 4 * |x| ^ 3 * L ^ 3 * 4.11 * (u * s * ((1 - w) * w)) := by ring
        _ ≤ q ^ 4 * |x| ^ 3 * L ^ 3 * 4.11 * (1 / 8) := mul_le_mul_of_nonneg_left us8 (by positivity)
        _ = _ := by ring
    have e3 : (0.93 * L ^ 2) ^ 2 ≤ M ^ 2 := pow_le_pow_left₀ (by positivity) (vl.trans Mv) 2
    have e4 : 0.93 * L ^ 2 * (0.93 * L ^ 2) ^ 2 ≤ v * M ^ 2 := mul_le_mul vl e3 (by positivity) vp.le
    have e5 : q ^ 4 * |x| ^ 3 * L ^ 3 * (4.11 / 8) ≤ 2 * v * (0.35 * q ^ 4 * (|x| / L) ^ 3 * M * M) := by
      have : 2 * v * (0.35 * q ^ 4 * (|x| / L) ^ 3 * M * M) = q ^ 4 * |x| ^ 3 / L ^ 3 * (0.7 * (v * M ^ 2)) := by
        rw [div_pow]; ring
      rw [this]
      calc q ^ 4 * |x| ^ 3 * L ^ 3 * (4.11 / 8) = q ^ 4 * |x| ^ 3 / L ^ 3 * (4.11 / 8 * L ^ 6) := by field_simp
        _ ≤ q ^ 4 * |x| ^ 3 / L ^ 3 * (0.7 * (0.93 * L ^ 2 * (0.93 * L ^ 2) ^ 2)) := by
          refine mul_le_mul_of_nonneg_left ?_ (by positivity)
          have : 0.7 * (0.93 * L ^ 2 * (0.93 * L ^ 2) ^ 2) = 0.7 * 0.93 ^ 3 * L ^ 6 := by ring
          rw [this]
          refine mul_le_mul_of_nonneg_right (by norm_num) (by positivity)
        _ ≤ _ := mul_le_mul_of_nonneg_left (mul_le_mul_of_nonneg_left e4 (by norm_num)) (by positivity)
    exact le_of_mul_le_mul_left (e2.trans e5) (by positivity)
  have xl : |1 - 1 / L| = |x| / L := by
    have : 1 - 1 / L = x / L := by rw [hx]; field_simp
    rw [this, abs_div, abs_of_pos Lp]
  rw [xl, ← hW, ← hx, yd, jd, ← hj, ← hB, ← hD]
  exact goal1

/-! ## C58, C59 -/

/-- Every point off the axis in scaled coordinates. -/
theorem scaled_coords (a f : ℝ) (ha : 0 < a) (f1 : f < 1) (x y z : ℝ) (hp : 0 < x ^ 2 + y ^ 2) :
    ∃ u s : ℝ, 0 < u ∧ 0 ≤ s ∧ u ^ 2 + s ^ 2 = 1 ∧
      0 < √((x ^ 2 + y ^ 2) / a ^ 2 + z ^ 2 / (a * (1 - f)) ^ 2) ∧
      √(x ^ 2 + y ^ 2) = a * √((x ^ 2 + y ^ 2) / a ^ 2 + z ^ 2 / (a * (1 - f)) ^ 2) * u ∧
      |z| = a * (1 - f) * √((x ^ 2 + y ^ 2) / a ^ 2 + z ^ 2 / (a * (1 - f)) ^ 2) * s := by
  have he : 0 < 1 - f := by linarith
  have h0 : 0 < (x ^ 2 + y ^ 2) / a ^ 2 + z ^ 2 / (a * (1 - f)) ^ 2 := by positivity
  set L := √((x ^ 2 + y ^ 2) / a ^ 2 + z ^ 2 / (a * (1 - f)) ^ 2) with hL
  have Lp : 0 < L := Real.sqrt_pos.mpr h0
  have L2 : L ^ 2 = (x ^ 2 + y ^ 2) / a ^ 2 + z ^ 2 / (a * (1 - f)) ^ 2 := Real.sq_sqrt h0.le
  have pp : 0 < √(x ^ 2 + y ^ 2) := Real.sqrt_pos.mpr hp
  refine ⟨√(x ^ 2 + y ^ 2) / (a * L), |z| / (a * (1 - f) * L), by positivity, by positivity, ?_, Lp, ?_, ?_⟩
  · rw [div_pow, div_pow, Real.sq_sqrt hp.le, sq_abs, mul_pow, mul_pow _ L]
    have : (x ^ 2 + y ^ 2) / (a ^ 2 * L ^ 2) + z ^ 2 / ((a * (1 - f)) ^ 2 * L ^ 2) =
        ((x ^ 2 + y ^ 2) / a ^ 2 + z ^ 2 / (a * (1 - f)) ^ 2) / L ^ 2 := by field_simp
    rw [this, ← L2, div_self (by positivity)]
  · field_simp
  · field_simp

/-- The round trip of a point outside a small neighbourhood of the centre, off the axis. -/
theorem round_trip_residual (a f : ℝ) (ha : 0 < a) (f0 : 0 ≤ f) (f1 : f < 1) (x y z : ℝ)
    (cut : 1e-32 * a ^ 2 < x ^ 2 + y ^ 2)
    (out : 1 - (1 - f) ^ 2 < √((x ^ 2 + y ^ 2) / a ^ 2 + z ^ 2 / (a * (1 - f)) ^ 2)) :
    ∃ (w : Vec3 ℝ) (T φ l S : ℝ),
      (convR a f).geodeticToGeocentric ((convR a f).geocentricToGeodetic ⟨x, y, z⟩) = .ok w ∧
      (S = 1 ∨ S = -1) ∧
      ((convR a f).geocentricToGeodetic ⟨x, y, z⟩).zenith =
        ⟨Real.cos φ * Real.cos l, Real.cos φ * Real.sin l, S * Real.sin φ⟩ ∧
      w.x - x = -T * Real.sin φ * Real.cos l ∧ w.y - y = -T * Real.sin φ * Real.sin l ∧
      w.z - z = S * T * Real.cos φ ∧
      (f ≤ 0.01 → 0.99 ≤ √((x ^ 2 + y ^ 2) / a ^ 2 + z ^ 2 / (a * (1 - f)) ^ 2) →
        |T| ≤ a * 0.36 * (1 - (1 - f) ^ 2) ^ 4 *
          |1 - 1 / √((x ^ 2 + y ^ 2) / a ^ 2 + z ^ 2 / (a * (1 - f)) ^ 2)| ^ 3) := by
  have he : 0 < 1 - f := by linarith
  have hp : 0 < x ^ 2 + y ^ 2 := lt_of_le_of_lt (by positivity) cut
  obtain ⟨u, s, hu, hs, us, Lp, ep, ez⟩ := scaled_coords a f ha f1 x y z hp
  set L := √((x ^ 2 + y ^ 2) / a ^ 2 + z ^ 2 / (a * (1 - f)) ^ 2)
  obtain ⟨φ, h, hφ⟩ : ∃ φ h, (φ, h) = (convR a f).latHeight ((a * L * u) ^ 2) (a * (1 - f) * L * s) :=
    ⟨_, _, rfl⟩
  obtain ⟨T, M, N, r1, r2, hM, Mp, MN, hT⟩ := scaled_residual a f L u s ha f0 f1 out hu us φ h hφ
  obtain ⟨-, lx, ly⟩ := C48_longitude (convR a f) x y z
  have pn : 0 < √(x ^ 2 + y ^ 2) := Real.sqrt_pos.mpr hp
  set l := ((convR a f).geocentricToGeodetic ⟨x, y, z⟩).elong with hl
  have p2 : x * x + y * y = (a * L * u) ^ 2 := by rw [← ep, Real.sq_sqrt hp.le]; ring
  have q2 : ((convR a f).aeps2 <. (a * L * u) ^ 2) = true := by
    rw [lt_real]
    show a * a * 1e-32 < _
    rw [← p2]; linarith
  have hg : (convR a f).geocentricToGeodetic ⟨x, y, z⟩ = ⟨l, if z < 0 then -φ else φ, h⟩ := by
    ext
    · exact hl.symm
    · unfold EllipsoidConverter.geocentricToGeodetic
      simp only [sq, mul_real, add_real, p2, abs_real, ez]
      rw [if_pos q2, ← hφ]
      simp only [lt_real, lit_real, Rat.cast_zero, neg_real]
    · unfold EllipsoidConverter.geocentricToGeodetic
      simp only [sq, mul_real, add_real, p2, abs_real, ez]
      rw [if_pos q2, ← hφ]
  rw [hg, geocentric_real a f f1]
  have bound : f ≤ 0.01 → 0.99 ≤ L → |T| ≤ a * 0.36 * (1 - (1 - f) ^ 2) ^ 4 * |1 - 1 / L| ^ 3 := by
    intro hf hL
    have q0 : 0 ≤ 1 - (1 - f) ^ 2 := by
      rw [show 1 - (1 - f) ^ 2 = f * (2 - f) by ring]; exact mul_nonneg f0 (by linarith only [f1])
    have q1 : 1 - (1 - f) ^ 2 ≤ 0.02 := by
      have := sq_nonneg f
      norm_num at hf ⊢; linarith only [this, hf]
    have sb := step_bound (1 - (1 - f) ^ 2) L u s M q0 q1 hL hu.le hs us hM
    have Np : 0 < N := lt_of_lt_of_le (by positivity) MN
    rw [hT, abs_div, abs_mul, abs_of_pos ha, abs_of_pos Np, div_le_iff₀ Np, mul_assoc a, mul_assoc a,
      mul_assoc a]
    refine mul_le_mul_of_nonneg_left (sb.trans ?_) ha.le
    have e1 : 0.35 * M ≤ 0.36 * N := by
      have : 0.99 * M ≤ (1 - f) * M := mul_le_mul_of_nonneg_right (by norm_num at hf ⊢; linarith only [hf]) Mp.le
      norm_num at this ⊢
      linarith only [this, MN, Mp]
    calc 0.35 * (1 - (1 - f) ^ 2) ^ 4 * |1 - 1 / L| ^ 3 * M =
          (1 - (1 - f) ^ 2) ^ 4 * |1 - 1 / L| ^ 3 * (0.35 * M) := by ring
      _ ≤ (1 - (1 - f) ^ 2) ^ 4 * |1 - 1 / L| ^ 3 * (0.36 * N) :=
        mul_le_mul_of_nonneg_left e1 (by positivity)
      _ = _ := by ring
  rw [ep] at lx ly
  by_cases hz : z < 0
  · refine ⟨_, T, φ, l, -1, rfl, Or.inr rfl, ?_, ?_, ?_, ?_, bound⟩
    · unfold Geodetic.zenith
      simp [if_pos hz]
    · simp only [if_pos hz, Real.cos_neg, Real.sin_neg, neg_sq]
      rw [r1]; linear_combination lx
    · simp only [if_pos hz, Real.cos_neg, Real.sin_neg, neg_sq]
      rw [r1]; linear_combination ly
    · simp only [if_pos hz, Real.cos_neg, Real.sin_neg, neg_sq]
      rw [mul_neg, r2, ← ez, abs_of_neg hz]; ring
  · refine ⟨_, T, φ, l, 1, rfl, Or.inl rfl, ?_, ?_, ?_, ?_, bound⟩
    · unfold Geodetic.zenith
      simp [if_neg hz]
    · simp only [if_neg hz]
      rw [r1]; linear_combination lx
    · simp only [if_neg hz]
      rw [r1]; linear_combination ly
    · simp only [if_neg hz]
      rw [r2, ← ez, abs_of_nonneg (not_lt.mp hz)]; ring

/-- **C58.** For every ellipsoid and every point whose size relative to the ellipsoid is more than the square of the
eccentricity, `2f - f²` (every point on or outside the ellipsoid, and all but the innermost ones inside), off the axis by
more than the pole cut-off: converting to geodetic coordinates and back changes the point only in the horizontal plane: the returned height
is exactly right for the returned latitude. -/
theorem C58_height_consistent (a f : ℝ) (ha : 0 < a) (c : EllipsoidConverter ℝ)
    (h : EllipsoidConverter.new ⟨a, f⟩ = .ok c) (x y z : ℝ) (cut : 1e-32 * a ^ 2 < x ^ 2 + y ^ 2)
    (out : (2 * f - f ^ 2) ^ 2 < (x ^ 2 + y ^ 2) / a ^ 2 + z ^ 2 / (a * (1 - f)) ^ 2) :
    ∃ w : Vec3 ℝ, c.geodeticToGeocentric (c.geocentricToGeodetic ⟨x, y, z⟩) = .ok w ∧
      (w.x - x) * (c.geocentricToGeodetic ⟨x, y, z⟩).zenith.x +
      (w.y - y) * (c.geocentricToGeodetic ⟨x, y, z⟩).zenith.y +
      (w.z - z) * (c.geocentricToGeodetic ⟨x, y, z⟩).zenith.z = 0 := by
  obtain ⟨f0, f1, -, rfl⟩ := conv_eq h
  obtain ⟨w, T, φ, l, S, hw, hS, hz, e1, e2, e3, -⟩ :=
    round_trip_residual a f ha f0 f1 x y z cut (by
      rw [show 1 - (1 - f) ^ 2 = 2 * f - f ^ 2 by ring]; exact Real.lt_sqrt_of_sq_lt out)
  refine ⟨w, hw, ?_⟩
  rw [hz, e1, e2, e3]
  have S2 : S ^ 2 = 1 := by rcases hS with h | h <;> rw [h] <;> norm_num
  have := Real.sin_sq_add_cos_sq l
  simp only
  linear_combination (T * Real.sin φ * Real.cos φ) * S2 - (T * Real.sin φ * Real.cos φ) * this

/-- A point 1000 km above the equator of an ellipsoid like that of the Earth. -/
example : (1e-32 : ℝ) * 6378137 ^ 2 < 7378137 ^ 2 + 0 ^ 2 ∧
    (2 * (1 / 298 : ℝ) - (1 / 298) ^ 2) ^ 2 < (7378137 ^ 2 + 0 ^ 2) / 6378137 ^ 2 + 0 ^ 2 / (6378137 * (1 - 1 / 298)) ^ 2 := by
  norm_num

/-- **C59.** Accuracy of the one-step conversion.  For every ellipsoid of flattening at most `0.01` and every
point on it, outside it, or inside it by at most a hundredth of its size, geodetic coordinates and back return a point
within `a (0.36 (2f-f²)⁴ |1-1/L|³ + 1e-16)` of the original, where `L ≥ 0.99` is the scale factor of the similar ellipsoid
through the point. -/
theorem C59_round_trip_accuracy (a f : ℝ) (ha : 0 < a) (hf : f ≤ 0.01) (c : EllipsoidConverter ℝ)
    (h : EllipsoidConverter.new ⟨a, f⟩ = .ok c) (x y z L : ℝ)
    (hL : L ^ 2 = (x ^ 2 + y ^ 2) / a ^ 2 + z ^ 2 / (a * (1 - f)) ^ 2) (out : 0.99 ≤ L) :
    ∃ w : Vec3 ℝ, c.geodeticToGeocentric (c.geocentricToGeodetic ⟨x, y, z⟩) = .ok w ∧
      √((w.x - x) ^ 2 + (w.y - y) ^ 2 + (w.z - z) ^ 2) ≤
        a * (0.36 * (2 * f - f ^ 2) ^ 4 * |1 - 1 / L| ^ 3 + 1e-16) := by
  obtain ⟨f0, f1, -, rfl⟩ := conv_eq h
  have he : 0 < 1 - f := by linarith
  have Lp : 0 < L := by linarith
  have sL : √((x ^ 2 + y ^ 2) / a ^ 2 + z ^ 2 / (a * (1 - f)) ^ 2) = L := by rw [← hL, Real.sqrt_sq Lp.le]
  have q0 : 0 ≤ 2 * f - f ^ 2 := by nlinarith
  by_cases cut : 1e-32 * a ^ 2 < x ^ 2 + y ^ 2
  · obtain ⟨w, T, φ, l, S, hw, hS, hz, e1, e2, e3, hT⟩ :=
      round_trip_residual a f ha f0 f1 x y z cut (by rw [sL]; nlinarith)
    refine ⟨w, hw, ?_⟩
    have S2 : S ^ 2 = 1 := by rcases hS with h | h <;> rw [h] <;> norm_num
    have t1 := Real.sin_sq_add_cos_sq l
    have t2 := Real.sin_sq_add_cos_sq φ
    rw [e1, e2, e3]
    have : (-T * Real.sin φ * Real.cos l) ^ 2 + (-T * Real.sin φ * Real.sin l) ^ 2 + (S * T * Real.cos φ) ^ 2 =
        T ^ 2 := by
      linear_combination (T * Real.cos φ) ^ 2 * S2 + (T * Real.sin φ) ^ 2 * t1 + T ^ 2 * t2
    rw [this, Real.sqrt_sq_eq_abs]
    refine (hT hf (by rw [sL]; exact out)).trans ?_
    rw [sL, show 1 - (1 - f) ^ 2 = 2 * f - f ^ 2 by ring]
    have : 0 < a * 1e-16 := by positivity
    linarith
  · push Not at cut
    refine ⟨_, geocentric_real a f f1 _, ?_⟩
    have hz2 : (lit 2 : ℝ) = 2 := by simp
    have hb : (convR a f).aeps2 = a * a * 1e-32 := rfl
    have q2 : ((convR a f).aeps2 <. x * x + y * y) = false := by
      rw [lt_real_false, hb]; linarith
    have g1 : ((convR a f).geocentricToGeodetic ⟨x, y, z⟩).phi =
        if z < 0 then -(Real.pi / 2) else Real.pi / 2 := by
      unfold EllipsoidConverter.geocentricToGeodetic
      simp only [sq, mul_real, add_real, q2, Bool.false_eq_true, if_false, pi_real, div_real, hz2, lt_real,
        lit_real, Rat.cast_zero, neg_real]
    have g2 : ((convR a f).geocentricToGeodetic ⟨x, y, z⟩).height = |z| - a * (1 - f) := by
      unfold EllipsoidConverter.geocentricToGeodetic
      simp only [sq, mul_real, add_real, q2, Bool.false_eq_true, if_false, abs_real, sub_real]
      rfl
    have d : √((1 - f) ^ 2) = 1 - f := Real.sqrt_sq he.le
    have w' : (1 - f) ^ 2 * (a / (1 - f)) = a * (1 - f) := by field_simp
    have key : √(x ^ 2 + y ^ 2) ≤ a * (0.36 * (2 * f - f ^ 2) ^ 4 * |1 - 1 / L| ^ 3 + 1e-16) := by
      have k1 : √(x ^ 2 + y ^ 2) ≤ a * 1e-16 := by
        rw [← Real.sqrt_sq (show 0 ≤ a * 1e-16 by positivity)]
        apply Real.sqrt_le_sqrt
        refine cut.trans (le_of_eq ?_)
        norm_num; ring
      have k2 : 0 ≤ a * (0.36 * (2 * f - f ^ 2) ^ 4 * |1 - 1 / L| ^ 3) := by positivity
      linarith
    refine le_trans (le_of_eq ?_) key
    rw [g1, g2]
    by_cases hz : z < 0
    · simp only [if_pos hz, Real.cos_neg, Real.sin_neg, Real.cos_pi_div_two, Real.sin_pi_div_two, mul_zero,
        zero_mul, one_pow, mul_one, ne_eq, OfNat.ofNat_ne_zero, not_false_eq_true, zero_pow, zero_add, neg_sq, d,
        w', mul_neg, abs_of_neg hz]
      congr 1; ring
    · simp only [if_neg hz, Real.cos_pi_div_two, Real.sin_pi_div_two, mul_zero,
        zero_mul, one_pow, mul_one, ne_eq, OfNat.ofNat_ne_zero, not_false_eq_true, zero_pow, zero_add, d,
        w', abs_of_nonneg (not_lt.mp hz)]
      congr 1; ring

/-- **C59.** On WGS84 the exact-arithmetic round trip of every point above the ellipsoid, or below it by at most a
hundredth of its size, is within `5 mm * |1 - 1/L|³ + 1 nm`: within 5 mm everywhere, within 2 nm from 45 km below to 45 km
above. -/
theorem C59_wgs84 (c : EllipsoidConverter ℝ) (h : EllipsoidConverter.new WGS84 = .ok c) (x y z L : ℝ)
    (hL : L ^ 2 = (x ^ 2 + y ^ 2) / 6378137 ^ 2 + z ^ 2 / (6378137 * (1 - 1 / 298.257223563)) ^ 2) (out : 0.99 ≤ L) :
    ∃ w : Vec3 ℝ, c.geodeticToGeocentric (c.geocentricToGeodetic ⟨x, y, z⟩) = .ok w ∧
      √((w.x - x) ^ 2 + (w.y - y) ^ 2 + (w.z - z) ^ 2) ≤ 0.005 * |1 - 1 / L| ^ 3 + 1e-9 := by
  have hw : (WGS84 : Ellipsoid ℝ) = ⟨6378137, 1 / 298.257223563⟩ := by
    unfold WGS84
    simp only [lit_real, div_real]
    norm_num
  rw [hw] at h
  obtain ⟨w, e1, e2⟩ := C59_round_trip_accuracy 6378137 (1 / 298.257223563) (by norm_num) (by norm_num) c h
    x y z L hL out
  refine ⟨w, e1, e2.trans ?_⟩
  have Lp : 0 < L := by linarith
  have l1 : 0 ≤ |1 - 1 / L| ^ 3 := by positivity
  generalize |1 - 1 / L| ^ 3 = K at *
  norm_num
  nlinarith

-- a point 11 km below the north pole, on the axis but for 10 m
example : ∃ L : ℝ, L ^ 2 = ((10 : ℝ) ^ 2 + 0 ^ 2) / 6378137 ^ 2 + 6345752 ^ 2 / (6378137 * (1 - 1 / 298.257223563)) ^ 2 ∧
    0.99 ≤ L ∧ L < 1 :=
  ⟨_, Real.sq_sqrt (by positivity), Real.le_sqrt_of_sq_le (by norm_num), by
    rw [Real.sqrt_lt' (by norm_num)]; norm_num⟩

-- a point 1000 km above the equator
example : (7378137 / 6378137 : ℝ) ^ 2 =
    ((7378137 : ℝ) ^ 2 + 0 ^ 2) / 6378137 ^ 2 + 0 ^ 2 / (6378137 * (1 - 1 / 298.257223563)) ^ 2 ∧
    (1 : ℝ) ≤ 7378137 / 6378137 := by
  norm_num

end Verif
