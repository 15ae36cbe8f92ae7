import Verif.Props.PoleMotion
import Verif.Lemmas.SunRate
import Verif.Lemmas.FrameRate

/-!
# C114: the frames do not jump

Code: `tofas/src/frames.rs`, `precession_nutation`, `celestial_to_intermediate`, `celestial_to_terrestrial`; `tofas/src/earth.rs`,
`rotation_angle`.
-/

namespace Verif

open Arith F64 Matrix Spec

theorem MB.R1_diff (s t : ℝ) : MB (Spec.R1 s - Spec.R1 t) |s - t| := by rw [← rot_R1, ← rot_R1]; exact MB.rotation_diff 0 s t
theorem MB.R2_diff (s t : ℝ) : MB (Spec.R2 s - Spec.R2 t) |s - t| := by rw [← rot_R2, ← rot_R2]; exact MB.rotation_diff 1 s t
theorem MB.R3_diff (s t : ℝ) : MB (Spec.R3 s - Spec.R3 t) |s - t| := by rw [← rot_R3, ← rot_R3]; exact MB.rotation_diff 2 s t

theorem MB.one_mul_one {A B : M3} (hA : MB A 1) (hB : MB B 1) : MB (A * B) 1 := (hA.mul hB).mono (by norm_num)

theorem MB.self_sub (A : M3) : MB (A - A) 0 := by rw [sub_self]; exact MB.zero

/-- A polynomial without terms above the third degree. -/
theorem cubic_rate (a b c d A K : ℝ) (hA : 0 ≤ A) (h : |b| + 2 * |c| + 3 * |d| ≤ K) :
    Rate (fun t => (a + b * t + c * t ^ 2 + d * t ^ 3) * A) (K * A) := by
  have h1 := (poly_rate a b c d 0).smul A
  refine (h1.congr fun t => ?_).mono ?_
  · ring
  · rw [abs_of_nonneg hA, abs_zero]
    nlinarith

theorem AS2R_arcsec : (AS2R : ℝ) ≤ 1.000001 * arcsec ∧ 0 < (AS2R : ℝ) := by
  have := (abs_le.mp AS2R_pi).2
  have p := Real.pi_gt_d6
  unfold arcsec
  refine ⟨?_, by rw [AS2R_real]; norm_num⟩
  norm_num at this p ⊢
  linarith

theorem nutation_rate (a b a' b' t t' : ℝ) (ht : t = (a + b - 2451545) / 36525) (ht' : t' = (a' + b' - 2451545) / 36525)
    (h : |t| ≤ 1) (h' : |t'| ≤ 1) :
    |(nutation (a, b)).1 - (nutation (a', b')).1| ≤ 9690 * arcsec * |t - t'| + 4 / 10 ^ 21 ∧
    |(nutation (a, b)).2 - (nutation (a', b')).2| ≤ 3892 * arcsec * |t - t'| + 4 / 10 ^ 21 := by
  obtain ⟨p1, p2⟩ := C65_nutation_series a b
  obtain ⟨q1, q2⟩ := C65_nutation_series a' b'
  simp only [← ht, ← ht'] at p1 p2 q1 q2
  have r1 := nutPsi_speed t t' h h'
  have r2 := nutEps_speed t t' h h'
  have b1 : 1 / 10 ^ 21 * (1 + |t|) ≤ 2 / 10 ^ 21 := by norm_num; linarith
  have b2 : 1 / 10 ^ 21 * (1 + |t'|) ≤ 2 / 10 ^ 21 := by norm_num; linarith
  constructor
  · have e : (nutation (a, b)).1 - (nutation (a', b')).1 = ((nutation (a, b)).1 - nut00bPsi t) + (nut00bPsi t - nut00bPsi t') +
        -((nutation (a', b')).1 - nut00bPsi t') := by ring
    rw [e]
    exact (abs_add3 p1 r1 ((abs_neg _).trans_le q1)).trans (by linarith)
  · have e : (nutation (a, b)).2 - (nutation (a', b')).2 = ((nutation (a, b)).2 - nut00bEps t) + (nut00bEps t - nut00bEps t') +
        -((nutation (a', b')).2 - nut00bEps t') := by ring
    rw [e]
    exact (abs_add3 p2 r2 ((abs_neg _).trans_le q2)).trans (by linarith)

theorem abs_centuries {d : ℝ} (h : |d| ≤ 36525) : |d / 36525| ≤ 1 := by
  rw [abs_div, abs_of_pos (show (0 : ℝ) < 36525 by norm_num), div_le_one (by norm_num)]
  exact h

/-- Bias, precession and nutation: 18735 seconds of arc per century. -/
theorem bpn_rate (a b a' b' t t' : ℝ) (ht : t = (a + b - 2451545) / 36525) (ht' : t' = (a' + b' - 2451545) / 36525)
    (h : |t| ≤ 1) (h' : |t'| ≤ 1) :
    MB ((precessionNutation (a, b)).toMatrix - (precessionNutation (a', b')).toMatrix) (18735 * arcsec * |t - t'| + 1 / 10 ^ 20) := by
  obtain ⟨n1, n2⟩ := nutation_rate a b a' b' t t' ht ht' h h'
  obtain ⟨-, -, -, -, -, -, -, -, -, -, hM⟩ := C64_bias_precession_nutation a b 0 0
  obtain ⟨-, -, -, -, -, -, -, -, -, -, hM'⟩ := C64_bias_precession_nutation a' b' 0 0
  simp only [← ht, ← ht'] at hM hM'
  obtain ⟨A1, A0⟩ := AS2R_arcsec
  rw [hM, hM']
  set A : ℝ := AS2R
  generalize (nutation (a, b)).1 = dp at *
  generalize (nutation (a, b)).2 = de at *
  generalize (nutation (a', b')).1 = dp' at *
  generalize (nutation (a', b')).2 = de' at *
  have r1 := cubic_rate 0 5038.47875 (-1.07259) (-0.001147) A 5040.7 A0.le (by norm_num [abs_of_pos, abs_of_neg]) t t' h h'
  have r2 := cubic_rate 84381.448 (-0.02524) 0.05127 (-0.007726) A 0.16 A0.le (by norm_num [abs_of_pos, abs_of_neg]) t t' h h'
  have r3 := cubic_rate 0 10.5526 (-2.38064) (-0.001125) A 15.4 A0.le (by norm_num [abs_of_pos, abs_of_neg]) t t' h h'
  have r4 := cubic_rate 84381.448 (-46.84024) (-0.00059) 0.001813 A 46.9 A0.le (by norm_num [abs_of_pos, abs_of_neg]) t t' h h'
  beta_reduce at r1 r2 r3 r4
  have c : ∀ {x y K : ℝ}, |x - y| ≤ K → |-x - -y| ≤ K := fun {x y K} hk => by
    rw [show -x - -y = -(x - y) by ring, abs_neg]; exact hk
  have e1 : (5038.7784 * t - 1.07259 * t ^ 2 - 0.001147 * t ^ 3 - 0.29965 * t) * A =
      (0 + 5038.47875 * t + -1.07259 * t ^ 2 + -0.001147 * t ^ 3) * A := by ring
  have e1' : (5038.7784 * t' - 1.07259 * t' ^ 2 - 0.001147 * t' ^ 3 - 0.29965 * t') * A =
      (0 + 5038.47875 * t' + -1.07259 * t' ^ 2 + -0.001147 * t' ^ 3) * A := by ring
  have e2 : 84381.448 * A + (0.05127 * t ^ 2 - 0.007726 * t ^ 3 - 0.02524 * t) * A =
      (84381.448 + -0.02524 * t + 0.05127 * t ^ 2 + -0.007726 * t ^ 3) * A := by ring
  have e2' : 84381.448 * A + (0.05127 * t' ^ 2 - 0.007726 * t' ^ 3 - 0.02524 * t') * A =
      (84381.448 + -0.02524 * t' + 0.05127 * t' ^ 2 + -0.007726 * t' ^ 3) * A := by ring
  have e3 : (10.5526 * t - 2.38064 * t ^ 2 - 0.001125 * t ^ 3) * A =
      (0 + 10.5526 * t + -2.38064 * t ^ 2 + -0.001125 * t ^ 3) * A := by ring
  have e3' : (10.5526 * t' - 2.38064 * t' ^ 2 - 0.001125 * t' ^ 3) * A =
      (0 + 10.5526 * t' + -2.38064 * t' ^ 2 + -0.001125 * t' ^ 3) * A := by ring
  have e4 : (84381.448 - 46.84024 * t - 0.00059 * t ^ 2 + 0.001813 * t ^ 3) * A =
      (84381.448 + -46.84024 * t + -0.00059 * t ^ 2 + 0.001813 * t ^ 3) * A := by ring
  have e4' : (84381.448 - 46.84024 * t' - 0.00059 * t' ^ 2 + 0.001813 * t' ^ 3) * A =
      (84381.448 + -46.84024 * t' + -0.00059 * t' ^ 2 + 0.001813 * t' ^ 3) * A := by ring
  rw [e1, e1', e2, e2', e3, e3', e4, e4']
  generalize (0 + 5038.47875 * t + -1.07259 * t ^ 2 + -0.001147 * t ^ 3) * A = psi at *
  generalize (0 + 5038.47875 * t' + -1.07259 * t' ^ 2 + -0.001147 * t' ^ 3) * A = psi' at *
  generalize (84381.448 + -0.02524 * t + 0.05127 * t ^ 2 + -0.007726 * t ^ 3) * A = om at *
  generalize (84381.448 + -0.02524 * t' + 0.05127 * t' ^ 2 + -0.007726 * t' ^ 3) * A = om' at *
  generalize (0 + 10.5526 * t + -2.38064 * t ^ 2 + -0.001125 * t ^ 3) * A = chi at *
  generalize (0 + 10.5526 * t' + -2.38064 * t' ^ 2 + -0.001125 * t' ^ 3) * A = chi' at *
  generalize (84381.448 + -46.84024 * t + -0.00059 * t ^ 2 + 0.001813 * t ^ 3) * A = eps at *
  generalize (84381.448 + -46.84024 * t' + -0.00059 * t' ^ 2 + 0.001813 * t' ^ 3) * A = eps' at *
  have r5 : |eps + de - (eps' + de')| ≤ 46.9 * A * |t - t'| + (3892 * arcsec * |t - t'| + 4 / 10 ^ 21) := by
    rw [show eps + de - (eps' + de') = (eps - eps') + (de - de') by ring]
    exact (abs_add_le _ _).trans (add_le_add r4 n2)
  have dN := MB.mul_diff_one (MB.one_mul_one (MB.R1 (-(eps' + de'))) (MB.R3 (-dp'))) (MB.R1 eps)
    (MB.mul_diff_one (MB.R1 (-(eps' + de'))) (MB.R3 (-dp)) ((MB.R1_diff _ _).mono (c r5)) ((MB.R3_diff _ _).mono (c n1)))
    ((MB.R1_diff eps eps').mono r4)
  have dP := MB.mul_diff_one (MB.one_mul_one (MB.one_mul_one (MB.R3 chi') (MB.R1 (-om'))) (MB.R3 (-psi'))) (MB.R1 (84381.448 * A))
    (MB.mul_diff_one (MB.one_mul_one (MB.R3 chi') (MB.R1 (-om'))) (MB.R3 (-psi))
      (MB.mul_diff_one (MB.R3 chi') (MB.R1 (-om)) ((MB.R3_diff _ _).mono r3) ((MB.R1_diff _ _).mono (c r2)))
      ((MB.R3_diff _ _).mono (c r1))) (MB.self_sub _)
  have nN' := MB.one_mul_one (MB.one_mul_one (MB.R1 (-(eps' + de'))) (MB.R3 (-dp'))) (MB.R1 eps')
  have nP' := MB.one_mul_one (MB.one_mul_one (MB.one_mul_one (MB.R3 chi') (MB.R1 (-om'))) (MB.R3 (-psi'))) (MB.R1 (84381.448 * A))
  have nP := MB.one_mul_one (MB.one_mul_one (MB.one_mul_one (MB.R3 chi) (MB.R1 (-om))) (MB.R3 (-psi))) (MB.R1 (84381.448 * A))
  have nB := MB.one_mul_one (MB.one_mul_one (MB.R1 (0.0068192 * A)) (MB.R2 (-0.041775 * A * Real.sin (84381.448 * A)))) (MB.R3 (-0.0146 * A))
  have fin := MB.mul_diff_one (MB.one_mul_one nN' nP') nB (MB.mul_diff_one nN' nP dN dP) (MB.self_sub _)
  refine fin.mono ?_
  have d0 := abs_nonneg (t - t')
  have k : A * |t - t'| ≤ 1.000001 * (arcsec * |t - t'|) := by
    have := mul_le_mul_of_nonneg_right A1 d0
    linarith
  have z : 0 ≤ arcsec * |t - t'| := mul_nonneg arcsec_pos.le d0
  norm_num
  norm_num at k
  linarith

/-- The celestial-to-intermediate matrix: 28295 seconds of arc per century. -/
theorem c2i_rate (a b a' b' t t' : ℝ) (ht : t = (a + b - 2451545) / 36525) (ht' : t' = (a' + b' - 2451545) / 36525)
    (h : |a + b - 2451545| ≤ 36525) (h' : |a' + b' - 2451545| ≤ 36525) :
    MB ((celestialToIntermediate (a, b)).toMatrix - (celestialToIntermediate (a', b')).toMatrix)
      (28295 * arcsec * |t - t'| + 2 / 10 ^ 20) := by
  have g : |t| ≤ 1 := ht ▸ abs_centuries h
  have g' : |t'| ≤ 1 := ht' ▸ abs_centuries h'
  have hM := bpn_rate a b a' b' t t' ht ht' g g'
  have m0 := hM.entry 2 0
  have m1 := hM.entry 2 1
  rw [Matrix.sub_apply, Mat3.toMatrix_apply, Mat3.toMatrix_apply] at m0 m1
  have pol : ∀ {a b t : ℝ}, t = (a + b - 2451545) / 36525 → |a + b - 2451545| ≤ 36525 →
      |(precessionNutation (a, b)).get 2 0| ≤ 0.01 ∧ |(precessionNutation (a, b)).get 2 1| ≤ 0.01 := by
    intro a b t ht h
    obtain ⟨-, p1, p2⟩ := pole_motion a b h t AS2R ht rfl
    rw [AS2R_real] at p1 p2
    have ht1 : |t| ≤ 1 := ht ▸ abs_centuries h
    have hb := abs_le.mp ht1
    have q0 : 0 ≤ t ^ 2 := sq_nonneg t
    have q1 : t ^ 2 ≤ 1 := by rw [← sq_abs]; exact pow_le_one₀ (abs_nonneg _) ht1
    rw [abs_le] at p1 p2 ⊢
    rw [abs_le]
    norm_num at p1 p2 ⊢
    refine ⟨⟨?_, ?_⟩, ?_, ?_⟩ <;> linarith [p1.1, p1.2, p2.1, p2.2, hb.1, hb.2]
  obtain ⟨bx, bY⟩ := pol ht h
  obtain ⟨bx', bY'⟩ := pol ht' h'
  have l := C66_locator_series a b ((precessionNutation (a, b)).get 2 0) ((precessionNutation (a, b)).get 2 1)
  have l' := C66_locator_series a' b' ((precessionNutation (a', b')).get 2 0) ((precessionNutation (a', b')).get 2 1)
  have hs := s00_speed _ _ g g'
  have e : ∀ a b : ℝ, (celestialToIntermediate (a, b)) = celestialToIntermediateFromXys
    ((precessionNutation (a, b)).get 2 0) ((precessionNutation (a, b)).get 2 1)
    (cio (a, b) ((precessionNutation (a, b)).get 2 0) ((precessionNutation (a, b)).get 2 1)) := fun _ _ => rfl
  rw [e, e]
  clear e hM pol
  simp only [← ht, ← ht'] at l l'
  generalize (precessionNutation (a, b)).get 2 0 = x at *
  generalize (precessionNutation (a, b)).get 2 1 = y at *
  generalize (precessionNutation (a', b')).get 2 0 = x' at *
  generalize (precessionNutation (a', b')).get 2 1 = y' at *
  generalize cio (a, b) x y = s at *
  generalize cio (a', b') x' y' = s' at *
  have six : ∀ {u : ℝ}, |u| ≤ 1 → 1 / 10 ^ 23 * (1 + |u|) ^ 6 ≤ 64e-23 := fun {u} hu => by
    have : (1 + |u|) ^ 6 ≤ 2 ^ 6 := pow_le_pow_left₀ (by positivity) (by linarith) 6
    norm_num at this ⊢; linarith
  have l1 := l.trans (six g)
  have l1' := l'.trans (six g')
  have sq : ∀ {x y : ℝ}, |x| ≤ 0.01 → |y| ≤ 0.01 → x ^ 2 + y ^ 2 < 1 := fun {x y} h1 h2 => by
    have b1 := sq_le_sq' (abs_le.mp h1).1 (abs_le.mp h1).2
    have b2 := sq_le_sq' (abs_le.mp h2).1 (abs_le.mp h2).2
    norm_num at b1 b2; linarith
  rw [C63_cio_matrix x y s (sq bx bY), C63_cio_matrix x' y' s' (sq bx' bY')]
  have hP := pole_lip bx bY bx' bY' m0 m1
  have z : 0 ≤ arcsec * |t - t'| := mul_nonneg arcsec_pos.le (abs_nonneg _)
  have dxy : |x * y - x' * y'| ≤ 0.02 * (18735 * arcsec * |t - t'| + 1 / 10 ^ 20) := by
    have : x * y - x' * y' = (x - x') * y + x' * (y - y') := by ring
    rw [this]
    refine (abs_add_le _ _).trans ?_
    rw [abs_mul, abs_mul]
    have k1 := mul_le_mul m0 bY (abs_nonneg _) ((abs_nonneg _).trans m0)
    have k2 := mul_le_mul bx' m1 (abs_nonneg _) (by norm_num)
    linarith
  have hss : |-s - -s'| ≤ 191.4 * (arcsec * |t - t'|) + 2e-21 := by
    have es : -s - -s' = -(s + x * y / 2 - s00 t) + (s' + x' * y' / 2 - s00 t') + ((x * y - x' * y') / 2 - (s00 t - s00 t')) := by ring
    rw [es]
    have k : |(x * y - x' * y') / 2 - (s00 t - s00 t')| ≤ 0.02 * (18735 * arcsec * |t - t'| + 1 / 10 ^ 20) / 2 + 4 * arcsec * |t - t'| := by
      refine (abs_sub _ _).trans (add_le_add ?_ hs)
      rw [abs_div, abs_two]
      linarith
    refine (abs_add3 ((abs_neg _).trans_le l1) l1' k).trans ?_
    norm_num
    linarith
  refine (MB.mul_lip (pole_contr (sq bx bY)) (MB.R3 _) ((MB.R3_lip _ _).mono hss) hP).mono ?_
  norm_num
  linarith

/-- The Earth rotation angle modulo whole turns. -/
theorem era_turns' (a b : ℝ) : MB (R3 (rotationAngle (a, b)) - R3 (2 * Real.pi * (0.7790572732640 + 1.00273781191135448 * (a + b - 2451545)))) 2e-20 := by
  obtain ⟨h1, h2, k, h3⟩ := C32_earth_rotation_angle a b
  generalize 0.7790572732640 + 1.00273781191135448 * (a + b - 2451545) = x at *
  rw [← R3_turns _ k]
  refine (MB.R3_lip _ _).mono ?_
  rw [h3] at h1 h2 ⊢
  have tp : (0 : ℝ) < TWO_PI := by unfold TWO_PI; norm_num
  have e1 : TWO_PI * x + k * TWO_PI = TWO_PI * (x + k) := by ring
  rw [e1] at h1 h2
  have x0 : 0 ≤ x + k := by by_contra hh; push Not at hh; linarith [mul_neg_of_pos_of_neg tp hh]
  have x1 : x + k ≤ 1 := by
    by_contra hh; push Not at hh
    have := mul_lt_mul_of_pos_left hh tp
    linarith
  rw [show TWO_PI * x + k * TWO_PI - (2 * Real.pi * x + k * (2 * Real.pi)) = (TWO_PI - 2 * Real.pi) * (x + k) by ring, abs_mul, abs_of_nonneg x0]
  have := mul_le_mul two_pi_real x1 x0 (by norm_num)
  linarith

/-- **C114.** For any two dates within a century of J2000.0, however split, no vector is carried to places further apart than 0.52 (by
`precession_nutation`) or 0.78 (by `celestial_to_intermediate`) seconds of arc per day between the dates, times its length, plus `2e-20`
of it; so too for the entries of the matrices. (The constant
allows for the reductions modulo a turn, where a turn is a decimal constant.) -/
theorem C114_frames (a b a' b' : ℝ) (h : |a + b - 2451545| ≤ 36525) (h' : |a' + b' - 2451545| ≤ 36525) (as D : ℝ)
    (has : as = Real.pi / 648000) (hD : D = |a + b - (a' + b')|) :
    (∀ v : Fin 3 → ℝ, len ((precessionNutation (a, b)).toMatrix *ᵥ v - (precessionNutation (a', b')).toMatrix *ᵥ v) ≤
      (0.52 * as * D + 2e-20) * len v) ∧
    (∀ v : Fin 3 → ℝ, len ((celestialToIntermediate (a, b)).toMatrix *ᵥ v - (celestialToIntermediate (a', b')).toMatrix *ᵥ v) ≤
      (0.78 * as * D + 2e-20) * len v) ∧
    ∀ i j, |(precessionNutation (a, b)).get i j - (precessionNutation (a', b')).get i j| ≤ 0.52 * as * D + 2e-20 ∧
      |(celestialToIntermediate (a, b)).get i j - (celestialToIntermediate (a', b')).get i j| ≤ 0.78 * as * D + 2e-20 := by
  have has' : as = arcsec := has
  have e : |(a + b - 2451545) / 36525 - (a' + b' - 2451545) / 36525| = D / 36525 := by
    rw [hD, show (a + b - 2451545) / 36525 - (a' + b' - 2451545) / 36525 = (a + b - (a' + b')) / 36525 by ring, abs_div,
      abs_of_pos (show (0 : ℝ) < 36525 by norm_num)]
  have D0 : 0 ≤ D := hD ▸ abs_nonneg _
  have z : 0 ≤ as * D := mul_nonneg (has' ▸ arcsec_pos.le) D0
  have m := bpn_rate a b a' b' _ _ rfl rfl (abs_centuries h) (abs_centuries h')
  have n := c2i_rate a b a' b' _ _ rfl rfl h h'
  rw [e, ← has'] at m n
  have m' := m.mono (e' := 0.52 * as * D + 2e-20) (by norm_num; linarith)
  have n' := n.mono (e' := 0.78 * as * D + 2e-20) (by norm_num; linarith)
  refine ⟨fun v => ?_, fun v => ?_, fun i j => ⟨?_, ?_⟩⟩
  · rw [← Matrix.sub_mulVec]; exact m'.vec v
  · rw [← Matrix.sub_mulVec]; exact n'.vec v
  · have := m'.entry i j
    rwa [Matrix.sub_apply, Mat3.toMatrix_apply, Mat3.toMatrix_apply] at this
  · have := n'.entry i j
    rwa [Matrix.sub_apply, Mat3.toMatrix_apply, Mat3.toMatrix_apply] at this

/-- **C114.** The terrestrial frame turns with UT1 and only with UT1: for any two TT dates within a century of J2000.0, any two UT1
dates and polar motions, and any whole number `k` of turns, no vector is carried by `celestial_to_terrestrial` to places further apart
than the angle by which 1.00273781191135448 turns per day differ from `k` turns, plus the drift of the intermediate frame and the
change of the polar motion, times its length, plus `6e-20` of it. With `k = 0` there is no jump where a reduction modulo a turn begins
anew; with `k = 1` the frame comes back after one sidereal day. -/
theorem C114_terrestrial (a b a' b' u w u' w' xp yp xp' yp' : ℝ) (h : |a + b - 2451545| ≤ 36525) (h' : |a' + b' - 2451545| ≤ 36525)
    (k : ℤ) (as D : ℝ) (has : as = Real.pi / 648000) (hD : D = |a + b - (a' + b')|) (v : Fin 3 → ℝ) :
    len ((celestialToTerrestrial (a, b) (u, w) xp yp).toMatrix *ᵥ v - (celestialToTerrestrial (a', b') (u', w') xp' yp').toMatrix *ᵥ v) ≤
      (2 * Real.pi * |1.00273781191135448 * (u + w - (u' + w')) - k| + 0.78 * as * D + |xp - xp'| + |yp - yp'| + 6e-20) * len v := by
  have has' : as = arcsec := has
  have e : |(a + b - 2451545) / 36525 - (a' + b' - 2451545) / 36525| = D / 36525 := by
    rw [hD, show (a + b - 2451545) / 36525 - (a' + b' - 2451545) / 36525 = (a + b - (a' + b')) / 36525 by ring, abs_div,
      abs_of_pos (show (0 : ℝ) < 36525 by norm_num)]
  have D0 : 0 ≤ D := hD ▸ abs_nonneg _
  have z : 0 ≤ as * D := mul_nonneg (has' ▸ arcsec_pos.le) D0
  have n := c2i_rate a b a' b' _ _ rfl rfl h h'
  rw [e, ← has'] at n
  have n' := n.mono (e' := 0.78 * as * D + 2e-20) (by norm_num; linarith)
  have r := era_turns' u w
  have r' := era_turns' u' w'
  have rk := MB.R3_lip (2 * Real.pi * (0.7790572732640 + 1.00273781191135448 * (u + w - 2451545)))
    (2 * Real.pi * (0.7790572732640 + 1.00273781191135448 * (u' + w' - 2451545)) + k * (2 * Real.pi))
  rw [R3_turns, show 2 * Real.pi * (0.7790572732640 + 1.00273781191135448 * (u + w - 2451545)) -
    (2 * Real.pi * (0.7790572732640 + 1.00273781191135448 * (u' + w' - 2451545)) + k * (2 * Real.pi)) =
    2 * Real.pi * (1.00273781191135448 * (u + w - (u' + w')) - k) by ring, abs_mul, abs_of_pos Real.two_pi_pos] at rk
  have rr : MB (R3 (rotationAngle (u, w)) - R3 (rotationAngle (u', w')))
      (2 * Real.pi * |1.00273781191135448 * (u + w - (u' + w')) - k| + 4e-20) := by
    have := (r.add rk).add r'.neg
    have e2 : ∀ A B C D : M3, A - B + (B - C) + -(D - C) = A - D := fun A B C D => by abel
    rw [e2] at this
    exact this.mono (by norm_num; linarith)
  have hp : ∀ xp yp : ℝ, (polarMotionMatrix xp yp (lit 0) : Mat3 ℝ).toMatrix = R1 (-yp) * R2 (-xp) * R3 0 := fun xp yp => by
    unfold polarMotionMatrix
    rw [Mat3.toMatrix_compose, Mat3.toMatrix_compose, Mat3.toMatrix_compose, Mat3.toMatrix_identity, one_mul, rot_R1, rot_R2, rot_R3]
    simp
  have pd : MB (R1 (-yp) * R2 (-xp) * R3 0 - R1 (-yp') * R2 (-xp') * R3 0) (|yp - yp'| + |xp - xp'| + 0) := by
    have c : ∀ x y : ℝ, |-x - -y| = |x - y| := fun x y => by rw [show -x - -y = -(x - y) by ring, abs_neg]
    have d1 := MB.R1_diff (-yp) (-yp')
    have d2 := MB.R2_diff (-xp) (-xp')
    rw [c] at d1 d2
    exact MB.mul_diff_one (MB.one_mul_one (MB.R1 _) (MB.R2 _)) (MB.R3 _) (MB.mul_diff_one (MB.R1 _) (MB.R2 _) d1 d2) (MB.self_sub _)
  have hc : ∀ a b u w xp yp : ℝ, (celestialToTerrestrial (a, b) (u, w) xp yp).toMatrix =
      R1 (-yp) * R2 (-xp) * R3 0 * (R3 (rotationAngle (u, w)) * (celestialToIntermediate (a, b)).toMatrix) := fun a b u w xp yp => by
    unfold celestialToTerrestrial celestialToTerrestrialFromCio
    rw [Mat3.toMatrix_compose, Mat3.toMatrix_compose, hp, rot_R3]
  have nc : ∀ a b : ℝ, MB (celestialToIntermediate (a, b)).toMatrix 1 := fun a b => MB.of_rotation (rotation_xys _ _ _)
  have fin := MB.mul_diff_one (MB.one_mul_one (MB.one_mul_one (MB.R1 (-yp')) (MB.R2 (-xp'))) (MB.R3 0))
    (MB.one_mul_one (MB.R3 (rotationAngle (u, w))) (nc a b)) pd (MB.mul_diff_one (MB.R3 (rotationAngle (u', w'))) (nc a b) rr n')
  rw [← hc, ← hc] at fin
  rw [← Matrix.sub_mulVec]
  exact (fin.mono (by norm_num; linarith)).vec v

theorem near_pair {x y : F64} {p q e e' K : ℝ} (hx : Near x p e) (hy : Near y q e') (h : |p - q| ≤ K) :
    ∃ r s : ℚ, Is x r ∧ Is y s ∧ |(r : ℝ) - s| ≤ K + (e + e') := by
  obtain ⟨r, h1, h2⟩ := hx
  obtain ⟨s, h3, h4⟩ := hy
  refine ⟨r, s, h1, h3, ?_⟩
  have e1 : (r : ℝ) - s = (r - p) + (p - q) + -(s - q) := by ring
  rw [e1]
  exact (abs_add3 h2 h ((abs_neg _).trans_le h4)).trans (by linarith)

/-- **C114.** In `f64`, with first parts of the dates of at most four million days: every entry of the two matrices is a number and
changes by at most the same amounts plus `4.1e-12` and `1.41e-11`. -/
theorem C114_frames_f64 [Libm F64] (hL : LibmAcc) (x y x' y' : F64) (a b a' b' : ℚ) (hx : Is x a) (hy : Is y b) (hx' : Is x' a')
    (hy' : Is y' b') (ha : |a| ≤ 4000000) (ha' : |a'| ≤ 4000000) (h : |a + b - 2451545| ≤ 36525) (h' : |a' + b' - 2451545| ≤ 36525)
    (as D : ℝ) (has : as = Real.pi / 648000) (hD : D = |(a : ℝ) + b - (a' + b')|) (i j : Fin 3) :
    (∃ r s : ℚ, Is ((precessionNutation (x, y)).get i j) r ∧ Is ((precessionNutation (x', y')).get i j) s ∧
      |(r : ℝ) - s| ≤ 0.52 * as * D + 4.1e-12) ∧
    ∃ r s : ℚ, Is ((celestialToIntermediate (x, y)).get i j) r ∧ Is ((celestialToIntermediate (x', y')).get i j) s ∧
      |(r : ℝ) - s| ≤ 0.78 * as * D + 1.41e-11 := by
  obtain ⟨-, p, q⟩ := C67_matrices_f64 hL x y a b hx hy ha h i j
  obtain ⟨-, p', q'⟩ := C67_matrices_f64 hL x' y' a' b' hx' hy' ha' h' i j
  obtain ⟨m, n⟩ := (C114_frames a b a' b' (by exact_mod_cast h) (by exact_mod_cast h') as D has hD).2.2 i j
  obtain ⟨r, s, r1, r2, r3⟩ := near_pair p p' m
  obtain ⟨r', s', r1', r2', r3'⟩ := near_pair q q' n
  exact ⟨⟨r, s, r1, r2, r3.trans (by norm_num; linarith)⟩, r', s', r1', r2', r3'.trans (by norm_num; linarith)⟩

/-- **C114.** In `f64`, with parts of the dates of at most four million days and polar motions of at most one radian: every entry of
`celestial_to_terrestrial` is a number and changes by at most the same amount plus `4.21e-10`. -/
theorem C114_terrestrial_f64 [Libm F64] (hL : LibmAcc) (x y x' y' u w u' w' xp yp xp' yp' : F64)
    (a b a' b' c d c' d' p q p' q' : ℚ) (hx : Is x a) (hy : Is y b) (hx' : Is x' a') (hy' : Is y' b') (hu : Is u c) (hw : Is w d)
    (hu' : Is u' c') (hw' : Is w' d') (hxp : Is xp p) (hyp : Is yp q) (hxp' : Is xp' p') (hyp' : Is yp' q')
    (ha : |a| ≤ 4000000) (ha' : |a'| ≤ 4000000) (h : |a + b - 2451545| ≤ 36525) (h' : |a' + b' - 2451545| ≤ 36525)
    (hc : |c| ≤ 4000000) (hd : |d| ≤ 4000000) (hc' : |c'| ≤ 4000000) (hd' : |d'| ≤ 4000000) (hp : |p| ≤ 1) (hq : |q| ≤ 1)
    (hp' : |p'| ≤ 1) (hq' : |q'| ≤ 1) (k : ℤ) (as D : ℝ) (has : as = Real.pi / 648000) (hD : D = |(a : ℝ) + b - (a' + b')|)
    (i j : Fin 3) :
    ∃ r s : ℚ, Is ((celestialToTerrestrial (x, y) (u, w) xp yp).get i j) r ∧
      Is ((celestialToTerrestrial (x', y') (u', w') xp' yp').get i j) s ∧
      |(r : ℝ) - s| ≤ 2 * Real.pi * |1.00273781191135448 * ((c : ℝ) + d - (c' + d')) - k| + 0.78 * as * D + |(p : ℝ) - p'| +
        |(q : ℝ) - q'| + 4.21e-10 := by
  have n := C67_celestial_to_terrestrial_f64 hL x y u w xp yp a b c d p q hx hy hu hw hxp hyp ha h hc hd hp hq i j
  have n' := C67_celestial_to_terrestrial_f64 hL x' y' u' w' xp' yp' a' b' c' d' p' q' hx' hy' hu' hw' hxp' hyp' ha' h' hc' hd' hp' hq' i j
  have m := C114_terrestrial a b a' b' c d c' d' p q p' q' (by exact_mod_cast h) (by exact_mod_cast h') k as D has hD (Pi.single j 1)
  have g : len (Pi.single j (1 : ℝ)) = 1 := by
    unfold len
    fin_cases j <;> simp
  have m' := (abs_le_len _ i).trans m
  rw [g, mul_one, Pi.sub_apply, Matrix.mulVec_single_one, Matrix.mulVec_single_one, Matrix.col_apply, Matrix.col_apply,
    Mat3.toMatrix_apply, Mat3.toMatrix_apply] at m'
  obtain ⟨r, s, r1, r2, r3⟩ := near_pair n n' m'
  exact ⟨r, s, r1, r2, r3.trans (by norm_num; linarith)⟩

/-- The hypotheses hold for a library that exists and for two instants a day apart. -/
example : ∃ L : Libm F64, @LibmAcc L ∧ ∃ x y y' : F64, Is x (2451545 : ℤ) ∧ Is y (7000 : ℤ) ∧ Is y' (7001 : ℤ) ∧
    |((2451545 : ℤ) : ℚ)| ≤ 4000000 ∧ |((7001 : ℤ) : ℚ)| ≤ 4000000 ∧ |((2451545 : ℤ) : ℚ) + (7001 : ℤ) - 2451545| ≤ 36525 :=
  ⟨goodLibm, exists_libmAcc, lit (2451545 : ℤ), lit (7000 : ℤ), lit (7001 : ℤ), Is.lit_int _ (by norm_num), Is.lit_int _ (by norm_num),
    Is.lit_int _ (by norm_num), by norm_num [abs_le], by norm_num [abs_le], by norm_num [abs_le]⟩

end Verif
