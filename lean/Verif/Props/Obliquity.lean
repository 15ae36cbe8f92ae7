import Verif.Props.PoleMotion

/-!
# C122: the pole moves around the pole of the ecliptic

Code: `tofas/src/frames.rs`, `bias_and_precession`, `nutation_matrix`, `precession_nutation`, `celestial_to_intermediate`.
-/

namespace Verif

open Arith F64 Matrix Spec

/-- The precession matrix and the pole of the ecliptic of J2000.0. -/
theorem precession_pole (chi om psi e : ℝ) :
    let P := R3 chi * R1 (-om) * R3 (-psi) * R1 e
    (P 0 1 * -Real.sin e + P 0 2 * Real.cos e = -(Real.sin chi * Real.sin om)) ∧
    (P 1 1 * -Real.sin e + P 1 2 * Real.cos e = -(Real.cos chi * Real.sin om)) ∧
    (P 2 1 * -Real.sin e + P 2 2 * Real.cos e = Real.cos om) ∧
    P 2 1 * Real.cos e + P 2 2 * Real.sin e = Real.sin om * Real.cos psi ∧ P 2 0 = Real.sin om * Real.sin psi := by
  intro P
  have h := Real.sin_sq_add_cos_sq e
  refine ⟨?_, ?_, ?_, ?_, ?_⟩
  · simp [P, R1, R3]; linear_combination (-(Real.sin chi * Real.sin om)) * h
  · simp [P, R1, R3]; linear_combination (-(Real.cos chi * Real.sin om)) * h
  · simp [P, R1, R3]; linear_combination Real.cos om * h
  · simp [P, R1, R3]; linear_combination (Real.sin om * Real.cos psi) * h
  · simp [P, R1, R3]

/-- **C122.** For every date the mean pole (third row of the precession matrix) is at the distance `om` from the pole of the ecliptic of
J2000.0, `(0, -sin e, cos e)`, in the direction turned by `psi` about it: it moves on a cone. -/
theorem C122_cone (a b : ℝ) (t as e om psi : ℝ) (m : Fin 3 → ℝ) (ht : t = (a + b - 2451545) / 36525) (has : as = AS2R)
    (he : e = 84381.448 * as) (hom : om = e + (0.05127 * t ^ 2 - 0.007726 * t ^ 3 - 0.02524 * t) * as)
    (hpsi : psi = (5038.7784 * t - 1.07259 * t ^ 2 - 0.001147 * t ^ 3 - 0.29965 * t) * as)
    (hm : m = fun j => (biasAndPrecession (a, b)).2.1.get 2 j) :
    m = Real.cos om • ![0, -Real.sin e, Real.cos e] +
      Real.sin om • (Real.sin psi • ![1, 0, 0] + Real.cos psi • ![0, Real.cos e, Real.sin e]) := by
  obtain ⟨-, hP, -⟩ := C64_bias_precession_nutation a b 0 0
  simp only [← ht, ← has, ← he, ← hom, ← hpsi] at hP
  obtain ⟨-, -, h1, h2, h3⟩ := precession_pole ((10.5526 * t - 2.38064 * t ^ 2 - 0.001125 * t ^ 3) * as) om psi e
  simp only [← hP, Mat3.toMatrix_apply] at h1 h2 h3
  have h := Real.sin_sq_add_cos_sq e
  subst hm
  funext j
  fin_cases j
  · simp; rw [h3]
  · simp
    linear_combination (-Real.sin e) * h1 + Real.cos e * h2 - (biasAndPrecession (a, b)).2.1.get 2 1 * h
  · simp
    linear_combination Real.cos e * h1 + Real.sin e * h2 - (biasAndPrecession (a, b)).2.1.get 2 2 * h

/-- The bias moves the pole of the ecliptic by less than 0.036 seconds of arc. -/
theorem bias_pole (a b c A : ℝ) (A0 : 0 < A) (A2 : A ≤ 4.85e-6) (ha : |a| ≤ 0.0069 * A) (hb : |b| ≤ 0.0167 * A) (hc : |c| ≤ 0.0146 * A)
    (p : Fin 3 → ℝ) (hp : ∀ k, |p k| ≤ 1) (s k : ℝ) (hs : |s| ≤ 0.4) (hk : |k| ≤ 0.92) :
    let B := R1 a * R2 b * R3 c
    |(p 0 * B 0 1 + p 1 * (B 1 1 - 1) + p 2 * B 2 1) * s + (p 0 * B 0 2 + p 1 * B 1 2 + p 2 * (B 2 2 - 1)) * k| ≤ 0.036 * A := by
  intro B
  have h1 := (bias_columns a b c A A0 A2 ha hb hc p hp).2
  have sa := (Real.abs_sin_le_abs (x := a)).trans ha
  have sb := (Real.abs_sin_le_abs (x := b)).trans hb
  have ca := Real.abs_cos_le_one a
  have cb := Real.abs_cos_le_one b
  have q : ∀ x : ℝ, |x| ≤ 0.0167 * A → |Real.cos x - 1| ≤ 0.000001 * A := fun x hx => by
    have h1 := Real.one_sub_sq_div_two_le_cos (x := x)
    have h2 := Real.cos_le_one x
    have h3 : x ^ 2 ≤ (0.0167 * A) ^ 2 := by rw [← sq_abs]; exact pow_le_pow_left₀ (abs_nonneg _) hx 2
    rw [abs_le]; constructor <;> nlinarith
  have ka := q a (ha.trans (by nlinarith))
  have kb := q b hb
  have e02 : B 0 2 = -Real.sin b := by simp [B, R1, R2, R3]
  have e12 : B 1 2 = Real.sin a * Real.cos b := by simp [B, R1, R2, R3]
  have e22 : B 2 2 - 1 = (Real.cos a - 1) * Real.cos b + (Real.cos b - 1) := by simp [B, R1, R2, R3]; ring
  have b02 : |B 0 2| ≤ 0.0167 * A := by rw [e02, abs_neg]; exact sb
  have b12 : |B 1 2| ≤ 0.0069 * A := by rw [e12]; exact (abs_mul_le' sa cb).trans (by linarith)
  have b22 : |B 2 2 - 1| ≤ 0.000002 * A := by
    rw [e22]
    exact (abs_add_le _ _).trans ((add_le_add (abs_mul_le' ka cb) kb).trans (by linarith))
  have h2 := abs_add3 (abs_mul_le' (hp 0) b02) (abs_mul_le' (hp 1) b12) (abs_mul_le' (hp 2) b22)
  refine (abs_add_le _ _).trans ((add_le_add (abs_mul_le' h1 hs) (abs_mul_le' h2 hk)).trans ?_)
  linarith

set_option maxHeartbeats 1000000 in
/-- The poles and the pole of the ecliptic, with `A` the constant of the code. -/
theorem pole_dot (a b : ℝ) (h : |a + b - 2451545| ≤ 36525) (A e : ℝ) (hA : A = AS2R) (he : e = 84381.448 * A) :
    (∃ om, |om - e| ≤ 0.085 * A ∧
      (biasAndPrecession (a, b)).2.1.get 2 1 * -Real.sin e + (biasAndPrecession (a, b)).2.1.get 2 2 * Real.cos e = Real.cos om) ∧
    |(precessionNutation (a, b)).get 2 1 * -Real.sin e + (precessionNutation (a, b)).get 2 2 * Real.cos e - Real.cos e| ≤ 4.15 * A := by
  obtain ⟨t, ht⟩ : ∃ t, t = (a + b - 2451545) / 36525 := ⟨_, rfl⟩
  have ht1 : |t| ≤ 1 := by
    rw [ht, abs_div, abs_of_pos (show (0 : ℝ) < 36525 by norm_num), div_le_one (by norm_num)]
    exact h
  have hA' := hA.trans AS2R_real
  have A1 : 4.848e-6 ≤ A := by rw [hA']; norm_num
  have A2 : A ≤ 4.85e-6 := by rw [hA']; norm_num
  have A0 : 0 < A := lt_of_lt_of_le (by norm_num) A1
  obtain ⟨hB, hP, hPB, -, -, -, -, -, -, -, hM⟩ := C64_bias_precession_nutation a b 0 0
  obtain ⟨n1, n2⟩ := C41_nutation_bounded a b h
  simp only [← ht, ← hA, ← he] at hB hP hPB hM n1 n2
  obtain ⟨rb1, rp1, rbp1⟩ := C38_bias_and_precession (a, b)
  set dp := (nutation (a, b)).1
  set de := (nutation (a, b)).2
  set psi := (5038.7784 * t - 1.07259 * t ^ 2 - 0.001147 * t ^ 3 - 0.29965 * t) * A with hpsi
  set om := e + (0.05127 * t ^ 2 - 0.007726 * t ^ 3 - 0.02524 * t) * A with hom
  set chi := (10.5526 * t - 2.38064 * t ^ 2 - 0.001125 * t ^ 3) * A with hchi
  set eps := (84381.448 - 46.84024 * t - 0.00059 * t ^ 2 + 0.001813 * t ^ 3) * A with heps
  obtain ⟨P0, P1, P2, -, -⟩ := precession_pole chi om psi e
  simp only [← hP, Mat3.toMatrix_apply] at P0 P1 P2
  obtain ⟨S1, S2, S3, S4⟩ := obliquity_bounds
  rw [← hA, ← he] at S1 S2 S3 S4
  have u1 : |t ^ 2| ≤ 1 := by rw [abs_pow]; exact pow_le_one₀ (abs_nonneg _) ht1
  have u2 : |t ^ 3| ≤ 1 := by rw [abs_pow]; exact pow_le_one₀ (abs_nonneg _) ht1
  have v0 := abs_le.mp ht1
  have v1 := abs_le.mp u1
  have v2 := abs_le.mp u2
  have dom : |om - e| ≤ 0.085 * A := by
    rw [hom, add_sub_cancel_left]
    exact abs_mul_le' (abs_le.mpr ⟨by linarith [v0.1, v1.2, v2.2], by linarith [v0.2, v1.1, v2.1]⟩) (abs_of_pos A0).le
  refine ⟨⟨om, dom, P2⟩, ?_⟩
  -- the bias
  have hb : |-0.041775 * A * Real.sin e| ≤ 0.0167 * A := by
    refine (abs_mul_le' (A := 0.041775 * A) (B := 0.397777157) ?_ (abs_le.mpr ⟨by linarith, S2⟩)).trans (by nlinarith)
    rw [abs_le]; constructor <;> linarith
  have bias := fun (p : Fin 3 → ℝ) hp => bias_pole (0.0068192 * A) (-0.041775 * A * Real.sin e) (-0.0146 * A) A A0 A2
    (by rw [abs_le]; constructor <;> linarith) hb (by rw [abs_le]; constructor <;> linarith) p hp (-Real.sin e) (Real.cos e)
    (by rw [abs_neg, abs_le]; constructor <;> norm_num at * <;> linarith) (by rw [abs_le]; constructor <;> norm_num at * <;> linarith)
  simp only [← hB, Mat3.toMatrix_apply] at bias
  -- the nutation
  have hw : |Real.sin (eps + de)| ≤ 0.3981 := by
    have : |eps + de - e| ≤ 56.95 * A := by
      have n2' := abs_le.mp n2.le
      have : eps + de - e = (- 46.84024 * t - 0.00059 * t ^ 2 + 0.001813 * t ^ 3) * A + de := by rw [heps, he]; ring
      rw [this, abs_le]
      constructor <;> nlinarith
    have := abs_le.mp (sin_near _ _ _ this)
    rw [abs_le]
    constructor <;> linarith [this.1, this.2]
  obtain ⟨r0, r1, r2⟩ := nutation_row eps dp de A A0 A2 n1.le n2.le hw
  set N := R1 (-(eps + de)) * R3 (-dp) * R1 eps
  -- the products
  set P := (biasAndPrecession (a, b)).2.1
  set B := (biasAndPrecession (a, b)).1
  set Q := (biasAndPrecession (a, b)).2.2
  have hQ : ∀ i j, Q.get i j = P.get i 0 * B.get 0 j + P.get i 1 * B.get 1 j + P.get i 2 * B.get 2 j := by
    intro i j
    rw [← Mat3.toMatrix_apply Q, hPB, ← hP, ← hB, mul3]
    simp only [Mat3.toMatrix_apply]
  have hR : ∀ j, (precessionNutation (a, b)).get 2 j = N 2 0 * Q.get 0 j + N 2 1 * Q.get 1 j + N 2 2 * Q.get 2 j := by
    intro j
    rw [← Mat3.toMatrix_apply, hM, Matrix.mul_assoc, ← hPB, mul3]
    simp only [Mat3.toMatrix_apply]
  obtain ⟨D, hD⟩ : ∃ D : Fin 3 → ℝ, ∀ i, D i = (Q.get i 1 - P.get i 1) * -Real.sin e + (Q.get i 2 - P.get i 2) * Real.cos e :=
    ⟨fun i => _, fun i => rfl⟩
  have bD : ∀ i, |D i| ≤ 0.036 * A := fun i => by
    have := bias (fun k => P.get i k) (fun k => rp1.abs_le_one i k)
    have e : D i = (P.get i 0 * B.get 0 1 + P.get i 1 * (B.get 1 1 - 1) + P.get i 2 * B.get 2 1) * -Real.sin e +
        (P.get i 0 * B.get 0 2 + P.get i 1 * B.get 1 2 + P.get i 2 * (B.get 2 2 - 1)) * Real.cos e := by rw [hD, hQ, hQ]; ring
    rw [e]; exact this
  have key : (precessionNutation (a, b)).get 2 1 * -Real.sin e + (precessionNutation (a, b)).get 2 2 * Real.cos e - Real.cos e =
      N 2 0 * (D 0 - Real.sin chi * Real.sin om) + N 2 1 * (D 1 - Real.cos chi * Real.sin om) + (N 2 2 - 1) * (D 2 + Real.cos om) +
      (D 2 + (Real.cos om - Real.cos e)) := by
    rw [hR, hR, hD, hD, hD]
    linear_combination N 2 0 * P0 + N 2 1 * P1 + N 2 2 * P2
  have schi : |Real.sin chi| ≤ 0.0001 := by
    refine Real.abs_sin_le_abs.trans ?_
    have c1 : |chi| ≤ 13 * A := by
      rw [hchi]
      exact abs_mul_le' (abs_le.mpr ⟨by linarith [v0.1, v1.2, v2.2], by linarith [v0.2, v1.1, v2.1]⟩) (abs_of_pos A0).le
    linarith
  have som : |Real.sin om| ≤ 0.39778 := by
    have := abs_le.mp (sin_near _ _ _ dom)
    rw [abs_le]; constructor <;> linarith [this.1, this.2]
  have com := cos_near _ _ _ dom
  have w0 : |D 0 - Real.sin chi * Real.sin om| ≤ 0.0002 :=
    (abs_sub _ _).trans ((add_le_add (bD 0) (abs_mul_le' schi som)).trans (by linarith))
  have w1 : |D 1 - Real.cos chi * Real.sin om| ≤ 0.3978 :=
    (abs_sub _ _).trans ((add_le_add (bD 1) (abs_mul_le' (Real.abs_cos_le_one chi) som)).trans (by linarith))
  have w2 : |D 2 + Real.cos om| ≤ 1.001 :=
    (abs_add_le _ _).trans ((add_le_add (bD 2) (Real.abs_cos_le_one om)).trans (by linarith))
  have w3 : |D 2 + (Real.cos om - Real.cos e)| ≤ 0.121 * A :=
    (abs_add_le _ _).trans ((add_le_add (bD 2) com).trans (by linarith))
  rw [key]
  refine (abs_add_le _ _).trans ((add_le_add (abs_add3 (abs_mul_le' r0 w0) (abs_mul_le' r1 w1) (abs_mul_le' r2 w2)) w3).trans ?_)
  linarith

/-- From the cosine to the angle. -/
theorem angle_of_dot {e s x : ℝ} (h1 : 4.848e-6 ≤ s) (h2 : s ≤ 4.85e-6) (he : e = 84381.448 * s) (hs : |s - AS2R| ≤ 1e-20)
    (h : |x - Real.cos e| ≤ 4.17 * s) : |Real.arccos x - e| ≤ 10.5 * s := by
  obtain ⟨S1, S2, S3, S4⟩ := obliquity_bounds
  have d : |e - 84381.448 * AS2R| ≤ 1e-15 := by
    rw [he, ← mul_sub, abs_mul, abs_of_pos (show (0 : ℝ) < 84381.448 by norm_num)]
    norm_num at *; linarith
  have d1 := abs_le.mp (sin_near _ _ _ d)
  have d2 := abs_le.mp (cos_near _ _ _ d)
  obtain ⟨g1, g2⟩ := abs_le.mp h
  have p := Real.pi_gt_three
  have c1 := Real.one_sub_sq_div_two_le_cos (x := 10.5 * s)
  have c2 := Real.cos_le_one (10.5 * s)
  have s1 := Real.sin_gt_sub_cube (x := 10.5 * s) (by linarith)
  have q : s * s ≤ 4.85e-6 * s := mul_le_mul_of_nonneg_right h2 (by linarith)
  have s2 : 10.499 * s ≤ Real.sin (10.5 * s) := by
    have : s ^ 3 ≤ 4.85e-6 * (4.85e-6 * s) := by
      have : s ^ 3 = s * (s * s) := by ring
      rw [this]
      exact mul_le_mul h2 q (by positivity) (by norm_num)
    norm_num at *
    nlinarith
  have m1 : 0.39777715 * (10.499 * s) ≤ Real.sin e * Real.sin (10.5 * s) :=
    mul_le_mul (by norm_num at *; linarith) s2 (by linarith) (by norm_num at *; linarith)
  have m2 : Real.cos e * Real.cos (10.5 * s) ≤ Real.cos e := mul_le_of_le_one_right (by norm_num at *; linarith) c2
  have m3 : Real.cos e - 0.001 * s ≤ Real.cos e * Real.cos (10.5 * s) := by
    have c0 : 0 ≤ Real.cos e := by norm_num at *; linarith
    have c3 : 1 - 0.001 * s ≤ Real.cos (10.5 * s) := by norm_num at *; nlinarith
    have c4 : Real.cos e * (0.001 * s) ≤ 0.001 * s := mul_le_of_le_one_left (by linarith) (Real.cos_le_one e)
    have := mul_le_mul_of_nonneg_left c3 c0
    linarith
  have l : Real.cos (e + 10.5 * s) ≤ x := by rw [Real.cos_add]; norm_num at *; linarith
  have u : x ≤ Real.cos (e - 10.5 * s) := by rw [Real.cos_sub]; norm_num at *; linarith
  have a1 := Real.arccos_le_arccos l
  have a2 := Real.arccos_le_arccos u
  rw [Real.arccos_cos (by rw [he]; linarith) (by rw [he]; norm_num at *; linarith)] at a1 a2
  rw [abs_le]; constructor <;> linarith

/-- The same with `as` a second of arc. -/
theorem pole_angle {a b : ℝ} (h : |a + b - 2451545| ≤ 36525) {as e : ℝ} (has : as = Real.pi / 648000) (he : e = 84381.448 * as)
    (n : Fin 3 → ℝ) (w : ∀ j, |n j - (precessionNutation (a, b)).get 2 j| ≤ 7 / 10 ^ 12) :
    |Real.arccos (n ⬝ᵥ ![0, -Real.sin e, Real.cos e]) - e| ≤ 10.5 * as := by
  have d := AS2R_pi
  rw [← has] at d
  have d0 := abs_le.mp d
  have hr := AS2R_real
  have s1 : 4.848e-6 ≤ as := by rw [hr] at d0; norm_num at *; linarith
  have s2 : as ≤ 4.85e-6 := by rw [hr] at d0; norm_num at *; linarith
  obtain ⟨-, k⟩ := pole_dot a b h AS2R (84381.448 * AS2R) rfl rfl
  obtain ⟨-, rp1, -⟩ := C38_bias_and_precession (a, b)
  have hrot := (C38_precession_nutation (a, b) 0 0).2.2.2.2.2
  refine angle_of_dot s1 s2 he (by rw [abs_sub_comm]; exact d) ?_
  have dd : |84381.448 * AS2R - e| ≤ 1e-15 := by
    rw [he, ← mul_sub, abs_mul, abs_of_pos (show (0 : ℝ) < 84381.448 by norm_num)]
    norm_num at *; linarith
  have x1 := sin_near _ _ _ dd
  have x2 := cos_near _ _ _ dd
  have y1 := hrot.abs_le_one 2 1
  have y2 := hrot.abs_le_one 2 2
  have z1 := Real.abs_sin_le_one e
  have z2 := Real.abs_cos_le_one e
  have w1 := w 1
  have w2 := w 2
  have ed : n ⬝ᵥ ![0, -Real.sin e, Real.cos e] = n 1 * -Real.sin e + n 2 * Real.cos e := by
    simp [dotProduct, Fin.sum_univ_three]
  rw [ed]
  generalize (precessionNutation (a, b)).get 2 1 = r1 at *
  generalize (precessionNutation (a, b)).get 2 2 = r2 at *
  have e1 : n 1 * -Real.sin e + n 2 * Real.cos e - Real.cos e =
      (r1 * -Real.sin (84381.448 * AS2R) + r2 * Real.cos (84381.448 * AS2R) - Real.cos (84381.448 * AS2R)) +
      (-((n 1 - r1) * Real.sin e) + (n 2 - r2) * Real.cos e) +
      (r1 * (Real.sin (84381.448 * AS2R) - Real.sin e) + (-(r2 * (Real.cos (84381.448 * AS2R) - Real.cos e)) +
        (Real.cos (84381.448 * AS2R) - Real.cos e))) := by ring
  rw [e1]
  have f1 := abs_mul_le' w1 z1
  have f2 := abs_mul_le' w2 z2
  have f3 := abs_mul_le' y1 x1
  have f4 := abs_mul_le' y2 x2
  refine (abs_add3 k ((abs_add_le _ _).trans (add_le_add ((abs_neg _).le.trans f1) f2))
    ((abs_add_le _ _).trans (add_le_add f3 ((abs_add_le _ _).trans (add_le_add ((abs_neg _).le.trans f4) x2))))).trans ?_
  norm_num at *
  linarith

/-- **C122.** For every date within a century of J2000.0 the true pole (third row of `precession_nutation` and of
`celestial_to_intermediate`) is 84381.448 seconds of arc from the pole of the ecliptic of J2000.0, to 10.5 seconds. -/
theorem C122_obliquity (a b : ℝ) (h : |a + b - 2451545| ≤ 36525) (as e : ℝ) (has : as = Real.pi / 648000) (he : e = 84381.448 * as)
    (n c : Fin 3 → ℝ) (hn : n = fun j => (precessionNutation (a, b)).get 2 j)
    (hc : c = fun j => (celestialToIntermediate (a, b)).get 2 j) :
    |Real.arccos (n ⬝ᵥ ![0, -Real.sin e, Real.cos e]) - e| ≤ 10.5 * as ∧
    |Real.arccos (c ⬝ᵥ ![0, -Real.sin e, Real.cos e]) - e| ≤ 10.5 * as := by
  have e2 := (C39_within_century a b h).1
  have ec : c = n := by
    rw [hc, hn]; funext j
    fin_cases j
    exacts [congrArg Vec3.x e2, congrArg Vec3.y e2, congrArg Vec3.z e2]
  rw [ec, and_self]
  exact pole_angle h has he n fun j => by rw [hn]; norm_num

/-- **C122.** The same in binary64. -/
theorem C122_obliquity_f64 [Libm F64] (hL : LibmAcc) (x y : F64) (a b : ℚ) (hx : Is x a) (hy : Is y b) (ha : |a| ≤ 4000000)
    (h : |a + b - 2451545| ≤ 36525) (as e : ℝ) (has : as = Real.pi / 648000) (he : e = 84381.448 * as) :
    ∃ n c : Fin 3 → ℚ, (∀ j, Is ((precessionNutation (x, y)).get 2 j) (n j)) ∧ (∀ j, Is ((celestialToIntermediate (x, y)).get 2 j) (c j)) ∧
      |Real.arccos ((fun j => (n j : ℝ)) ⬝ᵥ ![0, -Real.sin e, Real.cos e]) - e| ≤ 10.5 * as ∧
      |Real.arccos ((fun j => (c j : ℝ)) ⬝ᵥ ![0, -Real.sin e, Real.cos e]) - e| ≤ 10.5 * as := by
  have h' : |(a : ℝ) + b - 2451545| ≤ 36525 := by exact_mod_cast h
  have e2 := (C39_within_century (a : ℝ) b h').1
  have ec : ∀ j, (celestialToIntermediate ((a : ℝ), (b : ℝ))).get 2 j = (precessionNutation ((a : ℝ), (b : ℝ))).get 2 j := fun j => by
    fin_cases j
    exacts [congrArg Vec3.x e2, congrArg Vec3.y e2, congrArg Vec3.z e2]
  choose n hn dn using fun j => (C67_matrices_f64 hL x y a b hx hy ha h 2 j).2.1
  choose c hc dc using fun j => (C67_matrices_f64 hL x y a b hx hy ha h 2 j).2.2
  refine ⟨n, c, hn, hc, pole_angle h' has he _ fun j => (dn j).trans (by norm_num), pole_angle h' has he _ fun j => ?_⟩
  rw [← ec]; exact dc j

/-- 2050-01-01, with a library that exists. -/
example : |(2400000.5 : ℝ) + 69807 - 2451545| ≤ 36525 ∧ ∃ L : Libm F64, @LibmAcc L := ⟨by norm_num [abs_le], goodLibm, exists_libmAcc⟩

end Verif
