import Verif.Props.FramesAccuracy
import Verif.Lemmas.MeanPole

/-!
# C112: the motion of the celestial pole

Code: `tofas/src/frames.rs`, `bias_and_precession`, `nutation_matrix`, `precession_nutation`, `celestial_to_intermediate`.
-/

namespace Verif

open Arith F64 Matrix Spec

/-- A product of three entries of rotations. -/
theorem mul3 (M N : Matrix (Fin 3) (Fin 3) ℝ) (i j : Fin 3) : (M * N) i j = M i 0 * N 0 j + M i 1 * N 1 j + M i 2 * N 2 j := by
  rw [Matrix.mul_apply, Fin.sum_univ_three]

theorem abs_add3 {a b c A B C : ℝ} (ha : |a| ≤ A) (hb : |b| ≤ B) (hc : |c| ≤ C) : |a + b + c| ≤ A + B + C :=
  (abs_add_le _ _).trans (add_le_add ((abs_add_le _ _).trans (add_le_add ha hb)) hc)

/-- The bias matrix is within 0.032 seconds of arc of the identity in its first two columns. -/
theorem bias_columns (a b c A : ℝ) (A0 : 0 < A) (A2 : A ≤ 4.85e-6) (ha : |a| ≤ 0.0069 * A) (hb : |b| ≤ 0.0167 * A) (hc : |c| ≤ 0.0146 * A)
    (p : Fin 3 → ℝ) (hp : ∀ k, |p k| ≤ 1) :
    let B := R1 a * R2 b * R3 c
    |p 0 * (B 0 0 - 1) + p 1 * B 1 0 + p 2 * B 2 0| ≤ 0.032 * A ∧ |p 0 * B 0 1 + p 1 * (B 1 1 - 1) + p 2 * B 2 1| ≤ 0.032 * A := by
  intro B
  have sa := (Real.abs_sin_le_abs (x := a)).trans ha
  have sb := (Real.abs_sin_le_abs (x := b)).trans hb
  have sc := (Real.abs_sin_le_abs (x := c)).trans hc
  have ca := Real.abs_cos_le_one a
  have cb := Real.abs_cos_le_one b
  have cc := Real.abs_cos_le_one c
  have q : ∀ x : ℝ, |x| ≤ 0.0167 * A → |Real.cos x - 1| ≤ 0.000001 * A := fun x hx => by
    have h1 := Real.one_sub_sq_div_two_le_cos (x := x)
    have h2 := Real.cos_le_one x
    have h3 : x ^ 2 ≤ (0.0167 * A) ^ 2 := by rw [← sq_abs]; exact pow_le_pow_left₀ (abs_nonneg _) hx 2
    rw [abs_le]; constructor <;> nlinarith
  have ka := q a (ha.trans (by nlinarith))
  have kb := q b hb
  have kc := q c (hc.trans (by nlinarith))
  have small : 0.0167 * A * (0.0167 * A) ≤ 0.00001 * A := by nlinarith
  have e00 : B 0 0 - 1 = (Real.cos b - 1) * Real.cos c + (Real.cos c - 1) := by
    simp [B, R1, R2, R3]; ring
  have e10 : B 1 0 = -(Real.cos a * Real.sin c) + Real.sin a * Real.sin b * Real.cos c := by
    simp [B, R1, R2, R3]; ring
  have e20 : B 2 0 = Real.sin a * Real.sin c + Real.cos a * Real.sin b * Real.cos c := by
    simp [B, R1, R2, R3]; ring
  have e01 : B 0 1 = Real.cos b * Real.sin c := by
    simp [B, R1, R2, R3]
  have e11 : B 1 1 - 1 = (Real.cos a - 1) * Real.cos c + (Real.cos c - 1) + Real.sin a * Real.sin b * Real.sin c := by
    simp [B, R1, R2, R3]; ring
  have e21 : B 2 1 = -(Real.sin a * Real.cos c) + Real.cos a * Real.sin b * Real.sin c := by
    simp [B, R1, R2, R3]; ring
  have b00 : |B 0 0 - 1| ≤ 0.000002 * A := by
    rw [e00]
    exact (abs_add_le _ _).trans ((add_le_add (abs_mul_le' kb cc) kc).trans (by linarith))
  have b10 : |B 1 0| ≤ 0.01462 * A := by
    rw [e10]
    refine (abs_add_le _ _).trans ?_
    rw [abs_neg]
    refine (add_le_add (abs_mul_le' ca sc) (abs_mul_le' (abs_mul_le' sa sb) cc)).trans ?_
    nlinarith
  have b20 : |B 2 0| ≤ 0.01672 * A := by
    rw [e20]
    refine (abs_add_le _ _).trans ((add_le_add (abs_mul_le' sa sc) (abs_mul_le' (abs_mul_le' ca sb) cc)).trans ?_)
    nlinarith
  have b01 : |B 0 1| ≤ 0.0146 * A := by
    rw [e01]
    exact (abs_mul_le' cb sc).trans (by linarith)
  have b11 : |B 1 1 - 1| ≤ 0.0001 * A := by
    rw [e11]
    refine (abs_add3 (abs_mul_le' ka cc) kc (abs_mul_le' (abs_mul_le' sa sb) (Real.abs_sin_le_one c))).trans ?_
    nlinarith
  have b21 : |B 2 1| ≤ 0.0075 * A := by
    rw [e21]
    refine (abs_add_le _ _).trans ?_
    rw [abs_neg]
    refine (add_le_add (abs_mul_le' sa cc) (abs_mul_le' (abs_mul_le' ca sb) sc)).trans ?_
    nlinarith
  exact ⟨(abs_add3 (abs_mul_le' (hp 0) b00) (abs_mul_le' (hp 1) b10) (abs_mul_le' (hp 2) b20)).trans (by linarith),
    (abs_add3 (abs_mul_le' (hp 0) b01) (abs_mul_le' (hp 1) b11) (abs_mul_le' (hp 2) b21)).trans (by linarith)⟩

/-- The third row of the nutation matrix. -/
theorem nutation_row (e dp de A : ℝ) (A0 : 0 < A) (A2 : A ≤ 4.85e-6) (hp : |dp| ≤ 19.5 * A) (he : |de| ≤ 10.1 * A)
    (hw : |Real.sin (e + de)| ≤ 0.3981) :
    let N := R1 (-(e + de)) * R3 (-dp) * R1 e
    |N 2 0| ≤ 7.763 * A ∧ |N 2 1| ≤ 10.102 * A ∧ |N 2 2 - 1| ≤ 0.002 * A := by
  intro N
  have e0 : N 2 0 = Real.sin (e + de) * Real.sin dp := by
    simp [N, R1, R3, -neg_add_rev]
  have e1 : N 2 1 = Real.sin de - Real.sin (e + de) * Real.cos e * (1 - Real.cos dp) := by
    have : Real.sin de = Real.sin (e + de) * Real.cos e - Real.cos (e + de) * Real.sin e := by
      rw [← Real.sin_sub]; congr 1; ring
    rw [this]
    simp [N, R1, R3, -neg_add_rev]; ring
  have e2 : N 2 2 - 1 = (Real.cos de - 1) - Real.sin (e + de) * Real.sin e * (1 - Real.cos dp) := by
    have : Real.cos de = Real.cos (e + de) * Real.cos e + Real.sin (e + de) * Real.sin e := by
      rw [← Real.cos_sub]; congr 1; ring
    rw [this]
    simp [N, R1, R3, -neg_add_rev]; ring
  have q : ∀ x : ℝ, |x| ≤ 19.5 * A → |1 - Real.cos x| ≤ 0.000925 * A := fun x hx => by
    have h1 := Real.one_sub_sq_div_two_le_cos (x := x)
    have h2 := Real.cos_le_one x
    have h3 : x ^ 2 ≤ (19.5 * A) ^ 2 := by rw [← sq_abs]; exact pow_le_pow_left₀ (abs_nonneg _) hx 2
    rw [abs_le]; constructor <;> nlinarith
  have kp := q dp hp
  have ke := q de (he.trans (by linarith))
  have w1 := Real.abs_sin_le_one (e + de)
  refine ⟨?_, ?_, ?_⟩
  · rw [e0]
    exact (abs_mul_le' hw (Real.abs_sin_le_abs.trans hp)).trans (by linarith)
  · rw [e1]
    refine (abs_sub _ _).trans ((add_le_add (Real.abs_sin_le_abs.trans he)
      (abs_mul_le' (abs_mul_le' w1 (Real.abs_cos_le_one e)) kp)).trans (by linarith))
  · rw [e2]
    rw [abs_sub_comm] at ke
    refine (abs_sub _ _).trans ((add_le_add ke
      (abs_mul_le' (abs_mul_le' w1 (Real.abs_sin_le_one e)) kp)).trans (by linarith))

/-- The precession matrix: bounds on the entries that mix the first two axes, and the third row. -/
theorem precession_entries (chi om psi e : ℝ) :
    let P := R3 chi * R1 (-om) * R3 (-psi) * R1 e
    |P 1 0| ≤ |chi| + |psi| ∧ |P 0 1| ≤ |chi| + |psi| ∧ P 2 0 = Real.sin psi * Real.sin om ∧
    P 2 1 = Real.cos psi * Real.sin om * Real.cos e - Real.cos om * Real.sin e := by
  intro P
  have u : ∀ x : ℝ, |Real.cos x| ≤ 1 := Real.abs_cos_le_one
  have v : ∀ x : ℝ, |Real.sin x| ≤ |x| := fun x => Real.abs_sin_le_abs
  have e10 : P 1 0 = -(Real.sin chi * Real.cos psi) + Real.cos chi * Real.cos om * Real.sin psi := by
    simp [P, R1, R3]
  have e01 : P 0 1 = -(Real.cos chi * Real.cos e * Real.sin psi) +
      Real.sin chi * (Real.cos om * Real.cos psi * Real.cos e + Real.sin om * Real.sin e) := by
    simp [P, R1, R3]; ring
  have hle : |Real.cos om * Real.cos psi * Real.cos e + Real.sin om * Real.sin e| ≤ 1 := by
    have h1 := Real.sin_sq_add_cos_sq om
    have h2 := Real.sin_sq_add_cos_sq e
    have h3 := Real.sin_sq_add_cos_sq psi
    have h4 : Real.cos psi ^ 2 ≤ 1 := by nlinarith [sq_nonneg (Real.sin psi)]
    have h5 : (Real.cos psi * Real.cos e) ^ 2 ≤ Real.cos e ^ 2 := by
      rw [mul_pow]; exact mul_le_of_le_one_left (sq_nonneg _) h4
    rw [← sq_le_one_iff_abs_le_one]
    nlinarith [sq_nonneg (Real.cos om * Real.sin e - Real.sin om * (Real.cos psi * Real.cos e))]
  refine ⟨?_, ?_, ?_, ?_⟩
  · rw [e10]
    refine (abs_add_le _ _).trans ?_
    rw [abs_neg]
    exact (add_le_add (abs_mul_le' (v chi) (u psi)) (abs_mul_le' (abs_mul_le' (u chi) (u om)) (v psi))).trans (by linarith)
  · rw [e01]
    refine (abs_add_le _ _).trans ?_
    rw [abs_neg]
    exact (add_le_add (abs_mul_le' (abs_mul_le' (u chi) (u e)) (v psi)) (abs_mul_le' (v chi) hle)).trans (by linarith)
  · simp [P, R1, R3]; ring
  · simp [P, R1, R3]; ring

/-- The rows of a rotation consist of numbers of magnitude at most one. -/
theorem IsRotation.abs_le_one {m : Mat3 ℝ} (h : IsRotation m) (i j : Fin 3) : |m.get i j| ≤ 1 := by
  have := congrFun (congrFun ((isRotation_iff _).mp h).1 i) i
  rw [Matrix.mul_apply, Fin.sum_univ_three] at this
  simp only [Matrix.transpose_apply, Mat3.toMatrix_apply, Matrix.one_apply_eq] at this
  rw [← sq_le_one_iff_abs_le_one]
  have h0 := sq_nonneg (m.get i 0)
  have h1 := sq_nonneg (m.get i 1)
  have h2 := sq_nonneg (m.get i 2)
  fin_cases j
  · show m.get i 0 ^ 2 ≤ 1; nlinarith
  · show m.get i 1 ^ 2 ≤ 1; nlinarith
  · show m.get i 2 ^ 2 ≤ 1; nlinarith

set_option maxHeartbeats 1000000 in
/-- The pole with `A` the constant of the code. -/
theorem pole_motion (a b : ℝ) (h : |a + b - 2451545| ≤ 36525) (t A : ℝ) (ht : t = (a + b - 2451545) / 36525) (hA : A = AS2R) :
    (|(biasAndPrecession (a, b)).2.1.get 2 0 - 2004.19 * A * t| ≤ 0.64 * A * |t| ∧
      |(biasAndPrecession (a, b)).2.1.get 2 1 + 22.458 * A * t ^ 2| ≤ 0.1 * A * |t|) ∧
    |(precessionNutation (a, b)).get 2 0 - 2004.19 * A * t| ≤ (8.05 + 0.64 * |t|) * A ∧
    |(precessionNutation (a, b)).get 2 1 + 22.458 * A * t ^ 2| ≤ (10.35 + 0.1 * |t|) * A := by
  have ht1 : |t| ≤ 1 := by
    rw [ht, abs_div, abs_of_pos (show (0 : ℝ) < 36525 by norm_num), div_le_one (by norm_num)]
    exact h
  have hA' := hA.trans AS2R_real
  have A1 : 4.848e-6 ≤ A := by rw [hA']; norm_num
  have A2 : A ≤ 4.85e-6 := by rw [hA']; norm_num
  have A0 : 0 < A := lt_of_lt_of_le (by norm_num) A1
  obtain ⟨hB, hP, hPB, -, -, -, -, -, -, -, hM⟩ := C64_bias_precession_nutation a b 0 0
  obtain ⟨n1, n2⟩ := C41_nutation_bounded a b h
  simp only [← ht, ← hA] at hB hP hPB hM n1 n2
  obtain ⟨rb1, rp1, rbp1⟩ := C38_bias_and_precession (a, b)
  set dp := (nutation (a, b)).1
  set de := (nutation (a, b)).2
  set psi := (5038.7784 * t - 1.07259 * t ^ 2 - 0.001147 * t ^ 3 - 0.29965 * t) * A with hpsi
  set om := 84381.448 * A + (0.05127 * t ^ 2 - 0.007726 * t ^ 3 - 0.02524 * t) * A with hom
  set chi := (10.5526 * t - 2.38064 * t ^ 2 - 0.001125 * t ^ 3) * A with hchi
  set eps := (84381.448 - 46.84024 * t - 0.00059 * t ^ 2 + 0.001813 * t ^ 3) * A with heps
  obtain ⟨m1, m2⟩ := mean_pole t psi om ht1 A hA hpsi hom
  obtain ⟨P10, P01, P20, P21⟩ := precession_entries chi om psi (84381.448 * A)
  simp only [← hP, Mat3.toMatrix_apply] at P10 P01 P20 P21
  rw [← P20] at m1
  rw [← P21] at m2
  refine ⟨⟨m1, m2⟩, ?_⟩
  obtain ⟨S1, S2, -, -⟩ := obliquity_bounds
  rw [← hA] at S1 S2
  have u1 : |t ^ 2| ≤ 1 := by rw [abs_pow]; exact pow_le_one₀ (abs_nonneg _) ht1
  have u2 : |t ^ 3| ≤ 1 := by rw [abs_pow]; exact pow_le_one₀ (abs_nonneg _) ht1
  have v0 := abs_le.mp ht1
  have v1 := abs_le.mp u1
  have v2 := abs_le.mp u2
  -- the bias
  have hb : |-0.041775 * A * Real.sin (84381.448 * A)| ≤ 0.0167 * A := by
    refine (abs_mul_le' (A := 0.041775 * A) (B := 0.397777157) ?_ (abs_le.mpr ⟨by linarith, S2⟩)).trans (by nlinarith)
    rw [abs_le]; constructor <;> linarith
  have bias := fun (p : Fin 3 → ℝ) hp => bias_columns (0.0068192 * A) (-0.041775 * A * Real.sin (84381.448 * A)) (-0.0146 * A) A A0 A2
    (by rw [abs_le]; constructor <;> linarith) hb (by rw [abs_le]; constructor <;> linarith) p hp
  simp only [← hB, Mat3.toMatrix_apply] at bias
  -- the nutation
  have hw : |Real.sin (eps + de)| ≤ 0.3981 := by
    have : |eps + de - 84381.448 * A| ≤ 56.95 * A := by
      have n2' := abs_le.mp n2.le
      have : eps + de - 84381.448 * A = (- 46.84024 * t - 0.00059 * t ^ 2 + 0.001813 * t ^ 3) * A + de := by rw [heps]; ring
      rw [this, abs_le]
      constructor <;> nlinarith
    have := abs_le.mp (sin_near _ _ _ this)
    rw [abs_le]
    constructor <;> linarith [this.1, this.2]
  obtain ⟨r0, r1, r2⟩ := nutation_row eps dp de A A0 A2 n1.le n2.le hw
  set N := R1 (-(eps + de)) * R3 (-dp) * R1 eps
  -- the products
  set P := (biasAndPrecession (a, b)).2.1
  set B := (biasAndPrecession (a, b)).1
  set Q := (biasAndPrecession (a, b)).2.2
  have hQ : ∀ i j, Q.get i j = P.get i 0 * B.get 0 j + P.get i 1 * B.get 1 j + P.get i 2 * B.get 2 j := by
    intro i j
    rw [← Mat3.toMatrix_apply Q, hPB, ← hP, ← hB, mul3]
    simp only [Mat3.toMatrix_apply]
  have hR : ∀ j, (precessionNutation (a, b)).get 2 j = N 2 0 * Q.get 0 j + N 2 1 * Q.get 1 j + N 2 2 * Q.get 2 j := by
    intro j
    rw [← Mat3.toMatrix_apply, hM, Matrix.mul_assoc, ← hPB, mul3]
    simp only [Mat3.toMatrix_apply]
  have d0 : ∀ i, |Q.get i 0 - P.get i 0| ≤ 0.032 * A := fun i => by
    have := (bias (fun k => P.get i k) (fun k => rp1.abs_le_one i k)).1
    have e : Q.get i 0 - P.get i 0 = P.get i 0 * (B.get 0 0 - 1) + P.get i 1 * B.get 1 0 + P.get i 2 * B.get 2 0 := by rw [hQ]; ring
    rw [e]; exact this
  have d1 : ∀ i, |Q.get i 1 - P.get i 1| ≤ 0.032 * A := fun i => by
    have := (bias (fun k => P.get i k) (fun k => rp1.abs_le_one i k)).2
    have e : Q.get i 1 - P.get i 1 = P.get i 0 * B.get 0 1 + P.get i 1 * (B.get 1 1 - 1) + P.get i 2 * B.get 2 1 := by rw [hQ]; ring
    rw [e]; exact this
  have mix : |chi| + |psi| ≤ 0.0246 := by
    have c1 : |chi| ≤ 13 * A := by
      rw [hchi]
      exact abs_mul_le' (abs_le.mpr ⟨by linarith [v0.1, v1.2, v2.2], by linarith [v0.2, v1.1, v2.1]⟩) (abs_of_pos A0).le
    have c2 : |psi| ≤ 5041 * A := by
      rw [hpsi]
      exact abs_mul_le' (abs_le.mpr ⟨by linarith [v0.1, v1.2, v2.2], by linarith [v0.2, v1.1, v2.1]⟩) (abs_of_pos A0).le
    linarith
  have Q10 : |Q.get 1 0| ≤ 0.0247 := by
    have e : Q.get 1 0 = (Q.get 1 0 - P.get 1 0) + P.get 1 0 := by ring
    rw [e]
    exact (abs_add_le _ _).trans ((add_le_add (d0 1) (P10.trans mix)).trans (by linarith))
  have Q01 : |Q.get 0 1| ≤ 0.0247 := by
    have e : Q.get 0 1 = (Q.get 0 1 - P.get 0 1) + P.get 0 1 := by ring
    rw [e]
    exact (abs_add_le _ _).trans ((add_le_add (d1 0) (P01.trans mix)).trans (by linarith))
  constructor
  · have e : (precessionNutation (a, b)).get 2 0 - 2004.19 * A * t = (P.get 2 0 - 2004.19 * A * t) + (Q.get 2 0 - P.get 2 0) +
        (N 2 0 * Q.get 0 0 + N 2 1 * Q.get 1 0 + (N 2 2 - 1) * Q.get 2 0) := by rw [hR]; ring
    rw [e]
    refine (abs_add3 m1 (d0 2) (abs_add3 (abs_mul_le' r0 (rbp1.abs_le_one 0 0)) (abs_mul_le' r1 Q10)
      (abs_mul_le' r2 (rbp1.abs_le_one 2 0)))).trans ?_
    norm_num; linarith
  · have e : (precessionNutation (a, b)).get 2 1 + 22.458 * A * t ^ 2 = (P.get 2 1 + 22.458 * A * t ^ 2) + (Q.get 2 1 - P.get 2 1) +
        (N 2 0 * Q.get 0 1 + N 2 1 * Q.get 1 1 + (N 2 2 - 1) * Q.get 2 1) := by rw [hR]; ring
    rw [e]
    refine (abs_add3 m2 (d1 2) (abs_add3 (abs_mul_le' r0 Q01) (abs_mul_le' r1 (rbp1.abs_le_one 1 1))
      (abs_mul_le' r2 (rbp1.abs_le_one 2 1)))).trans ?_
    norm_num; linarith

/-- The arcsecond constant of the code against the exact one. -/
theorem AS2R_pi : |(AS2R : ℝ) - Real.pi / 648000| ≤ 1e-20 := by
  have p1 := Real.pi_gt_d20
  have p2 := Real.pi_lt_d20
  rw [AS2R_real, abs_le]
  constructor <;> norm_num at p1 p2 ⊢ <;> linarith

/-- **C112.** With `as` one second of arc and `t` the Julian centuries since J2000.0: for every date within a century of J2000.0 the
mean pole (third row of the precession matrix of `bias_and_precession`) lies within 0.65 seconds of arc times `|t|` of
2004.19 `t` along the first celestial axis, and within 0.11 times `|t|` of -22.458 `t²` along the second; the true pole (third row of
`precession_nutation` and of `celestial_to_intermediate`) lies within 8.1 and 10.4 seconds more. -/
theorem C112_pole (a b : ℝ) (h : |a + b - 2451545| ≤ 36525) (t as : ℝ) (ht : t = (a + b - 2451545) / 36525) (has : as = Real.pi / 648000) :
    (|(biasAndPrecession (a, b)).2.1.get 2 0 - 2004.19 * as * t| ≤ 0.65 * as * |t| ∧
      |(biasAndPrecession (a, b)).2.1.get 2 1 + 22.458 * as * t ^ 2| ≤ 0.11 * as * |t|) ∧
    (|(precessionNutation (a, b)).get 2 0 - 2004.19 * as * t| ≤ (8.1 + 0.65 * |t|) * as ∧
      |(precessionNutation (a, b)).get 2 1 + 22.458 * as * t ^ 2| ≤ (10.4 + 0.11 * |t|) * as) ∧
    (|(celestialToIntermediate (a, b)).get 2 0 - 2004.19 * as * t| ≤ (8.1 + 0.65 * |t|) * as ∧
      |(celestialToIntermediate (a, b)).get 2 1 + 22.458 * as * t ^ 2| ≤ (10.4 + 0.11 * |t|) * as) := by
  obtain ⟨⟨h1, h2⟩, h3, h4⟩ := pole_motion a b h t AS2R ht rfl
  have ht1 : |t| ≤ 1 := by
    rw [ht, abs_div, abs_of_pos (show (0 : ℝ) < 36525 by norm_num), div_le_one (by norm_num)]
    exact h
  have t2 : |t ^ 2| ≤ |t| := by rw [abs_pow]; exact abs_pow_le ht1 1
  have d := AS2R_pi
  rw [← has] at d
  have s1 : 4.848e-6 ≤ as := by
    have := (abs_le.mp d).2
    rw [AS2R_real] at this
    norm_num at this ⊢; linarith
  set A : ℝ := AS2R
  have t0 := abs_nonneg t
  have k1 := abs_le.mp (abs_mul_le' (abs_mul_le' (show |(2004.19 : ℝ)| ≤ 2004.19 by norm_num) d) (le_refl |t|))
  have k2 := abs_le.mp (abs_mul_le' (abs_mul_le' (show |(22.458 : ℝ)| ≤ 22.458 by norm_num) d) t2)
  have k3 : A ≤ as + 1e-20 := by linarith [(abs_le.mp d).2]
  have k4 : |t| * A ≤ |t| * as + 1e-20 * |t| := by nlinarith
  have k5 : 4.848e-6 * |t| ≤ as * |t| := mul_le_mul_of_nonneg_right s1 t0
  have P : |(biasAndPrecession (a, b)).2.1.get 2 0 - 2004.19 * as * t| ≤ 0.65 * as * |t| ∧
      |(biasAndPrecession (a, b)).2.1.get 2 1 + 22.458 * as * t ^ 2| ≤ 0.11 * as * |t| := by
    rw [abs_le] at h1 h2 ⊢
    rw [abs_le]
    norm_num at h1 h2 k1 k2 k4 k5 ⊢
    refine ⟨⟨?_, ?_⟩, ?_, ?_⟩ <;> linarith [h1.1, h1.2, h2.1, h2.2, k1.1, k1.2, k2.1, k2.2]
  have R : |(precessionNutation (a, b)).get 2 0 - 2004.19 * as * t| ≤ (8.1 + 0.65 * |t|) * as ∧
      |(precessionNutation (a, b)).get 2 1 + 22.458 * as * t ^ 2| ≤ (10.4 + 0.11 * |t|) * as := by
    rw [abs_le] at h3 h4 ⊢
    rw [abs_le]
    norm_num at h3 h4 k1 k2 k3 k4 k5 s1 ⊢
    refine ⟨⟨?_, ?_⟩, ?_, ?_⟩ <;> linarith [h3.1, h3.2, h4.1, h4.2, k1.1, k1.2, k2.1, k2.2]
  refine ⟨P, R, ?_⟩
  have e := (C39_within_century a b h).1
  have e0 : (celestialToIntermediate (a, b)).get 2 0 = (precessionNutation (a, b)).get 2 0 := congrArg Vec3.x e
  have e1 : (celestialToIntermediate (a, b)).get 2 1 = (precessionNutation (a, b)).get 2 1 := congrArg Vec3.y e
  rw [e0, e1]
  exact R

/-- 2050-01-01: the pole is about a thousand seconds of arc from the axis of the celestial frame. -/
example (t : ℝ) (ht : t = (2400000.5 + 69807 - 2451545) / 36525) :
    900 * (Real.pi / 648000) ≤ (precessionNutation ((2400000.5 : ℝ), (69807 : ℝ))).get 2 0 := by
  have := (abs_le.mp (C112_pole 2400000.5 69807 (by rw [abs_le]; norm_num) t _ ht rfl).2.1.1).1
  have p := Real.pi_pos
  have t1 : 0.49 ≤ t := by rw [ht]; norm_num
  have t2 : |t| ≤ 1 := by rw [ht, abs_le]; norm_num
  nlinarith

/-- **C112.** The first coordinate of the pole of a date within a century of J2000.0 is greater than that of every earlier date,
within that century, at least 320 days before: the nutation never takes back the precession of 320 days. -/
theorem C112_advances (a b a' b' : ℝ) (h : |a + b - 2451545| ≤ 36525) (h' : |a' + b' - 2451545| ≤ 36525)
    (hle : a + b + 320 ≤ a' + b') :
    (precessionNutation (a, b)).get 2 0 + 8e-7 ≤ (precessionNutation (a', b')).get 2 0 ∧
    (celestialToIntermediate (a, b)).get 2 0 + 8e-7 ≤ (celestialToIntermediate (a', b')).get 2 0 := by
  have e0 : (celestialToIntermediate (a, b)).get 2 0 = (precessionNutation (a, b)).get 2 0 :=
    congrArg Vec3.x (C39_within_century a b h).1
  have e1 : (celestialToIntermediate (a', b')).get 2 0 = (precessionNutation (a', b')).get 2 0 :=
    congrArg Vec3.x (C39_within_century a' b' h').1
  rw [e0, e1, and_self]
  have k := (abs_le.mp (pole_motion a b h _ _ rfl rfl).2.1).2
  have k' := (abs_le.mp (pole_motion a' b' h' _ _ rfl rfl).2.1).1
  have A1 : 4.848e-6 ≤ (AS2R : ℝ) := by rw [AS2R_real]; norm_num
  set A : ℝ := AS2R
  set t := (a + b - 2451545) / 36525 with ht
  set t' := (a' + b' - 2451545) / 36525 with ht'
  have b1 : |t| ≤ 1 := by
    rw [ht, abs_div, abs_of_pos (show (0 : ℝ) < 36525 by norm_num), div_le_one (by norm_num)]; exact h
  have b2 : |t'| ≤ 1 := by
    rw [ht', abs_div, abs_of_pos (show (0 : ℝ) < 36525 by norm_num), div_le_one (by norm_num)]; exact h'
  have b3 : 320 / 36525 ≤ t' - t := by
    rw [ht, ht', ← sub_div]
    gcongr; linarith
  have A0 : 0 ≤ A := le_trans (by norm_num) A1
  have c1 := mul_le_mul_of_nonneg_left b1 A0
  have c2 := mul_le_mul_of_nonneg_left b2 A0
  have c3 := mul_le_mul_of_nonneg_left b3 A0
  norm_num at *
  linarith

example : (precessionNutation ((2400000.5 : ℝ), (51544.5 : ℝ))).get 2 0 + 8e-7 ≤ (precessionNutation ((2400000.5 : ℝ), (51910 : ℝ))).get 2 0 :=
  (C112_advances 2400000.5 51544.5 2400000.5 51910 (by rw [abs_le]; norm_num) (by rw [abs_le]; norm_num) (by norm_num)).1

theorem Near.weaken {x : F64} {q q' e e' : ℝ} (h : Near x q e) (hq : |q - q'| + e ≤ e') : Near x q' e' := by
  obtain ⟨r, hr, he⟩ := h
  refine ⟨r, hr, ?_⟩
  have : (r : ℝ) - q' = (r - q) + (q - q') := by ring
  rw [this]
  exact (abs_add_le _ _).trans (by linarith)

/-- **C112.** In `f64`, with a first part of the date of at most four million days, the pole of `precession_nutation` and of
`celestial_to_intermediate` keeps to the same curve within 8.11 and 10.41 seconds of arc beyond the drift of the approximation, and
moves forward over any 320 days. -/
theorem C112_pole_f64 [Libm F64] (hL : LibmAcc) (x y : F64) (a b : ℚ) (hx : Is x a) (hy : Is y b) (ha : |a| ≤ 4000000)
    (h : |a + b - 2451545| ≤ 36525) (t as : ℝ) (ht : t = ((a : ℝ) + b - 2451545) / 36525) (has : as = Real.pi / 648000) :
    (Near ((precessionNutation (x, y)).get 2 0) (2004.19 * as * t) ((8.11 + 0.65 * |t|) * as) ∧
      Near ((precessionNutation (x, y)).get 2 1) (-22.458 * as * t ^ 2) ((10.41 + 0.11 * |t|) * as)) ∧
    (Near ((celestialToIntermediate (x, y)).get 2 0) (2004.19 * as * t) ((8.11 + 0.65 * |t|) * as) ∧
      Near ((celestialToIntermediate (x, y)).get 2 1) (-22.458 * as * t ^ 2) ((10.41 + 0.11 * |t|) * as)) ∧
    ∀ (x' y' : F64) (a' b' : ℚ), Is x' a' → Is y' b' → |a'| ≤ 4000000 → |a' + b' - 2451545| ≤ 36525 → a + b + 320 ≤ a' + b' →
      (∃ r r' : ℚ, Is ((precessionNutation (x, y)).get 2 0) r ∧ Is ((precessionNutation (x', y')).get 2 0) r' ∧ r < r') ∧
      ∃ r r' : ℚ, Is ((celestialToIntermediate (x, y)).get 2 0) r ∧ Is ((celestialToIntermediate (x', y')).get 2 0) r' ∧ r < r' := by
  have h' : |(a : ℝ) + b - 2451545| ≤ 36525 := by exact_mod_cast h
  obtain ⟨-, ⟨p1, p2⟩, p3, p4⟩ := C112_pole a b h' t as ht has
  obtain ⟨-, q1, q3⟩ := C67_matrices_f64 hL x y a b hx hy ha h 2 0
  obtain ⟨-, q2, q4⟩ := C67_matrices_f64 hL x y a b hx hy ha h 2 1
  have s1 : 4.848e-6 ≤ as := by
    have := (abs_le.mp AS2R_pi).2
    rw [← has, AS2R_real] at this
    norm_num at this ⊢; linarith
  have neg : ∀ z : ℝ, z - -22.458 * as * t ^ 2 = z + 22.458 * as * t ^ 2 := fun z => by ring
  refine ⟨⟨q1.weaken ?_, q2.weaken ?_⟩, ⟨q3.weaken ?_, q4.weaken ?_⟩, ?_⟩
  · linarith
  · rw [neg]; linarith
  · linarith
  · rw [neg]; linarith
  intro x' y' a' b' hx' hy' ha' g hle
  have g' : |(a' : ℝ) + b' - 2451545| ≤ 36525 := by exact_mod_cast g
  have hle' : (a : ℝ) + b + 320 ≤ a' + b' := by exact_mod_cast hle
  obtain ⟨m1, m2⟩ := C112_advances a b a' b' h' g' hle'
  obtain ⟨-, w1, w3⟩ := C67_matrices_f64 hL x' y' a' b' hx' hy' ha' g 2 0
  obtain ⟨r, hr, er⟩ := q1
  obtain ⟨r', hr', er'⟩ := w1
  obtain ⟨u, hu, eu⟩ := q3
  obtain ⟨u', hu', eu'⟩ := w3
  rw [abs_le] at er er' eu eu'
  refine ⟨⟨r, r', hr, hr', ?_⟩, u, u', hu, hu', ?_⟩
  · rw [← Rat.cast_lt (K := ℝ)]
    norm_num at er er' m1
    linarith [er.1, er.2, er'.1, er'.2]
  · rw [← Rat.cast_lt (K := ℝ)]
    norm_num at eu eu' m2
    linarith [eu.1, eu.2, eu'.1, eu'.2]

/-- The hypotheses hold for a library that exists and for two dates a year apart. -/
example : ∃ L : Libm F64, @LibmAcc L ∧ ∃ x y y' : F64, Is x (2451545 : ℤ) ∧ Is y (7000 : ℤ) ∧ Is y' (7365 : ℤ) ∧
    |((2451545 : ℤ) : ℚ)| ≤ 4000000 ∧ |((2451545 : ℤ) : ℚ) + (7000 : ℤ) - 2451545| ≤ 36525 ∧
    ((2451545 : ℤ) : ℚ) + (7000 : ℤ) + 320 ≤ (2451545 : ℤ) + (7365 : ℤ) :=
  ⟨goodLibm, exists_libmAcc, lit (2451545 : ℤ), lit (7000 : ℤ), lit (7365 : ℤ), Is.lit_int _ (by norm_num), Is.lit_int _ (by norm_num),
    Is.lit_int _ (by norm_num), by norm_num [abs_le], by norm_num [abs_le], by norm_num⟩

end Verif
