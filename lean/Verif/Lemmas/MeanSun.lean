import Verif.Spec.MeanSun
import Verif.Lemmas.MatAcc
import Verif.Props.FramesSpec
import Verif.Props.Earth
import Verif.Props.EarthAngle

/-!
# Position of the pole to first order
-/

namespace Verif
open Arith Matrix Spec

theorem MB.R1_one (t : ℝ) : MB (R1 t - 1) |t| := by
  have := MB.rotation_diff 0 t 0
  rw [rot_R1, rot_R1, sub_zero] at this
  have e : R1 0 = 1 := by ext i j; fin_cases i <;> fin_cases j <;> simp [R1]
  rwa [e] at this

theorem MB.R2_one (t : ℝ) : MB (R2 t - 1) |t| := by
  have := MB.rotation_diff 1 t 0
  rw [rot_R2, rot_R2, sub_zero] at this
  have e : R2 0 = 1 := by ext i j; fin_cases i <;> fin_cases j <;> simp [R2]
  rwa [e] at this

theorem MB.R3_one (t : ℝ) : MB (R3 t - 1) |t| := by
  have := MB.rotation_diff 2 t 0
  rw [rot_R3, rot_R3, sub_zero] at this
  have e : R3 0 = 1 := by ext i j; fin_cases i <;> fin_cases j <;> simp [R3]
  rwa [e] at this

theorem MB.R1 (t : ℝ) : MB (Spec.R1 t) 1 := by rw [← rot_R1]; exact MB.of_rotation (.rotation _ _)
theorem MB.R2 (t : ℝ) : MB (Spec.R2 t) 1 := by rw [← rot_R2]; exact MB.of_rotation (.rotation _ _)
theorem MB.R3 (t : ℝ) : MB (Spec.R3 t) 1 := by rw [← rot_R3]; exact MB.of_rotation (.rotation _ _)

/-- Small displacements of two factors add up. -/
theorem MB.mul_one {A B : M3} {e e' : ℝ} (hB : MB B 1) (h : MB (A - 1) e) (h' : MB (B - 1) e') :
    MB (A * B - 1) (e + e') := by
  have : A * B - 1 = (A - 1) * B + (B - 1) := by noncomm_ring
  rw [this]
  exact ((h.mul hB).add h').mono (by linarith)

theorem R1_mul (a b : ℝ) : R1 a * R1 b = R1 (a + b) := by
  ext i j
  fin_cases i <;> fin_cases j <;>
    simp [R1, Matrix.mul_apply, Fin.sum_univ_three, Real.cos_add, Real.sin_add] <;> ring

theorem nut_one (e p d : ℝ) : MB (R1 (-(e + d)) * R3 (-p) * R1 e - 1) (|d| + |p|) := by
  have h1 : R1 (-e) * R1 e = 1 := by
    rw [R1_mul, neg_add_cancel]; ext i j; fin_cases i <;> fin_cases j <;> simp [R1]
  have h2 : R1 (-(e + d)) = R1 (-e) * R1 (-d) := by rw [R1_mul]; congr 1; ring
  have h3 : R1 (-(e + d)) * R3 (-p) * R1 e - 1 = R1 (-e) * (R1 (-d) * R3 (-p) - 1) * R1 e := by
    rw [mul_sub, mul_one, sub_mul, h1, h2]; noncomm_ring
  rw [h3]
  have := MB.mul_one (MB.R3 (-p)) (MB.R1_one (-d)) (MB.R3_one (-p))
  rw [abs_neg, abs_neg] at this
  exact (((MB.R1 (-e)).mul this).mul (MB.R1 e)).mono (by linarith)

/-- Sine and cosine of angles near the obliquity. -/
theorem sincos_obl {x : ℝ} (hx : |x - 0.4090928| ≤ 1e-7) :
    |Real.sin x - 0.397777| ≤ 5e-7 ∧ |Real.cos x - 0.917482| ≤ 5e-7 := by
  have p1 := Real.pi_gt_d20
  have p2 := Real.pi_lt_d20
  rw [abs_le] at hx
  set z := x - Real.pi / 8 with hz
  have e : x = Real.pi / 8 + z := by rw [hz]; ring
  have z1 : 0.0163936 ≤ z := by rw [hz]; norm_num at p1 p2 hx ⊢; linarith [hx.1]
  have z2 : z ≤ 0.0163939 := by rw [hz]; norm_num at p1 p2 hx ⊢; linarith [hx.2]
  have za : |z| ≤ 1 := by rw [abs_le]; constructor <;> linarith
  have hs := Real.sin_bound za
  have hc := Real.cos_bound za
  rw [abs_of_pos (show 0 < z by linarith), abs_le] at hs hc
  have w1 : z ^ 2 ≤ 0.0163939 ^ 2 := by gcongr
  have w2 : 0.0163936 ^ 2 ≤ z ^ 2 := by gcongr
  have w3 : z ^ 3 ≤ 0.0163939 ^ 3 := by gcongr
  have w4 : 0.0163936 ^ 3 ≤ z ^ 3 := by gcongr
  have w5 : z ^ 4 ≤ 0.0163939 ^ 4 := by gcongr
  have w6 : z ^ 5 ≤ 0.0163939 ^ 5 := by gcongr
  have w7 : 0 ≤ z ^ 5 := by have : 0 ≤ z := by linarith
                            positivity
  have s1 : 0.0163928 ≤ Real.sin z := by norm_num at *; linarith [hs.1]
  have s2 : Real.sin z ≤ 0.0163932 := by norm_num at *; linarith [hs.2]
  have c1 : 0.99986560 ≤ Real.cos z := by norm_num at *; linarith [hc.1]
  have c2 : Real.cos z ≤ 0.99986564 := by norm_num at *; linarith [hc.2]
  have q1 : 1.414213562373 ≤ Real.sqrt 2 := Real.le_sqrt_of_sq_le (by norm_num)
  have q2 : Real.sqrt 2 ≤ 1.414213562374 := Real.sqrt_le_iff.mpr (by norm_num)
  have C1 : 0.92387953 ≤ Real.cos (Real.pi / 8) := by
    rw [Real.cos_pi_div_eight]
    have : 1.84775906 ≤ Real.sqrt (2 + Real.sqrt 2) := Real.le_sqrt_of_sq_le (by norm_num at *; linarith)
    linarith
  have C2 : Real.cos (Real.pi / 8) ≤ 0.92387954 := by
    rw [Real.cos_pi_div_eight]
    have : Real.sqrt (2 + Real.sqrt 2) ≤ 1.84775908 := Real.sqrt_le_iff.mpr ⟨by norm_num, by norm_num at *; linarith⟩
    linarith
  have S1 : 0.38268343 ≤ Real.sin (Real.pi / 8) := by
    rw [Real.sin_pi_div_eight]
    have : 0.76536686 ≤ Real.sqrt (2 - Real.sqrt 2) := Real.le_sqrt_of_sq_le (by norm_num at *; linarith)
    linarith
  have S2 : Real.sin (Real.pi / 8) ≤ 0.38268344 := by
    rw [Real.sin_pi_div_eight]
    have : Real.sqrt (2 - Real.sqrt 2) ≤ 0.76536688 := Real.sqrt_le_iff.mpr ⟨by norm_num, by norm_num at *; linarith⟩
    linarith
  rw [e, Real.sin_add, Real.cos_add]
  generalize Real.sin (Real.pi / 8) = S at *
  generalize Real.cos (Real.pi / 8) = C at *
  generalize Real.sin z = s at *
  generalize Real.cos z = c at *
  have m1 := mul_le_mul S1 c1 (by norm_num) (by linarith)
  have m2 := mul_le_mul S2 c2 (by linarith) (by norm_num)
  have m3 := mul_le_mul C1 s1 (by norm_num) (by linarith)
  have m4 := mul_le_mul C2 s2 (by linarith) (by norm_num)
  have m5 := mul_le_mul C1 c1 (by norm_num) (by linarith)
  have m6 := mul_le_mul C2 c2 (by linarith) (by norm_num)
  have m7 := mul_le_mul S1 s1 (by norm_num) (by linarith)
  have m8 := mul_le_mul S2 s2 (by linarith) (by norm_num)
  clear p1 p2 hx hz e z1 z2 za hs hc w1 w2 w3 w4 w5 w6 w7
  norm_num at m1 m2 m3 m4 m5 m6 m7 m8
  constructor <;> rw [abs_le] <;> constructor <;> norm_num <;> linarith

/-- Third row of the precession matrix. -/
theorem prec_row (chi om psi e : ℝ) :
    (R3 chi * R1 (-om) * R3 (-psi) * R1 e) 2 0 = Real.sin om * Real.sin psi ∧
    (R3 chi * R1 (-om) * R3 (-psi) * R1 e) 2 1 =
      Real.sin om * Real.cos psi * Real.cos e - Real.cos om * Real.sin e := by
  constructor <;>
  · simp [R1, R3, Matrix.mul_apply, Fin.sum_univ_three]
    try ring

theorem sin_near (a b d : ℝ) (h : |a - b| ≤ d) : |Real.sin a - Real.sin b| ≤ d := by
  have := cos_near (a - Real.pi / 2) (b - Real.pi / 2) d (by rw [sub_sub_sub_cancel_right]; exact h)
  rwa [Real.cos_sub_pi_div_two, Real.cos_sub_pi_div_two] at this

theorem sin_cube {x : ℝ} (h : |x| ≤ 0.0245) : |Real.sin x - x| ≤ 2.6e-6 := by
  have hs := Real.sin_bound (h.trans (by norm_num))
  have h3 : |x| ^ 3 ≤ 0.0245 ^ 3 := by gcongr
  have h5 : |x| ^ 5 ≤ 0.0245 ^ 5 := by gcongr
  have e : |x ^ 3| = |x| ^ 3 := abs_pow _ _
  have h3' := abs_le.mp (e.trans_le h3)
  rw [abs_le] at hs ⊢
  norm_num at *
  constructor <;> linarith [hs.1, hs.2, h3'.1, h3'.2]

/-- Third row of the precession matrix within a century: `X` is the precession angle and `Y` is small. -/
theorem prec_near {t chi : ℝ} (ht : |t| ≤ 1) :
    let as : ℝ := AS2R
    let eps0 := 84381.448 * as
    let psi := (5038.7784 * t - 1.07259 * t ^ 2 - 0.001147 * t ^ 3 - 0.29965 * t) * as
    let om := eps0 + (0.05127 * t ^ 2 - 0.007726 * t ^ 3 - 0.02524 * t) * as
    let P := R3 chi * R1 (-om) * R3 (-psi) * R1 eps0
    |P 2 0 - 2004.3109 / 3600 * (Real.pi / 180) * t| ≤ 4.5e-6 ∧ |P 2 1| ≤ 1.1e-4 := by
  intro as eps0 psi om P
  have hA : as = 4.848136811095359935899141e-6 := by simp only [as]; unfold AS2R; norm_num
  clear_value as
  have t2 : |t ^ 2| ≤ 1 := by rw [abs_pow]; exact pow_le_one₀ (abs_nonneg _) ht
  have t3 : |t ^ 3| ≤ 1 := by rw [abs_pow]; exact pow_le_one₀ (abs_nonneg _) ht
  rw [abs_le] at ht t2 t3
  obtain ⟨e1, e2⟩ := sincos_obl (x := eps0) (by
    simp only [eps0, hA]; norm_num [abs_le])
  have hd : |om - eps0| ≤ 4.2e-7 := by
    simp only [om, hA, add_sub_cancel_left]
    rw [abs_le]; constructor <;> norm_num <;> linarith [ht.1, ht.2, t2.1, t2.2, t3.1, t3.2]
  have hpsi : |psi| ≤ 0.024434 := by
    simp only [psi, hA]
    rw [abs_le]; constructor <;> norm_num <;> linarith [ht.1, ht.2, t2.1, t2.2, t3.1, t3.2]
  have hlin : |psi - 0.0244272330 * t| ≤ 5.3e-6 := by
    simp only [psi, hA]
    rw [abs_le]; constructor <;> norm_num <;> linarith [ht.1, ht.2, t2.1, t2.2, t3.1, t3.2]
  obtain ⟨r1, r2⟩ := prec_row chi om psi eps0
  have hP0 : P 2 0 = _ := r1
  have hP1 : P 2 1 = _ := r2
  rw [hP0, hP1]
  have hso := sin_near om eps0 _ hd
  have hsp := sin_cube (hpsi.trans (by norm_num))
  have hcp : |1 - Real.cos psi| ≤ 0.0002986 := by
    have h1 := Real.one_sub_sq_div_two_le_cos (x := psi)
    have h2 := Real.cos_le_one psi
    have h3 : psi ^ 2 ≤ 0.024434 ^ 2 := sq_le_sq' (by linarith [(abs_le.mp hpsi).1]) (abs_le.mp hpsi).2
    rw [abs_le]; norm_num at h3 ⊢; constructor <;> linarith
  clear hP0 hP1 r1 r2
  clear_value P
  constructor
  · have k1 : |Real.sin om - 0.397777| ≤ 1e-6 := by
      rw [abs_le] at hso e1 ⊢; constructor <;> norm_num at hso e1 ⊢ <;> linarith [hso.1, hso.2, e1.1, e1.2]
    have k2 : |Real.sin psi - 0.0244272330 * t| ≤ 7.9e-6 := by
      rw [abs_le] at hsp hlin ⊢; constructor <;> norm_num at hsp hlin ⊢ <;> linarith [hsp.1, hsp.2, hlin.1, hlin.2]
    have k3 : |Real.sin psi| ≤ 0.0245 := Real.abs_sin_le_abs.trans (hpsi.trans (by norm_num))
    have k4 : |(Real.sin om - 0.397777) * Real.sin psi| ≤ 1e-6 * 0.0245 := by
      rw [abs_mul]; exact mul_le_mul k1 k3 (abs_nonneg _) (by norm_num)
    have p1 := Real.pi_gt_d20
    have p2 := Real.pi_lt_d20
    have k5 : |(2004.3109 / 3600 * (Real.pi / 180) - 0.397777 * 0.0244272330) * t| ≤ 7e-7 * 1 := by
      rw [abs_mul]
      refine mul_le_mul ?_ (abs_le.mpr ht) (abs_nonneg _) (by norm_num)
      rw [abs_le]; constructor <;> norm_num at p1 p2 ⊢ <;> linarith
    have k6 : |0.397777 * (Real.sin psi - 0.0244272330 * t)| ≤ 0.397777 * 7.9e-6 := by
      rw [abs_mul, abs_of_pos (by norm_num : (0 : ℝ) < 0.397777)]; gcongr
    have e : Real.sin om * Real.sin psi - 2004.3109 / 3600 * (Real.pi / 180) * t =
      (Real.sin om - 0.397777) * Real.sin psi + 0.397777 * (Real.sin psi - 0.0244272330 * t)
        - (2004.3109 / 3600 * (Real.pi / 180) - 0.397777 * 0.0244272330) * t := by ring
    rw [e]
    refine (abs_sub _ _).trans ((add_le_add ((abs_add_le _ _).trans (add_le_add k4 k6)) k5).trans ?_)
    norm_num
  · have e : Real.sin om * Real.cos psi * Real.cos eps0 - Real.cos om * Real.sin eps0 =
      Real.sin (om - eps0) - Real.sin om * Real.cos eps0 * (1 - Real.cos psi) := by rw [Real.sin_sub]; ring
    rw [e]
    have k1 : |Real.sin (om - eps0)| ≤ 4.2e-7 := Real.abs_sin_le_abs.trans hd
    have k2 : |Real.sin om| ≤ 0.39778 := by
      rw [abs_le] at hso e1 ⊢; constructor <;> norm_num at hso e1 ⊢ <;> linarith [hso.1, hso.2, e1.1, e1.2]
    have k3 : |Real.cos eps0| ≤ 0.91749 := by
      rw [abs_le] at e2 ⊢; constructor <;> norm_num at e2 ⊢ <;> linarith [e2.1, e2.2]
    have k4 : |Real.sin om * Real.cos eps0 * (1 - Real.cos psi)| ≤ 0.39778 * 0.91749 * 0.0002986 := by
      rw [abs_mul, abs_mul]
      exact mul_le_mul (mul_le_mul k2 k3 (abs_nonneg _) (by norm_num)) hcp (abs_nonneg _) (by norm_num)
    refine (abs_sub _ _).trans ((add_le_add k1 k4).trans ?_)
    norm_num

/-- The pole within a century of J2000.0. -/
theorem pole_near {a b : ℝ} (h : |a + b - 2451545| ≤ 36525) :
    |(precessionNutation (a, b)).toMatrix 2 0 - precessionAngle (a + b - 2451545)| ≤ 1.49e-4 ∧
    |(precessionNutation (a, b)).toMatrix 2 1| ≤ 2.55e-4 := by
  have ht : |(a + b - 2451545) / 36525| ≤ 1 := by
    rw [abs_div, abs_of_pos (show (0 : ℝ) < 36525 by norm_num), div_le_one (by norm_num)]; exact h
  obtain ⟨n1, n2⟩ := C41_nutation_bounded a b h
  obtain ⟨-, -, -, -, -, -, -, -, -, -, hM⟩ := C64_bias_precession_nutation a b 0 0
  rw [hM]
  obtain ⟨q1, q2⟩ := prec_near (chi := (10.5526 * ((a + b - 2451545) / 36525) - 2.38064 * ((a + b - 2451545) / 36525) ^ 2
    - 0.001125 * ((a + b - 2451545) / 36525) ^ 3) * AS2R) ht
  clear hM
  set t := (a + b - 2451545) / 36525 with htd
  have hA : (AS2R : ℝ) = 4.848136811095359935899141e-6 := by unfold AS2R; norm_num
  set P := R3 ((10.5526 * t - 2.38064 * t ^ 2 - 0.001125 * t ^ 3) * AS2R) *
    R1 (-(84381.448 * AS2R + (0.05127 * t ^ 2 - 0.007726 * t ^ 3 - 0.02524 * t) * AS2R)) *
    R3 (-((5038.7784 * t - 1.07259 * t ^ 2 - 0.001147 * t ^ 3 - 0.29965 * t) * AS2R)) * R1 (84381.448 * AS2R) with hP
  have mP : MB P 1 := (((((MB.R3 _).mul (MB.R1 _)).mul (MB.R3 _)).mul (MB.R1 _))).mono (by norm_num)
  have hN := nut_one ((84381.448 - 46.84024 * t - 0.00059 * t ^ 2 + 0.001813 * t ^ 3) * AS2R) (nutation (a, b)).1
    (nutation (a, b)).2
  set N := R1 (-((84381.448 - 46.84024 * t - 0.00059 * t ^ 2 + 0.001813 * t ^ 3) * AS2R + (nutation (a, b)).2)) *
    R3 (-(nutation (a, b)).1) * R1 ((84381.448 - 46.84024 * t - 0.00059 * t ^ 2 + 0.001813 * t ^ 3) * AS2R)
  have hB1 := (MB.R2_one (-0.041775 * AS2R * Real.sin (84381.448 * AS2R)))
  have hB := MB.mul_one (MB.R3 _) (MB.mul_one (MB.R2 _) (MB.R1_one (0.0068192 * AS2R)) hB1) (MB.R3_one (-0.0146 * AS2R))
  have mB : MB (R1 (0.0068192 * AS2R) * R2 (-0.041775 * AS2R * Real.sin (84381.448 * AS2R)) * R3 (-0.0146 * AS2R)) 1 :=
    (((MB.R1 _).mul (MB.R2 _)).mul (MB.R3 _)).mono (by norm_num)
  set B := R1 (0.0068192 * AS2R) * R2 (-0.041775 * AS2R * Real.sin (84381.448 * AS2R)) * R3 (-0.0146 * AS2R)
  have hB' : MB (B - 1) 3.2e-7 := by
    refine hB.mono ?_
    rw [abs_mul (_ * _) (Real.sin _)]
    have s1 := Real.abs_sin_le_one (84381.448 * AS2R : ℝ)
    have s2 := mul_le_mul_of_nonneg_left s1 (abs_nonneg (-0.041775 * AS2R : ℝ))
    refine (add_le_add_left (add_le_add_right s2 _) _).trans ?_
    rw [hA]
    norm_num [abs_of_pos, abs_of_neg]
  have hN' : MB (N - 1) 1.4352e-4 := by
    refine hN.mono ?_
    rw [hA] at n1 n2
    norm_num at n1 n2 ⊢
    linarith
  have hD : MB (N * P * B - P) 1.4384e-4 := by
    have e : N * P * B - P = (N - 1) * P * B + P * (B - 1) := by noncomm_ring
    rw [e]
    exact (((hN'.mul mP).mul mB).add (mP.mul hB')).mono (by norm_num)
  have d0 := hD.entry 2 0
  have d1 := hD.entry 2 1
  rw [Matrix.sub_apply] at d0 d1
  have e0 : precessionAngle (a + b - 2451545) = 2004.3109 / 3600 * (Real.pi / 180) * t := rfl
  have q1' : |P 2 0 - 2004.3109 / 3600 * (Real.pi / 180) * t| ≤ 4.5e-6 := q1
  have q2' : |P 2 1| ≤ 1.1e-4 := q2
  show |(N * P * B) 2 0 - _| ≤ _ ∧ |(N * P * B) 2 1| ≤ _
  rw [e0]
  generalize (N * P * B) 2 0 = x at *
  generalize (N * P * B) 2 1 = y at *
  generalize 2004.3109 / 3600 * (Real.pi / 180) * t = z at *
  rw [abs_le] at d0 d1 q1' q2'
  norm_num at d0 d1 q1' q2'
  constructor <;> rw [abs_le] <;> constructor <;> norm_num <;> linarith [d0.1, d0.2, d1.1, d1.2, q1'.1, q1'.2, q2'.1, q2'.2]

/-- An infinitesimal rotation about an axis in the equator. -/
theorem MB.tilt {u v e : ℝ} (he : 0 ≤ e) (h : u ^ 2 + v ^ 2 ≤ e ^ 2) : MB !![0, 0, -u; 0, 0, -v; u, v, 0] e := by
  refine MB.of_vec he fun w => ?_
  refine Real.sqrt_le_iff.mpr ⟨mul_nonneg he (len_nonneg _), ?_⟩
  rw [mul_pow, len_sq]
  have h2 := mul_le_mul_of_nonneg_right h (show 0 ≤ w 0 ^ 2 + w 1 ^ 2 + w 2 ^ 2 by positivity)
  simp [Matrix.mulVec, dotProduct, Fin.sum_univ_three]
  nlinarith [sq_nonneg (u * w 1 - v * w 0)]

theorem MB.quad {a x y e : ℝ} (he : 0 ≤ e) (ha : 0 ≤ a) (h : a * (x ^ 2 + y ^ 2) ≤ e) :
    MB !![a * x ^ 2, a * x * y, 0; a * x * y, a * y ^ 2, 0; 0, 0, a * (x ^ 2 + y ^ 2)] e := by
  refine MB.mono (MB.of_vec (e := a * (x ^ 2 + y ^ 2)) (by positivity) fun w => ?_) h
  refine Real.sqrt_le_iff.mpr ⟨mul_nonneg (by positivity) (len_nonneg _), ?_⟩
  rw [mul_pow, len_sq]
  simp [Matrix.mulVec, dotProduct, Fin.sum_univ_three]
  have : 0 ≤ a ^ 2 * (x ^ 2 + y ^ 2) * (x * w 1 - y * w 0) ^ 2 := by positivity
  nlinarith [this]

/-- The celestial to intermediate matrix within a century is first order precession up to `3.5e-4`. -/
theorem c2i_near {a b : ℝ} (h : |a + b - 2451545| ≤ 36525) :
    MB ((celestialToIntermediate (a, b)).toMatrix - meanPrecession (a + b - 2451545)) 3.5e-4 := by
  obtain ⟨h1, h2⟩ := pole_near h
  have hp : |precessionAngle (a + b - 2451545)| ≤ 0.009718 := by
    have ht : |(a + b - 2451545) / 36525| ≤ 1 := by
      rw [abs_div, abs_of_pos (show (0 : ℝ) < 36525 by norm_num), div_le_one (by norm_num)]; exact h
    unfold precessionAngle
    have p1 := Real.pi_gt_d20
    have p2 := Real.pi_lt_d20
    rw [abs_mul]
    refine (mul_le_mul (b := 0.009718) ?_ ht (abs_nonneg _) (by norm_num)).trans (by norm_num)
    rw [abs_le]; constructor <;> norm_num at p1 p2 ⊢ <;> linarith
  obtain ⟨S, hS, hSb⟩ := C44_cio a b
  have hSb := hSb h
  have hA : (AS2R : ℝ) = 4.848136811095359935899141e-6 := by unfold AS2R; norm_num
  have e : (celestialToIntermediate (a, b)) = celestialToIntermediateFromXys
    ((precessionNutation (a, b)).toMatrix 2 0) ((precessionNutation (a, b)).toMatrix 2 1)
    (cio (a, b) ((precessionNutation (a, b)).toMatrix 2 0) ((precessionNutation (a, b)).toMatrix 2 1)) := rfl
  rw [e]
  clear e
  have hs := hS ((precessionNutation (a, b)).toMatrix 2 0) ((precessionNutation (a, b)).toMatrix 2 1)
  unfold meanPrecession
  generalize (precessionNutation (a, b)).toMatrix 2 0 = x at *
  generalize (precessionNutation (a, b)).toMatrix 2 1 = y at *
  generalize precessionAngle (a + b - 2451545) = p at *
  generalize cio (a, b) x y = s at *
  have hx : |x| ≤ 0.009868 := by
    rw [abs_le] at *; norm_num at *; constructor <;> linarith
  have hx2 : x ^ 2 ≤ 0.009868 ^ 2 := sq_le_sq' (by linarith [(abs_le.mp hx).1]) (abs_le.mp hx).2
  have hy2 : y ^ 2 ≤ 2.55e-4 ^ 2 := sq_le_sq' (by linarith [(abs_le.mp h2).1]) (abs_le.mp h2).2
  have hd2 : (x - p) ^ 2 ≤ 1.49e-4 ^ 2 := sq_le_sq' (by linarith [(abs_le.mp h1).1]) (abs_le.mp h1).2
  have hr : x ^ 2 + y ^ 2 ≤ 0.0000975 := by norm_num at *; linarith
  rw [C63_cio_matrix x y s (by linarith)]
  have ha : 0 ≤ 1 / (1 + Real.sqrt (1 - (x ^ 2 + y ^ 2))) ∧ 1 / (1 + Real.sqrt (1 - (x ^ 2 + y ^ 2))) ≤ 0.51 := by
    refine ⟨by positivity, ?_⟩
    have : 0.99 ≤ Real.sqrt (1 - (x ^ 2 + y ^ 2)) := Real.le_sqrt_of_sq_le (by norm_num; linarith)
    rw [div_le_iff₀ (by positivity)]
    linarith
  generalize 1 / (1 + Real.sqrt (1 - (x ^ 2 + y ^ 2))) = k at *
  set M := !![1 - k * x ^ 2, -k * x * y, x; -k * x * y, 1 - k * y ^ 2, y; -x, -y, 1 - k * (x ^ 2 + y ^ 2)]ᵀ with hM
  have hk : k * (x ^ 2 + y ^ 2) ≤ 5e-5 := by
    have := mul_le_mul ha.2 hr (by positivity) (by norm_num)
    norm_num at this ⊢; linarith
  have m1 : MB (M - !![1, 0, -p; 0, 1, 0; p, 0, 1]) (2.96e-4 + 5e-5) := by
    have e : M - !![1, 0, -p; 0, 1, 0; p, 0, 1] = !![0, 0, -(x - p); 0, 0, -y; x - p, y, 0] -
        !![k * x ^ 2, k * x * y, 0; k * x * y, k * y ^ 2, 0; 0, 0, k * (x ^ 2 + y ^ 2)] := by
      rw [hM]
      ext i j
      fin_cases i <;> fin_cases j <;> simp <;> ring
    rw [e]
    exact (MB.tilt (by norm_num) (by norm_num at *; linarith)).sub (MB.quad (by norm_num) ha.1 hk)
  have mP : MB !![1, 0, -p; 0, 1, 0; p, 0, 1] 1.01 := by
    have e : !![1, 0, -p; 0, 1, 0; p, 0, 1] = 1 + !![0, 0, -p; 0, 0, -0; p, 0, 0] := by
      ext i j
      fin_cases i <;> fin_cases j <;> simp
    rw [e]
    have m1 : MB (1 : M3) 1 := MB.one_of_orth (by simp)
    refine (m1.add (MB.tilt (e := 0.01) (by norm_num) ?_)).mono (by norm_num)
    have : p ^ 2 ≤ 0.009718 ^ 2 := sq_le_sq' (by linarith [(abs_le.mp hp).1]) (abs_le.mp hp).2
    norm_num at *; linarith
  have hsb : |s| ≤ 1.7e-6 := by
    have e : s = S - x * y / 2 := by linarith
    have : |x * y| ≤ 0.009868 * 2.55e-4 := by rw [abs_mul]; exact mul_le_mul hx h2 (abs_nonneg _) (by norm_num)
    rw [hA, abs_lt] at hSb
    rw [abs_le] at this
    rw [e, abs_le]; constructor <;> norm_num at * <;> linarith
  have e : R3 (-s) * M - !![1, 0, -p; 0, 1, 0; p, 0, 1] = R3 (-s) * (M - !![1, 0, -p; 0, 1, 0; p, 0, 1]) +
    (R3 (-s) - 1) * !![1, 0, -p; 0, 1, 0; p, 0, 1] := by noncomm_ring
  rw [e]
  have r1 := MB.R3_one (-s)
  rw [abs_neg] at r1
  refine (((MB.R3 _).mul m1).add (r1.mul mP)).mono ?_
  norm_num at *; linarith

end Verif
