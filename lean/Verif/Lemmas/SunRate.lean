import Verif.Lemmas.Angle3
import Verif.Lemmas.SeriesLip
import Verif.Props.EarthMotion
import Mathlib.Analysis.Calculus.MeanValue

/-!
# Rate of change of the direction of the Sun
-/

namespace Verif
open Arith Matrix Spec

/-- Difference of two products of contractions. -/
theorem MB.mul_lip {A B A' B' : M3} {e e' : ℝ} (hB : MB B 1) (hA' : MB A' 1) (h : MB (A - A') e) (h' : MB (B - B') e') :
    MB (A * B - A' * B') (e + e') := by
  have : A * B - A' * B' = (A - A') * B + A' * (B - B') := by noncomm_ring
  rw [this]
  exact ((h.mul hB).add (hA'.mul h')).mono (by linarith)

theorem MB.R1_lip (x y : ℝ) : MB (Spec.R1 x - Spec.R1 y) |x - y| := by
  have := MB.rotation_diff 0 x y; rwa [rot_R1, rot_R1] at this
theorem MB.R3_lip (x y : ℝ) : MB (Spec.R3 x - Spec.R3 y) |x - y| := by
  have := MB.rotation_diff 2 x y; rwa [rot_R3, rot_R3] at this

theorem as2r_val : (AS2R : ℝ) = 4.848136811095359935899141e-6 := by unfold AS2R; norm_num

/-- The bias, precession and nutation matrix at two dates within a century of J2000.0, with the rates of nutation as parameters. -/
theorem npb_lip_of {kp ke : ℝ} (rp : Rate nut00bPsi kp) (re : Rate nut00bEps ke) {a b a' b' : ℝ} (h : |a + b - 2451545| ≤ 36525)
    (h' : |a' + b' - 2451545| ≤ 36525) {d : ℝ} (hd : d = |(a + b - 2451545) / 36525 - (a' + b' - 2451545) / 36525|) :
    MB ((precessionNutation (a, b)).toMatrix - (precessionNutation (a', b')).toMatrix) ((kp + ke + 0.03) * d + 1e-20) := by
  have cent : ∀ x : ℝ, |x - 2451545| ≤ 36525 → |(x - 2451545) / 36525| ≤ 1 := fun x hx => by
    rw [abs_div, abs_of_pos (show (0 : ℝ) < 36525 by norm_num), div_le_one (by norm_num)]; exact hx
  have ht := cent _ h
  have ht' := cent _ h'
  obtain ⟨-, -, -, -, -, -, -, -, -, -, hM⟩ := C64_bias_precession_nutation a b 0 0
  obtain ⟨-, -, -, -, -, -, -, -, -, -, hM'⟩ := C64_bias_precession_nutation a' b' 0 0
  obtain ⟨n1, n2⟩ := C65_nutation_series a b
  obtain ⟨n1', n2'⟩ := C65_nutation_series a' b'
  rw [hM, hM']
  clear hM hM'
  generalize (a + b - 2451545) / 36525 = t at *
  generalize (a' + b' - 2451545) / 36525 = t' at *
  generalize (nutation (a, b)).1 = p at *
  generalize (nutation (a, b)).2 = e at *
  generalize (nutation (a', b')).1 = p' at *
  generalize (nutation (a', b')).2 = e' at *
  have hp := rp t t' ht ht'
  have he := re t t' ht ht'
  rw [← hd] at hp he
  have hp2 : |p - p'| ≤ kp * d + 4e-21 := by
    have k1 : |p - nut00bPsi t| ≤ 2e-21 := n1.trans (by norm_num; linarith)
    have k2 : |p' - nut00bPsi t'| ≤ 2e-21 := n1'.trans (by norm_num; linarith)
    rw [abs_le] at *
    norm_num at *
    constructor <;> linarith [k1.1, k1.2, k2.1, k2.2, hp.1, hp.2]
  have he2 : |e - e'| ≤ ke * d + 4e-21 := by
    have k1 : |e - nut00bEps t| ≤ 2e-21 := n2.trans (by norm_num; linarith)
    have k2 : |e' - nut00bEps t'| ≤ 2e-21 := n2'.trans (by norm_num; linarith)
    rw [abs_le] at *
    norm_num at *
    constructor <;> linarith [k1.1, k1.2, k2.1, k2.2, he.1, he.2]
  -- the polynomials
  have d1 : |t - t'| = d := hd.symm
  have d2 : |t ^ 2 - t' ^ 2| ≤ 2 * d := by have := (Lip.pow 2).rate t t' ht ht'; rw [d1] at this; exact_mod_cast this
  have d3 : |t ^ 3 - t' ^ 3| ≤ 3 * d := by have := (Lip.pow 3).rate t t' ht ht'; rw [d1] at this; exact_mod_cast this
  have d0 : 0 ≤ d := hd ▸ abs_nonneg _
  have d1' := abs_le.mp d1.le
  have d2' := abs_le.mp d2
  have d3' := abs_le.mp d3
  clear n1 n2 n1' n2' hp he
  have q1 : |(10.5526 * t - 2.38064 * t ^ 2 - 0.001125 * t ^ 3) * (AS2R : ℝ) -
      (10.5526 * t' - 2.38064 * t' ^ 2 - 0.001125 * t' ^ 3) * AS2R| ≤ 0.001 * d := by
    rw [as2r_val, abs_le]; constructor <;> norm_num <;> linarith
  have q2 : |-(84381.448 * (AS2R : ℝ) + (0.05127 * t ^ 2 - 0.007726 * t ^ 3 - 0.02524 * t) * AS2R) -
      -(84381.448 * AS2R + (0.05127 * t' ^ 2 - 0.007726 * t' ^ 3 - 0.02524 * t') * AS2R)| ≤ 0.001 * d := by
    rw [as2r_val, abs_le]; constructor <;> norm_num <;> linarith
  have q3 : |-((5038.7784 * t - 1.07259 * t ^ 2 - 0.001147 * t ^ 3 - 0.29965 * t) * (AS2R : ℝ)) -
      -((5038.7784 * t' - 1.07259 * t' ^ 2 - 0.001147 * t' ^ 3 - 0.29965 * t') * AS2R)| ≤ 0.026 * d := by
    rw [as2r_val, abs_le]; constructor <;> norm_num <;> linarith
  have q4 : |(84381.448 - 46.84024 * t - 0.00059 * t ^ 2 + 0.001813 * t ^ 3) * (AS2R : ℝ) -
      (84381.448 - 46.84024 * t' - 0.00059 * t' ^ 2 + 0.001813 * t' ^ 3) * AS2R| ≤ 0.001 * d := by
    rw [as2r_val, abs_le]; constructor <;> norm_num <;> linarith
  have q5 : |-((84381.448 - 46.84024 * t - 0.00059 * t ^ 2 + 0.001813 * t ^ 3) * (AS2R : ℝ) + e) -
      -((84381.448 - 46.84024 * t' - 0.00059 * t' ^ 2 + 0.001813 * t' ^ 3) * AS2R + e')| ≤ ke * d + 0.001 * d + 4e-21 := by
    rw [abs_le] at q4 he2 ⊢; norm_num at q4 he2 ⊢; constructor <;> linarith [q4.1, q4.2, he2.1, he2.2]
  have q6 : |-p - -p'| ≤ kp * d + 4e-21 := by rw [show -p - -p' = -(p - p') by ring, abs_neg]; exact hp2
  have one2 : ∀ {A B : M3}, MB A 1 → MB B 1 → MB (A * B) 1 := fun hA hB => (hA.mul hB).mono (by norm_num)
  have N := MB.mul_lip (MB.R1 _) (one2 (MB.R1 _) (MB.R3 _)) (MB.mul_lip (MB.R3 _) (MB.R1 _) ((MB.R1_lip _ _).mono q5)
    ((MB.R3_lip _ _).mono q6)) ((MB.R1_lip _ _).mono q4)
  have z0 : ∀ A : M3, MB (A - A) 0 := fun A => by rw [sub_self]; exact MB.zero
  have P := MB.mul_lip (MB.R1 (84381.448 * (AS2R : ℝ))) (one2 (one2 (MB.R3 _) (MB.R1 _)) (MB.R3 _)) (MB.mul_lip (MB.R3 _) (one2 (MB.R3 _) (MB.R1 _))
    (MB.mul_lip (MB.R1 _) (MB.R3 _) ((MB.R3_lip _ _).mono q1) ((MB.R1_lip _ _).mono q2)) ((MB.R3_lip _ _).mono q3)) (z0 _)
  have B := one2 (one2 (MB.R1 (0.0068192 * (AS2R : ℝ))) (MB.R2 (-0.041775 * (AS2R : ℝ) * Real.sin (84381.448 * AS2R)))) (MB.R3 (-0.0146 * (AS2R : ℝ)))
  have NP := MB.mul_lip (one2 (one2 (one2 (MB.R3 _) (MB.R1 _)) (MB.R3 _)) (MB.R1 _)) (one2 (one2 (MB.R1 _) (MB.R3 _)) (MB.R1 _)) N P
  have NPB := MB.mul_lip B (one2 (one2 (one2 (MB.R1 _) (MB.R3 _)) (MB.R1 _)) (one2 (one2 (one2 (MB.R3 _) (MB.R1 _)) (MB.R3 _)) (MB.R1 _))) NP (z0 _)
  refine NPB.mono ?_
  norm_num
  linarith

theorem npb_lip {a b a' b' : ℝ} (h : |a + b - 2451545| ≤ 36525) (h' : |a' + b' - 2451545| ≤ 36525) {d : ℝ}
    (hd : d = |(a + b - 2451545) / 36525 - (a' + b' - 2451545) / 36525|) :
    MB ((precessionNutation (a, b)).toMatrix - (precessionNutation (a', b')).toMatrix) (13.2 * d + 1e-20) := by
  have d0 : 0 ≤ d := hd ▸ abs_nonneg _
  exact (npb_lip_of nutPsi_rate nutEps_rate h h' hd).mono (by norm_num; linarith)

/-- The matrix of the pole coordinates. -/
theorem pole_lip {x y x' y' e : ℝ} (hx : |x| ≤ 0.01) (hy : |y| ≤ 0.01) (hx' : |x'| ≤ 0.01) (hy' : |y'| ≤ 0.01)
    (dx : |x - x'| ≤ e) (dy : |y - y'| ≤ e) :
    let k := 1 / (1 + Real.sqrt (1 - (x ^ 2 + y ^ 2)))
    let k' := 1 / (1 + Real.sqrt (1 - (x' ^ 2 + y' ^ 2)))
    MB (!![1 - k * x ^ 2, -k * x * y, x; -k * x * y, 1 - k * y ^ 2, y; -x, -y, 1 - k * (x ^ 2 + y ^ 2)]ᵀ -
      !![1 - k' * x' ^ 2, -k' * x' * y', x'; -k' * x' * y', 1 - k' * y' ^ 2, y'; -x', -y', 1 - k' * (x' ^ 2 + y' ^ 2)]ᵀ) (1.5 * e) := by
  have e0 : 0 ≤ e := (abs_nonneg _).trans dx
  have prod : ∀ {u v u' v' : ℝ}, |v| ≤ 0.01 → |u'| ≤ 0.01 → |u - u'| ≤ e → |v - v'| ≤ e → |u * v - u' * v'| ≤ 0.02 * e := by
    intro u v u' v' h1 h2 h3 h4
    have : u * v - u' * v' = (u - u') * v + u' * (v - v') := by ring
    rw [this]
    refine (abs_add_le _ _).trans ?_
    rw [abs_mul, abs_mul]
    have k1 := mul_le_mul h3 h1 (abs_nonneg _) e0
    have k2 := mul_le_mul h2 h4 (abs_nonneg _) (by norm_num)
    norm_num at k1 k2 ⊢
    linarith
  have pxx := prod hx hx' dx dx
  have pxy := prod hy hx' dx dy
  have pyy := prod hy hy' dy dy
  have small : ∀ {u v : ℝ}, |u| ≤ 0.01 → |v| ≤ 0.01 → |u * v| ≤ 0.0001 := fun h1 h2 => by
    rw [abs_mul]; exact (mul_le_mul h1 h2 (abs_nonneg _) (by norm_num)).trans (by norm_num)
  have sxx := small hx' hx'
  have sxy := small hx' hy'
  have syy := small hy' hy'
  have sxx0 := small hx hx
  have syy0 := small hy hy
  intro k k'
  have root : ∀ {r : ℝ}, |r| ≤ 0.0002 → 0.99 ≤ Real.sqrt (1 - r) := fun h =>
    Real.le_sqrt_of_sq_le (by rw [abs_le] at h; norm_num at h ⊢; linarith [h.2])
  have rr : |x ^ 2 + y ^ 2| ≤ 0.0002 := by
    rw [pow_two, pow_two]; refine (abs_add_le _ _).trans ((add_le_add sxx0 syy0).trans (by norm_num))
  have rr' : |x' ^ 2 + y' ^ 2| ≤ 0.0002 := by
    rw [pow_two, pow_two]; refine (abs_add_le _ _).trans ((add_le_add sxx syy).trans (by norm_num))
  have dr : |x ^ 2 + y ^ 2 - (x' ^ 2 + y' ^ 2)| ≤ 0.04 * e := by
    rw [show x ^ 2 + y ^ 2 - (x' ^ 2 + y' ^ 2) = (x * x - x' * x') + (y * y - y' * y') by ring]
    refine (abs_add_le _ _).trans ((add_le_add pxx pyy).trans ?_)
    linarith
  have hk : 0 ≤ k ∧ k ≤ 0.51 ∧ |k - k'| ≤ 0.01 * e := by
    have z1 := root rr
    have z2 := root rr'
    have s1 : Real.sqrt (1 - (x ^ 2 + y ^ 2)) ^ 2 = 1 - (x ^ 2 + y ^ 2) := Real.sq_sqrt (by
      rw [abs_le] at rr; norm_num at rr ⊢; linarith [rr.2])
    have s2 : Real.sqrt (1 - (x' ^ 2 + y' ^ 2)) ^ 2 = 1 - (x' ^ 2 + y' ^ 2) := Real.sq_sqrt (by
      rw [abs_le] at rr'; norm_num at rr' ⊢; linarith [rr'.2])
    simp only [k, k']
    generalize Real.sqrt (1 - (x ^ 2 + y ^ 2)) = z at *
    generalize Real.sqrt (1 - (x' ^ 2 + y' ^ 2)) = z' at *
    refine ⟨by positivity, by rw [div_le_iff₀ (by linarith)]; norm_num at z1 ⊢; linarith, ?_⟩
    have dz : |z' - z| ≤ 0.03 * e := by
      have : (z' - z) * (z' + z) = x ^ 2 + y ^ 2 - (x' ^ 2 + y' ^ 2) := by linear_combination s2 - s1
      rw [← this, abs_mul, abs_of_pos (show 0 < z' + z by linarith)] at dr
      have h2 : 1.9 ≤ z' + z := by linarith
      have := mul_le_mul_of_nonneg_left h2 (abs_nonneg (z' - z))
      norm_num at this dr ⊢
      linarith
    have : 1 / (1 + z) - 1 / (1 + z') = (z' - z) / ((1 + z) * (1 + z')) := by field_simp; ring
    rw [this, abs_div, abs_of_pos (show 0 < (1 + z) * (1 + z') by nlinarith), div_le_iff₀ (by nlinarith)]
    have h3 : 3.9 ≤ (1 + z) * (1 + z') := by nlinarith
    have := mul_le_mul_of_nonneg_left h3 (show 0 ≤ 0.01 * e by positivity)
    norm_num at this dz ⊢
    linarith
  obtain ⟨k0, k1, dk⟩ := hk
  clear_value k k'
  have ent : ∀ {r r' : ℝ}, |r - r'| ≤ 0.04 * e → |r'| ≤ 0.0002 → |k * r - k' * r'| ≤ 0.025 * e := by
    intro r r' h1 h2
    have : k * r - k' * r' = k * (r - r') + (k - k') * r' := by ring
    rw [this]
    refine (abs_add_le _ _).trans ?_
    rw [abs_mul, abs_mul, abs_of_nonneg k0]
    have a1 := mul_le_mul k1 h1 (abs_nonneg _) (by norm_num)
    have a2 := mul_le_mul dk h2 (abs_nonneg _) (by positivity)
    norm_num at a1 a2 ⊢
    linarith
  have Q : MB !![k * x ^ 2 - k' * x' ^ 2, k * (x * y) - k' * (x' * y'), 0; k * (x * y) - k' * (x' * y'), k * y ^ 2 - k' * y' ^ 2, 0;
      0, 0, k * (x ^ 2 + y ^ 2) - k' * (x' ^ 2 + y' ^ 2)] (3 * (0.025 * e)) := by
    have le : 0.02 * e ≤ 0.04 * e := by linarith
    have a1 : |k * x ^ 2 - k' * x' ^ 2| ≤ 0.025 * e := ent (by rw [pow_two, pow_two]; exact pxx.trans le)
      (by rw [pow_two]; exact sxx.trans (by norm_num))
    have a2 : |k * (x * y) - k' * (x' * y')| ≤ 0.025 * e := ent (pxy.trans le) (sxy.trans (by norm_num))
    have a3 : |k * y ^ 2 - k' * y' ^ 2| ≤ 0.025 * e := ent (by rw [pow_two, pow_two]; exact pyy.trans le)
      (by rw [pow_two]; exact syy.trans (by norm_num))
    have a4 := ent dr rr'
    apply MB.of_entries
    intro i j
    fin_cases i <;> fin_cases j <;> simp <;> first | assumption | positivity
  have T : MB !![0, 0, -(x - x'); 0, 0, -(y - y'); x - x', y - y', 0] (1.42 * e) := by
    refine MB.tilt (by positivity) ?_
    have b1 := sq_le_sq' (abs_le.mp dx).1 (abs_le.mp dx).2
    have b2 := sq_le_sq' (abs_le.mp dy).1 (abs_le.mp dy).2
    have := sq_nonneg e
    norm_num [mul_pow]
    linarith
  have E : !![1 - k * x ^ 2, -k * x * y, x; -k * x * y, 1 - k * y ^ 2, y; -x, -y, 1 - k * (x ^ 2 + y ^ 2)]ᵀ -
      !![1 - k' * x' ^ 2, -k' * x' * y', x'; -k' * x' * y', 1 - k' * y' ^ 2, y'; -x', -y', 1 - k' * (x' ^ 2 + y' ^ 2)]ᵀ =
      !![0, 0, -(x - x'); 0, 0, -(y - y'); x - x', y - y', 0] -
      !![k * x ^ 2 - k' * x' ^ 2, k * (x * y) - k' * (x' * y'), 0; k * (x * y) - k' * (x' * y'), k * y ^ 2 - k' * y' ^ 2, 0;
      0, 0, k * (x ^ 2 + y ^ 2) - k' * (x' ^ 2 + y' ^ 2)] := by
    ext i j
    fin_cases i <;> fin_cases j <;> simp <;> ring
  rw [E]
  exact (T.sub Q).mono (by linarith)

/-- The matrix of the pole coordinates is a contraction. -/
theorem pole_contr {x y : ℝ} (h : x ^ 2 + y ^ 2 < 1) :
    let k := 1 / (1 + Real.sqrt (1 - (x ^ 2 + y ^ 2)))
    MB !![1 - k * x ^ 2, -k * x * y, x; -k * x * y, 1 - k * y ^ 2, y; -x, -y, 1 - k * (x ^ 2 + y ^ 2)]ᵀ 1 := by
  have h1 := C63_cio_matrix x y 0 h
  have h2 : R3 (-0) = 1 := by ext i j; fin_cases i <;> fin_cases j <;> simp [R3]
  rw [h2] at h1
  simp only [one_mul] at h1
  intro k
  have h3 := MB.of_rotation (rotation_xys x y 0)
  rw [h1] at h3
  exact h3

/-- The celestial to intermediate matrix at two dates. -/
theorem c2i_lip {a b a' b' : ℝ} (h : |a + b - 2451545| ≤ 36525) (h' : |a' + b' - 2451545| ≤ 36525) {d : ℝ}
    (hd : d = |(a + b - 2451545) / 36525 - (a' + b' - 2451545) / 36525|) :
    MB ((celestialToIntermediate (a, b)).toMatrix - (celestialToIntermediate (a', b')).toMatrix) (22 * d + 1e-19) := by
  have cent : ∀ x : ℝ, |x - 2451545| ≤ 36525 → |(x - 2451545) / 36525| ≤ 1 := fun x hx => by
    rw [abs_div, abs_of_pos (show (0 : ℝ) < 36525 by norm_num), div_le_one (by norm_num)]; exact hx
  have ht := cent _ h
  have ht' := cent _ h'
  have hM := npb_lip h h' hd
  have m0 := hM.entry 2 0
  have m1 := hM.entry 2 1
  rw [Matrix.sub_apply] at m0 m1
  have pol : ∀ {a b : ℝ}, |a + b - 2451545| ≤ 36525 → |(precessionNutation (a, b)).toMatrix 2 0| ≤ 0.01 ∧
      |(precessionNutation (a, b)).toMatrix 2 1| ≤ 0.01 := by
    intro a b h
    obtain ⟨h1, h2⟩ := pole_near h
    refine ⟨?_, h2.trans (by norm_num)⟩
    have hp : |precessionAngle (a + b - 2451545)| ≤ 0.009718 := by
      have ht := cent _ h
      unfold precessionAngle
      have p1 := Real.pi_gt_d20
      have p2 := Real.pi_lt_d20
      rw [abs_mul]
      refine (mul_le_mul (b := 0.009718) ?_ ht (abs_nonneg _) (by norm_num)).trans (by norm_num)
      rw [abs_le]; constructor <;> norm_num at p1 p2 ⊢ <;> linarith
    rw [abs_le] at *; norm_num at *; constructor <;> linarith
  obtain ⟨bx, bY⟩ := pol h
  obtain ⟨bx', bY'⟩ := pol h'
  have l := C66_locator_series a b ((precessionNutation (a, b)).toMatrix 2 0) ((precessionNutation (a, b)).toMatrix 2 1)
  have l' := C66_locator_series a' b' ((precessionNutation (a', b')).toMatrix 2 0) ((precessionNutation (a', b')).toMatrix 2 1)
  have hs := s00_rate _ _ ht ht'
  rw [← hd] at hs
  have d0 : 0 ≤ d := hd ▸ abs_nonneg _
  have e : ∀ a b : ℝ, (celestialToIntermediate (a, b)) = celestialToIntermediateFromXys
    ((precessionNutation (a, b)).toMatrix 2 0) ((precessionNutation (a, b)).toMatrix 2 1)
    (cio (a, b) ((precessionNutation (a, b)).toMatrix 2 0) ((precessionNutation (a, b)).toMatrix 2 1)) := fun _ _ => rfl
  rw [e, e]
  clear e hM pol
  simp only at l l'
  generalize (precessionNutation (a, b)).toMatrix 2 0 = x at *
  generalize (precessionNutation (a, b)).toMatrix 2 1 = y at *
  generalize (precessionNutation (a', b')).toMatrix 2 0 = x' at *
  generalize (precessionNutation (a', b')).toMatrix 2 1 = y' at *
  generalize cio (a, b) x y = s at *
  generalize cio (a', b') x' y' = s' at *
  have six : ∀ {u : ℝ}, |u| ≤ 1 → 1 / 10 ^ 23 * (1 + |u|) ^ 6 ≤ 64e-23 := fun {u} hu => by
    have : (1 + |u|) ^ 6 ≤ 2 ^ 6 := pow_le_pow_left₀ (by positivity) (by linarith) 6
    norm_num at this ⊢; linarith
  have l1 := l.trans (six ht)
  have l1' := l'.trans (six ht')
  generalize (a + b - 2451545) / 36525 = t at *
  generalize (a' + b' - 2451545) / 36525 = t' at *
  have sq : ∀ {x y : ℝ}, |x| ≤ 0.01 → |y| ≤ 0.01 → x ^ 2 + y ^ 2 < 1 := fun {x y} h1 h2 => by
    have b1 := sq_le_sq' (abs_le.mp h1).1 (abs_le.mp h1).2
    have b2 := sq_le_sq' (abs_le.mp h2).1 (abs_le.mp h2).2
    norm_num at b1 b2; linarith
  rw [C63_cio_matrix x y s (sq bx bY), C63_cio_matrix x' y' s' (sq bx' bY')]
  have hP := pole_lip bx bY bx' bY' m0 m1
  have dxy : |x * y - x' * y'| ≤ 0.02 * (13.2 * d + 1e-20) := by
    have : x * y - x' * y' = (x - x') * y + x' * (y - y') := by ring
    rw [this]
    refine (abs_add_le _ _).trans ?_
    rw [abs_mul, abs_mul]
    have k1 := mul_le_mul m0 bY (abs_nonneg _) ((abs_nonneg _).trans m0)
    have k2 := mul_le_mul bx' m1 (abs_nonneg _) (by norm_num)
    norm_num at k1 k2 ⊢
    linarith
  have hss : |-s - -s'| ≤ 1.2 * d + 2e-21 := by
    rw [abs_le] at *
    norm_num at *
    constructor <;> linarith [l1.1, l1.2, l1'.1, l1'.2, hs.1, hs.2, dxy.1, dxy.2]
  exact (MB.mul_lip (pole_contr (sq bx bY)) (MB.R3 _) ((MB.R3_lip _ _).mono hss) hP).mono (by norm_num; linarith)

/-- The heliocentric position of the Earth at two dates. -/
theorem earth_lip {s s' : ℝ} (h : |s - 2451545| ≤ 36525) (h' : |s' - 2451545| ≤ 36525) :
    len ((earthAt s).heliocentric.p.toVec - (earthAt s').heliocentric.p.toVec) ≤ 0.01753 * |s - s'| := by
  set w := (earthAt s).heliocentric.p.toVec - (earthAt s').heliocentric.p.toVec with hw
  rcases (len_nonneg w).eq_or_lt with h0 | h0
  · rw [← h0]; positivity
  have hder : ∀ u, VecDeriv (fun u => (earthAt u).heliocentric.p) (earthAt u).heliocentric.v u := fun u =>
    VecDeriv.toICRF ⟨deriv_comp (hasDerivAt_helioEcl _ 0), deriv_comp (hasDerivAt_helioEcl _ 1),
      deriv_comp (hasDerivAt_helioEcl _ 2)⟩
  have mv := (convex_Icc (2451545 - 36525 : ℝ) (2451545 + 36525)).norm_image_sub_le_of_norm_hasDerivWithin_le
    (f := fun u => w 0 * (earthAt u).heliocentric.p.x + w 1 * (earthAt u).heliocentric.p.y + w 2 * (earthAt u).heliocentric.p.z)
    (f' := fun u => w 0 * (earthAt u).heliocentric.v.x + w 1 * (earthAt u).heliocentric.v.y + w 2 * (earthAt u).heliocentric.v.z)
    (C := len w * 0.01753)
    (fun u _ => ((((hder u).1.const_mul (w 0)).add ((hder u).2.1.const_mul (w 1))).add
      ((hder u).2.2.const_mul (w 2))).hasDerivWithinAt)
    (fun u hu => by
      have hsp := (C89_speed 0 u (by rw [zero_add, abs_le]; constructor <;> linarith [hu.1, hu.2]) _ (fromTDB_real _)).2
      have hsp : len (earthAt u).heliocentric.v.toVec ≤ 0.01753 := by
        rw [norm_real] at hsp
        unfold len
        convert hsp using 2
        simp [Vec3.toVec]
      rw [Real.norm_eq_abs]
      exact (dot_le w (earthAt u).heliocentric.v.toVec).trans (mul_le_mul_of_nonneg_left hsp h0.le))
    (x := s') (y := s) (by rw [abs_le] at h'; constructor <;> linarith [h'.1, h'.2]) (by rw [abs_le] at h; constructor <;> linarith [h.1, h.2])
  rw [Real.norm_eq_abs, Real.norm_eq_abs] at mv
  have e : w 0 * (earthAt s).heliocentric.p.x + w 1 * (earthAt s).heliocentric.p.y + w 2 * (earthAt s).heliocentric.p.z -
      (w 0 * (earthAt s').heliocentric.p.x + w 1 * (earthAt s').heliocentric.p.y + w 2 * (earthAt s').heliocentric.p.z) = len w ^ 2 := by
    rw [len_sq]
    have e0 : w 0 = (earthAt s).heliocentric.p.x - (earthAt s').heliocentric.p.x := rfl
    have e1 : w 1 = (earthAt s).heliocentric.p.y - (earthAt s').heliocentric.p.y := rfl
    have e2 : w 2 = (earthAt s).heliocentric.p.z - (earthAt s').heliocentric.p.z := rfl
    rw [e0, e1, e2]; ring
  rw [e, abs_of_nonneg (sq_nonneg _)] at mv
  have : len w * len w ≤ len w * (0.01753 * |s - s'|) := by rw [← mul_assoc, ← pow_two]; exact mv
  exact le_of_mul_le_mul_left this h0

theorem two_pi_real : |(TWO_PI : ℝ) - 2 * Real.pi| ≤ 2e-20 := by
  have p1 := Real.pi_gt_d20
  have p2 := Real.pi_lt_d20
  unfold TWO_PI
  rw [abs_le]; constructor <;> norm_num at p1 p2 ⊢ <;> linarith

theorem R3_turns (x : ℝ) (k : ℤ) : R3 (2 * Real.pi * x + k * (2 * Real.pi)) = R3 (2 * Real.pi * x) := by
  ext i j
  fin_cases i <;> fin_cases j <;> simp [R3, Real.cos_add_int_mul_two_pi, Real.sin_add_int_mul_two_pi]

/-- The Earth turns by `7.29212e-5` radians per second. -/
theorem era_lip {a b a' b' : ℝ} {w : Fin 3 → ℝ} (hw : 0 < len w) :
    ang (R3 (rotationAngle (a, b)) *ᵥ w) (R3 (rotationAngle (a', b')) *ᵥ w) ≤
      6.300388 * |a + b - (a' + b')| + 4e-20 := by
  have one : ∀ a b : ℝ, ∃ x, x = 0.7790572732640 + 1.00273781191135448 * (a + b - 2451545) ∧
      ang (R3 (rotationAngle (a, b)) *ᵥ w) (R3 (2 * Real.pi * x) *ᵥ w) ≤ 2e-20 := by
    intro a b
    obtain ⟨h1, h2, k, h3⟩ := C32_earth_rotation_angle a b
    refine ⟨_, rfl, ?_⟩
    rw [← R3_turns _ k]
    refine (ang_R3 _ _ hw).trans ?_
    rw [h3] at h1 h2 ⊢
    generalize 0.7790572732640 + 1.00273781191135448 * (a + b - 2451545) = x at *
    have tp : (0 : ℝ) < TWO_PI := by unfold TWO_PI; norm_num
    have e1 : TWO_PI * x + k * TWO_PI = TWO_PI * (x + k) := by ring
    rw [e1] at h1 h2
    have x0 : 0 ≤ x + k := by by_contra hh; push Not at hh; linarith [mul_neg_of_pos_of_neg tp hh]
    have x1 : x + k ≤ 1 := by
      by_contra hh; push Not at hh
      have := mul_lt_mul_of_pos_left hh tp
      linarith
    rw [show TWO_PI * x + k * TWO_PI - (2 * Real.pi * x + k * (2 * Real.pi)) = (TWO_PI - 2 * Real.pi) * (x + k) by ring, abs_mul, abs_of_nonneg x0]
    have := mul_le_mul two_pi_real x1 x0 (by norm_num)
    linarith
  obtain ⟨x, hx, g⟩ := one a b
  obtain ⟨x', hx', g'⟩ := one a' b'
  have t1 := ang_triangle (R3 (rotationAngle (a, b)) *ᵥ w) (R3 (2 * Real.pi * x) *ᵥ w) (R3 (rotationAngle (a', b')) *ᵥ w)
  have t2 := ang_triangle (R3 (2 * Real.pi * x) *ᵥ w) (R3 (2 * Real.pi * x') *ᵥ w) (R3 (rotationAngle (a', b')) *ᵥ w)
  rw [ang_comm] at g'
  have t3 := ang_R3 (2 * Real.pi * x) (2 * Real.pi * x') hw
  have t4 : |2 * Real.pi * x - 2 * Real.pi * x'| ≤ 6.300388 * |a + b - (a' + b')| := by
    rw [show 2 * Real.pi * x - 2 * Real.pi * x' = (2 * Real.pi * 1.00273781191135448) * (a + b - (a' + b')) by rw [hx, hx']; ring, abs_mul,
      abs_of_pos (by positivity)]
    refine mul_le_mul_of_nonneg_right ?_ (abs_nonneg _)
    have p2 := Real.pi_lt_d20
    norm_num at p2 ⊢; linarith
  rw [ang_comm] at g'
  norm_num at g g' ⊢
  rw [ang_comm] at g'
  linarith

theorem earth_len {a b : ℝ} (h : |a + b - 2451545| ≤ 36525) : 0.982 ≤ len (-(earthAt (a + b)).heliocentric.p.toVec) ∧
    len (-(earthAt (a + b)).heliocentric.p.toVec) ≤ 1.019 := by
  have e : len (-(earthAt (a + b)).heliocentric.p.toVec) = (earthAt (a + b)).heliocentric.p.norm := by
    rw [norm_real]; unfold len; congr 1; simp [Vec3.toVec]
  rw [e]
  exact C36_distance a b h _ (fromTDB_real _)

/-- The Sun in the intermediate frame at two dates. -/
theorem g_lip {a b a' b' D : ℝ} (h : |a + b - 2451545| ≤ 36525) (h' : |a' + b' - 2451545| ≤ 36525)
    (hD : |a + b - (a' + b')| = D) :
    len ((celestialToIntermediate (a, b)).toMatrix *ᵥ (-(earthAt (a + b)).heliocentric.p.toVec) -
      (celestialToIntermediate (a', b')).toMatrix *ᵥ (-(earthAt (a' + b')).heliocentric.p.toVec)) ≤ 0.01815 * D + 1.1e-19 := by
  have D0 : 0 ≤ D := hD ▸ abs_nonneg _
  have hd : |(a + b - 2451545) / 36525 - (a' + b' - 2451545) / 36525| = D / 36525 := by
    rw [← hD, show (a + b - 2451545) / 36525 - (a' + b' - 2451545) / 36525 = (a + b - (a' + b')) / 36525 by ring, abs_div,
      abs_of_pos (show (0 : ℝ) < 36525 by norm_num)]
  have hC := c2i_lip h h' hd.symm
  have hE := earth_lip h h'
  rw [hD] at hE
  obtain ⟨d1, d2⟩ := earth_len h
  have mC' : MB (celestialToIntermediate (a', b')).toMatrix 1 := MB.of_rotation (C38_celestial_to_intermediate (a', b') 0 0 0).2
  have e : (celestialToIntermediate (a, b)).toMatrix *ᵥ (-(earthAt (a + b)).heliocentric.p.toVec) -
      (celestialToIntermediate (a', b')).toMatrix *ᵥ (-(earthAt (a' + b')).heliocentric.p.toVec) =
      ((celestialToIntermediate (a, b)).toMatrix - (celestialToIntermediate (a', b')).toMatrix) *ᵥ (-(earthAt (a + b)).heliocentric.p.toVec) +
      (celestialToIntermediate (a', b')).toMatrix *ᵥ (-((earthAt (a + b)).heliocentric.p.toVec - (earthAt (a' + b')).heliocentric.p.toVec)) := by
    rw [Matrix.sub_mulVec, Matrix.mulVec_neg, Matrix.mulVec_neg, Matrix.mulVec_neg, Matrix.mulVec_neg, Matrix.mulVec_sub]; abel
  rw [e]
  refine (len_add _ _).trans ?_
  have k1 := (hC.vec (-(earthAt (a + b)).heliocentric.p.toVec)).trans (mul_le_mul_of_nonneg_left d2 (by positivity))
  have k2 := mC'.vec (-((earthAt (a + b)).heliocentric.p.toVec - (earthAt (a' + b')).heliocentric.p.toVec))
  have e2 : len (-((earthAt (a + b)).heliocentric.p.toVec - (earthAt (a' + b')).heliocentric.p.toVec)) =
    len ((earthAt (a + b)).heliocentric.p.toVec - (earthAt (a' + b')).heliocentric.p.toVec) := by unfold len; simp [sub_eq_add_neg]; ring_nf
  rw [one_mul, e2] at k2
  have k3 := k2.trans hE
  norm_num at k1 k3 ⊢
  linarith

/-- The rotation angle in the range of the program and the unreduced one give the same rotation. -/
theorem era_turn (a b : ℝ) : MB (R3 (rotationAngle (a, b)) -
    R3 (2 * Real.pi * (0.7790572732640 + 1.00273781191135448 * (a + b - 2451545)))) 2e-20 := by
  obtain ⟨h1, h2, k, h3⟩ := C32_earth_rotation_angle a b
  rw [← R3_turns _ k]
  refine (MB.R3_lip _ _).mono ?_
  rw [h3] at h1 h2 ⊢
  generalize 0.7790572732640 + 1.00273781191135448 * (a + b - 2451545) = x at *
  have tp : (0 : ℝ) < TWO_PI := by unfold TWO_PI; norm_num
  have e1 : TWO_PI * x + k * TWO_PI = TWO_PI * (x + k) := by ring
  rw [e1] at h1 h2
  have x0 : 0 ≤ x + k := by by_contra hh; push Not at hh; linarith [mul_neg_of_pos_of_neg tp hh]
  have x1 : x + k ≤ 1 := by
    by_contra hh; push Not at hh
    have := mul_lt_mul_of_pos_left hh tp
    linarith
  rw [show TWO_PI * x + k * TWO_PI - (2 * Real.pi * x + k * (2 * Real.pi)) = (TWO_PI - 2 * Real.pi) * (x + k) by ring, abs_mul, abs_of_nonneg x0]
  have := mul_le_mul two_pi_real x1 x0 (by norm_num)
  linarith

end Verif
