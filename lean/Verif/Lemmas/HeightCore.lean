import Verif.Lemmas.HeightDir

/-!
# The height of a point near one of known geodetic coordinates
-/

namespace Verif
open Arith F64

/-- The distance of a point from the ellipsoid in a direction near the normal: the error is quadratic in the angle. -/
theorem normal_gap (a W φ ψ H : ℝ) (a0 : 0 ≤ a) (W1 : 0.99 ≤ W) (W2 : W ≤ 1) (hd : |ψ - φ| ≤ 1 / 100) :
    |(a / √(Real.cos φ ^ 2 + W * Real.sin φ ^ 2) + H) * Real.cos φ * Real.cos ψ +
      (W * (a / √(Real.cos φ ^ 2 + W * Real.sin φ ^ 2)) + H) * Real.sin φ * Real.sin ψ -
      a * √(Real.cos ψ ^ 2 + W * Real.sin ψ ^ 2) - H| ≤ 0.53 * (a + |H|) * (ψ - φ) ^ 2 := by
  have t1 := Real.sin_sq_add_cos_sq φ
  have t2 := Real.sin_sq_add_cos_sq ψ
  have hc : Real.cos (ψ - φ) = Real.cos φ * Real.cos ψ + Real.sin φ * Real.sin ψ := by rw [Real.cos_sub]; ring
  have hs : Real.sin (ψ - φ) = Real.sin ψ * Real.cos φ - Real.cos ψ * Real.sin φ := Real.sin_sub _ _
  have c1 := Real.one_sub_sq_div_two_le_cos (x := ψ - φ)
  have c2 := Real.cos_le_one (ψ - φ)
  have s1 : Real.sin (ψ - φ) ^ 2 ≤ (ψ - φ) ^ 2 := by
    have := pow_le_pow_left₀ (abs_nonneg _) (Real.abs_sin_le_abs (x := ψ - φ)) 2
    rwa [sq_abs, sq_abs] at this
  have d2 : (ψ - φ) ^ 2 ≤ 1 / 10000 := by
    have := pow_le_pow_left₀ (abs_nonneg _) hd 2
    rw [sq_abs] at this
    norm_num at this ⊢
    exact this
  set δ := (ψ - φ) ^ 2
  have δ0 : 0 ≤ δ := sq_nonneg _
  have A1 : 0.99 ≤ Real.cos φ ^ 2 + W * Real.sin φ ^ 2 := by nlinarith [sq_nonneg (Real.sin φ), sq_nonneg (Real.cos φ)]
  have A2 : Real.cos φ ^ 2 + W * Real.sin φ ^ 2 ≤ 1 := by nlinarith [sq_nonneg (Real.sin φ)]
  have B1 : 0.99 ≤ Real.cos ψ ^ 2 + W * Real.sin ψ ^ 2 := by nlinarith [sq_nonneg (Real.sin ψ), sq_nonneg (Real.cos ψ)]
  have q1 := Real.sq_sqrt (show 0 ≤ Real.cos φ ^ 2 + W * Real.sin φ ^ 2 by linarith)
  have q2 := Real.sq_sqrt (show 0 ≤ Real.cos ψ ^ 2 + W * Real.sin ψ ^ 2 by linarith)
  have l1 : 0.994 ≤ √(Real.cos φ ^ 2 + W * Real.sin φ ^ 2) := Real.le_sqrt_of_sq_le (by norm_num at A1 ⊢; linarith)
  have l2 : 0.994 ≤ √(Real.cos ψ ^ 2 + W * Real.sin ψ ^ 2) := Real.le_sqrt_of_sq_le (by norm_num at B1 ⊢; linarith)
  set q := √(Real.cos φ ^ 2 + W * Real.sin φ ^ 2)
  set q' := √(Real.cos ψ ^ 2 + W * Real.sin ψ ^ 2)
  set B := Real.cos φ * Real.cos ψ + W * (Real.sin φ * Real.sin ψ) with hB
  have cc : -(δ / 4) ≤ Real.cos φ * Real.cos ψ := by
    have e : Real.cos φ * Real.cos ψ = (Real.cos (ψ - φ) + Real.cos (ψ + φ)) / 2 := by
      rw [Real.cos_sub, Real.cos_add]; ring
    have := Real.neg_one_le_cos (ψ + φ)
    rw [e]
    linarith
  have Bl : 0.98 ≤ B := by
    have e : B = W * Real.cos (ψ - φ) + (1 - W) * (Real.cos φ * Real.cos ψ) := by rw [hB, hc]; ring
    rw [e]
    have h1 : W * (1 - 1 / 20000) ≤ W * Real.cos (ψ - φ) := mul_le_mul_of_nonneg_left (by linarith) (by linarith)
    have h2 : (1 - W) * (-(δ / 4)) ≤ (1 - W) * (Real.cos φ * Real.cos ψ) := mul_le_mul_of_nonneg_left cc (by linarith)
    have h3 : (1 - W) * (δ / 4) ≤ 0.01 * (δ / 4) := mul_le_mul_of_nonneg_right (by linarith) (by linarith)
    linarith
  have key : (q * q' - B) * (q * q' + B) = W * Real.sin (ψ - φ) ^ 2 := by
    have : (q * q' - B) * (q * q' + B) = q ^ 2 * q' ^ 2 - B ^ 2 := by ring
    rw [this, q1, q2, hs, hB]
    ring
  have qq : 0.98 ≤ q * q' := le_trans (by norm_num) (mul_le_mul l1 l2 (by norm_num) (by linarith))
  have gap0 : 0 ≤ q * q' - B := by
    by_contra hn
    have : (q * q' - B) * (q * q' + B) < 0 := mul_neg_of_neg_of_pos (not_le.mp hn) (by linarith)
    rw [key] at this
    have : 0 ≤ W * Real.sin (ψ - φ) ^ 2 := mul_nonneg (by linarith) (sq_nonneg _)
    linarith
  have gap1 : q * q' - B ≤ 0.52 * δ := by
    have h1 : (q * q' - B) * 1.96 ≤ (q * q' - B) * (q * q' + B) := mul_le_mul_of_nonneg_left (by linarith) gap0
    rw [key] at h1
    have h2 : W * Real.sin (ψ - φ) ^ 2 ≤ Real.sin (ψ - φ) ^ 2 := mul_le_of_le_one_left (sq_nonneg _) W2
    linarith
  have qp : 0 < q := by linarith
  have e : (a / q + H) * Real.cos φ * Real.cos ψ + (W * (a / q) + H) * Real.sin φ * Real.sin ψ - a * q' - H =
      -(a * ((q * q' - B) / q)) - H * (1 - Real.cos (ψ - φ)) := by
    rw [hc, hB]
    field_simp
    ring
  rw [e]
  have g1 : (q * q' - B) / q ≤ 0.53 * δ := by
    rw [div_le_iff₀ qp]
    have := mul_le_mul_of_nonneg_left l1 δ0
    linarith
  have g0 : 0 ≤ (q * q' - B) / q := div_nonneg gap0 qp.le
  have f1 : |a * ((q * q' - B) / q)| ≤ a * (0.53 * δ) := by
    rw [abs_of_nonneg (mul_nonneg a0 g0)]
    exact mul_le_mul_of_nonneg_left g1 a0
  have f2 : |H * (1 - Real.cos (ψ - φ))| ≤ |H| * (0.53 * δ) := by
    rw [abs_mul, abs_of_nonneg (show 0 ≤ 1 - Real.cos (ψ - φ) by linarith)]
    exact mul_le_mul_of_nonneg_left (by linarith) (abs_nonneg _)
  refine (abs_sub _ _).trans ?_
  rw [abs_neg]
  linarith

/-- Support functions of two ellipsoids. -/
theorem support_diff (E W ψ : ℝ) (E1 : 0.99 ≤ E) (W1 : 0.99 ≤ W) :
    |√(Real.cos ψ ^ 2 + E * Real.sin ψ ^ 2) - √(Real.cos ψ ^ 2 + W * Real.sin ψ ^ 2)| ≤ 0.506 * |E - W| := by
  have t := Real.sin_sq_add_cos_sq ψ
  have sn := sq_nonneg (Real.sin ψ)
  have cn := sq_nonneg (Real.cos ψ)
  have A : 0.99 ≤ Real.cos ψ ^ 2 + E * Real.sin ψ ^ 2 := by nlinarith
  have B : 0.99 ≤ Real.cos ψ ^ 2 + W * Real.sin ψ ^ 2 := by nlinarith
  have q1 := Real.sq_sqrt (show 0 ≤ Real.cos ψ ^ 2 + E * Real.sin ψ ^ 2 by linarith)
  have q2 := Real.sq_sqrt (show 0 ≤ Real.cos ψ ^ 2 + W * Real.sin ψ ^ 2 by linarith)
  have l1 : 0.99 ≤ √(Real.cos ψ ^ 2 + E * Real.sin ψ ^ 2) := Real.le_sqrt_of_sq_le (by norm_num at A ⊢; linarith)
  have l2 : 0.99 ≤ √(Real.cos ψ ^ 2 + W * Real.sin ψ ^ 2) := Real.le_sqrt_of_sq_le (by norm_num at B ⊢; linarith)
  set q := √(Real.cos ψ ^ 2 + E * Real.sin ψ ^ 2)
  set q' := √(Real.cos ψ ^ 2 + W * Real.sin ψ ^ 2)
  have e : |q - q'| * (q + q') = |E - W| * Real.sin ψ ^ 2 := by
    rw [← abs_of_pos (show 0 < q + q' by linarith), ← abs_mul, ← abs_of_nonneg sn, ← abs_mul]
    congr 1
    linear_combination q1 - q2
  have h1 : |q - q'| * 1.98 ≤ |q - q'| * (q + q') := mul_le_mul_of_nonneg_left (by linarith) (abs_nonneg _)
  have h2 : |E - W| * Real.sin ψ ^ 2 ≤ |E - W| := mul_le_of_le_one_right (abs_nonneg _) (by linarith)
  have := abs_nonneg (E - W)
  linarith

/-- A point at height `H` is at most `a + |H|` from the centre. -/
theorem centre_dist (a W φ H : ℝ) (a0 : 0 ≤ a) (W1 : 0.99 ≤ W) (W2 : W ≤ 1) :
    √(((a / √(Real.cos φ ^ 2 + W * Real.sin φ ^ 2) + H) * Real.cos φ) ^ 2 +
      ((W * (a / √(Real.cos φ ^ 2 + W * Real.sin φ ^ 2)) + H) * Real.sin φ) ^ 2) ≤ a + |H| := by
  have t := Real.sin_sq_add_cos_sq φ
  have sn := sq_nonneg (Real.sin φ)
  have cn := sq_nonneg (Real.cos φ)
  have A : 0.99 ≤ Real.cos φ ^ 2 + W * Real.sin φ ^ 2 := by nlinarith
  have q1 := Real.sq_sqrt (show 0 ≤ Real.cos φ ^ 2 + W * Real.sin φ ^ 2 by linarith)
  have l1 : 0.99 ≤ √(Real.cos φ ^ 2 + W * Real.sin φ ^ 2) := Real.le_sqrt_of_sq_le (by norm_num at A ⊢; linarith)
  set q := √(Real.cos φ ^ 2 + W * Real.sin φ ^ 2)
  have qp : 0 < q := by linarith
  apply Real.sqrt_le_iff.mpr
  refine ⟨by positivity, ?_⟩
  have q0 : q ≤ 1 := by
    apply Real.sqrt_le_one.mpr
    nlinarith
  have N2 : (a / q) ^ 2 * (Real.cos φ ^ 2 + W * Real.sin φ ^ 2) = a ^ 2 := by rw [← q1]; field_simp
  have N3 : (a / q) * (Real.cos φ ^ 2 + W * Real.sin φ ^ 2) = a * q := by rw [← q1]; field_simp
  have e : ((a / q + H) * Real.cos φ) ^ 2 + ((W * (a / q) + H) * Real.sin φ) ^ 2 =
      (a / q) ^ 2 * (Real.cos φ ^ 2 + W * Real.sin φ ^ 2) - (a / q) ^ 2 * (W * (1 - W) * Real.sin φ ^ 2) +
        2 * H * ((a / q) * (Real.cos φ ^ 2 + W * Real.sin φ ^ 2)) + H ^ 2 := by
    linear_combination H ^ 2 * t
  rw [e, N2, N3]
  have h1 : 0 ≤ (a / q) ^ 2 * (W * (1 - W) * Real.sin φ ^ 2) :=
    mul_nonneg (sq_nonneg _) (mul_nonneg (mul_nonneg (by linarith) (by linarith)) sn)
  have h2 : H * (a * q) ≤ |H| * a := by
    have := le_abs_self H
    have := mul_le_of_le_one_right a0 q0
    exact mul_le_mul (le_abs_self H) this (by positivity) (abs_nonneg _)
  have h3 : |H| ^ 2 = H ^ 2 := sq_abs H
  nlinarith

theorem dot_plane (P Z c s : ℝ) (h : c ^ 2 + s ^ 2 = 1) : P * |c| + Z * |s| ≤ √(P ^ 2 + Z ^ 2) := by
  apply Real.le_sqrt_of_sq_le
  have := sq_abs c
  have := sq_abs s
  nlinarith [sq_nonneg (P * |s| - Z * |c|)]

/-- The height of a point near one of known geodetic coordinates, in the meridian plane. -/
theorem gap_bound (a W E φ ψ H e p z P Z M : ℝ) (ha : 1000000 ≤ a) (W1 : 0.99 ≤ W) (W2 : W ≤ 1) (E1 : 0.99 ≤ E) (hd : |ψ - φ| ≤ 13 / 10 ^ 10)
    (hP : P = (a / √(Real.cos φ ^ 2 + W * Real.sin φ ^ 2) + H) * Real.cos φ)
    (hZ : Z = (W * (a / √(Real.cos φ ^ 2 + W * Real.sin φ ^ 2)) + H) * Real.sin φ)
    (e0 : 0 ≤ e) (hp : |p - P| ≤ e * P + 1 / 10 ^ 20) (hz : |z - Z| ≤ e * Z + 1 / 10 ^ 20) (hM : M = √(p ^ 2 + z ^ 2)) :
    |p * Real.cos ψ + z * Real.sin ψ - a * √(Real.cos ψ ^ 2 + E * Real.sin ψ ^ 2) - H| ≤
      (9 / 10 ^ 19 + e) * (a + |H|) + 0.506 * a * |E - W| + 2 / 10 ^ 20 ∧ M ≤ (1 + 2 * e) * (a + |H|) + 2 / 10 ^ 20 := by
  have g := normal_gap a W φ ψ H (by linarith) W1 W2 (hd.trans (by norm_num))
  have d := support_diff E W ψ E1 W1
  have cd := centre_dist a W φ H (by linarith) W1 W2
  rw [← hP, ← hZ] at cd g
  have t := Real.sin_sq_add_cos_sq ψ
  have dl := dot_plane P Z (Real.cos ψ) (Real.sin ψ) (by linarith)
  have c1 := Real.abs_cos_le_one ψ
  have s1 := Real.abs_sin_le_one ψ
  have H0 := abs_nonneg H
  have δ : (ψ - φ) ^ 2 ≤ 169 / 10 ^ 20 := by
    have := pow_le_pow_left₀ (abs_nonneg _) hd 2
    rw [sq_abs] at this
    norm_num at this ⊢
    exact this
  have g' : |P * Real.cos ψ + Z * Real.sin ψ - a * √(Real.cos ψ ^ 2 + W * Real.sin ψ ^ 2) - H| ≤ 9 / 10 ^ 19 * (a + |H|) := by
    refine g.trans ?_
    have := mul_le_mul_of_nonneg_left δ (show 0 ≤ 0.53 * (a + |H|) by positivity)
    norm_num at this ⊢
    linarith
  have u1 : |(p - P) * Real.cos ψ| ≤ e * (P * |Real.cos ψ|) + 1 / 10 ^ 20 := by
    rw [abs_mul]
    have := mul_le_mul_of_nonneg_right hp (abs_nonneg (Real.cos ψ))
    norm_num at this ⊢
    linarith
  have u2 : |(z - Z) * Real.sin ψ| ≤ e * (Z * |Real.sin ψ|) + 1 / 10 ^ 20 := by
    rw [abs_mul]
    have := mul_le_mul_of_nonneg_right hz (abs_nonneg (Real.sin ψ))
    norm_num at this ⊢
    linarith
  have u3 : |a * (√(Real.cos ψ ^ 2 + W * Real.sin ψ ^ 2) - √(Real.cos ψ ^ 2 + E * Real.sin ψ ^ 2))| ≤ 0.506 * a * |E - W| := by
    rw [abs_mul, abs_of_pos (by linarith), abs_sub_comm]
    have := mul_le_mul_of_nonneg_left d (show 0 ≤ a by linarith)
    linarith
  have u4 : e * (P * |Real.cos ψ| + Z * |Real.sin ψ|) ≤ e * (a + |H|) := mul_le_mul_of_nonneg_left (dl.trans cd) e0
  constructor
  · have eq : p * Real.cos ψ + z * Real.sin ψ - a * √(Real.cos ψ ^ 2 + E * Real.sin ψ ^ 2) - H =
        (P * Real.cos ψ + Z * Real.sin ψ - a * √(Real.cos ψ ^ 2 + W * Real.sin ψ ^ 2) - H) + ((p - P) * Real.cos ψ +
          ((z - Z) * Real.sin ψ + a * (√(Real.cos ψ ^ 2 + W * Real.sin ψ ^ 2) - √(Real.cos ψ ^ 2 + E * Real.sin ψ ^ 2)))) := by ring
    rw [eq]
    have b1 := abs_add_le (P * Real.cos ψ + Z * Real.sin ψ - a * √(Real.cos ψ ^ 2 + W * Real.sin ψ ^ 2) - H) ((p - P) * Real.cos ψ +
          ((z - Z) * Real.sin ψ + a * (√(Real.cos ψ ^ 2 + W * Real.sin ψ ^ 2) - √(Real.cos ψ ^ 2 + E * Real.sin ψ ^ 2))))
    have b2 := abs_add_le ((p - P) * Real.cos ψ) ((z - Z) * Real.sin ψ + a * (√(Real.cos ψ ^ 2 + W * Real.sin ψ ^ 2) - √(Real.cos ψ ^ 2 + E * Real.sin ψ ^ 2)))
    have b3 := abs_add_le ((z - Z) * Real.sin ψ) (a * (√(Real.cos ψ ^ 2 + W * Real.sin ψ ^ 2) - √(Real.cos ψ ^ 2 + E * Real.sin ψ ^ 2)))
    linarith
  · have T := tri3 P (p - P) Z (z - Z) 0 0
    have n3 := norm3_le (p - P) (z - Z) 0
    have e1 : (P + (p - P)) ^ 2 + (Z + (z - Z)) ^ 2 + (0 + 0) ^ 2 = p ^ 2 + z ^ 2 := by ring
    have e2 : P ^ 2 + Z ^ 2 + 0 ^ 2 = P ^ 2 + Z ^ 2 := by ring
    rw [e1, e2, ← hM] at T
    rw [abs_zero] at n3
    have v1 : P ≤ √(P ^ 2 + Z ^ 2) := Real.le_sqrt_of_sq_le (le_add_of_nonneg_right (sq_nonneg Z))
    have v2 : Z ≤ √(P ^ 2 + Z ^ 2) := Real.le_sqrt_of_sq_le (le_add_of_nonneg_left (sq_nonneg P))
    have w1 := mul_le_mul_of_nonneg_left (v1.trans cd) e0
    have w2 := mul_le_mul_of_nonneg_left (v2.trans cd) e0
    linarith

set_option maxHeartbeats 1000000 in
/-- The height found by the binary64 code for a point near one of known geodetic coordinates, those for an ellipsoid with
the square `W` of the axis ratio. -/
theorem height_core [Libm F64] (hL : LibmAcc)
    (hat : ∀ (x : F64) (a : ℚ), Is x a → Near (Libm.atan x) (Real.arctan a) (1 / 2 ^ 50))
    (w : EllipsoidConverter F64) (hw : EllipsoidConverter.new WGS84 = .ok w) (v : Vec3 F64) (x y z : ℚ)
    (hx : Is v.x x) (hy : Is v.y y) (hz : Is v.z z) (E : ℚ) (hE : Is w.ec2 E) (k W N φ H e p : ℝ) (hk : k = 1 - 1 / 298.257223563)
    (hW : |W - k ^ 2| ≤ 4 / 10 ^ 16) (hN : N = 6378137 / √(Real.cos φ ^ 2 + W * Real.sin φ ^ 2)) (hφ : |φ| ≤ Real.pi / 2)
    (h0 : -50000 ≤ H) (h1 : H ≤ 6 * 10 ^ 10) (e0 : 0 ≤ e) (e1 : e * (6500000 + |H|) ≤ 2 / 10 ^ 7)
    (hp : p = √((x : ℝ) ^ 2 + (y : ℝ) ^ 2)) (ep : |p - (N + H) * Real.cos φ| ≤ e * ((N + H) * Real.cos φ) + 1 / 10 ^ 20)
    (ez : |(z : ℝ) - (W * N + H) * Real.sin φ| ≤ e * ((W * N + H) * |Real.sin φ|) + 1 / 10 ^ 20)
    (sg : 0 ≤ z → 0 ≤ φ) (sg' : z < 0 → φ ≤ 0) :
    ∃ φ' h' : ℚ, Is (w.geocentricToGeodetic v).phi φ' ∧ Is (w.geocentricToGeodetic v).height h' ∧ |(φ' : ℝ) - φ| ≤ 12 / 10 ^ 10 ∧
      |(h' : ℝ) - H| ≤ (854 / 10 ^ 18 + e) * 6378137 + (914 / 10 ^ 18 + e) * |H| + 0.506 * 6378137 * |E - W| ∧
      |(φ' : ℝ) - φ| * (0.98 * 6378137 + 0.99 * H) ≤
        0.005 * (|H| / (6378137 * k + H)) ^ 3 + 1.06e-6 * (1 + |H| / (6378137 * k)) + 4 / 10 ^ 7 := by
  have C := wgsConst hw
  obtain ⟨-, -, -, f4, f5, f6⟩ := ellipsoid_fields hw
  have hec : w.ec = Arith.sqrt w.ec2 := by rw [f5, f4]
  have hwb : w.b = w.el.a *. w.ec := by rw [f6, f5, new_el hw]
  have kk1 : 0.9933 ≤ k ^ 2 := by rw [hk]; norm_num
  have kk2 : k ^ 2 ≤ 0.9934 := by rw [hk]; norm_num
  have k1 : k ≤ 1 := by rw [hk]; norm_num
  have k9 : 0.9966 ≤ k := by rw [hk]; norm_num
  have W1 : 0.99 ≤ W := by have := (abs_le.mp hW).1; norm_num at this; linarith
  have W2 : W ≤ 1 := by have := (abs_le.mp hW).2; norm_num at this; linarith
  have H0 := abs_nonneg H
  have t := Real.sin_sq_add_cos_sq φ
  -- the two normals
  have sd := support_diff (k ^ 2) W φ (by linarith) W1
  have lW : 0.99 ≤ √(Real.cos φ ^ 2 + W * Real.sin φ ^ 2) := Real.le_sqrt_of_sq_le (by
    nlinarith [sq_nonneg (Real.sin φ), sq_nonneg (Real.cos φ)])
  have lk : 0.99 ≤ √(Real.cos φ ^ 2 + k ^ 2 * Real.sin φ ^ 2) := Real.le_sqrt_of_sq_le (by
    nlinarith [sq_nonneg (Real.sin φ), sq_nonneg (Real.cos φ)])
  have lW1 : √(Real.cos φ ^ 2 + W * Real.sin φ ^ 2) ≤ 1 := Real.sqrt_le_one.mpr (by nlinarith [sq_nonneg (Real.sin φ)])
  obtain ⟨Nk, hNk⟩ : ∃ Nk, Nk = 6378137 / √(Real.cos φ ^ 2 + k ^ 2 * Real.sin φ ^ 2) := ⟨_, rfl⟩
  have N1 : 6378137 ≤ N := by rw [hN, le_div_iff₀ (by linarith)]; linarith
  have N2 : N ≤ 6443000 := by rw [hN, div_le_iff₀ (by linarith)]; linarith
  have Nd : |N - Nk| ≤ 14 / 10 ^ 10 := by
    rw [hN, hNk]
    set q := √(Real.cos φ ^ 2 + W * Real.sin φ ^ 2)
    set q' := √(Real.cos φ ^ 2 + k ^ 2 * Real.sin φ ^ 2)
    have qp : 0 < q := by linarith
    have qp' : 0 < q' := by linarith
    have e : 6378137 / q - 6378137 / q' = 6378137 * (q' - q) / (q * q') := by field_simp
    have qq : 0.98 ≤ q * q' := le_trans (by norm_num) (mul_le_mul lW lk (by norm_num) (by linarith))
    rw [e, abs_div, abs_mul, abs_of_pos (mul_pos qp qp'), div_le_iff₀ (mul_pos qp qp'), abs_of_pos (by norm_num : (0 : ℝ) < 6378137)]
    rw [abs_sub_comm (k ^ 2)] at sd
    norm_num at hW qq ⊢
    linarith
  have c0 : 0 ≤ Real.cos φ := Real.cos_nonneg_of_neg_pi_div_two_le_of_le (abs_le.mp hφ).1 (abs_le.mp hφ).2
  have c1 : Real.cos φ ≤ 1 := Real.cos_le_one _
  have s0 := abs_nonneg (Real.sin φ)
  have s1 : |Real.sin φ| ≤ 1 := Real.abs_sin_le_one _
  have NH : 0 < N + H := by linarith
  have WN : 6314000 ≤ W * N := by nlinarith
  have WN' : W * N ≤ N := mul_le_of_le_one_left (by linarith) W2
  have WNH : 0 < W * N + H := by linarith
  have P0 : 0 ≤ (N + H) * Real.cos φ := mul_nonneg NH.le c0
  have Z0 : 0 ≤ (W * N + H) * |Real.sin φ| := mul_nonneg WNH.le s0
  have p0 : 0 ≤ p := by rw [hp]; exact Real.sqrt_nonneg _
  have NHe : ∀ r, 0 ≤ r → r ≤ 1 → ∀ B, 0 ≤ B → B ≤ N + H → e * (B * r) ≤ 2 / 10 ^ 7 := fun r r0 r1 B B0 hB => by
    refine le_trans (mul_le_mul_of_nonneg_left ?_ e0) e1
    have := le_abs_self H
    calc B * r ≤ B := mul_le_of_le_one_right B0 r1
      _ ≤ _ := by linarith
  -- rough coordinates
  have pe : |p - (Nk + H) * Real.cos φ| ≤ 22 / 10 ^ 8 := by
    have : p - (Nk + H) * Real.cos φ = (p - (N + H) * Real.cos φ) + (N - Nk) * Real.cos φ := by ring
    rw [this]
    have h2 : |(N - Nk) * Real.cos φ| ≤ 14 / 10 ^ 10 := by
      rw [abs_mul, abs_of_nonneg c0]
      exact (mul_le_of_le_one_right (abs_nonneg _) c1).trans Nd
    have h3 := NHe _ c0 c1 (N + H) NH.le le_rfl
    refine (abs_add_le _ _).trans ?_
    norm_num at ep h2 h3 ⊢
    linarith
  have ze : |(z : ℝ) - (k ^ 2 * Nk + H) * Real.sin φ| ≤ 22 / 10 ^ 8 := by
    have : (z : ℝ) - (k ^ 2 * Nk + H) * Real.sin φ = (z - (W * N + H) * Real.sin φ) + ((W - k ^ 2) * N + k ^ 2 * (N - Nk)) * Real.sin φ := by ring
    rw [this]
    have h2 : |((W - k ^ 2) * N + k ^ 2 * (N - Nk)) * Real.sin φ| ≤ 14 / 10 ^ 9 := by
      rw [abs_mul]
      refine (mul_le_of_le_one_right (abs_nonneg _) s1).trans ((abs_add_le _ _).trans ?_)
      rw [abs_mul, abs_mul, abs_of_pos (by linarith : 0 < N), abs_of_pos (by linarith : 0 < k ^ 2)]
      have a1 : |W - k ^ 2| * N ≤ 4 / 10 ^ 16 * 6443000 := mul_le_mul hW N2 (by linarith) (by norm_num)
      have a2 : k ^ 2 * |N - Nk| ≤ 1 * (14 / 10 ^ 10) := mul_le_mul (by linarith) Nd (abs_nonneg _) (by norm_num)
      norm_num at a1 a2 ⊢
      linarith
    have h3 := NHe _ s0 s1 (W * N + H) WNH.le (by linarith)
    refine (abs_add_le _ _).trans ?_
    norm_num at ez h2 h3 ⊢
    linarith
  have cr1 := Complex.norm_mul_cos_arg ⟨(x : ℝ), (y : ℝ)⟩
  have cr2 := Complex.norm_mul_sin_arg ⟨(x : ℝ), (y : ℝ)⟩
  rw [Complex.norm_def, Complex.normSq_mk, ← pow_two, ← pow_two] at cr1 cr2
  simp only at cr1 cr2
  rw [← hp] at cr1 cr2
  set lam := Complex.arg ⟨(x : ℝ), (y : ℝ)⟩
  have ex : |(x : ℝ) - (Nk + H) * Real.cos φ * Real.cos lam| ≤ 22 / 10 ^ 8 := by
    rw [← cr1, ← sub_mul, abs_mul]
    exact (mul_le_of_le_one_right (abs_nonneg _) (Real.abs_cos_le_one _)).trans pe
  have ey : |(y : ℝ) - (Nk + H) * Real.cos φ * Real.sin lam| ≤ 22 / 10 ^ 8 := by
    rw [← cr2, ← sub_mul, abs_mul]
    exact (mul_le_of_le_one_right (abs_nonneg _) (Real.abs_sin_le_one _)).trans pe
  obtain ⟨b, hb⟩ : ∃ b, b = 6378137 * k := ⟨_, rfl⟩
  have b1 : 6356000 ≤ b := by rw [hb]; linarith
  have b2 : b ≤ 6378137 := by rw [hb]; linarith
  have bp : 0 < b := by linarith
  obtain ⟨-, φ', h', -, i2, i3, -, a5, -⟩ := geodetic_near hL hat w hw v x y z hx hy hz k b Nk lam φ H (22 / 10 ^ 8) _ hk hb hNk hφ h0 h1
    (by norm_num) (by norm_num) ex ey ze rfl
  have r1 : |H| / (b + H) ≤ 1 := by
    rw [div_le_one (by linarith)]
    rcases abs_cases H with ⟨e, _⟩ | ⟨e, _⟩ <;> rw [e] <;> linarith
  have r0 : 0 ≤ |H| / (b + H) := div_nonneg H0 (by linarith)
  have r3 := pow_le_one₀ (n := 3) r0 r1
  have r4 : |H| / b ≤ |H| / 6356000 := div_le_div_of_nonneg_left H0 (by norm_num) b1
  have T0 : 0 < 0.98 * 6378137 + 0.99 * H := by linarith
  have dφ : |(φ' : ℝ) - φ| ≤ 12 / 10 ^ 10 := by
    by_contra hn
    have := mul_lt_mul_of_pos_right (not_le.mp hn) T0
    have : 12 / 10 ^ 10 * (0.98 * 6378137 + 0.99 * H) < 0.005 * 1 + 1.06e-6 * (1 + |H| / 6356000) + 1.75 * (22 / 10 ^ 8) := by
      generalize (|H| / (b + H)) ^ 3 = A at *
      norm_num at *
      linarith
    norm_num at this
    rcases abs_cases H with ⟨e, _⟩ | ⟨e, _⟩ <;> rw [e] at this <;> linarith
  -- size
  have hsz := size_bounds 6378137 k φ lam H (22 / 10 ^ 8) Nk b x y z
    (√(((x : ℝ) ^ 2 + (y : ℝ) ^ 2) / 6378137 ^ 2 + (z : ℝ) ^ 2 / b ^ 2)) (by norm_num) (by linarith) k1 hb hNk (by linarith)
    (Real.sqrt_nonneg _) (Real.sq_sqrt (by positivity)) (by norm_num) ex ey ze
  have hL2 := Real.sq_sqrt (by positivity : 0 ≤ ((x : ℝ) ^ 2 + (y : ℝ) ^ 2) / 6378137 ^ 2 + (z : ℝ) ^ 2 / b ^ 2)
  set L := √(((x : ℝ) ^ 2 + (y : ℝ) ^ 2) / 6378137 ^ 2 + (z : ℝ) ^ 2 / b ^ 2)
  have t1 : 22 / 10 ^ 8 / b ≤ 1 / 10 ^ 13 := by
    rw [div_le_iff₀ bp]
    have : (1 : ℝ) / 10 ^ 13 * 6000000 ≤ 1 / 10 ^ 13 * b := mul_le_mul_of_nonneg_left (by linarith) (by norm_num)
    refine le_trans ?_ this
    norm_num
  have out : 0.99 ≤ L := by
    rcases hsz with ⟨_, _, l⟩ | ⟨_, _, l⟩
    · norm_num at t1 l ⊢; linarith
    · have : -0.008 ≤ H / b := by rw [le_div_iff₀ bp]; linarith
      norm_num at t1 l this ⊢; linarith
  have far : L ≤ 10 ^ 4 := by
    rcases hsz with ⟨_, l, _⟩ | ⟨_, l, _⟩
    · have : H / b ≤ 9500 := by rw [div_le_iff₀ bp]; norm_num at h1; linarith
      norm_num at t1 l ⊢; linarith
    · norm_num at t1 l ⊢; linarith
  rw [hb] at hL2
  -- the direction
  obtain ⟨φl, h'', ψ, G, j1, j2, hψ, dψ, hG, dG⟩ := height_dir hat C hec hwb E hE (by norm_num) (by norm_num) v.x v.y v.z x y z hx hy hz L
    (by rw [← hk]; exact hL2) out far p _ hp rfl
  have ih : (w.geocentricToGeodetic v).height = (latHeightOf w (sq v.x +. sq v.y) (Arith.abs v.z)).2 := rfl
  have ip : (w.geocentricToGeodetic v).phi = if v.z <. lit 0 then Arith.neg (latHeightOf w (sq v.x +. sq v.y) (Arith.abs v.z)).1
    else (latHeightOf w (sq v.x +. sq v.y) (Arith.abs v.z)).1 := rfl
  have eh : h' = h'' := by rw [ih] at i3; exact i3.unique j2
  have i0 : Is (lit 0 : F64) 0 := by have := Is.lit_int 0 (by norm_num); norm_num at this; exact this
  have dl : |(φl : ℝ) - (|φ|)| ≤ 12 / 10 ^ 10 := by
    rw [ip, hz.lt i0] at i2
    by_cases hn : z < 0
    · rw [if_pos (by simpa using hn)] at i2
      have := i2.unique j1.neg
      rw [this] at dφ
      push_cast at dφ
      rw [abs_of_nonpos (sg' hn), ← abs_neg]
      rw [show -((φl : ℝ) - -φ) = -φl - φ by ring]
      exact dφ
    · rw [if_neg (by simpa using hn)] at i2
      have := i2.unique j1
      rw [this] at dφ
      rw [abs_of_nonneg (sg (not_lt.mp hn))]
      exact dφ
  have dd : |ψ - (|φ|)| ≤ 13 / 10 ^ 10 := by
    rw [show ψ - (|φ|) = -(φl - ψ) + (φl - (|φ|)) by ring]
    refine (abs_add_le _ _).trans ?_
    rw [abs_neg]
    norm_num at dψ dl ⊢
    linarith
  obtain ⟨E1, E2⟩ : 0.99 ≤ (E : ℝ) ∧ |(E : ℝ) - k ^ 2| ≤ 12 / 10 ^ 17 := by
    obtain ⟨r, hr, er⟩ := C.ec2.near
    have : r = E := hr.unique hE
    subst this
    rw [← hk] at er
    have := abs_le.mp er
    refine ⟨?_, er⟩
    norm_num at this
    linarith
  have cφ : Real.cos |φ| = Real.cos φ := Real.cos_abs φ
  have sφ : Real.sin |φ| = |Real.sin φ| := by
    rcases le_total 0 φ with h | h
    · rw [abs_of_nonneg h, abs_of_nonneg (Real.sin_nonneg_of_nonneg_of_le_pi h (by have := (abs_le.mp hφ).2; linarith [Real.pi_pos]))]
    · rw [abs_of_nonpos h, abs_of_nonpos (Real.sin_nonpos_of_nonpos_of_neg_pi_le h (by have := (abs_le.mp hφ).1; linarith [Real.pi_pos])),
        Real.sin_neg]
  have eN : 6378137 / √(Real.cos |φ| ^ 2 + W * Real.sin |φ| ^ 2) = N := by rw [cφ, sφ, sq_abs, hN]
  have ez' : |(|(z : ℝ)| - (W * N + H) * |Real.sin φ|)| ≤ e * ((W * N + H) * |Real.sin φ|) + 1 / 10 ^ 20 := by
    refine le_trans ?_ ez
    have := abs_abs_sub_abs_le (z : ℝ) ((W * N + H) * Real.sin φ)
    rw [abs_mul, abs_of_pos WNH] at this
    exact this
  obtain ⟨g1, g2⟩ := gap_bound 6378137 W E |φ| ψ H e p |(z : ℝ)| ((N + H) * Real.cos φ) ((W * N + H) * |Real.sin φ|)
    (√((x : ℝ) ^ 2 + (y : ℝ) ^ 2 + (z : ℝ) ^ 2)) (by norm_num) W1 W2 E1 dd (by rw [eN, cφ]) (by rw [eN, sφ]) e0 ep ez'
    (by rw [hp, Real.sq_sqrt (by positivity), sq_abs])
  rw [← hG] at g1
  have EW : |(E : ℝ) - W| ≤ 6 / 10 ^ 16 := by
    rw [show (E : ℝ) - W = (E - k ^ 2) - (W - k ^ 2) by ring]
    refine (abs_sub _ _).trans ?_
    norm_num at E2 hW ⊢
    linarith
  refine ⟨φ', h', i2, i3, dφ, ?_, ?_⟩
  · rw [eh]
    have e2 : e ≤ 4 / 10 ^ 14 := by
      have : e * 6500000 ≤ e * (6500000 + |H|) := mul_le_mul_of_nonneg_left (by linarith) e0
      norm_num at e1 this ⊢
      linarith
    have Gb : |G| ≤ |H| + |G - H| := by
      rw [show G = H + (G - H) by ring]
      refine (abs_add_le _ _).trans ?_
      rw [show H + (G - H) - H = G - H by ring]
    have m1 := mul_le_mul_of_nonneg_right e2 H0
    have m2 : e * 6378137 ≤ 4 / 10 ^ 14 * 6378137 := mul_le_mul_of_nonneg_right e2 (by norm_num)
    have fin : |(h'' : ℝ) - H| ≤ |(h'' : ℝ) - G| + |G - H| := by
      rw [show (h'' : ℝ) - H = (h'' - G) + (G - H) by ring]; exact abs_add_le _ _
    have EW0 := abs_nonneg ((E : ℝ) - W)
    generalize |(h'' : ℝ) - G| = A1 at *
    generalize |G - H| = A2 at *
    generalize |(h'' : ℝ) - H| = A3 at *
    generalize √((x : ℝ) ^ 2 + (y : ℝ) ^ 2 + (z : ℝ) ^ 2) = A4 at *
    generalize |(E : ℝ) - W| = A5 at *
    generalize |H| = A6 at *
    generalize |G| = A7 at *
    have m3 : e * A6 ≤ 4 / 10 ^ 14 * A6 := m1
    clear * - dG g1 g2 fin Gb m1 m2 EW H0 EW0 e0
    norm_num at *
    nlinarith
  · rw [← hb]
    refine a5.trans ?_
    norm_num

end Verif
