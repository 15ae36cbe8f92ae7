import Verif.Lemmas.GeodeticInverse
import Verif.Lemmas.C2iAcc
import Verif.Props.GeodeticAccuracy
import Verif.Props.GeocentricRoundTrip
import Verif.Props.Text
import Mathlib.Analysis.SpecialFunctions.Complex.Arg

/-!
# C80, C81: geodetic coordinates found by the binary64 code
-/

namespace Verif
open Arith F64

theorem norm3_eta (a b c m : ℝ) (ha : |a| ≤ m) (hb : |b| ≤ m) (hc : |c| ≤ m) : √(a ^ 2 + b ^ 2 + c ^ 2) ≤ 1.75 * m := by
  have m0 := (abs_nonneg _).trans ha
  apply Real.sqrt_le_iff.mpr
  refine ⟨by positivity, ?_⟩
  have h1 : a ^ 2 ≤ m ^ 2 := sq_le_sq' (abs_le.mp ha).1 (abs_le.mp ha).2
  have h2 : b ^ 2 ≤ m ^ 2 := sq_le_sq' (abs_le.mp hb).1 (abs_le.mp hb).2
  have h3 : c ^ 2 ≤ m ^ 2 := sq_le_sq' (abs_le.mp hc).1 (abs_le.mp hc).2
  have h4 : (1.75 * m) ^ 2 = 3.0625 * m ^ 2 := by ring
  rw [h4]
  have := sq_nonneg m
  linarith

theorem hneg_a (a h N : ℝ) (ha : 0 < a) (hp : h < 0) (Na : a ≤ N) : h * N / a ^ 2 ≤ h / a := by
  rw [div_le_div_iff₀ (by positivity) ha]
  have := mul_le_mul_of_nonneg_left Na (mul_nonneg (neg_nonneg.mpr hp.le) ha.le)
  linarith

theorem hneg_b (a b h : ℝ) (ha : 0 < a) (b1 : 0.9 * a ≤ b) (hp : h < 0) (h0 : -0.01 * b ≤ h) : h ^ 2 / b ^ 2 ≤ -(h / a) := by
  have bp : 0 < b := by linarith
  rw [← neg_div, div_le_div_iff₀ (by positivity) ha]
  have b2 : -h * a ≤ b ^ 2 := by nlinarith
  have := mul_le_mul_of_nonneg_left b2 (by linarith : 0 ≤ -h)
  linarith

/-- The size, relative to the ellipsoid, of a point near one of known geodetic coordinates. -/
theorem size_bounds (a k φ lam h η N b x y z L : ℝ) (ha : 0 < a) (k9 : 0.9 ≤ k) (k1 : k ≤ 1) (hb : b = a * k)
    (hN : N = a / √(Real.cos φ ^ 2 + k ^ 2 * Real.sin φ ^ 2)) (h0 : -0.01 * b ≤ h) (L0 : 0 ≤ L)
    (hL : L ^ 2 = (x ^ 2 + y ^ 2) / a ^ 2 + z ^ 2 / b ^ 2) (η0 : 0 ≤ η)
    (ex : |x - (N + h) * Real.cos φ * Real.cos lam| ≤ η) (ey : |y - (N + h) * Real.cos φ * Real.sin lam| ≤ η)
    (ez : |z - (k ^ 2 * N + h) * Real.sin φ| ≤ η) :
    (0 ≤ h ∧ L ≤ 1 + h / b + 1.75 * (η / b) ∧ 1 - 1.75 * (η / b) ≤ L) ∨
      (h < 0 ∧ L ≤ 1 + 1.75 * (η / b) ∧ 1 + h / b - 1.75 * (η / b) ≤ L) := by
  have k0 : 0 < k := by linarith
  have bp : 0 < b := by rw [hb]; positivity
  have ba : b ≤ a := by rw [hb]; nlinarith
  have t1 := Real.sin_sq_add_cos_sq φ
  have t2 := Real.sin_sq_add_cos_sq lam
  set c := Real.cos φ
  set s := Real.sin φ
  have k2 : k ^ 2 ≤ 1 := pow_le_one₀ k0.le k1
  have D0 : 0 < c ^ 2 + k ^ 2 * s ^ 2 := by nlinarith [sq_nonneg c, sq_nonneg s, pow_pos k0 2]
  have D2 := Real.sq_sqrt D0.le
  have Dp : 0 < √(c ^ 2 + k ^ 2 * s ^ 2) := Real.sqrt_pos.mpr D0
  have N1 : N ^ 2 * (c ^ 2 + k ^ 2 * s ^ 2) = a ^ 2 := by rw [hN, div_pow, D2]; field_simp
  have Dle : √(c ^ 2 + k ^ 2 * s ^ 2) ≤ 1 := Real.sqrt_le_one.mpr (by nlinarith [sq_nonneg s])
  have Na : a ≤ N := by rw [hN, le_div_iff₀ Dp]; nlinarith
  have Np : 0 < N := by linarith
  -- the surface point and the normal
  have E1 : √((N * c / a) ^ 2 + (k ^ 2 * N * s / b) ^ 2 + 0 ^ 2) = 1 := by
    have : (N * c / a) ^ 2 + (k ^ 2 * N * s / b) ^ 2 + 0 ^ 2 = 1 := by
      rw [hb]; field_simp; linear_combination N1
    rw [this, Real.sqrt_one]
  have n1 : √((h * c / a) ^ 2 + (h * s / b) ^ 2 + 0 ^ 2) ≤ |h| / b := by
    apply Real.sqrt_le_iff.mpr
    refine ⟨by positivity, ?_⟩
    have e : (|h| / b) ^ 2 = (h * c / b) ^ 2 + (h * s / b) ^ 2 + 0 ^ 2 := by
      rw [div_pow, sq_abs]; field_simp; linear_combination -h ^ 2 * t1
    rw [e]
    have : (h * c / a) ^ 2 ≤ (h * c / b) ^ 2 := by
      rw [div_pow, div_pow]
      exact div_le_div_of_nonneg_left (sq_nonneg _) (by positivity) (pow_le_pow_left₀ bp.le ba 2)
    linarith
  have Ls : √(((N + h) * c / a) ^ 2 + ((k ^ 2 * N + h) * s / b) ^ 2 + 0 ^ 2) =
      √(((N + h) * c * Real.cos lam / a) ^ 2 + ((N + h) * c * Real.sin lam / a) ^ 2 + ((k ^ 2 * N + h) * s / b) ^ 2) := by
    congr 1
    linear_combination -((N + h) * c / a) ^ 2 * t2
  set Q := √(((N + h) * c / a) ^ 2 + ((k ^ 2 * N + h) * s / b) ^ 2 + 0 ^ 2)
  have up : Q ≤ 1 + |h| / b := by
    have := tri3 (N * c / a) (h * c / a) (k ^ 2 * N * s / b) (h * s / b) 0 0
    rw [E1] at this
    refine le_trans (le_of_eq ?_) (this.trans (add_le_add le_rfl n1))
    show √_ = √_
    congr 1; ring
  have lo : 1 - |h| / b ≤ Q := by
    have := tri3 ((N + h) * c / a) (-(h * c / a)) ((k ^ 2 * N + h) * s / b) (-(h * s / b)) 0 0
    have e : ((N + h) * c / a + -(h * c / a)) ^ 2 + ((k ^ 2 * N + h) * s / b + -(h * s / b)) ^ 2 + (0 + 0) ^ 2 =
        (N * c / a) ^ 2 + (k ^ 2 * N * s / b) ^ 2 + 0 ^ 2 := by ring
    rw [e, E1, neg_sq, neg_sq] at this
    have e0 : (-0 : ℝ) = 0 := neg_zero
    change 1 ≤ Q + _ at this
    linarith
  have Q2 : Q ^ 2 = 1 + 2 * (h * N / a ^ 2) + ((h * c / a) ^ 2 + (h * s / b) ^ 2) := by
    have e : Q ^ 2 = ((N + h) * c / a) ^ 2 + ((k ^ 2 * N + h) * s / b) ^ 2 + 0 ^ 2 := Real.sq_sqrt (by positivity)
    rw [e, hb]
    field_simp
    linear_combination k ^ 2 * N1 + 2 * N * h * k ^ 2 * t1
  -- the size of the point
  have LL : L = √((x / a) ^ 2 + (y / a) ^ 2 + (z / b) ^ 2) := by
    rw [← Real.sqrt_sq L0, hL]
    congr 1
    rw [div_pow, div_pow, div_pow, add_div]
  have d1 : ∀ e : ℝ, |e| ≤ η → |e / a| ≤ η / b ∧ |e / b| ≤ η / b := fun e he => by
    rw [abs_div, abs_div, abs_of_pos ha, abs_of_pos bp]
    exact ⟨div_le_div₀ η0 he bp ba, div_le_div_of_nonneg_right he bp.le⟩
  have dn := norm3_eta ((x - (N + h) * c * Real.cos lam) / a) ((y - (N + h) * c * Real.sin lam) / a)
    ((z - (k ^ 2 * N + h) * s) / b) (η / b) (d1 _ ex).1 (d1 _ ey).1 (d1 _ ez).2
  have L1 : L ≤ Q + 1.75 * (η / b) := by
    have := tri3 ((N + h) * c * Real.cos lam / a) ((x - (N + h) * c * Real.cos lam) / a) ((N + h) * c * Real.sin lam / a)
      ((y - (N + h) * c * Real.sin lam) / a) ((k ^ 2 * N + h) * s / b) ((z - (k ^ 2 * N + h) * s) / b)
    rw [← Ls] at this
    rw [LL]
    refine le_trans (le_of_eq ?_) (this.trans (add_le_add le_rfl dn))
    congr 1; ring
  have L2 : Q - 1.75 * (η / b) ≤ L := by
    have := tri3 (x / a) (-((x - (N + h) * c * Real.cos lam) / a)) (y / a) (-((y - (N + h) * c * Real.sin lam) / a)) (z / b)
      (-((z - (k ^ 2 * N + h) * s) / b))
    rw [neg_sq, neg_sq, neg_sq, ← LL] at this
    have e : √((x / a + -((x - (N + h) * c * Real.cos lam) / a)) ^ 2 + (y / a + -((y - (N + h) * c * Real.sin lam) / a)) ^ 2 +
        (z / b + -((z - (k ^ 2 * N + h) * s) / b)) ^ 2) = Q := by
      rw [Ls]; congr 1; ring
    rw [e] at this
    linarith
  have e1 : (h * c / a) ^ 2 + (h * s / b) ^ 2 ≤ h ^ 2 / b ^ 2 := by
    have n2 := pow_le_pow_left₀ (Real.sqrt_nonneg _) n1 2
    rw [Real.sq_sqrt (by positivity), div_pow |h|, sq_abs] at n2
    linarith
  have e2 : 0 ≤ (h * c / a) ^ 2 + (h * s / b) ^ 2 := by positivity
  have Q0 : 0 ≤ Q := Real.sqrt_nonneg _
  clear_value Q
  clear Ls LL dn n1 E1 d1 D2 Dp N1 Dle hN
  rcases le_or_gt 0 h with hp | hp
  · refine Or.inl ⟨hp, ?_, ?_⟩
    · rw [abs_of_nonneg hp] at up; linarith
    · have : 1 ≤ Q ^ 2 := by
        rw [Q2]
        have : 0 ≤ h * N / a ^ 2 := by positivity
        linarith
      have : 1 ≤ Q := one_le_sq_iff₀ Q0 |>.mp this
      linarith
  · refine Or.inr ⟨hp, ?_, ?_⟩
    · have : Q ^ 2 ≤ 1 := by
        rw [Q2]
        have e3 := hneg_a a h N ha hp Na
        have e4 := hneg_b a b h ha (by rw [hb]; nlinarith) hp h0
        have e5 : h / a ≤ 0 := div_nonpos_of_nonpos_of_nonneg hp.le ha.le
        linarith
      have : Q ≤ 1 := (sq_le_one_iff₀ Q0).mp this
      linarith
    · rw [abs_of_neg hp] at lo
      have : -h / b = -(h / b) := neg_div _ _
      linarith

theorem cube_close (r s : ℝ) (r0 : 0 ≤ r) (r1 : r ≤ 1) (s0 : 0 ≤ s) (s1 : s ≤ 1) : (r + s) ^ 3 ≤ r ^ 3 + 7 * s := by
  have e : (r + s) ^ 3 = r ^ 3 + s * (3 * r ^ 2 + 3 * (r * s) + s ^ 2) := by ring
  rw [e]
  have : 3 * r ^ 2 + 3 * (r * s) + s ^ 2 ≤ 7 := by nlinarith
  have := mul_le_mul_of_nonneg_left this s0
  linarith

theorem inv_size (b h t L : ℝ) (bp : 0 < b) (t0 : 0 ≤ t) (t1 : t ≤ 1 / 10 ^ 12) (h0 : -0.01 * b ≤ h)
    (hs : (0 ≤ h ∧ L ≤ 1 + h / b + 1.75 * t ∧ 1 - 1.75 * t ≤ L) ∨ (h < 0 ∧ L ≤ 1 + 1.75 * t ∧ 1 + h / b - 1.75 * t ≤ L)) :
    |1 - 1 / L| ≤ |h| / (b + h) + 2 * t ∧ L ≤ 1 + |h| / b + 1.75 * t ∧ 0.98 ≤ L := by
  have bh : 0 < b + h := by linarith
  have hu : ∃ u, u = h / b := ⟨_, rfl⟩
  obtain ⟨u, hu⟩ := hu
  have hh : h = u * b := by rw [hu]; field_simp
  have u0 : -0.01 ≤ u := by rw [hu, le_div_iff₀ bp]; exact h0
  rw [← hu] at hs
  have er : |h| / (b + h) = |u| / (1 + u) := by
    rw [hh, abs_mul, abs_of_pos bp, show b + u * b = (1 + u) * b by ring, mul_div_mul_right _ _ bp.ne']
  have er2 : |h| / b = |u| := by rw [hh, abs_mul, abs_of_pos bp, mul_div_cancel_right₀ _ bp.ne']
  rw [er, er2]
  have u1 : 0 < 1 + u := by linarith
  rcases hs with ⟨hp, l1, l2⟩ | ⟨hp, l1, l2⟩
  · have up : 0 ≤ u := by rw [hu]; positivity
    have Lp : 0 < L := by linarith
    rw [abs_of_nonneg up]
    refine ⟨?_, l1, by linarith⟩
    have e : u / (1 + u) = 1 - 1 / (1 + u) := by field_simp; ring
    rw [abs_le]
    constructor
    · have : 1 / L ≤ 1 + 2 * t := by rw [div_le_iff₀ Lp]; nlinarith
      have : 0 ≤ u / (1 + u) := by positivity
      linarith
    · have : 1 / (1 + u) - 2 * t ≤ 1 / L := by
        rw [le_div_iff₀ Lp, sub_mul, div_mul_eq_mul_div, one_mul, sub_le_iff_le_add, div_le_iff₀ u1]
        nlinarith [mul_nonneg t0 Lp.le, mul_nonneg (mul_nonneg t0 Lp.le) up]
      linarith
  · have up : u < 0 := by rw [hu]; exact div_neg_of_neg_of_pos hp bp
    have Lp : 0 < L := by linarith
    rw [abs_of_neg up]
    refine ⟨?_, by linarith, by linarith⟩
    have e : -u / (1 + u) = 1 / (1 + u) - 1 := by field_simp; ring
    have e0 : 0 ≤ -u / (1 + u) := div_nonneg (by linarith) u1.le
    rw [abs_le]
    constructor
    · have : 1 / L ≤ 1 / (1 + u) + 2 * t := by
        rw [div_le_iff₀ Lp, add_mul, div_mul_eq_mul_div, one_mul, ← sub_le_iff_le_add, le_div_iff₀ u1]
        nlinarith [mul_nonneg t0 Lp.le]
      linarith
    · have : 1 - 2 * t ≤ 1 / L := by
        rw [le_div_iff₀ Lp]; nlinarith
      linarith

/-- The distance bound of the conversion in terms of the height. -/
theorem dist_bound (b h η L : ℝ) (b1 : 6000000 ≤ b) (η0 : 0 ≤ η) (η1 : η ≤ 3 / 10 ^ 7) (h0 : -0.01 * b ≤ h)
    (hs : (0 ≤ h ∧ L ≤ 1 + h / b + 1.75 * (η / b) ∧ 1 - 1.75 * (η / b) ≤ L) ∨
      (h < 0 ∧ L ≤ 1 + 1.75 * (η / b) ∧ 1 + h / b - 1.75 * (η / b) ≤ L)) :
    0.005 * |1 - 1 / L| ^ 3 + 1.05e-6 * L ≤ 0.005 * (|h| / (b + h)) ^ 3 + 1.06e-6 * (1 + |h| / b) := by
  have bp : 0 < b := by linarith
  have t0 : 0 ≤ η / b := by positivity
  have t1 : η / b ≤ 1 / 10 ^ 13 := by rw [div_le_iff₀ bp]; norm_num at *; linarith
  obtain ⟨i1, i2, i3⟩ := inv_size b h (η / b) L bp t0 (t1.trans (by norm_num)) h0 hs
  have bh : 0 < b + h := by linarith
  have r0 : 0 ≤ |h| / (b + h) := by positivity
  have r1 : |h| / (b + h) ≤ 1 := by
    rw [div_le_one bh]
    rcases abs_cases h with ⟨e, _⟩ | ⟨e, _⟩ <;> rw [e] <;> linarith
  have hb0 : 0 ≤ |h| / b := by positivity
  set r := |h| / (b + h)
  set t := η / b
  have c1 := pow_le_pow_left₀ (abs_nonneg _) i1 3
  have c2 := cube_close r (2 * t) r0 r1 (by linarith) (by linarith)
  generalize |1 - 1 / L| ^ 3 = A at *
  norm_num at *
  linarith

theorem rot_small (e f lam η : ℝ) (he : |e| ≤ η) (hf : |f| ≤ η) :
    |e * Real.cos lam + f * Real.sin lam| ≤ 1.42 * η ∧ |f * Real.cos lam - e * Real.sin lam| ≤ 1.42 * η := by
  have η0 := (abs_nonneg _).trans he
  have t := Real.sin_sq_add_cos_sq lam
  have h1 : e ^ 2 ≤ η ^ 2 := sq_le_sq' (abs_le.mp he).1 (abs_le.mp he).2
  have h2 : f ^ 2 ≤ η ^ 2 := sq_le_sq' (abs_le.mp hf).1 (abs_le.mp hf).2
  have key : (e * Real.cos lam + f * Real.sin lam) ^ 2 + (f * Real.cos lam - e * Real.sin lam) ^ 2 = e ^ 2 + f ^ 2 := by
    linear_combination (e ^ 2 + f ^ 2) * t
  have h3 : (1.42 * η) ^ 2 = 2.0164 * η ^ 2 := by ring
  have h4 := sq_nonneg η
  refine ⟨abs_le_of_sq_le_sq (by linarith [sq_nonneg (f * Real.cos lam - e * Real.sin lam)]) (by positivity),
    abs_le_of_sq_le_sq (by linarith [sq_nonneg (e * Real.cos lam + f * Real.sin lam)]) (by positivity)⟩

/-- The longitude of a point near one of known longitude. -/
theorem arg_near (x y ρ lam η : ℝ) (hρ : 0 < ρ) (hη : 3 * η ≤ ρ) (ex : |x - ρ * Real.cos lam| ≤ η)
    (ey : |y - ρ * Real.sin lam| ≤ η) : ∃ n : ℤ, |Complex.arg ⟨x, y⟩ - (lam + n * (2 * Real.pi))| ≤ 3 * η / ρ := by
  have η0 := (abs_nonneg _).trans ex
  obtain ⟨r1, r2⟩ := rot_small _ _ lam η ex ey
  have t := Real.sin_sq_add_cos_sq lam
  have c1 : (x - ρ * Real.cos lam) * Real.cos lam + (y - ρ * Real.sin lam) * Real.sin lam =
      x * Real.cos lam + y * Real.sin lam - ρ := by linear_combination -ρ * t
  have c2 : (y - ρ * Real.sin lam) * Real.cos lam - (x - ρ * Real.cos lam) * Real.sin lam =
      y * Real.cos lam - x * Real.sin lam := by ring
  rw [c1] at r1
  rw [c2] at r2
  set X := x * Real.cos lam + y * Real.sin lam with hX
  set Y := y * Real.cos lam - x * Real.sin lam with hY
  have X0 : ρ / 2 ≤ X := by have := (abs_le.mp r1).1; linarith
  have Xp : 0 < X := by linarith
  have mul : (⟨x, y⟩ : ℂ) = ((((lam : Real.Angle)).cos : ℂ) + ((lam : Real.Angle)).sin * Complex.I) * ⟨X, Y⟩ := by
    rw [Real.Angle.cos_coe, Real.Angle.sin_coe]
    apply Complex.ext
    · simp [Complex.add_re, Complex.mul_re, -Complex.ofReal_cos, -Complex.ofReal_sin]
      linear_combination -x * t
    · simp [Complex.add_im, Complex.mul_im, -Complex.ofReal_cos, -Complex.ofReal_sin]
      linear_combination -y * t
  have nz1 : (((lam : Real.Angle)).cos : ℂ) + ((lam : Real.Angle)).sin * Complex.I ≠ 0 := by
    intro h
    have h1 := congrArg Complex.re h
    have h2 := congrArg Complex.im h
    simp [-Complex.ofReal_cos, -Complex.ofReal_sin] at h1 h2
    rw [h1, h2] at t
    norm_num at t
  have nz2 : (⟨X, Y⟩ : ℂ) ≠ 0 := fun h => by
    have := congrArg Complex.re h
    simp at this
    linarith
  have A := Complex.arg_mul_coe_angle nz1 nz2
  rw [← mul, Complex.arg_cos_add_sin_mul_I_coe_angle, ← Real.Angle.coe_add, Real.Angle.angle_eq_iff_two_pi_dvd_sub] at A
  obtain ⟨n, hn⟩ := A
  refine ⟨n, ?_⟩
  have e : Complex.arg ⟨x, y⟩ - (lam + n * (2 * Real.pi)) = Complex.arg ⟨X, Y⟩ := by linear_combination hn
  rw [e]
  have lt := Complex.abs_arg_lt_pi_div_two_iff.mpr (Or.inl (show 0 < (⟨X, Y⟩ : ℂ).re from Xp))
  have at' : Complex.arg ⟨X, Y⟩ = Real.arctan (Y / X) := by
    rw [← Real.arctan_tan (abs_lt.mp lt).1 (abs_lt.mp lt).2, Complex.tan_arg]
  have l := arctan_lip (Y / X) 0
  rw [Real.arctan_zero, sub_zero, sub_zero] at l
  rw [at']
  refine l.trans ?_
  rw [abs_div, abs_of_pos Xp, div_le_div_iff₀ Xp hρ]
  have X1 : 0.5266 * ρ ≤ X := by have := (abs_le.mp r1).1; linarith
  have h1 := mul_le_mul_of_nonneg_right r2 hρ.le
  have h2 := mul_le_mul_of_nonneg_left X1 (by linarith : 0 ≤ 3 * η)
  have h3 := mul_nonneg η0 hρ.le
  linarith

theorem planar_close (x y z ρ Z lam η : ℝ) (hρ : 0 ≤ ρ) (ex : |x - ρ * Real.cos lam| ≤ η)
    (ey : |y - ρ * Real.sin lam| ≤ η) (ez : |z - Z| ≤ η) :
    √((√(x ^ 2 + y ^ 2) - ρ) ^ 2 + (z - Z) ^ 2 + 0 ^ 2) ≤ 1.75 * η := by
  refine le_trans (Real.sqrt_le_sqrt ?_) (norm3_eta _ _ _ η ex ey ez)
  have t := Real.sin_sq_add_cos_sq lam
  have p2 := Real.sq_sqrt (by positivity : 0 ≤ x ^ 2 + y ^ 2)
  have d : x * Real.cos lam + y * Real.sin lam ≤ √(x ^ 2 + y ^ 2) := by
    apply Real.le_sqrt_of_sq_le
    have : (x * Real.cos lam + y * Real.sin lam) ^ 2 + (y * Real.cos lam - x * Real.sin lam) ^ 2 = x ^ 2 + y ^ 2 := by
      linear_combination (x ^ 2 + y ^ 2) * t
    linarith [sq_nonneg (y * Real.cos lam - x * Real.sin lam)]
  have := mul_le_mul_of_nonneg_left d hρ
  have e1 : (√(x ^ 2 + y ^ 2) - ρ) ^ 2 = x ^ 2 + y ^ 2 - 2 * (ρ * √(x ^ 2 + y ^ 2)) + ρ ^ 2 := by
    linear_combination p2
  have e2 : (x - ρ * Real.cos lam) ^ 2 + (y - ρ * Real.sin lam) ^ 2 =
      x ^ 2 + y ^ 2 - 2 * (ρ * (x * Real.cos lam + y * Real.sin lam)) + ρ ^ 2 := by
    linear_combination ρ ^ 2 * t
  rw [e1, e2]
  linarith

set_option maxHeartbeats 1000000 in
/-- The geodetic coordinates found by the binary64 code for a point near one of known geodetic coordinates. -/
theorem geodetic_near [Libm F64] (hL : LibmAcc)
    (hat : ∀ (x : F64) (a : ℚ), Is x a → Near (Libm.atan x) (Real.arctan a) (1 / 2 ^ 50))
    (w : EllipsoidConverter F64) (hw : EllipsoidConverter.new WGS84 = .ok w) (v : Vec3 F64) (x y z : ℚ)
    (hx : Is v.x x) (hy : Is v.y y) (hz : Is v.z z) (k b N lam φ h η D : ℝ) (hk : k = 1 - 1 / 298.257223563)
    (hb : b = 6378137 * k) (hN : N = 6378137 / √(Real.cos φ ^ 2 + k ^ 2 * Real.sin φ ^ 2)) (hφ : |φ| ≤ Real.pi / 2)
    (h0 : -50000 ≤ h) (h1 : h ≤ 6 * 10 ^ 10) (η0 : 0 ≤ η) (η1 : η ≤ 3 / 10 ^ 7)
    (ex : |(x : ℝ) - (N + h) * Real.cos φ * Real.cos lam| ≤ η) (ey : |(y : ℝ) - (N + h) * Real.cos φ * Real.sin lam| ≤ η)
    (ez : |(z : ℝ) - (k ^ 2 * N + h) * Real.sin φ| ≤ η)
    (hD : D = 0.005 * (|h| / (b + h)) ^ 3 + 1.06e-6 * (1 + |h| / b) + 1.75 * η) :
    ∃ lam' φ' h' : ℚ, Is (w.geocentricToGeodetic v).elong lam' ∧ Is (w.geocentricToGeodetic v).phi φ' ∧
      Is (w.geocentricToGeodetic v).height h' ∧ |(h' : ℝ) - h| ≤ 1.01 * D ∧
      |(φ' : ℝ) - φ| * (0.98 * 6378137 + 0.99 * h) ≤ D ∧
      (3 * η + 1 / 10 ^ 9 ≤ (N + h) * Real.cos φ →
        |(lam' : ℝ)| ≤ 10 ∧ ∃ n : ℤ, |(lam' : ℝ) - (lam + n * (2 * Real.pi))| ≤ 3 * η / ((N + h) * Real.cos φ) + 1 / 2 ^ 50) := by
  have k1 : k ≤ 1 := by rw [hk]; norm_num
  have k2 : 0.99664 ≤ k := by rw [hk]; norm_num
  have b1 : 6356000 ≤ b := by rw [hb]; linarith
  have b2 : b ≤ 6378137 := by rw [hb]; linarith
  have bp : 0 < b := by linarith
  have h0' : -0.01 * b ≤ h := by linarith
  have hsz := size_bounds 6378137 k φ lam h η N b x y z
    (√(((x : ℝ) ^ 2 + (y : ℝ) ^ 2) / 6378137 ^ 2 + (z : ℝ) ^ 2 / b ^ 2)) (by norm_num) (by linarith) k1 hb hN h0'
    (Real.sqrt_nonneg _) (Real.sq_sqrt (by positivity)) η0 ex ey ez
  have hL2 := Real.sq_sqrt (by positivity : 0 ≤ ((x : ℝ) ^ 2 + (y : ℝ) ^ 2) / 6378137 ^ 2 + (z : ℝ) ^ 2 / b ^ 2)
  set L := √(((x : ℝ) ^ 2 + (y : ℝ) ^ 2) / 6378137 ^ 2 + (z : ℝ) ^ 2 / b ^ 2)
  have dB := dist_bound b h η L (by linarith) η0 η1 h0' hsz
  have t1 : η / b ≤ 1 / 10 ^ 13 := by
    rw [div_le_iff₀ bp]
    have : (1 : ℝ) / 10 ^ 13 * 6000000 ≤ 1 / 10 ^ 13 * b := mul_le_mul_of_nonneg_left (by linarith) (by norm_num)
    refine η1.trans (le_trans ?_ this)
    norm_num
  have out : 0.99 ≤ L := by
    rcases hsz with ⟨_, _, l⟩ | ⟨_, _, l⟩
    · norm_num at t1 ⊢; linarith
    · have : -0.008 ≤ h / b := by rw [le_div_iff₀ bp]; linarith
      norm_num at t1 this ⊢; linarith
  have far : L ≤ 10 ^ 4 := by
    rcases hsz with ⟨_, l, _⟩ | ⟨_, l, _⟩
    · have : h / b ≤ 9500 := by rw [div_le_iff₀ bp]; norm_num at h1; linarith
      norm_num at t1 ⊢; linarith
    · norm_num at t1 ⊢; linarith
  rw [hb] at hL2
  obtain ⟨lam', φ', h', S, i3, iS, i2, hS, hzS, hφ', hh', hd, -, -, hlon⟩ :=
    geo_parts hL hat w hw v x y z hx hy hz k L hk hL2 out far
  have S2 : (S : ℝ) ^ 2 = 1 := by rcases hS with ⟨e, _⟩ | ⟨e, _⟩ <;> rw [e] <;> norm_num
  have S3 : (S : ℝ) * S = 1 := by rw [← pow_two]; exact S2
  have Sc : Real.cos (S * φ') = Real.cos φ' := by
    rcases hS with ⟨e, _⟩ | ⟨e, _⟩ <;> rw [e] <;> push_cast
    · rw [one_mul]
    · rw [neg_one_mul, Real.cos_neg]
  have Ss : Real.sin (S * φ') = S * Real.sin φ' := by
    rcases hS with ⟨e, _⟩ | ⟨e, _⟩ <;> rw [e] <;> push_cast
    · rw [one_mul, one_mul]
    · rw [neg_one_mul, Real.sin_neg, neg_one_mul]
  have Sa : |(S : ℝ) * φ'| = |(φ' : ℝ)| := by
    rcases hS with ⟨e, _⟩ | ⟨e, _⟩ <;> rw [e] <;> push_cast
    · rw [one_mul]
    · rw [neg_one_mul, abs_neg]
  have Npos : 6378137 ≤ N := by
    have hq := dsup_le (by linarith) k1 φ
    have hq2 := dsup_ge (by linarith) k1 φ
    rw [hN, le_div_iff₀ (by unfold dsup at hq2; linarith)]
    unfold dsup at hq
    linarith
  have cp : 0 ≤ Real.cos φ := Real.cos_nonneg_of_neg_pi_div_two_le_of_le (abs_le.mp hφ).1 (abs_le.mp hφ).2
  have ρ0 : 0 ≤ (N + h) * Real.cos φ := mul_nonneg (by linarith) cp
  have pc := planar_close x y z ((N + h) * Real.cos φ) ((k ^ 2 * N + h) * Real.sin φ) lam η ρ0 ex ey ez
  have lip := inv_lip k 6378137 φ (S * φ') h h' D (by norm_num) k2 k1 ?_ (by linarith) (by linarith) ?_ ?_
  · refine ⟨lam', S * φ', h', i3, iS, i2, lip.1, ?_, ?_⟩
    · push_cast; exact lip.2
    · intro hρ
      have ρp : 0 < (N + h) * Real.cos φ := by
        have : (0 : ℝ) < 1 / 10 ^ 9 := by norm_num
        linarith
      have ρη : 3 * η ≤ (N + h) * Real.cos φ := by
        have : (0 : ℝ) < 1 / 10 ^ 9 := by norm_num
        linarith
      obtain ⟨n, hn⟩ := arg_near x y _ lam η ρp ρη ex ey
      have pbig : 64 / 10 ^ 11 < √((x : ℝ) ^ 2 + (y : ℝ) ^ 2) := by
        have h2 : |√((x : ℝ) ^ 2 + (y : ℝ) ^ 2) - (N + h) * Real.cos φ| ≤ 1.75 * η := by
          refine le_trans ?_ pc
          apply Real.abs_le_sqrt
          nlinarith [sq_nonneg ((z : ℝ) - (k ^ 2 * N + h) * Real.sin φ)]
        have h3 := (abs_le.mp h2).1
        norm_num at hρ ⊢
        linarith
      obtain ⟨l10, m, hm⟩ := hlon pbig
      refine ⟨l10, n + m, ?_⟩
      have e : (lam' : ℝ) - (lam + ((n + m : ℤ) : ℝ) * (2 * Real.pi)) =
          (Complex.arg ⟨x, y⟩ - (lam + n * (2 * Real.pi))) + (lam' - (Complex.arg ⟨x, y⟩ + m * (2 * Real.pi))) := by
        push_cast; ring
      rw [e]
      exact (abs_add_le _ _).trans (add_le_add hn hm)
  · have hpi := Real.pi_lt_d4
    have := abs_sub (S * φ' : ℝ) φ
    rw [Sa] at this
    norm_num at hφ' hpi this ⊢
    linarith
  · have r1 : |h| / (b + h) ≤ 1 := by
      rw [div_le_one (by linarith)]
      rcases abs_cases h with ⟨e, _⟩ | ⟨e, _⟩ <;> rw [e] <;> linarith
    have r0 : 0 ≤ |h| / (b + h) := div_nonneg (abs_nonneg _) (by linarith)
    have r3 := pow_le_one₀ (n := 3) r0 r1
    have r4 : |h| / b ≤ 9500 := by
      rw [div_le_iff₀ bp]
      norm_num at h1
      rcases abs_cases h with ⟨e, _⟩ | ⟨e, _⟩ <;> rw [e] <;> linarith
    rw [hD]
    generalize (|h| / (b + h)) ^ 3 = A at *
    norm_num at *
    linarith
  · unfold dsup
    rw [Sc, Ss, show ((S : ℝ) * Real.sin φ') ^ 2 = Real.sin φ' ^ 2 by linear_combination Real.sin φ' ^ 2 * S2, ← hN]
    set N' := 6378137 / √(Real.cos φ' ^ 2 + k ^ 2 * Real.sin φ' ^ 2)
    have T := tri3 ((N' + h') * Real.cos φ' - √((x : ℝ) ^ 2 + (y : ℝ) ^ 2)) (√((x : ℝ) ^ 2 + (y : ℝ) ^ 2) - (N + h) * Real.cos φ)
      (S * ((k ^ 2 * N' + h') * Real.sin φ' - |(z : ℝ)|)) (z - (k ^ 2 * N + h) * Real.sin φ) 0 0
    have e1 : ((N' + h') * Real.cos φ' - √((x : ℝ) ^ 2 + (y : ℝ) ^ 2) + (√((x : ℝ) ^ 2 + (y : ℝ) ^ 2) - (N + h) * Real.cos φ)) ^ 2 +
        (S * ((k ^ 2 * N' + h') * Real.sin φ' - |(z : ℝ)|) + (z - (k ^ 2 * N + h) * Real.sin φ)) ^ 2 + (0 + 0) ^ 2 =
        ((N' + h') * Real.cos φ' - (N + h) * Real.cos φ) ^ 2 +
        ((k ^ 2 * N' + h') * (S * Real.sin φ') - (k ^ 2 * N + h) * Real.sin φ) ^ 2 := by
      have : S * ((k ^ 2 * N' + h') * Real.sin φ' - |(z : ℝ)|) + (z - (k ^ 2 * N + h) * Real.sin φ) =
          (k ^ 2 * N' + h') * (S * Real.sin φ') - (k ^ 2 * N + h) * Real.sin φ := by linear_combination hzS
      rw [this]; ring
    have e2 : (S * ((k ^ 2 * N' + h') * Real.sin φ' - |(z : ℝ)|)) ^ 2 = ((k ^ 2 * N' + h') * Real.sin φ' - |(z : ℝ)|) ^ 2 := by
      rw [mul_pow, S2, one_mul]
    rw [e1, e2] at T
    rw [hD]
    exact T.trans (add_le_add (hd.trans dB) pc)

theorem rem_small (r b : ℚ) (hb : 0 < b) : |r - b * truncQ (r / b)| ≤ b := by
  unfold truncQ
  split
  · rename_i h
    have h1 := Int.floor_le (-(r / b))
    have h2 := Int.lt_floor_add_one (-(r / b))
    have e : r = b * (r / b) := by field_simp
    push_cast
    rw [abs_le]
    constructor <;> nlinarith
  · rename_i h
    have h1 := Int.floor_le (r / b)
    have h2 := Int.lt_floor_add_one (r / b)
    have e : r = b * (r / b) := by field_simp
    rw [abs_le]
    constructor <;> nlinarith

/-- The longitude in degrees of `Geodetic360::from`, modulo whole turns. -/
theorem wrap_turns {x : F64} {l : ℚ} (hx : Is x l) (hl : |(l : ℝ)| ≤ 10) :
    ∃ m : ℤ, Near (remEuclid (x /. DEGREE +. lit 180) (lit 360) -. lit 180) (l * 180 / Real.pi + m * 360) (7 / 10 ^ 13) := by
  have pp := Real.pi_pos
  have p1 := Real.pi_gt_d2
  have t := (NB.of_is hx hl).div degree_nb (β := 0.0174) (by
      rw [abs_of_pos (by positivity)]; norm_num at p1 ⊢; linarith) (by norm_num) (E := 15 / 10 ^ 14) (M := 580) (by norm_num)
  have i180 : Is (lit 180 : F64) 180 := by have := Is.lit_int 180 (by norm_num); norm_num at this; exact this
  have i360 : Is (lit 360 : F64) 360 := by have := Is.lit_int 360 (by norm_num); norm_num at this; exact this
  have i0 : Is (lit 0 : F64) 0 := by have := Is.lit_int 0 (by norm_num); norm_num at this; exact this
  have n180 : NB (lit 180 : F64) 180 0 180 := NB.of_is' i180 (by norm_num) (by norm_num)
  have n360 : NB (lit 360 : F64) 360 0 360 := NB.of_is' i360 (by norm_num) (by norm_num)
  have s := t.add n180 (E := 3 / 10 ^ 13) (M := 770) (by norm_num)
  obtain ⟨r, hr, e1, -⟩ := s.exists_is
  have hrem := hr.rem i360 (by norm_num)
  have sm := rem_small r 360 (by norm_num)
  set k := truncQ (r / 360)
  have smr : |(r : ℝ) - 360 * k| ≤ 360 := by
    have := (Rat.cast_le (K := ℝ)).mpr sm
    push_cast at this
    exact this
  have nr : NB ((x /. DEGREE +. lit 180) %. lit 360) (l / (Real.pi / 180) + 180 - 360 * k) (3 / 10 ^ 13) 361 := by
    refine ⟨⟨_, hrem, ?_⟩, ?_⟩
    · push_cast
      rw [show (r : ℝ) - 360 * k - (l / (Real.pi / 180) + 180 - 360 * k) = r - (l / (Real.pi / 180) + 180) by ring]
      exact e1
    · rw [abs_le] at *
      norm_num at *
      constructor <;> linarith
  have fin : ∀ (j : ℤ) (y : F64), NB y (l / (Real.pi / 180) + 180 + j * 360) (45 / 10 ^ 14) 722 →
      Near (y -. lit 180) (l * 180 / Real.pi + j * 360) (7 / 10 ^ 13) := fun j y hy => by
    refine (hy.sub n180 (E := 7 / 10 ^ 13) (M := 1000) (by norm_num)).near.congr ?_
    field_simp
    ring
  unfold remEuclid
  simp only
  split
  · refine ⟨1 - k, fin _ _ ?_⟩
    have n360' : NB (Arith.abs (lit 360 : F64)) 360 0 360 := NB.of_is' i360.abs (by norm_num) (by norm_num)
    have := (nr.add n360' (E := 45 / 10 ^ 14) (M := 722) (by norm_num))
    refine this.congr ?_
    push_cast
    ring
  · refine ⟨-k, fin _ _ ?_⟩
    have h1 : NB ((x /. DEGREE +. lit 180) %. lit 360) (l / (Real.pi / 180) + 180 - 360 * k) (45 / 10 ^ 14) 722 :=
      ⟨nr.near.mono (by norm_num), nr.mag.trans (by norm_num)⟩
    refine h1.congr ?_
    push_cast
    ring

/-- **C80.** The binary64 conversion finds the geodetic coordinates of a point.  Let a finite point be exactly the
point with longitude `lam`, latitude `φ` and height `h` (real numbers; 50 km below the ellipsoid to 60 million
kilometres above it).  Whatever the library, if accurate to `2^-50`, the height found is within `1.01 * D` and the
latitude within `D / (0.98 a + 0.99 h)` of the true ones, `D` being the method error `5 mm * (|h|/(b+h))^3` plus
`1.06` micrometres at the surface; the longitude within `2^-50` up to whole turns, if the point is off the axis by a
nanometre. -/
theorem C80_geodetic_coordinates_f64 [Libm F64] (hL : LibmAcc)
    (hat : ∀ (x : F64) (a : ℚ), Is x a → Near (Libm.atan x) (Real.arctan a) (1 / 2 ^ 50))
    (w : EllipsoidConverter F64) (hw : EllipsoidConverter.new WGS84 = .ok w) (v : Vec3 F64) (x y z : ℚ)
    (hx : Is v.x x) (hy : Is v.y y) (hz : Is v.z z) (k b N lam φ h D : ℝ) (hk : k = 1 - 1 / 298.257223563)
    (hb : b = 6378137 * k) (hN : N = 6378137 / √(Real.cos φ ^ 2 + k ^ 2 * Real.sin φ ^ 2)) (hφ : |φ| ≤ Real.pi / 2)
    (h0 : -50000 ≤ h) (h1 : h ≤ 6 * 10 ^ 10)
    (ex : (x : ℝ) = (N + h) * Real.cos φ * Real.cos lam) (ey : (y : ℝ) = (N + h) * Real.cos φ * Real.sin lam)
    (ez : (z : ℝ) = (k ^ 2 * N + h) * Real.sin φ)
    (hD : D = 0.005 * (|h| / (b + h)) ^ 3 + 1.06e-6 * (1 + |h| / b)) :
    ∃ lam' φ' h' : ℚ, Is (w.geocentricToGeodetic v).elong lam' ∧ Is (w.geocentricToGeodetic v).phi φ' ∧
      Is (w.geocentricToGeodetic v).height h' ∧ |(h' : ℝ) - h| ≤ 1.01 * D ∧
      |(φ' : ℝ) - φ| * (0.98 * 6378137 + 0.99 * h) ≤ D ∧
      (1 / 10 ^ 9 ≤ (N + h) * Real.cos φ → ∃ n : ℤ, |(lam' : ℝ) - (lam + n * (2 * Real.pi))| ≤ 1 / 2 ^ 50) := by
  obtain ⟨l, f, e, a1, a2, a3, a4, a5, a6⟩ := geodetic_near hL hat w hw v x y z hx hy hz k b N lam φ h 0 D hk hb hN hφ h0 h1
    le_rfl (by norm_num) (by rw [ex, sub_self, abs_zero]) (by rw [ey, sub_self, abs_zero]) (by rw [ez, sub_self, abs_zero])
    (by rw [hD]; ring)
  refine ⟨l, f, e, a1, a2, a3, a4, a5, fun hρ => ?_⟩
  obtain ⟨-, n, hn⟩ := a6 (by rw [mul_zero, zero_add]; exact hρ)
  refine ⟨n, hn.trans (le_of_eq ?_)⟩
  rw [mul_zero, zero_div, zero_add]

/-- Every point of the meridian half plane has a geodetic latitude and height. -/
theorem exists_geodetic (a k p z : ℝ) (k0 : 0 < k) (p0 : 0 ≤ p) (z0 : 0 ≤ z) :
    ∃ φ h : ℝ, 0 ≤ φ ∧ φ ≤ Real.pi / 2 ∧
      p = (a / √(Real.cos φ ^ 2 + k ^ 2 * Real.sin φ ^ 2) + h) * Real.cos φ ∧
      z = (k ^ 2 * (a / √(Real.cos φ ^ 2 + k ^ 2 * Real.sin φ ^ 2)) + h) * Real.sin φ := by
  have Dp : ∀ φ : ℝ, 0 < √(Real.cos φ ^ 2 + k ^ 2 * Real.sin φ ^ 2) := fun φ => by
    apply Real.sqrt_pos.mpr
    have t := Real.sin_sq_add_cos_sq φ
    have k2 := pow_pos k0 2
    rcases eq_or_ne (Real.sin φ) 0 with h | h
    · rw [h] at t ⊢; nlinarith
    · have : 0 < Real.sin φ ^ 2 := by positivity
      nlinarith [sq_nonneg (Real.cos φ), mul_pos k2 this]
  set N : ℝ → ℝ := fun φ => a / √(Real.cos φ ^ 2 + k ^ 2 * Real.sin φ ^ 2)
  set g : ℝ → ℝ := fun φ => p * Real.sin φ - z * Real.cos φ - (1 - k ^ 2) * N φ * (Real.sin φ * Real.cos φ)
  have hc : Continuous g := by
    have : Continuous N := by
      refine continuous_const.div (by fun_prop) fun φ => (Dp φ).ne'
    fun_prop
  have pp := Real.pi_pos
  have m : (0 : ℝ) ∈ g '' Set.Icc 0 (Real.pi / 2) := by
    apply intermediate_value_Icc (by positivity) hc.continuousOn
    simp only [g, Real.sin_zero, Real.cos_zero, Real.sin_pi_div_two, Real.cos_pi_div_two]
    constructor <;> simp <;> assumption
  obtain ⟨φ, ⟨f0, f1⟩, hg⟩ := m
  have t := Real.sin_sq_add_cos_sq φ
  refine ⟨φ, (p - N φ * Real.cos φ) * Real.cos φ + (z - k ^ 2 * N φ * Real.sin φ) * Real.sin φ, f0, f1, ?_, ?_⟩
  · show p = (N φ + _) * _
    simp only [g] at hg
    linear_combination (-p + N φ * Real.cos φ) * t + Real.sin φ * hg
  · show z = (k ^ 2 * N φ + _) * _
    simp only [g] at hg
    linear_combination (-z + k ^ 2 * N φ * Real.sin φ) * t - Real.cos φ * hg

/-- The height of a point in terms of its size relative to the ellipsoid. -/
theorem height_of_size (k φ h L : ℝ) (hk : k = 1 - 1 / 298.257223563) (φ0 : 0 ≤ φ) (φ1 : φ ≤ Real.pi / 2)
    (hp : 0 ≤ (6378137 / √(Real.cos φ ^ 2 + k ^ 2 * Real.sin φ ^ 2) + h) * Real.cos φ)
    (hz : 0 ≤ (k ^ 2 * (6378137 / √(Real.cos φ ^ 2 + k ^ 2 * Real.sin φ ^ 2)) + h) * Real.sin φ)
    (hL : L ^ 2 = ((6378137 / √(Real.cos φ ^ 2 + k ^ 2 * Real.sin φ ^ 2) + h) * Real.cos φ) ^ 2 / 6378137 ^ 2 +
      ((k ^ 2 * (6378137 / √(Real.cos φ ^ 2 + k ^ 2 * Real.sin φ ^ 2)) + h) * Real.sin φ) ^ 2 / (6378137 * k) ^ 2)
    (L0 : 0.9925 ≤ L) (L1 : L ≤ 9400) : -50000 ≤ h ∧ h ≤ 6 * 10 ^ 10 := by
  have k1 : k ≤ 1 := by rw [hk]; norm_num
  have k9 : 0.9966 ≤ k := by rw [hk]; norm_num
  have kp : 0 < k := by linarith
  have t := Real.sin_sq_add_cos_sq φ
  have q1 := dsup_ge kp.le k1 φ
  have q2 := dsup_le kp.le k1 φ
  have q3 := dsup_sq k φ
  change 0 ≤ (6378137 / dsup k φ + h) * Real.cos φ at hp
  change 0 ≤ (k ^ 2 * (6378137 / dsup k φ) + h) * Real.sin φ at hz
  change L ^ 2 = ((6378137 / dsup k φ + h) * Real.cos φ) ^ 2 / 6378137 ^ 2 +
      ((k ^ 2 * (6378137 / dsup k φ) + h) * Real.sin φ) ^ 2 / (6378137 * k) ^ 2 at hL
  have dp : 0 < dsup k φ := by linarith
  have N1 : 6378137 ≤ 6378137 / dsup k φ := by rw [le_div_iff₀ dp]; linarith
  have N2 : 6378137 / dsup k φ ≤ 6400000 := by rw [div_le_iff₀ dp]; linarith
  have N3 : (6378137 / dsup k φ) ^ 2 * (Real.cos φ ^ 2 + k ^ 2 * Real.sin φ ^ 2) = 6378137 ^ 2 := by
    rw [← q3]; field_simp
  set N := 6378137 / dsup k φ
  have c0 : 0 ≤ Real.cos φ := Real.cos_nonneg_of_neg_pi_div_two_le_of_le (by linarith) φ1
  have s0 : 0 ≤ Real.sin φ := Real.sin_nonneg_of_nonneg_of_le_pi φ0 (by linarith [Real.pi_pos])
  set c := Real.cos φ
  set s := Real.sin φ
  have hN : -N ≤ h := by
    rcases c0.eq_or_lt with h0 | h0
    · have s1 : 0 < s := by
        rcases s0.eq_or_lt with h1 | h1
        · rw [← h0, ← h1] at t; norm_num at t
        · exact h1
      have := nonneg_of_mul_nonneg_left hz s1
      nlinarith [pow_le_one₀ kp.le k1 (n := 2)]
    · have := nonneg_of_mul_nonneg_left hp h0
      linarith
  have e : (L * 6378137) ^ 2 = 6378137 ^ 2 + 2 * (h * N) + h ^ 2 * (c ^ 2 + s ^ 2 / k ^ 2) := by
    rw [mul_pow, hL]
    field_simp
    linear_combination k ^ 2 * N3 + 2 * N * h * k ^ 2 * t
  have q4 : c ^ 2 + s ^ 2 / k ^ 2 ≤ 1.007 := by
    have : s ^ 2 / k ^ 2 ≤ 1.007 * s ^ 2 := by
      rw [div_le_iff₀ (by positivity)]
      have : 1 ≤ 1.007 * k ^ 2 := by nlinarith
      nlinarith [mul_le_mul_of_nonneg_left this (sq_nonneg s)]
    nlinarith [sq_nonneg c]
  have q5 : 1 ≤ c ^ 2 + s ^ 2 / k ^ 2 := by
    have : s ^ 2 ≤ s ^ 2 / k ^ 2 := by
      rw [le_div_iff₀ (by positivity)]
      exact mul_le_of_le_one_right (sq_nonneg s) (pow_le_one₀ kp.le k1)
    linarith
  generalize c ^ 2 + s ^ 2 / k ^ 2 = q at *
  clear hL hp hz N3 t c0 s0
  constructor
  · by_contra hn
    push Not at hn
    have a1 : (0.9925 * 6378137) ^ 2 ≤ (L * 6378137) ^ 2 :=
      pow_le_pow_left₀ (by norm_num) (by linarith) 2
    rw [e] at a1
    have a2 : h * N ≤ h * 6378137 := mul_le_mul_of_nonpos_left N1 (by linarith)
    have a3 : h ^ 2 * q ≤ h ^ 2 * 1.007 := mul_le_mul_of_nonneg_left q4 (sq_nonneg h)
    have a4 : (h + 50000) * (h + 6400000) ≤ 0 := mul_nonpos_of_nonpos_of_nonneg (by linarith) (by linarith)
    nlinarith
  · rcases le_or_gt h 0 with h0 | h0
    · linarith
    · have a1 : h ^ 2 ≤ (L * 6378137) ^ 2 := by
        rw [e]
        have := mul_nonneg h0.le (by linarith : 0 ≤ N)
        have := mul_le_mul_of_nonneg_left q5 (sq_nonneg h)
        linarith
      have := abs_le_of_sq_le_sq a1 (by linarith)
      have := (abs_le.mp this).2
      linarith

/-- Every point of that range has real geodetic coordinates, with a height between −50 km and 6e10 m. -/
theorem geodetic_of_point (x y z k L : ℝ) (hk : k = 1 - 1 / 298.257223563)
    (hL2 : L ^ 2 = (x ^ 2 + y ^ 2) / 6378137 ^ 2 + z ^ 2 / (6378137 * k) ^ 2) (L0 : 0.9925 ≤ L) (L1 : L ≤ 9400) :
    ∃ lam φ h N : ℝ, |φ| ≤ Real.pi / 2 ∧ N = 6378137 / √(Real.cos φ ^ 2 + k ^ 2 * Real.sin φ ^ 2) ∧
      -50000 ≤ h ∧ h ≤ 6 * 10 ^ 10 ∧ x = (N + h) * Real.cos φ * Real.cos lam ∧
      y = (N + h) * Real.cos φ * Real.sin lam ∧ z = (k ^ 2 * N + h) * Real.sin φ := by
  have kp : 0 < k := by rw [hk]; norm_num
  have pn : 0 ≤ x ^ 2 + y ^ 2 := by positivity
  obtain ⟨φ, h, φ0, φ1, e1, e2⟩ := exists_geodetic 6378137 k (√(x ^ 2 + y ^ 2)) |z| kp (Real.sqrt_nonneg _) (abs_nonneg _)
  have hh := height_of_size k φ h L hk φ0 φ1 (by rw [← e1]; exact Real.sqrt_nonneg _) (by rw [← e2]; exact abs_nonneg _)
    (by rw [← e1, ← e2, Real.sq_sqrt pn, sq_abs]; exact hL2) L0 L1
  have c1 := Complex.norm_mul_cos_arg ⟨x, y⟩
  have c2 := Complex.norm_mul_sin_arg ⟨x, y⟩
  rw [Complex.norm_def, Complex.normSq_mk, ← pow_two, ← pow_two] at c1 c2
  simp only at c1 c2
  obtain ⟨σ, hσ, hzσ⟩ : ∃ σ : ℝ, (σ = 1 ∨ σ = -1) ∧ z = σ * |z| := by
    rcases le_total 0 z with h0 | h0
    · exact ⟨1, Or.inl rfl, by rw [abs_of_nonneg h0, one_mul]⟩
    · exact ⟨-1, Or.inr rfl, by rw [abs_of_nonpos h0]; ring⟩
  have Sc : Real.cos (σ * φ) = Real.cos φ := by
    rcases hσ with e | e <;> rw [e]
    · rw [one_mul]
    · rw [neg_one_mul, Real.cos_neg]
  have Ss : Real.sin (σ * φ) = σ * Real.sin φ := by
    rcases hσ with e | e <;> rw [e]
    · rw [one_mul, one_mul]
    · rw [neg_one_mul, Real.sin_neg, neg_one_mul]
  have Sa : |σ * φ| = |φ| := by
    rcases hσ with e | e <;> rw [e]
    · rw [one_mul]
    · rw [neg_one_mul, abs_neg]
  have S2 : σ ^ 2 = 1 := by rcases hσ with e | e <;> rw [e] <;> norm_num
  have eN : 6378137 / √(Real.cos (σ * φ) ^ 2 + k ^ 2 * Real.sin (σ * φ) ^ 2) =
      6378137 / √(Real.cos φ ^ 2 + k ^ 2 * Real.sin φ ^ 2) := by
    rw [Sc, Ss, mul_pow, S2, one_mul]
  have hφ : |σ * φ| ≤ Real.pi / 2 := by rw [Sa, abs_of_nonneg φ0]; exact φ1
  have ex : x = (6378137 / √(Real.cos (σ * φ) ^ 2 + k ^ 2 * Real.sin (σ * φ) ^ 2) + h) * Real.cos (σ * φ) *
      Real.cos (Complex.arg ⟨x, y⟩) := by rw [eN, Sc, ← e1]; exact c1.symm
  have ey : y = (6378137 / √(Real.cos (σ * φ) ^ 2 + k ^ 2 * Real.sin (σ * φ) ^ 2) + h) * Real.cos (σ * φ) *
      Real.sin (Complex.arg ⟨x, y⟩) := by rw [eN, Sc, ← e1]; exact c2.symm
  have ez : z = (k ^ 2 * (6378137 / √(Real.cos (σ * φ) ^ 2 + k ^ 2 * Real.sin (σ * φ) ^ 2)) + h) * Real.sin (σ * φ) := by
    rw [eN, Ss]; linear_combination hzσ + σ * e2
  exact ⟨Complex.arg ⟨x, y⟩, σ * φ, h, _, hφ, rfl, hh.1, hh.2, ex, ey, ez⟩

/-- **C80.** Every finite point from 47 km below the ellipsoid to 9400 times its size has real geodetic coordinates, and
those found by the binary64 code are close to them. -/
theorem C80_every_point [Libm F64] (hL : LibmAcc)
    (hat : ∀ (x : F64) (a : ℚ), Is x a → Near (Libm.atan x) (Real.arctan a) (1 / 2 ^ 50))
    (w : EllipsoidConverter F64) (hw : EllipsoidConverter.new WGS84 = .ok w) (v : Vec3 F64) (x y z : ℚ)
    (hx : Is v.x x) (hy : Is v.y y) (hz : Is v.z z) (k L : ℝ) (hk : k = 1 - 1 / 298.257223563)
    (hL2 : L ^ 2 = ((x : ℝ) ^ 2 + (y : ℝ) ^ 2) / 6378137 ^ 2 + (z : ℝ) ^ 2 / (6378137 * k) ^ 2)
    (L0 : 0.9925 ≤ L) (L1 : L ≤ 9400) :
    ∃ lam φ h N D : ℝ, |φ| ≤ Real.pi / 2 ∧ N = 6378137 / √(Real.cos φ ^ 2 + k ^ 2 * Real.sin φ ^ 2) ∧
      (x : ℝ) = (N + h) * Real.cos φ * Real.cos lam ∧ (y : ℝ) = (N + h) * Real.cos φ * Real.sin lam ∧
      (z : ℝ) = (k ^ 2 * N + h) * Real.sin φ ∧
      D = 0.005 * (|h| / (6378137 * k + h)) ^ 3 + 1.06e-6 * (1 + |h| / (6378137 * k)) ∧
      ∃ lam' φ' h' : ℚ, Is (w.geocentricToGeodetic v).elong lam' ∧ Is (w.geocentricToGeodetic v).phi φ' ∧
        Is (w.geocentricToGeodetic v).height h' ∧ |(h' : ℝ) - h| ≤ 1.01 * D ∧
        |(φ' : ℝ) - φ| * (0.98 * 6378137 + 0.99 * h) ≤ D ∧
        (1 / 10 ^ 9 ≤ (N + h) * Real.cos φ → ∃ n : ℤ, |(lam' : ℝ) - (lam + n * (2 * Real.pi))| ≤ 1 / 2 ^ 50) := by
  obtain ⟨lam, φ, h, N, hφ, hN, h0, h1, ex, ey, ez⟩ := geodetic_of_point x y z k L hk hL2 L0 L1
  exact ⟨lam, φ, h, N, _, hφ, hN, ex, ey, ez, rfl,
    C80_geodetic_coordinates_f64 hL hat w hw v x y z hx hy hz k _ _ _ _ h _ hk rfl hN hφ h0 h1 ex ey ez rfl⟩

/-- The hypotheses hold for the point of the equator 1000 m above the ellipsoid, with a library that exists. -/
example : ∃ L : Libm F64, @LibmAcc L ∧ (∀ (x : F64) (a : ℚ), Is x a → Near (L.atan x) (Real.arctan a) (1 / 2 ^ 50)) ∧
    ∃ w, EllipsoidConverter.new (WGS84 : Ellipsoid F64) = .ok w ∧
    ∃ v : Vec3 F64, Is v.x (6379137 : ℤ) ∧ Is v.y (0 : ℤ) ∧ Is v.z (0 : ℤ) ∧
      ∀ k N : ℝ, N = 6378137 / √(Real.cos 0 ^ 2 + k ^ 2 * Real.sin 0 ^ 2) →
        (((6379137 : ℤ) : ℚ) : ℝ) = (N + 1000) * Real.cos 0 * Real.cos 0 ∧ (((0 : ℤ) : ℚ) : ℝ) = (N + 1000) * Real.cos 0 * Real.sin 0 ∧
          (((0 : ℤ) : ℚ) : ℝ) = (k ^ 2 * N + 1000) * Real.sin 0 := by
  obtain ⟨w, hw⟩ := wgs84_f64
  refine ⟨goodLibm, exists_libmAcc, goodLibm_atan, w, hw, ⟨Arith.ofInt 6379137, Arith.ofInt 0, Arith.ofInt 0⟩,
    Is.ofInt 6379137 (by norm_num), Is.ofInt 0 (by norm_num), Is.ofInt 0 (by norm_num), fun k N hN => ?_⟩
  subst hN
  simp
  norm_num

/-- **C81.** Geodetic to geocentric and back in binary64.  For every finite longitude up to 360 degrees and latitude up
to 90 degrees in magnitude and every finite height from -50 km to 10000 km, both conversions by the WGS84 converter
succeed and give back the height within `1.01 * D`, the latitude within `D / (0.98 a + 0.99 h)` and, away from the
poles, the longitude within `9e-7 / ρ + 2^-50` radians up to whole turns, `ρ` being the distance from the axis. -/
theorem C81_round_trip_f64 [Libm F64] (hL : LibmAcc)
    (hat : ∀ (x : F64) (a : ℚ), Is x a → Near (Libm.atan x) (Real.arctan a) (1 / 2 ^ 50))
    (w : EllipsoidConverter F64) (hw : EllipsoidConverter.new WGS84 = .ok w) (g : Geodetic360 F64)
    (l p h : ℚ) (hl : Is g.lon l) (hp : Is g.lat p) (hh : Is g.height h) (l1 : |l| ≤ 360) (p1 : |p| ≤ 90)
    (h0 : -50000 ≤ h) (h1 : h ≤ 10 ^ 7) (k b N lam φ D : ℝ) (hlam : lam = l * (Real.pi / 180))
    (hφ : φ = p * (Real.pi / 180)) (hk : k = 1 - 1 / 298.257223563) (hb : b = 6378137 * k)
    (hN : N = 6378137 / √(Real.cos φ ^ 2 + k ^ 2 * Real.sin φ ^ 2))
    (hD : D = 0.005 * (|(h : ℝ)| / (b + h)) ^ 3 + 1.06e-6 * (1 + |(h : ℝ)| / b) + 5.25e-7) :
    ∃ v, w.geodeticToGeocentric (Geodetic.from360 g) = .ok v ∧
      ∃ lam' φ' h' : ℚ, Is (w.geocentricToGeodetic v).elong lam' ∧ Is (w.geocentricToGeodetic v).phi φ' ∧
        Is (w.geocentricToGeodetic v).height h' ∧ |(h' : ℝ) - h| ≤ 1.01 * D ∧
        |(φ' : ℝ) - φ| * (0.98 * 6378137 + 0.99 * h) ≤ D ∧
        (1e-6 ≤ (N + h) * Real.cos φ →
          |(lam' : ℝ)| ≤ 10 ∧ ∃ n : ℤ, |(lam' : ℝ) - (lam + n * (2 * Real.pi))| ≤ 9e-7 / ((N + h) * Real.cos φ) + 1 / 2 ^ 50) := by
  have h0r : (-50000 : ℝ) ≤ h := by exact_mod_cast h0
  have h1r : (h : ℝ) ≤ 10 ^ 7 := by exact_mod_cast h1
  obtain ⟨v, hv, nx, ny, nz⟩ := C71_geocentric_f64 hL w hw g l p h hl hp hh l1 (p1.trans (by norm_num))
    (abs_le.mpr ⟨by linarith, h1⟩) lam φ (k ^ 2) N hlam hφ (by rw [hk]) hN
  obtain ⟨x, ix, ex⟩ := nx
  obtain ⟨y, iy, ey⟩ := ny
  obtain ⟨z, iz, ez⟩ := nz
  have hφ1 : |φ| ≤ Real.pi / 2 := by
    have : |(p : ℝ)| ≤ 90 := by exact_mod_cast p1
    rw [hφ, abs_mul, abs_of_pos (by positivity : (0 : ℝ) < Real.pi / 180)]
    have := mul_le_mul_of_nonneg_right this (by positivity : (0 : ℝ) ≤ Real.pi / 180)
    linarith
  obtain ⟨l', f, e, a1, a2, a3, a4, a5, a6⟩ := geodetic_near hL hat w hw v x y z ix iy iz k b N lam φ h (3 / 10 ^ 7) D hk hb hN hφ1 h0r
    (h1r.trans (by norm_num)) (by norm_num) le_rfl ex ey ez (by rw [hD]; norm_num)
  refine ⟨v, hv, l', f, e, a1, a2, a3, a4, a5, fun hρ => ?_⟩
  obtain ⟨l10, n, hn⟩ := a6 (by norm_num at hρ ⊢; linarith)
  refine ⟨l10, n, hn.trans (le_of_eq ?_)⟩
  norm_num

theorem cos_ge_far (φ : ℝ) (hφ : |φ| ≤ Real.pi / 2 - 1 / 10 ^ 10) : 1 / 10 ^ 11 ≤ Real.cos φ := by
  have p := Real.pi_pos
  have p4 := Real.pi_lt_four
  rw [← Real.cos_abs, ← Real.sin_pi_div_two_sub]
  have h := Real.mul_le_sin (x := Real.pi / 2 - |φ|) (by norm_num at hφ ⊢; linarith) (by linarith [abs_nonneg φ])
  refine le_trans ?_ h
  have : (1 : ℝ) / 10 ^ 10 ≤ Real.pi / 2 - |φ| := by linarith
  have h2 : 1 / 2 ≤ 2 / Real.pi := by rw [div_le_div_iff₀ (by norm_num) p]; linarith
  have := mul_le_mul h2 this (by norm_num) (by positivity)
  norm_num at this ⊢
  linarith

set_option maxHeartbeats 1000000 in
/-- **C81.** The same round trip in degrees, including `Geodetic360::from`, in debug and release builds: for every
latitude at least `2e-8` degrees away from the poles nothing panics and the position in degrees comes back, latitude
and longitude (up to whole turns, and between -180 and 180 degrees) with the errors of C81 plus `1e-12` degrees. -/
theorem C81_degrees [Libm F64] (hL : LibmAcc)
    (hat : ∀ (x : F64) (a : ℚ), Is x a → Near (Libm.atan x) (Real.arctan a) (1 / 2 ^ 50))
    (w : EllipsoidConverter F64) (hw : EllipsoidConverter.new WGS84 = .ok w) (g : Geodetic360 F64)
    (l p h : ℚ) (hl : Is g.lon l) (hp : Is g.lat p) (hh : Is g.height h) (l1 : |l| ≤ 360) (p1 : |p| ≤ 90 - 2 / 10 ^ 8)
    (h0 : -50000 ≤ h) (h1 : h ≤ 10 ^ 7) (k b N φ D : ℝ)
    (hφ : φ = p * (Real.pi / 180)) (hk : k = 1 - 1 / 298.257223563) (hb : b = 6378137 * k)
    (hN : N = 6378137 / √(Real.cos φ ^ 2 + k ^ 2 * Real.sin φ ^ 2))
    (hD : D = 0.005 * (|(h : ℝ)| / (b + h)) ^ 3 + 1.06e-6 * (1 + |(h : ℝ)| / b) + 5.25e-7) (pr : Profile) :
    ∃ v r, w.geodeticToGeocentric (Geodetic.from360 g) = .ok v ∧
      Geodetic360.fromGeodetic pr (w.geocentricToGeodetic v) = .ok r ∧
      ∃ l' p' h' : ℚ, Is r.lon l' ∧ Is r.lat p' ∧ Is r.height h' ∧ -180 ≤ l' ∧ l' ≤ 180 ∧ |(h' : ℝ) - h| ≤ 1.01 * D ∧
        |(p' : ℝ) - p| ≤ D / (0.98 * 6378137 + 0.99 * h) * (180 / Real.pi) + 1e-12 ∧
        ∃ n : ℤ, |(l' : ℝ) - (l + n * 360)| ≤ 9e-7 / ((N + h) * Real.cos φ) * (180 / Real.pi) + 1e-12 := by
  have pp := Real.pi_pos
  have pi3 := Real.pi_gt_three
  have pi4 := Real.pi_lt_four
  have h0r : (-50000 : ℝ) ≤ h := by exact_mod_cast h0
  have h1r : (h : ℝ) ≤ 10 ^ 7 := by exact_mod_cast h1
  have p1r : |(p : ℝ)| ≤ 90 - 2 / 10 ^ 8 := by
    have := (Rat.cast_le (K := ℝ)).mpr p1
    push_cast at this
    exact this
  obtain ⟨v, hv, lam', φ', h', a1, a2, a3, a4, a5, a6⟩ := C81_round_trip_f64 hL hat w hw g l p h hl hp hh l1
    (p1.trans (by norm_num)) h0 h1 k b N _ φ D rfl hφ hk hb hN hD
  have b1 : 6356000 ≤ b := by rw [hb, hk]; norm_num
  have bp : 0 < b := by linarith
  -- the latitude stays inside
  have φ1 : |φ| ≤ Real.pi / 2 - 34 / 10 ^ 11 := by
    rw [hφ, abs_mul, abs_of_pos (by positivity : (0 : ℝ) < Real.pi / 180)]
    have := mul_le_mul_of_nonneg_right p1r (by positivity : (0 : ℝ) ≤ Real.pi / 180)
    refine this.trans ?_
    have : 3.1 < Real.pi := by have := Real.pi_gt_d2; norm_num at this ⊢; linarith
    norm_num at this ⊢
    linarith
  have W0 : 0 < 0.98 * 6378137 + 0.99 * (h : ℝ) := by linarith
  have Dw : D ≤ 2 / 10 ^ 10 * (0.98 * 6378137 + 0.99 * (h : ℝ)) := by
    have bh : 0 < b + h := by linarith
    have b2 : |(h : ℝ)| ≤ 10 ^ 7 := abs_le.mpr ⟨by linarith, h1r⟩
    have r1 : |(h : ℝ)| / (b + h) ≤ 0.612 := by
      rw [div_le_iff₀ bh]
      norm_num at h1r
      rcases abs_cases (h : ℝ) with ⟨e, _⟩ | ⟨e, _⟩ <;> rw [e] <;> linarith
    have r0 : 0 ≤ |(h : ℝ)| / (b + h) := div_nonneg (abs_nonneg _) bh.le
    have r3 := pow_le_pow_left₀ r0 r1 3
    have r4 : |(h : ℝ)| / b ≤ 1.6 := by
      rw [div_le_iff₀ bp]
      norm_num at b2
      linarith
    rw [hD]
    generalize (|(h : ℝ)| / (b + h)) ^ 3 = A at *
    generalize |(h : ℝ)| / b = B at *
    norm_num at r3 r4 ⊢
    linarith
  have Δ : |(φ' : ℝ) - φ| ≤ 2 / 10 ^ 10 := by
    have := a5.trans Dw
    exact le_of_mul_le_mul_right this W0
  have φ'1 : |(φ' : ℝ)| ≤ Real.pi / 2 - 1 / 10 ^ 13 := by
    have : |(φ' : ℝ)| ≤ |(φ' : ℝ) - φ| + |φ| := by
      have := abs_add_le ((φ' : ℝ) - φ) φ
      rwa [sub_add_cancel] at this
    norm_num at φ1 Δ ⊢
    linarith
  have cφ := cos_ge_far φ (φ1.trans (by norm_num; linarith))
  have Np : 6378137 ≤ N := by
    have k1 : k ≤ 1 := by rw [hk]; norm_num
    have k0 : 0.9 ≤ k := by rw [hk]; norm_num
    have hq := dsup_le (by linarith) k1 φ
    have hq2 := dsup_ge (by linarith) k1 φ
    rw [hN, le_div_iff₀ (by unfold dsup at hq2; linarith)]
    unfold dsup at hq
    linarith
  have ρ1 : 1e-6 ≤ (N + h) * Real.cos φ := by
    have := mul_le_mul (by linarith : 6300000 ≤ N + h) cφ (by norm_num) (by linarith)
    refine le_trans (by norm_num) this
  obtain ⟨l10, n, hn⟩ := a6 ρ1
  have ρp : 0 < (N + h) * Real.cos φ := lt_of_lt_of_le (by norm_num) ρ1
  have n2 := wrap_nb 90 (by norm_num) (by norm_num) a2 (φ'1.trans (by push_cast; linarith))
  obtain ⟨m, n1⟩ := wrap_turns a1 l10
  have big : ∀ q : ℚ, |(q : ℝ)| ≤ 10 → |q| ≤ 10 ^ 300 := fun q hq => by
    have h2 : (10 : ℝ) ^ 1 ≤ 10 ^ 300 := pow_le_pow_right₀ (by norm_num) (by norm_num)
    have : |(q : ℝ)| ≤ 10 ^ 300 := hq.trans (by rw [pow_one] at h2; exact h2)
    exact_mod_cast this
  obtain ⟨r, hr⟩ := C51_no_panic (w.geocentricToGeodetic v) lam' φ' a1 a2 (big _ l10) (big _ (by norm_num at φ'1 ⊢; linarith)) pr
  have fin : isFin ((w.geocentricToGeodetic v).elong /. DEGREE) = true := by
    obtain ⟨r', hr'⟩ := C51_no_panic (w.geocentricToGeodetic v) lam' φ' a1 a2 (big _ l10) (big _ (by norm_num at φ'1 ⊢; linarith)) .checked
    exact ((C51_assertions_iff _).mp ⟨r', hr'⟩).1
  obtain ⟨o, io, o1, o2⟩ := normalise_f64 180 (by norm_num) (by norm_num) fin
  have hv' : r = ⟨remEuclid ((w.geocentricToGeodetic v).elong /. DEGREE +. lit 180) (lit 360) -. lit 180,
      remEuclid ((w.geocentricToGeodetic v).phi /. DEGREE +. lit 90) (lit 180) -. lit 90, (w.geocentricToGeodetic v).height⟩ := by
    unfold Geodetic360.fromGeodetic at hr
    simp only at hr
    split at hr
    · cases hr
    · split at hr
      · cases hr
      · cases hr; rfl
  norm_num at n2 io o1 o2
  obtain ⟨o', io', eo⟩ := n1
  obtain ⟨a, ia, ea⟩ := n2
  have oo : o' = o := io'.2.symm.trans io.2
  subst oo
  refine ⟨v, r, hv, hr, o', a, h', by rw [hv']; exact io, by rw [hv']; exact ia, by rw [hv']; exact a3, o1, o2, a4, ?_, n + m, ?_⟩
  · have e1 : |(φ' : ℝ) - φ| ≤ D / (0.98 * 6378137 + 0.99 * h) := by rw [le_div_iff₀ W0]; exact a5
    have e2 : φ' * 180 / Real.pi - p = ((φ' : ℝ) - φ) * (180 / Real.pi) := by rw [hφ]; field_simp
    have e3 : |φ' * 180 / Real.pi - (p : ℝ)| ≤ D / (0.98 * 6378137 + 0.99 * h) * (180 / Real.pi) := by
      rw [e2, abs_mul, abs_of_pos (by positivity : 0 < 180 / Real.pi)]
      exact mul_le_mul_of_nonneg_right e1 (by positivity)
    have e4 : (a : ℝ) - p = (a - φ' * 180 / Real.pi) + (φ' * 180 / Real.pi - p) := by ring
    rw [e4]
    refine (abs_add_le _ _).trans ((add_le_add ea e3).trans ?_)
    norm_num
    linarith
  · have e2 : lam' * 180 / Real.pi - (l + n * 360) = ((lam' : ℝ) - (l * (Real.pi / 180) + n * (2 * Real.pi))) * (180 / Real.pi) := by
      field_simp; ring
    have e3 : |lam' * 180 / Real.pi - ((l : ℝ) + n * 360)| ≤ (9e-7 / ((N + h) * Real.cos φ) + 1 / 2 ^ 50) * (180 / Real.pi) := by
      rw [e2, abs_mul, abs_of_pos (by positivity : 0 < 180 / Real.pi)]
      exact mul_le_mul_of_nonneg_right hn (by positivity)
    have e4 : (o' : ℝ) - (l + ((n + m : ℤ) : ℝ) * 360) = (o' - (lam' * 180 / Real.pi + m * 360)) + (lam' * 180 / Real.pi - (l + n * 360)) := by
      push_cast; ring
    rw [e4]
    refine (abs_add_le _ _).trans ((add_le_add eo e3).trans ?_)
    have e5 : 180 / Real.pi ≤ 60 := by rw [div_le_iff₀ pp]; linarith
    rw [add_mul]
    generalize 9e-7 / ((N + h) * Real.cos φ) * (180 / Real.pi) = Q
    generalize 180 / Real.pi = T at *
    norm_num
    linarith

/-- **C81.** The errors in figures: up to 50 km above or below the ellipsoid the height comes back to within 1.7
micrometres and the latitude to within `1.6e-11` degrees. -/
theorem C81_near_surface [Libm F64] (hL : LibmAcc)
    (hat : ∀ (x : F64) (a : ℚ), Is x a → Near (Libm.atan x) (Real.arctan a) (1 / 2 ^ 50))
    (w : EllipsoidConverter F64) (hw : EllipsoidConverter.new WGS84 = .ok w) (g : Geodetic360 F64)
    (l p h : ℚ) (hl : Is g.lon l) (hp : Is g.lat p) (hh : Is g.height h) (l1 : |l| ≤ 360) (p1 : |p| ≤ 90 - 2 / 10 ^ 8)
    (h1 : |h| ≤ 50000) (pr : Profile) :
    ∃ v r, w.geodeticToGeocentric (Geodetic.from360 g) = .ok v ∧
      Geodetic360.fromGeodetic pr (w.geocentricToGeodetic v) = .ok r ∧
      ∃ p' h' : ℚ, Is r.lat p' ∧ Is r.height h' ∧ |h' - h| ≤ 1.7e-6 ∧ |p' - p| ≤ 1.6e-11 := by
  have pi3 := Real.pi_gt_d2
  obtain ⟨h2, h3⟩ := abs_le.mp h1
  obtain ⟨v, r, e1, e2, l', p', h', i1, i2, i3, -, -, d1, d2, -⟩ := C81_degrees hL hat w hw g l p h hl hp hh l1 p1 h2
    (h3.trans (by norm_num)) _ _ _ _ _ rfl rfl rfl rfl rfl pr
  have h1r : |(h : ℝ)| ≤ 50000 := by
    have := (Rat.cast_le (K := ℝ)).mpr h1
    push_cast at this
    exact this
  obtain ⟨h2r, h3r⟩ := abs_le.mp h1r
  set b : ℝ := 6378137 * (1 - 1 / 298.257223563) with hb
  have b1 : 6356000 ≤ b := by rw [hb]; norm_num
  have bh : 0 < b + h := by linarith
  have r1 : |(h : ℝ)| / (b + h) ≤ 0.008 := by
    rw [div_le_iff₀ bh]
    linarith
  have r3 := pow_le_pow_left₀ (div_nonneg (abs_nonneg _) bh.le) r1 3
  have r4 : |(h : ℝ)| / b ≤ 0.008 := by
    rw [div_le_iff₀ (by linarith)]
    linarith
  set D := 0.005 * (|(h : ℝ)| / (b + h)) ^ 3 + 1.06e-6 * (1 + |(h : ℝ)| / b) + 5.25e-7 with hD
  have D1 : D ≤ 1.6e-6 := by
    rw [hD]
    generalize (|(h : ℝ)| / (b + h)) ^ 3 = A at *
    generalize |(h : ℝ)| / b = B at *
    norm_num at r3 r4 ⊢
    linarith
  refine ⟨v, r, e1, e2, p', h', i2, i3, ?_, ?_⟩
  · have : |(h' : ℝ) - h| ≤ 1.7e-6 := d1.trans (by norm_num at D1 ⊢; linarith)
    apply (Rat.cast_le (K := ℝ)).mp
    push_cast
    exact this.trans (by norm_num)
  · have t1 : D / (0.98 * 6378137 + 0.99 * (h : ℝ)) ≤ 2.6e-13 := by
      rw [div_le_iff₀ (by linarith)]
      norm_num at D1 ⊢
      linarith
    have t2 : 180 / Real.pi ≤ 57.4 := by
      rw [div_le_iff₀ Real.pi_pos]
      norm_num at pi3 ⊢
      linarith
    have t3 := mul_le_mul t1 t2 (by positivity) (by norm_num)
    have : |(p' : ℝ) - p| ≤ 1.6e-11 := by
      refine d2.trans ((add_le_add t3 le_rfl).trans ?_)
      norm_num
    apply (Rat.cast_le (K := ℝ)).mp
    push_cast
    exact this.trans (by norm_num)

/-- The hypotheses hold for 2 degrees East, 48 degrees North, 35 m below the ellipsoid. -/
example : ∃ L : Libm F64, @LibmAcc L ∧ (∀ (x : F64) (a : ℚ), Is x a → Near (L.atan x) (Real.arctan a) (1 / 2 ^ 50)) ∧
    ∃ w, EllipsoidConverter.new (WGS84 : Ellipsoid F64) = .ok w ∧
    ∃ g : Geodetic360 F64, Is g.lon (2 : ℤ) ∧ Is g.lat (48 : ℤ) ∧ Is g.height (-35 : ℤ) := by
  obtain ⟨w, hw⟩ := wgs84_f64
  exact ⟨goodLibm, exists_libmAcc, goodLibm_atan, w, hw, ⟨Arith.ofInt 2, Arith.ofInt 48, Arith.ofInt (-35)⟩,
    Is.ofInt 2 (by norm_num), Is.ofInt 48 (by norm_num), Is.ofInt (-35) (by norm_num)⟩

end Verif
