import Verif.Lemmas.HeightForward
import Verif.Props.GeodeticRoundTrip

/-!
# C80, C81: the height found by the binary64 code, to a few units in the last place
-/

namespace Verif
open Arith F64

/-- The radius of curvature of the prime vertical. -/
theorem prime_vertical (W N φ : ℝ) (W1 : 0.99 ≤ W) (W2 : W ≤ 1)
    (hN : N = 6378137 / √(Real.cos φ ^ 2 + W * Real.sin φ ^ 2)) : 6378137 ≤ N ∧ N ≤ 6500000 := by
  have t := Real.sin_sq_add_cos_sq φ
  have l : 0.99 ≤ √(Real.cos φ ^ 2 + W * Real.sin φ ^ 2) := Real.le_sqrt_of_sq_le (by
    nlinarith [sq_nonneg (Real.sin φ), sq_nonneg (Real.cos φ)])
  have l1 : √(Real.cos φ ^ 2 + W * Real.sin φ ^ 2) ≤ 1 := Real.sqrt_le_one.mpr (by nlinarith [sq_nonneg (Real.sin φ)])
  rw [hN, le_div_iff₀ (by linarith), div_le_iff₀ (by linarith)]
  constructor <;> linarith

/-- **C80.** The height found by the binary64 code has an error of a few units in the last place: for every finite point
that is exactly the one with longitude `lam`, latitude `φ` and height `h` (50 km below the ellipsoid to 60 million
kilometres above it) and every library accurate to `2^-50`, it is within `1e-15 * (6378137 m + |h|)` of `h`: 6.4
nanometres at the surface.  The latitude used by the code is in error by up to `1e-9`; the formula for the height is
stationary there. -/
theorem C80_height_f64 [Libm F64] (hL : LibmAcc)
    (hat : ∀ (x : F64) (a : ℚ), Is x a → Near (Libm.atan x) (Real.arctan a) (1 / 2 ^ 50))
    (w : EllipsoidConverter F64) (hw : EllipsoidConverter.new WGS84 = .ok w) (v : Vec3 F64) (x y z : ℚ)
    (hx : Is v.x x) (hy : Is v.y y) (hz : Is v.z z) (k N lam φ h : ℝ) (hk : k = 1 - 1 / 298.257223563)
    (hN : N = 6378137 / √(Real.cos φ ^ 2 + k ^ 2 * Real.sin φ ^ 2)) (hφ : |φ| ≤ Real.pi / 2)
    (h0 : -50000 ≤ h) (h1 : h ≤ 6 * 10 ^ 10)
    (ex : (x : ℝ) = (N + h) * Real.cos φ * Real.cos lam) (ey : (y : ℝ) = (N + h) * Real.cos φ * Real.sin lam)
    (ez : (z : ℝ) = (k ^ 2 * N + h) * Real.sin φ) :
    ∃ h' : ℚ, Is (w.geocentricToGeodetic v).height h' ∧ |(h' : ℝ) - h| ≤ 1e-15 * (6378137 + |h|) := by
  obtain ⟨E, hE, eE⟩ := (wgsConst hw).ec2.near
  rw [← hk] at eE
  have kk1 : 0.9933 ≤ k ^ 2 := by rw [hk]; norm_num
  have kk2 : k ^ 2 ≤ 0.9934 := by rw [hk]; norm_num
  obtain ⟨N1, N2⟩ := prime_vertical (k ^ 2) N φ (by linarith) (by linarith) hN
  obtain ⟨φ0, φ1⟩ := abs_le.mp hφ
  have c0 := Real.cos_nonneg_of_mem_Icc ⟨by linarith, φ1⟩
  have A0 : 0 < k ^ 2 * N + h := by nlinarith
  obtain ⟨p, hp⟩ : ∃ p, p = √((x : ℝ) ^ 2 + (y : ℝ) ^ 2) := ⟨_, rfl⟩
  have ep : p = (N + h) * Real.cos φ := by
    have : (x : ℝ) ^ 2 + (y : ℝ) ^ 2 = ((N + h) * Real.cos φ) ^ 2 := by
      rw [ex, ey]
      linear_combination ((N + h) * Real.cos φ) ^ 2 * Real.sin_sq_add_cos_sq lam
    rw [hp, this, Real.sqrt_sq (mul_nonneg (by linarith) c0)]
  obtain ⟨φ', h', -, i2, -, e2, -⟩ := height_core hL hat w hw v x y z hx hy hz E hE k (k ^ 2) N φ h 0 p hk
    (by rw [sub_self, abs_zero]; norm_num) hN hφ h0 h1 le_rfl (by rw [zero_mul]; norm_num) hp
    (by rw [ep, sub_self, abs_zero, zero_mul]; norm_num) (by rw [ez, sub_self, abs_zero, zero_mul]; norm_num)
    (fun hz0 => by
      by_contra hneg
      have : Real.sin φ < 0 := Real.sin_neg_of_neg_of_neg_pi_lt (not_le.mp hneg) (by linarith [Real.pi_pos])
      have z0 : (0 : ℝ) ≤ z := by exact_mod_cast hz0
      rw [ez] at z0
      nlinarith)
    (fun hz0 => by
      by_contra hpos
      have : 0 < Real.sin φ := Real.sin_pos_of_pos_of_lt_pi (not_le.mp hpos) (by linarith [Real.pi_pos])
      have z0 : (z : ℝ) < 0 := by exact_mod_cast hz0
      rw [ez] at z0
      nlinarith)
  refine ⟨h', i2, e2.trans ?_⟩
  have := abs_nonneg h
  norm_num at eE ⊢
  linarith

/-- A point 1000 m above the equator. -/
example : ∃ L : Libm F64, @LibmAcc L ∧ (∀ (x : F64) (a : ℚ), Is x a → Near (L.atan x) (Real.arctan a) (1 / 2 ^ 50)) ∧
    ∃ w, EllipsoidConverter.new (WGS84 : Ellipsoid F64) = .ok w ∧
    ∃ v : Vec3 F64, Is v.x (6379137 : ℤ) ∧ Is v.y (0 : ℤ) ∧ Is v.z (0 : ℤ) ∧
      ∀ k N : ℝ, N = 6378137 / √(Real.cos 0 ^ 2 + k ^ 2 * Real.sin 0 ^ 2) →
        (((6379137 : ℤ) : ℚ) : ℝ) = (N + 1000) * Real.cos 0 * Real.cos 0 ∧ (((0 : ℤ) : ℚ) : ℝ) = (N + 1000) * Real.cos 0 * Real.sin 0 ∧
          (((0 : ℤ) : ℚ) : ℝ) = (k ^ 2 * N + 1000) * Real.sin 0 := by
  obtain ⟨w, hw⟩ := wgs84_f64
  refine ⟨goodLibm, exists_libmAcc, goodLibm_atan, w, hw, ⟨Arith.ofInt 6379137, Arith.ofInt 0, Arith.ofInt 0⟩,
    Is.ofInt 6379137 (by norm_num), Is.ofInt 0 (by norm_num), Is.ofInt 0 (by norm_num), fun k N hN => ?_⟩
  subst hN
  simp
  norm_num

/-- A vector near a unit vector has nearly unit length. -/
theorem unit_len (C S θ ε : ℝ) (h1 : |C - Real.cos θ| ≤ ε) (h2 : |S - Real.sin θ| ≤ ε) : |√(C ^ 2 + S ^ 2) - 1| ≤ 1.415 * ε := by
  have e0 := norm2_le _ _ ε h1 h2
  have e1 := tri3 (Real.cos θ) (C - Real.cos θ) (Real.sin θ) (S - Real.sin θ) 0 0
  have e2 := tri3 C (-(C - Real.cos θ)) S (-(S - Real.sin θ)) 0 0
  have e3 : C + -(C - Real.cos θ) = Real.cos θ := by ring
  have e4 : S + -(S - Real.sin θ) = Real.sin θ := by ring
  have e5 : Real.cos θ ^ 2 + Real.sin θ ^ 2 + 0 ^ 2 = 1 := by have := Real.sin_sq_add_cos_sq θ; linarith
  have e6 : C ^ 2 + S ^ 2 + 0 ^ 2 = C ^ 2 + S ^ 2 := by ring
  rw [add_sub_cancel, add_sub_cancel, add_zero, e5, e6, Real.sqrt_one] at e1
  rw [e3, e4, add_zero, e5, e6, Real.sqrt_one, neg_sq, neg_sq] at e2
  generalize √((C - Real.cos θ) ^ 2 + (S - Real.sin θ) ^ 2 + 0 ^ 2) = X at *
  exact abs_le.mpr ⟨by linarith, by linarith⟩

/-- The square of `1 - f` in binary64. -/
theorem w_near : ∃ W : ℚ, Is ((lit 1 -. (WGS84 : Ellipsoid F64).f) *. (lit 1 -. (WGS84 : Ellipsoid F64).f)) W ∧
    |(W : ℝ) - (1 - 1 / 298.257223563) ^ 2| ≤ 36 / 10 ^ 17 := by
  have i1 : Is (lit 1 : F64) 1 := by have := Is.lit_int 1 (by norm_num); norm_num at this; exact this
  have n1 : NB (lit 1 : F64) 1 0 1 := NB.of_is' i1 (by norm_num) (by norm_num)
  have nf : NB (WGS84 : Ellipsoid F64).f (1 / 298.257223563) (1 / 10 ^ 18) 0.0034 :=
    n1.div (NB.lit' 298.257223563 (a := 298.257223563) (E := 4 / 10 ^ 14) (M := 299) (by norm_num) (by norm_num))
      (β := 298) (by norm_num) (by norm_num) (by norm_num)
  have nw0 : NB (lit 1 -. (WGS84 : Ellipsoid F64).f) (1 - 1 / 298.257223563) (12 / 10 ^ 17) 1 :=
    (n1.sub nf (E := 12 / 10 ^ 17) (M := 1.1) (by norm_num)).remag (by norm_num [abs_le])
  have nk := (nw0.mul nw0 (E := 36 / 10 ^ 17) (M := 1) (by norm_num)).congr (b := (1 - 1 / 298.257223563) ^ 2) (by ring)
  exact nk.near

set_option maxHeartbeats 1000000 in
/-- The round trip in terms of the sines and cosines returned by the library. -/
theorem round_trip_core [Libm F64] (hL : LibmAcc)
    (hat : ∀ (x : F64) (a : ℚ), Is x a → Near (Libm.atan x) (Real.arctan a) (1 / 2 ^ 50))
    (w : EllipsoidConverter F64) (hw : EllipsoidConverter.new WGS84 = .ok w) (g : Geodetic F64)
    (C S c s h : ℚ) (hC : Is (Libm.cos g.phi) C) (hS : Is (Libm.sin g.phi) S) (hc : Is (Libm.cos g.elong) c)
    (hs : Is (Libm.sin g.elong) s) (hh : Is g.height h) (h0 : (-49999 : ℝ) ≤ h) (h1 : (h : ℝ) ≤ 10 ^ 7) (m n μ : ℝ)
    (hm : m = √((C : ℝ) ^ 2 + (S : ℝ) ^ 2)) (hn : n = √((c : ℝ) ^ 2 + (s : ℝ) ^ 2)) (m1 : |m - 1| ≤ μ) (n1 : |n - 1| ≤ μ)
    (μ1 : μ ≤ 2 / 10 ^ 15) :
    ∃ v, w.geodeticToGeocentric g = .ok v ∧ ∃ (x y r : ℚ) (A : ℝ), Is v.x x ∧ Is v.y y ∧ 6000000 ≤ A ∧ A ≤ 2 * 10 ^ 7 ∧
      |(r : ℝ) - A * C| ≤ 615 / 10 ^ 18 * |A * C| + 3 / 10 ^ 50 ∧
      |(x : ℝ) - r * c| ≤ 1111 / 10 ^ 19 * |(r : ℝ) * c| + 1 / 10 ^ 50 ∧
      |(y : ℝ) - r * s| ≤ 1111 / 10 ^ 19 * |(r : ℝ) * s| + 1 / 10 ^ 50 ∧
      ∃ φ' h' : ℚ, Is (w.geocentricToGeodetic v).phi φ' ∧ Is (w.geocentricToGeodetic v).height h' ∧
        |(h' : ℝ) - h| ≤ (1825 / 10 ^ 18 + μ) * 6378137 + (1650 / 10 ^ 18 + 2.01 * μ) * |(h : ℝ)| ∧
        |(φ' : ℝ) - Real.arcsin (S / m)| * (0.98 * 6378137 + 0.99 * (h * m)) ≤
          0.005 * (|h * m| / (6378137 * (1 - 1 / 298.257223563) + h * m)) ^ 3 +
            1.06e-6 * (1 + |h * m| / (6378137 * (1 - 1 / 298.257223563))) + 4 / 10 ^ 7 := by
  obtain ⟨W, hW, eW⟩ := w_near
  obtain ⟨E, hE, eE⟩ := (wgsConst hw).ec2.near
  obtain ⟨k, hk⟩ : ∃ k : ℝ, k = 1 - 1 / 298.257223563 := ⟨_, rfl⟩
  rw [← hk] at eE eW ⊢
  have kk1 : 0.9933 ≤ k ^ 2 := by rw [hk]; norm_num
  have kk2 : k ^ 2 ≤ 0.9934 := by rw [hk]; norm_num
  have W1 : (0.99 : ℝ) ≤ W := by have := (abs_le.mp eW).1; norm_num at this; linarith
  have W2 : (W : ℝ) ≤ 1 := by have := (abs_le.mp eW).2; norm_num at this; linarith
  have μ0 := (abs_nonneg _).trans n1
  obtain ⟨N, hN⟩ : ∃ N, N = 6378137 / √((C : ℝ) ^ 2 + W * (S : ℝ) ^ 2) := ⟨_, rfl⟩
  obtain ⟨A0, B0, v, hv, x, y, z, r, hx, hy, hz, er, ex, ey, ep, ez, z1, z2⟩ := forward_near w hw g W C S c s h hW hC hS hc hs hh
    W1 W2 (by linarith) (h1.trans (by norm_num)) m n μ hm hn (m1.trans (μ1.trans (by norm_num))) n1 (μ1.trans (by norm_num)) N hN
  obtain ⟨ma, mb⟩ := abs_le.mp m1
  have m9 : 0.999999 ≤ m := by norm_num at μ1; linarith
  have m2 : m ≤ 1.000001 := by norm_num at μ1; linarith
  have mp : 0 < m := by linarith
  have hm2 : m ^ 2 = (C : ℝ) ^ 2 + (S : ℝ) ^ 2 := by rw [hm, Real.sq_sqrt (by positivity)]
  have Sm : |(S : ℝ)| ≤ m := abs_le_of_sq_le_sq (by nlinarith [sq_nonneg (C : ℝ)]) mp.le
  have s1 : (S : ℝ) / m ≤ 1 := by rw [div_le_one mp]; exact (abs_le.mp Sm).2
  have s2 : -1 ≤ (S : ℝ) / m := by rw [le_div_iff₀ mp]; linarith [(abs_le.mp Sm).1]
  obtain ⟨φ, hφ⟩ : ∃ φ, φ = Real.arcsin (S / m) := ⟨_, rfl⟩
  have sφ : Real.sin φ = S / m := by rw [hφ, Real.sin_arcsin s2 s1]
  have cφ : Real.cos φ = |(C : ℝ)| / m := by
    rw [hφ, Real.cos_arcsin]
    have : 1 - ((S : ℝ) / m) ^ 2 = (|(C : ℝ)| / m) ^ 2 := by
      rw [div_pow, div_pow, sq_abs]
      field_simp
      linarith
    rw [this, Real.sqrt_sq (by positivity)]
  have φ1 : |φ| ≤ Real.pi / 2 := by
    rw [hφ]
    exact abs_le.mpr ⟨Real.neg_pi_div_two_le_arcsin _, Real.arcsin_le_pi_div_two _⟩
  have eN : m * N = 6378137 / √(Real.cos φ ^ 2 + W * Real.sin φ ^ 2) := by
    have : Real.cos φ ^ 2 + W * Real.sin φ ^ 2 = ((C : ℝ) ^ 2 + W * (S : ℝ) ^ 2) / m ^ 2 := by
      rw [cφ, sφ, div_pow, div_pow, sq_abs]; ring
    rw [this, Real.sqrt_div' _ (by positivity), Real.sqrt_sq mp.le, hN]
    field_simp
  have g1 : (m * N + h * m) * Real.cos φ = (N + h) * |(C : ℝ)| := by rw [cφ]; field_simp
  have g2 : (W * (m * N) + h * m) * Real.sin φ = (W * N + h) * S := by rw [sφ]; field_simp
  have g3 : (W * (m * N) + h * m) * |Real.sin φ| = (W * N + h) * |(S : ℝ)| := by rw [sφ, abs_div, abs_of_pos mp]; field_simp
  have ha : |(h : ℝ)| ≤ 10 ^ 7 := abs_le.mpr ⟨by norm_num at h0 ⊢; linarith, h1⟩
  have ham : |(h : ℝ) * m| = |(h : ℝ)| * m := by rw [abs_mul, abs_of_pos mp]
  have ham2 : |(h : ℝ)| * m ≤ 2 * 10 ^ 7 := (mul_le_mul ha m2 mp.le (by norm_num)).trans (by norm_num)
  have hhm : |(h : ℝ) * m - h| ≤ |(h : ℝ)| * μ := by
    have : (h : ℝ) * m - h = h * (m - 1) := by ring
    rw [this, abs_mul]
    exact mul_le_mul_of_nonneg_left m1 (abs_nonneg _)
  obtain ⟨hl, hr⟩ := abs_le.mp hhm
  have hμ : |(h : ℝ)| * μ ≤ 1 / 10 ^ 7 := (mul_le_mul ha μ1 μ0 (by norm_num)).trans (by norm_num)
  obtain ⟨φ', h', i1, i2, -, e2, e3⟩ := height_core hL hat w hw v x y z hx hy hz E hE k W (m * N) φ (h * m) (728 / 10 ^ 18 + μ)
    _ hk (eW.trans (by norm_num)) eN φ1 (by norm_num at hμ; linarith) (by rw [abs_le] at *; norm_num at *; linarith) (by positivity)
    (by
      rw [ham]
      have : (728 / 10 ^ 18 + μ) * (6500000 + |(h : ℝ)| * m) ≤ (3 / 10 ^ 15) * (6500000 + 2 * 10 ^ 7) :=
        mul_le_mul (by norm_num at μ1 ⊢; linarith) (by linarith) (by positivity) (by norm_num)
      exact this.trans (by norm_num)) rfl
    (by rw [g1]; exact ep) (by rw [g2, g3]; exact ez)
    (fun z0 => by rw [hφ]; exact Real.arcsin_nonneg.mpr (div_nonneg (by exact_mod_cast z1 z0) mp.le))
    (fun z0 => by rw [hφ]; exact Real.arcsin_nonpos.mpr (div_nonpos_of_nonpos_of_nonneg (by exact_mod_cast z2 z0) mp.le))
  have PV := prime_vertical W (m * N) φ W1 W2 eN
  have N1 : 6300000 ≤ N := le_of_mul_le_mul_left (by linarith [PV.1]) mp
  have N2 : N ≤ 6600000 := le_of_mul_le_mul_left (by linarith [PV.2]) mp
  refine ⟨v, hv, x, y, r, N + h, hx, hy, by linarith, by linarith, er, ex, ey, φ', h', i1, i2, ?_, by rw [← hφ]; exact e3⟩
  have t1 : (h' : ℝ) - h = (h' - h * m) + (h * m - h) := by ring
  rw [t1]
  refine (abs_add_le _ _).trans ((add_le_add e2 hhm).trans ?_)
  have t2 : |(E : ℝ) - W| ≤ 48 / 10 ^ 17 := by
    have : (E : ℝ) - W = (E - k ^ 2) - (W - k ^ 2) := by ring
    rw [this]
    refine (abs_sub _ _).trans ((add_le_add eE eW).trans (by norm_num))
  rw [ham]
  have t3 : |(h : ℝ)| * m ≤ |(h : ℝ)| * (1 + μ) := mul_le_mul_of_nonneg_left (by linarith) (abs_nonneg _)
  have t4 : (914 / 10 ^ 18 + (728 / 10 ^ 18 + μ)) * (|(h : ℝ)| * m) ≤ (1642 / 10 ^ 18 + μ) * (|(h : ℝ)| * (1 + μ)) := by
    refine le_trans (le_of_eq ?_) (mul_le_mul_of_nonneg_left t3 (by positivity))
    ring
  have t5 : (1642 / 10 ^ 18 + μ) * (|(h : ℝ)| * (1 + μ)) ≤ (1650 / 10 ^ 18 + 1.01 * μ) * |(h : ℝ)| := by
    have : (1642 / 10 ^ 18 + μ) * (1 + μ) ≤ 1650 / 10 ^ 18 + 1.01 * μ := by norm_num at μ1 ⊢; nlinarith
    have := mul_le_mul_of_nonneg_right this (abs_nonneg (h : ℝ))
    linarith
  have t6 : (0.506 : ℝ) * 6378137 * |(E : ℝ) - W| ≤ 0.506 * 6378137 * (48 / 10 ^ 17) := mul_le_mul_of_nonneg_left t2 (by norm_num)
  have t7 := t4.trans t5
  generalize (914 / 10 ^ 18 + (728 / 10 ^ 18 + μ)) * (|(h : ℝ)| * m) = X1 at *
  generalize |(E : ℝ) - W| = X2 at *
  clear * - t6 t7
  norm_num at *
  linarith

/-- **C81.** The height comes back to within a few units in the last place: for every finite longitude and latitude up to
`2^30` radians in magnitude (latitudes beyond the poles included), every finite height from -49.999 km to 10000 km and every
library accurate to `2^-50`, both conversions by the WGS84 converter succeed and give back the height within
`3.1e-15 * 6378137 m + 4.2e-15 * |h|`: 20 nanometres at the surface. -/
theorem C81_height_f64 [Libm F64] (hL : LibmAcc)
    (hat : ∀ (x : F64) (a : ℚ), Is x a → Near (Libm.atan x) (Real.arctan a) (1 / 2 ^ 50))
    (w : EllipsoidConverter F64) (hw : EllipsoidConverter.new WGS84 = .ok w) (g : Geodetic F64)
    (l p h : ℚ) (hl : Is g.elong l) (hp : Is g.phi p) (hh : Is g.height h) (l1 : |l| ≤ 2 ^ 30) (p1 : |p| ≤ 2 ^ 30)
    (h0 : -49999 ≤ h) (h1 : h ≤ 10 ^ 7) :
    ∃ v, w.geodeticToGeocentric g = .ok v ∧ ∃ h' : ℚ, Is (w.geocentricToGeodetic v).height h' ∧
      |h' - h| ≤ 3.1e-15 * 6378137 + 4.2e-15 * |h| := by
  obtain ⟨C, hC, eC⟩ := hL.cos _ _ hp p1
  obtain ⟨S, hS, eS⟩ := hL.sin _ _ hp p1
  obtain ⟨c, hc, ec⟩ := hL.cos _ _ hl l1
  obtain ⟨s, hs, es⟩ := hL.sin _ _ hl l1
  obtain ⟨v, hv, -, -, -, -, -, -, -, -, -, -, -, -, h', -, i2, e2, -⟩ := round_trip_core hL hat w hw g C S c s h hC hS hc hs hh
    (by exact_mod_cast h0) (by exact_mod_cast h1) _ _ (1257 / 10 ^ 18) rfl rfl ((unit_len _ _ _ _ eC eS).trans (by norm_num))
    ((unit_len _ _ _ _ ec es).trans (by norm_num)) (by norm_num)
  refine ⟨v, hv, h', i2, ?_⟩
  have : |(h' : ℝ) - h| ≤ 3.1e-15 * 6378137 + 4.2e-15 * |(h : ℝ)| := by
    refine e2.trans ?_
    have := abs_nonneg (h : ℝ)
    norm_num
    linarith
  apply (Rat.cast_le (K := ℝ)).mp
  push_cast
  refine this.trans (le_of_eq ?_)
  norm_num

/-- **C81.** In degrees, up to 49.999 km above or below the ellipsoid, for every latitude at least `2e-8` degrees away
from the poles: the position comes back, the height to within 21 nanometres, the latitude to within `1.6e-11` degrees. -/
theorem C81_near_surface_height [Libm F64] (hL : LibmAcc)
    (hat : ∀ (x : F64) (a : ℚ), Is x a → Near (Libm.atan x) (Real.arctan a) (1 / 2 ^ 50))
    (w : EllipsoidConverter F64) (hw : EllipsoidConverter.new WGS84 = .ok w) (g : Geodetic360 F64)
    (l p h : ℚ) (hl : Is g.lon l) (hp : Is g.lat p) (hh : Is g.height h) (l1 : |l| ≤ 360) (p1 : |p| ≤ 90 - 2 / 10 ^ 8)
    (h1 : |h| ≤ 49999) (pr : Profile) :
    ∃ v r, w.geodeticToGeocentric (Geodetic.from360 g) = .ok v ∧
      Geodetic360.fromGeodetic pr (w.geocentricToGeodetic v) = .ok r ∧
      ∃ p' h' : ℚ, Is r.lat p' ∧ Is r.height h' ∧ |h' - h| ≤ 2.1e-8 ∧ |p' - p| ≤ 1.6e-11 := by
  obtain ⟨v, r, e1, e2, p', h', i1, i2, -, d2⟩ := C81_near_surface hL hat w hw g l p h hl hp hh l1 p1 (h1.trans (by norm_num)) pr
  have deg : ∀ {x : F64} {q : ℚ}, Is x q → |q| ≤ 360 → ∃ t : ℚ, Is (x *. DEGREE) t ∧ |t| ≤ 2 ^ 30 := by
    intro x q hx hq
    obtain ⟨t, ht, -, ht'⟩ := (deg_nb hx hq).exists_is
    refine ⟨t, ht, ?_⟩
    have : |(t : ℝ)| ≤ 2 ^ 30 := ht'.trans (by norm_num)
    exact_mod_cast this
  obtain ⟨tl, jl, tl1⟩ := deg hl l1
  obtain ⟨tp, jp, tp1⟩ := deg hp (p1.trans (by norm_num))
  obtain ⟨h2, h3⟩ := abs_le.mp h1
  obtain ⟨v', e1', h'', i2', d⟩ := C81_height_f64 hL hat w hw (Geodetic.from360 g) tl tp h jl jp hh tl1 tp1 (by linarith)
    (by norm_num; linarith)
  rw [e1] at e1'
  obtain rfl := Except.ok.inj e1'
  have hr : r.height = (w.geocentricToGeodetic v).height := by
    unfold Geodetic360.fromGeodetic at e2
    simp only at e2
    split at e2
    · cases e2
    · split at e2
      · cases e2
      · cases e2; rfl
  rw [hr] at i2
  obtain rfl := i2.unique i2'
  refine ⟨v, r, e1, e2, p', h', i1, by rw [hr]; exact i2, d.trans ?_, d2⟩
  norm_num
  linarith

/-- The hypotheses hold for the mean summit of Everest, 28 degrees North 87 degrees East, 8849 m; the last theorem
then bounds the error of the height by 21 nanometres. -/
example : ∃ L : Libm F64, @LibmAcc L ∧ (∀ (x : F64) (a : ℚ), Is x a → Near (L.atan x) (Real.arctan a) (1 / 2 ^ 50)) ∧
    ∃ w, EllipsoidConverter.new (WGS84 : Ellipsoid F64) = .ok w ∧
    ∃ g : Geodetic360 F64, Is g.lon (87 : ℤ) ∧ Is g.lat (28 : ℤ) ∧ Is g.height (8849 : ℤ) := by
  obtain ⟨w, hw⟩ := wgs84_f64
  exact ⟨goodLibm, exists_libmAcc, goodLibm_atan, w, hw, ⟨Arith.ofInt 87, Arith.ofInt 28, Arith.ofInt 8849⟩,
    Is.ofInt 87 (by norm_num), Is.ofInt 28 (by norm_num), Is.ofInt 8849 (by norm_num)⟩

end Verif
