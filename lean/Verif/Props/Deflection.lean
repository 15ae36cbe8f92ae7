import Verif.Props.Ellipsoid
import Mathlib.Analysis.SpecialFunctions.Trigonometric.Arctan
import Mathlib.Analysis.SpecialFunctions.Trigonometric.Bounds

/-!
# C126: the vertical and the direction away from the centre
-/

namespace Verif
open Arith EllipsoidConverter

theorem angle_of_parts (u v : Vec3 ℝ) (A B : ℝ) (hA : 0 < A) (hB : 0 ≤ B) (hu : u.x ^ 2 + u.y ^ 2 + u.z ^ 2 = 1)
    (hd : u.x * v.x + u.y * v.y + u.z * v.z = A) (hn : v.x ^ 2 + v.y ^ 2 + v.z ^ 2 = A ^ 2 + B ^ 2) :
    u.angle v = Real.arctan (B / A) := by
  have u0 : u ≠ ⟨0, 0, 0⟩ := by rintro rfl; norm_num at hu
  have v0 : v ≠ ⟨0, 0, 0⟩ := by
    rintro rfl
    simp only [mul_zero, add_zero] at hd
    linarith
  obtain ⟨h1, h2, h3⟩ := C27_angle_cos u v u0 v0
  rw [hu, hd, hn, Real.sqrt_one, mul_one] at h3
  have hq : √(A ^ 2 + B ^ 2) = A * √(1 + (B / A) ^ 2) := by
    rw [show A ^ 2 + B ^ 2 = A ^ 2 * (1 + (B / A) ^ 2) by field_simp, Real.sqrt_mul (sq_nonneg A), Real.sqrt_sq hA.le]
  have hp : 0 < √(1 + (B / A) ^ 2) := Real.sqrt_pos.mpr (by positivity)
  refine Real.injOn_cos ⟨h1, h2⟩ ⟨Real.arctan_nonneg.mpr (by positivity), ?_⟩ ?_
  · linarith [Real.arctan_lt_pi_div_two (B / A), Real.pi_pos]
  · rw [Real.cos_arctan, eq_div_iff hp.ne']
    rw [hq] at h3
    exact mul_right_cancel₀ hA.ne' (by linarith)

/-- **C126.** In exact arithmetic the geocentric position of a geodetic point is `height + a√d` along the vertical and
`a e² sin φ cos φ / √d` to the south, where `d = cos²φ + (1-f)² sin²φ` and `e² = 1 - (1-f)²`: the second part does not depend on the
height, and points to the equator.  So, higher than `-a(1-f)`, the angle between the vertical and the direction away from the
centre is the arc tangent of their ratio. -/
theorem C126_deflection (a f : ℝ) (ha : 0 < a) (c : EllipsoidConverter ℝ) (hc : EllipsoidConverter.new ⟨a, f⟩ = .ok c) (g : Geodetic ℝ)
    (d t : ℝ) (hd : d = Real.cos g.phi ^ 2 + (1 - f) ^ 2 * Real.sin g.phi ^ 2)
    (ht : t = a * (1 - (1 - f) ^ 2) * (Real.sin g.phi * Real.cos g.phi) / √d) :
    ∃ v : Vec3 ℝ, c.geodeticToGeocentric g = .ok v ∧
      v = ⟨(g.height + a * √d) * g.zenith.x + t * (Real.sin g.phi * Real.cos g.elong),
           (g.height + a * √d) * g.zenith.y + t * (Real.sin g.phi * Real.sin g.elong),
           (g.height + a * √d) * g.zenith.z - t * Real.cos g.phi⟩ ∧
      (-(a * (1 - f)) < g.height → g.zenith.angle v = Real.arctan (|t| / (g.height + a * √d))) := by
  obtain ⟨f0, f1, -, rfl⟩ := conv_eq hc
  have dp : 0 < d := hd ▸ radicand_pos f g.phi f1
  have h1 := Real.sin_sq_add_cos_sq g.phi
  have h2 := Real.sin_sq_add_cos_sq g.elong
  have zx : g.zenith.x = Real.cos g.phi * Real.cos g.elong := rfl
  have zy : g.zenith.y = Real.cos g.phi * Real.sin g.elong := rfl
  have zz : g.zenith.z = Real.sin g.phi := rfl
  have hv := geocentric_real a f f1 g
  have key : (⟨(a / √(Real.cos g.phi ^ 2 + (1 - f) ^ 2 * Real.sin g.phi ^ 2) + g.height) * Real.cos g.phi * Real.cos g.elong,
      (a / √(Real.cos g.phi ^ 2 + (1 - f) ^ 2 * Real.sin g.phi ^ 2) + g.height) * Real.cos g.phi * Real.sin g.elong,
      ((1 - f) ^ 2 * (a / √(Real.cos g.phi ^ 2 + (1 - f) ^ 2 * Real.sin g.phi ^ 2)) + g.height) * Real.sin g.phi⟩ : Vec3 ℝ) =
      ⟨(g.height + a * √d) * g.zenith.x + t * (Real.sin g.phi * Real.cos g.elong),
       (g.height + a * √d) * g.zenith.y + t * (Real.sin g.phi * Real.sin g.elong),
       (g.height + a * √d) * g.zenith.z - t * Real.cos g.phi⟩ := by
    rw [← hd, zx, zy, zz, ht]
    have Dp : 0 < √d := Real.sqrt_pos.mpr dp
    have D2 : √d ^ 2 = d := Real.sq_sqrt dp.le
    set D := √d
    have e1 : a / D = a * D + a * (1 - (1 - f) ^ 2) * Real.sin g.phi ^ 2 / D := by
      field_simp
      rw [D2, hd]
      linear_combination -h1
    have e2 : (1 - f) ^ 2 * (a / D) = a * D - a * (1 - (1 - f) ^ 2) * Real.cos g.phi ^ 2 / D := by
      field_simp
      rw [D2, hd]
      linear_combination (-(1 - f) ^ 2) * h1
    ext
    · show (a / D + g.height) * Real.cos g.phi * Real.cos g.elong = _
      rw [e1]; ring
    · show (a / D + g.height) * Real.cos g.phi * Real.sin g.elong = _
      rw [e1]; ring
    · show ((1 - f) ^ 2 * (a / D) + g.height) * Real.sin g.phi = _
      rw [e2]; ring
  rw [key] at hv
  refine ⟨_, hv, rfl, fun hh => ?_⟩
  have w0 : 0 < 1 - f := by linarith
  have hD : 1 - f ≤ √d := by
    refine Real.le_sqrt_of_sq_le ?_
    rw [hd]
    have : 0 ≤ (1 - (1 - f) ^ 2) * Real.cos g.phi ^ 2 := mul_nonneg (by nlinarith) (sq_nonneg _)
    nlinarith
  have hA : 0 < g.height + a * √d := by nlinarith
  refine angle_of_parts _ _ _ _ hA (abs_nonneg t) ?_ ?_ ?_
  · rw [zx, zy, zz]
    linear_combination h1 + Real.cos g.phi ^ 2 * h2
  · simp only [zx, zy, zz]
    generalize g.height + a * √d = A
    linear_combination (A * Real.cos g.phi ^ 2 + t * Real.sin g.phi * Real.cos g.phi) * h2 + A * h1
  · simp only [zx, zy, zz, sq_abs]
    generalize g.height + a * √d = A
    linear_combination (A * Real.cos g.phi + t * Real.sin g.phi) ^ 2 * h2 + (A ^ 2 + t ^ 2) * h1

/-- **C126.** On or above the ellipsoid this angle is at most `arctan (e²/(2(1-f)))`, which it reaches on the ellipsoid at the latitude
whose tangent is `1/(1-f)`; it is zero at the equator and the poles, and does not grow with the height. -/
theorem C126_bound (a f : ℝ) (ha : 0 < a) (c : EllipsoidConverter ℝ) (hc : EllipsoidConverter.new ⟨a, f⟩ = .ok c) :
    (∀ (g : Geodetic ℝ) (v : Vec3 ℝ), 0 ≤ g.height → c.geodeticToGeocentric g = .ok v →
      g.zenith.angle v ≤ Real.arctan ((1 - (1 - f) ^ 2) / (2 * (1 - f))) ∧
      (∀ (h' : ℝ) (v' : Vec3 ℝ), g.height ≤ h' → c.geodeticToGeocentric ⟨g.elong, g.phi, h'⟩ = .ok v' →
        g.zenith.angle v' ≤ g.zenith.angle v) ∧
      (Real.sin g.phi * Real.cos g.phi = 0 → g.zenith.angle v = 0)) ∧
    (∀ (l : ℝ) (v : Vec3 ℝ), c.geodeticToGeocentric ⟨l, Real.arctan (1 / (1 - f)), 0⟩ = .ok v →
      (Geodetic.mk l (Real.arctan (1 / (1 - f))) 0).zenith.angle v = Real.arctan ((1 - (1 - f) ^ 2) / (2 * (1 - f)))) := by
  obtain ⟨f0, f1, -, -⟩ := conv_eq hc
  have w0 : 0 < 1 - f := by linarith
  have w1 : 1 - f ≤ 1 := by linarith
  have e0 : 0 ≤ 1 - (1 - f) ^ 2 := by nlinarith
  have low : -(a * (1 - f)) < 0 := by have := mul_pos ha w0; linarith
  have ang : ∀ (g : Geodetic ℝ) (v : Vec3 ℝ), 0 ≤ g.height → c.geodeticToGeocentric g = .ok v →
      g.zenith.angle v = Real.arctan (|a * (1 - (1 - f) ^ 2) * (Real.sin g.phi * Real.cos g.phi) /
        √(Real.cos g.phi ^ 2 + (1 - f) ^ 2 * Real.sin g.phi ^ 2)| /
        (g.height + a * √(Real.cos g.phi ^ 2 + (1 - f) ^ 2 * Real.sin g.phi ^ 2))) := by
    intro g v hg hv
    obtain ⟨v', e, -, k⟩ := C126_deflection a f ha c hc g _ _ rfl rfl
    rw [hv] at e
    cases e
    exact k (by linarith)
  constructor
  · intro g v hg hv
    have dp := radicand_pos f g.phi f1
    rw [ang g v hg hv]
    refine ⟨?_, ?_, ?_⟩
    · refine Real.arctan_strictMono.monotone ?_
      set s := Real.sin g.phi
      set k := Real.cos g.phi
      have Dp : 0 < √(k ^ 2 + (1 - f) ^ 2 * s ^ 2) := Real.sqrt_pos.mpr dp
      have D2 : √(k ^ 2 + (1 - f) ^ 2 * s ^ 2) ^ 2 = k ^ 2 + (1 - f) ^ 2 * s ^ 2 := Real.sq_sqrt dp.le
      set D := √(k ^ 2 + (1 - f) ^ 2 * s ^ 2)
      have am : 2 * (1 - f) * |s * k| ≤ D ^ 2 := by
        rw [D2, abs_mul, ← sq_abs s, ← sq_abs k]
        nlinarith [sq_nonneg (|k| - (1 - f) * |s|)]
      rw [abs_div, abs_mul, abs_mul, abs_of_pos ha, abs_of_nonneg e0, abs_of_pos Dp, div_div,
        div_le_div_iff₀ (mul_pos Dp (by positivity)) (by positivity)]
      have p : 0 ≤ D * g.height := by positivity
      have : a * (2 * (1 - f) * |s * k|) ≤ D * (g.height + a * D) := by nlinarith
      nlinarith
    · intro h' v' hh hv'
      have e : g.zenith = (Geodetic.mk g.elong g.phi h').zenith := rfl
      rw [e, ang ⟨g.elong, g.phi, h'⟩ v' (by show 0 ≤ h'; linarith) hv']
      refine Real.arctan_strictMono.monotone (div_le_div_of_nonneg_left (abs_nonneg _) ?_ ?_)
      · have := mul_pos ha (Real.sqrt_pos.mpr dp); linarith
      · show _ ≤ h' + _
        linarith
    · intro h0
      rw [h0]; simp
  · intro l v hv
    rw [ang _ v le_rfl hv]
    congr 1
    simp only [Real.sin_arctan, Real.cos_arctan]
    have q : 0 < 1 + (1 / (1 - f)) ^ 2 := by positivity
    have qq : √(1 + (1 / (1 - f)) ^ 2) ^ 2 = 1 + (1 / (1 - f)) ^ 2 := Real.sq_sqrt q.le
    have qp : 0 < √(1 + (1 / (1 - f)) ^ 2) := Real.sqrt_pos.mpr q
    set Q := √(1 + (1 / (1 - f)) ^ 2)
    have hd : (1 / Q) ^ 2 + (1 - f) ^ 2 * (1 / (1 - f) / Q) ^ 2 = 2 / Q ^ 2 := by field_simp; norm_num
    have hs : 1 / (1 - f) / Q * (1 / Q) = 1 / (1 - f) / Q ^ 2 := by field_simp
    rw [hd, hs]
    have dp : 0 < 2 / Q ^ 2 := by positivity
    have Dp : 0 < √(2 / Q ^ 2) := Real.sqrt_pos.mpr dp
    have D2 : √(2 / Q ^ 2) ^ 2 = 2 / Q ^ 2 := Real.sq_sqrt dp.le
    set D := √(2 / Q ^ 2)
    rw [abs_of_nonneg (by positivity), zero_add, div_div, show D * (a * D) = a * D ^ 2 by ring, D2]
    field_simp

/-- **C126.** On the WGS84 ellipsoid and above it the angle is less than 0.003365 radians, at latitude 45 degrees on it more than
0.00335 (eleven and a half minutes of arc). -/
theorem C126_wgs84 (c : EllipsoidConverter ℝ) (hc : EllipsoidConverter.new WGS84 = .ok c) (g : Geodetic ℝ) (v : Vec3 ℝ)
    (hv : c.geodeticToGeocentric g = .ok v) (hg : 0 ≤ g.height) :
    g.zenith.angle v < 0.003365 ∧ (g.phi = Real.pi / 4 → g.height = 0 → 0.00335 < g.zenith.angle v) := by
  have e : (WGS84 : Ellipsoid ℝ) = ⟨6378137, 1 / 298.257223563⟩ := by
    unfold WGS84; simp only [lit_real, div_real]; norm_num
  rw [e] at hc
  have ha : (0 : ℝ) < 6378137 := by norm_num
  constructor
  · refine lt_of_le_of_lt (((C126_bound _ _ ha c hc).1 g v hg hv).1) ?_
    have : ∀ x : ℝ, 0 < x → Real.arctan x < x := fun x hx => by
      have := Real.lt_tan (Real.arctan_pos.mpr hx) (Real.arctan_lt_pi_div_two x)
      rwa [Real.tan_arctan] at this
    refine lt_of_lt_of_le (this _ (by norm_num)) (by norm_num)
  · intro hp hh
    obtain ⟨v', e', -, k⟩ := C126_deflection _ _ ha c hc g _ _ rfl rfl
    rw [hv] at e'
    cases e'
    rw [k (by rw [hh]; norm_num), hp, hh, Real.sin_pi_div_four, Real.cos_pi_div_four]
    have h2 : √(2 : ℝ) ^ 2 = 2 := Real.sq_sqrt (by norm_num)
    have dp : (0 : ℝ) < (√2 / 2) ^ 2 + (1 - 1 / 298.257223563) ^ 2 * (√2 / 2) ^ 2 := by positivity
    have Dp := Real.sqrt_pos.mpr dp
    have D2 := Real.sq_sqrt dp.le
    have s2 : (√2 / 2 : ℝ) * (√2 / 2) = 1 / 2 := by linear_combination h2 / 4
    have s3 : (√2 / 2 : ℝ) ^ 2 = 1 / 2 := by linear_combination h2 / 4
    set D := √((√2 / 2 : ℝ) ^ 2 + (1 - 1 / 298.257223563) ^ 2 * (√2 / 2) ^ 2)
    rw [s3] at D2
    rw [s2, abs_of_nonneg (by refine div_nonneg ?_ Dp.le; norm_num), zero_add, div_div,
      show D * (6378137 * D) = 6378137 * D ^ 2 by ring, D2]
    have t1 : Real.tan 0.00335 < 0.003358 := by
      rw [Real.tan_eq_sin_div_cos]
      have c1 := Real.one_sub_sq_div_two_le_cos (x := 0.00335)
      have c2 := Real.sin_lt (x := 0.00335) (by norm_num)
      rw [div_lt_iff₀ (by norm_num at c1; linarith)]
      norm_num at c1 c2 ⊢
      linarith
    rw [← Real.arctan_tan (x := 0.00335) (by linarith [Real.pi_pos]) (by linarith [Real.pi_gt_three])]
    refine Real.arctan_strictMono (lt_trans t1 ?_)
    norm_num

/-- The WGS84 ellipsoid has a converter, and a point one kilometre above it at latitude 45 degrees a position. -/
example : ∃ c v, EllipsoidConverter.new (WGS84 : Ellipsoid ℝ) = .ok c ∧ c.geodeticToGeocentric ⟨0, Real.pi / 4, 1000⟩ = .ok v := by
  have e : (WGS84 : Ellipsoid ℝ) = ⟨6378137, 1 / 298.257223563⟩ := by
    unfold WGS84; simp only [lit_real, div_real]; norm_num
  obtain ⟨c, h⟩ := (C45_new_ok_iff 6378137 (1 / 298.257223563)).mpr (by norm_num)
  obtain ⟨v, hv, -⟩ := C126_deflection _ _ (by norm_num) c h ⟨0, Real.pi / 4, 1000⟩ _ _ rfl rfl
  exact ⟨c, v, e ▸ h, hv⟩

end Verif
