import Verif.Props.Ellipsoid

/-!
# C123: the unit of length does not matter to the ellipsoid conversions
-/

namespace Verif
open Arith EllipsoidConverter

theorem latHeight_scale (a f s p2 z : ℝ) (hs : 0 < s) :
    latHeight (convR (s * a) f) (s ^ 2 * p2) (s * z) = ((latHeight (convR a f) p2 z).1, s * (latHeight (convR a f) p2 z).2) := by
  have q : √(s ^ 2 * p2) = s * √p2 := by rw [Real.sqrt_mul (sq_nonneg s), Real.sqrt_sq hs.le]
  have d : ∀ x : ℝ, s * x / (s * a) = x / a := fun x => mul_div_mul_left x a hs.ne'
  unfold latHeight convR
  simp only [mul_real, add_real, sub_real, div_real, sqrt_real, q, d]
  refine Prod.ext rfl ?_
  show _ = s * _
  rw [← mul_div_assoc]
  ring

/-- **C123.** In exact arithmetic the conversions do not depend on the unit of length: with the radius of the ellipsoid and the
coordinates multiplied by any `s > 0`, longitude and latitude are the same and the height is multiplied by `s`. -/
theorem C123_to_geodetic (a f s : ℝ) (_ : 0 < a) (hs : 0 < s) (c c' : EllipsoidConverter ℝ) (hc : EllipsoidConverter.new ⟨a, f⟩ = .ok c)
    (hc' : EllipsoidConverter.new ⟨s * a, f⟩ = .ok c') (x y z : ℝ) :
    (c'.geocentricToGeodetic ⟨s * x, s * y, s * z⟩).elong = (c.geocentricToGeodetic ⟨x, y, z⟩).elong ∧
    (c'.geocentricToGeodetic ⟨s * x, s * y, s * z⟩).phi = (c.geocentricToGeodetic ⟨x, y, z⟩).phi ∧
    (c'.geocentricToGeodetic ⟨s * x, s * y, s * z⟩).height = s * (c.geocentricToGeodetic ⟨x, y, z⟩).height := by
  obtain ⟨-, -, -, rfl⟩ := conv_eq hc
  obtain ⟨-, -, -, rfl⟩ := conv_eq hc'
  refine ⟨?_, ?_⟩
  · rw [(C48_longitude _ (s * x) (s * y) (s * z)).1, (C48_longitude _ x y z).1]
    have : (⟨s * x, s * y⟩ : ℂ) = (s : ℂ) * ⟨x, y⟩ := by apply Complex.ext <;> simp
    rw [this, Complex.arg_real_mul _ hs]
  · have e : s * x * (s * x) + s * y * (s * y) = s ^ 2 * (x * x + y * y) := by ring
    have c1 : ((convR (s * a) f).aeps2 < s ^ 2 * (x * x + y * y)) ↔ ((convR a f).aeps2 < x * x + y * y) := by
      show s * a * (s * a) * 1e-32 < _ ↔ a * a * 1e-32 < _
      rw [show s * a * (s * a) * (1e-32 : ℝ) = s ^ 2 * (a * a * 1e-32) by ring]
      exact mul_lt_mul_iff_right₀ (by positivity)
    have c2 : s * z < 0 ↔ z < 0 := by
      constructor
      · intro h; by_contra hn; push Not at hn; exact absurd (mul_nonneg hs.le hn) (not_le.mpr h)
      · intro h; exact mul_neg_of_pos_of_neg hs h
    have c3 : |s * z| = s * |z| := by rw [abs_mul, abs_of_pos hs]
    unfold geocentricToGeodetic
    simp only [sq, mul_real, add_real, e, lt_real, c1, c2, lit_real, Rat.cast_zero, abs_real, c3, latHeight_scale a f s _ _ hs, sub_real]
    by_cases h : (convR a f).aeps2 < x * x + y * y
    · simp only [if_pos h, true_and]
    · simp only [if_neg h, true_and]
      show s * |z| - s * a * (1 - f) = s * (|z| - a * (1 - f))
      ring

/-- **C123.** The same of the other conversion. -/
theorem C123_to_geocentric (a f s : ℝ) (c c' : EllipsoidConverter ℝ) (hc : EllipsoidConverter.new ⟨a, f⟩ = .ok c)
    (hc' : EllipsoidConverter.new ⟨s * a, f⟩ = .ok c') (lam phi h : ℝ) :
    ∃ v : Vec3 ℝ, c.geodeticToGeocentric ⟨lam, phi, h⟩ = .ok v ∧
      c'.geodeticToGeocentric ⟨lam, phi, s * h⟩ = .ok ⟨s * v.x, s * v.y, s * v.z⟩ := by
  obtain ⟨-, f1, -, rfl⟩ := conv_eq hc
  obtain ⟨-, -, -, rfl⟩ := conv_eq hc'
  refine ⟨_, geocentric_real a f f1 _, ?_⟩
  rw [geocentric_real _ f f1]
  simp only [Except.ok.injEq, Vec3.mk.injEq]
  refine ⟨?_, ?_, ?_⟩ <;> ring

/-- **C123.** The converter for the larger or smaller ellipsoid exists. -/
theorem C123_accepted (a f s : ℝ) (hs : 0 < s) :
    (∃ c, EllipsoidConverter.new (⟨s * a, f⟩ : Ellipsoid ℝ) = .ok c) ↔ ∃ c, EllipsoidConverter.new (⟨a, f⟩ : Ellipsoid ℝ) = .ok c := by
  rw [C45_new_ok_iff, C45_new_ok_iff, mul_nonneg_iff_of_pos_left hs]

/-- The Earth in kilometres. -/
example : ∃ c c', EllipsoidConverter.new (⟨6378137, 1 / 298⟩ : Ellipsoid ℝ) = .ok c ∧
    EllipsoidConverter.new (⟨0.001 * 6378137, 1 / 298⟩ : Ellipsoid ℝ) = .ok c' := by
  obtain ⟨c, h⟩ := (C45_new_ok_iff 6378137 (1 / 298)).mpr (by norm_num)
  obtain ⟨c', h'⟩ := (C123_accepted 6378137 (1 / 298) 0.001 (by norm_num)).mpr ⟨c, h⟩
  exact ⟨c, c', h, h'⟩

end Verif
