import Verif.Props.HeightAccuracy
import Verif.Props.Ellipsoid
import Verif.Spec.Ellipsoid

/-!
# C109: the height is the distance from the ellipsoid

Code: `tofas/src/ellipsoid.rs`, `geodetic_to_geocentric` and `geocentric_to_geodetic`.
-/

namespace Verif

open Arith F64 Spec

theorem IsHeight.unique {a b : ℝ} {v : ℝ × ℝ × ℝ} {h h' : ℝ} (H : IsHeight a b v h) (H' : IsHeight a b v h') : h = h' := by
  obtain ⟨⟨s, s1, s2, s3⟩, p, n⟩ := H
  obtain ⟨⟨t, t1, t2, t3⟩, p', n'⟩ := H'
  have e : |h| = |h'| := by
    by_cases hs : t = s
    · rw [← s2, ← t2, hs]
    · have := s3 t t1 hs
      have := t3 s s1 (Ne.symm hs)
      linarith
  rcases lt_trichotomy 0 h with h0 | h0 | h0
  · have := p'.mpr (p.mp h0)
    rwa [abs_of_pos h0, abs_of_pos this] at e
  · rw [← h0, abs_zero] at e
    rw [← h0]; exact (abs_eq_zero.mp e.symm).symm
  · have := n'.mpr (n.mp h0)
    rw [abs_of_neg h0, abs_of_neg this] at e
    linarith

/-- A point on the normal of the ellipsoid above the centres of curvature has the distance along the normal as its height. -/
theorem isHeight_normal {a b k h s1 s2 s3 n1 n2 n3 : ℝ} (hb : 0 < b) (hab : b ≤ a) (hk : 0 < k)
    (e1 : s1 = k * a ^ 2 * n1) (e2 : s2 = k * a ^ 2 * n2) (e3 : s3 = k * b ^ 2 * n3) (en : n1 ^ 2 + n2 ^ 2 + n3 ^ 2 = 1)
    (es : (s1 ^ 2 + s2 ^ 2) / a ^ 2 + s3 ^ 2 / b ^ 2 = 1) (hh : -(b ^ 2 / a) < h) :
    IsHeight a b (s1 + h * n1, s2 + h * n2, s3 + h * n3) h ∧
      dist3 (s1 + h * n1, s2 + h * n2, s3 + h * n3) (s1, s2, s3) = |h| ∧
      ∀ t, level a b t = 1 → t ≠ (s1, s2, s3) → |h| < dist3 (s1 + h * n1, s2 + h * n2, s3 + h * n3) t := by
  have ha : 0 < a := hb.trans_le hab
  have ba : b ^ 2 ≤ a ^ 2 := by gcongr
  have k1 : 1 ≤ (k * a) ^ 2 := by
    rw [e1, e2, e3] at es
    have : (k * a) ^ 2 * (n1 ^ 2 + n2 ^ 2) + (k * b) ^ 2 * n3 ^ 2 = 1 := by
      field_simp at es; linarith
    have : (k * b) ^ 2 * n3 ^ 2 ≤ (k * a) ^ 2 * n3 ^ 2 := by gcongr
    have : (k * a) ^ 2 * (n1 ^ 2 + n2 ^ 2 + n3 ^ 2) = (k * a) ^ 2 := by rw [en, mul_one]
    linarith
  have k2 : 1 ≤ k * a := by
    by_contra hn
    push Not at hn
    have := pow_lt_one₀ (by positivity) hn (two_ne_zero)
    linarith
  have kb : -(k * b ^ 2) < h := by
    have : b ^ 2 / a ≤ k * b ^ 2 := by
      rw [div_le_iff₀ ha]
      have := mul_le_mul_of_nonneg_left k2 (show 0 ≤ b ^ 2 by positivity)
      linarith
    linarith
  -- squared distance
  have key : ∀ t1 t2 t3 : ℝ, (t1 ^ 2 + t2 ^ 2) / a ^ 2 + t3 ^ 2 / b ^ 2 = 1 →
      (s1 + h * n1 - t1) ^ 2 + (s2 + h * n2 - t2) ^ 2 + (s3 + h * n3 - t3) ^ 2 = h ^ 2 +
        ((1 + h / (k * a ^ 2)) * ((s1 - t1) ^ 2 + (s2 - t2) ^ 2) + (1 + h / (k * b ^ 2)) * (s3 - t3) ^ 2) := by
    intro t1 t2 t3 ht
    have n1' : n1 = s1 / (k * a ^ 2) := by rw [e1]; field_simp
    have n2' : n2 = s2 / (k * a ^ 2) := by rw [e2]; field_simp
    have n3' : n3 = s3 / (k * b ^ 2) := by rw [e3]; field_simp
    have q : 2 * (n1 * (s1 - t1) + n2 * (s2 - t2) + n3 * (s3 - t3)) =
        ((s1 - t1) ^ 2 + (s2 - t2) ^ 2) / (k * a ^ 2) + (s3 - t3) ^ 2 / (k * b ^ 2) := by
      have : 2 * (n1 * (s1 - t1) + n2 * (s2 - t2) + n3 * (s3 - t3)) -
        (((s1 - t1) ^ 2 + (s2 - t2) ^ 2) / (k * a ^ 2) + (s3 - t3) ^ 2 / (k * b ^ 2)) =
          1 / k * (((s1 ^ 2 + s2 ^ 2) / a ^ 2 + s3 ^ 2 / b ^ 2) - ((t1 ^ 2 + t2 ^ 2) / a ^ 2 + t3 ^ 2 / b ^ 2)) := by
        rw [n1', n2', n3']
        field_simp
        ring
      rw [es, ht, sub_self, mul_zero] at this
      linarith
    have : (1 + h / (k * a ^ 2)) * ((s1 - t1) ^ 2 + (s2 - t2) ^ 2) + (1 + h / (k * b ^ 2)) * (s3 - t3) ^ 2 =
        (s1 - t1) ^ 2 + (s2 - t2) ^ 2 + (s3 - t3) ^ 2 +
          h * (((s1 - t1) ^ 2 + (s2 - t2) ^ 2) / (k * a ^ 2) + (s3 - t3) ^ 2 / (k * b ^ 2)) := by ring
    rw [this, ← q]
    linear_combination h ^ 2 * en
  have pa : 0 < 1 + h / (k * a ^ 2) := by
    rw [show 1 + h / (k * a ^ 2) = (k * a ^ 2 + h) / (k * a ^ 2) by field_simp]
    have : k * b ^ 2 ≤ k * a ^ 2 := by gcongr
    apply div_pos _ (by positivity)
    linarith
  have pb : 0 < 1 + h / (k * b ^ 2) := by
    rw [show 1 + h / (k * b ^ 2) = (k * b ^ 2 + h) / (k * b ^ 2) by field_simp]
    apply div_pos _ (by positivity)
    linarith
  have lev : level a b (s1 + h * n1, s2 + h * n2, s3 + h * n3) =
      1 + h * (2 * k + h * ((n1 ^ 2 + n2 ^ 2) / a ^ 2 + n3 ^ 2 / b ^ 2)) := by
    have : level a b (s1 + h * n1, s2 + h * n2, s3 + h * n3) = ((s1 ^ 2 + s2 ^ 2) / a ^ 2 + s3 ^ 2 / b ^ 2) +
        h * (2 * ((s1 * n1 + s2 * n2) / a ^ 2 + s3 * n3 / b ^ 2) + h * ((n1 ^ 2 + n2 ^ 2) / a ^ 2 + n3 ^ 2 / b ^ 2)) := by
      unfold level; ring
    rw [this, es]
    have : (s1 * n1 + s2 * n2) / a ^ 2 + s3 * n3 / b ^ 2 = k := by
      rw [e1, e2, e3]
      field_simp
      linarith
    rw [this]
  have quad : (n1 ^ 2 + n2 ^ 2) / a ^ 2 + n3 ^ 2 / b ^ 2 ≤ 1 / b ^ 2 := by
    have : (n1 ^ 2 + n2 ^ 2) / a ^ 2 ≤ (n1 ^ 2 + n2 ^ 2) / b ^ 2 := by gcongr
    calc _ ≤ (n1 ^ 2 + n2 ^ 2) / b ^ 2 + n3 ^ 2 / b ^ 2 := by linarith
      _ = 1 / b ^ 2 := by rw [← add_div, en]
  have quad0 : 0 ≤ (n1 ^ 2 + n2 ^ 2) / a ^ 2 + n3 ^ 2 / b ^ 2 := by positivity
  have slope : 0 < 2 * k + h * ((n1 ^ 2 + n2 ^ 2) / a ^ 2 + n3 ^ 2 / b ^ 2) := by
    generalize (n1 ^ 2 + n2 ^ 2) / a ^ 2 + n3 ^ 2 / b ^ 2 = Q at *
    rcases le_total 0 h with h0 | h0
    · positivity
    · have : h * (1 / b ^ 2) ≤ h * Q := mul_le_mul_of_nonpos_left quad h0
      have : -k < h * (1 / b ^ 2) := by
        rw [mul_one_div, lt_div_iff₀ (by positivity)]; linarith
      linarith
  suffices H : dist3 (s1 + h * n1, s2 + h * n2, s3 + h * n3) (s1, s2, s3) = |h| ∧
      (∀ t, level a b t = 1 → t ≠ (s1, s2, s3) → |h| < dist3 (s1 + h * n1, s2 + h * n2, s3 + h * n3) t) ∧
      (0 < h ↔ 1 < level a b (s1 + h * n1, s2 + h * n2, s3 + h * n3)) ∧
      (h < 0 ↔ level a b (s1 + h * n1, s2 + h * n2, s3 + h * n3) < 1) from
    ⟨⟨⟨(s1, s2, s3), es, H.1, H.2.1⟩, H.2.2⟩, H.1, H.2.1⟩
  refine ⟨?_, fun t ht hne => ?_, ?_, ?_⟩
  · have := key s1 s2 s3 es
    unfold dist3
    simp only
    rw [this, sub_self, sub_self, sub_self]
    rw [← Real.sqrt_sq_eq_abs]
    congr 1
    ring
  · obtain ⟨t1, t2, t3⟩ := t
    have := key t1 t2 t3 ht
    unfold dist3
    simp only
    rw [this, ← Real.sqrt_sq_eq_abs]
    apply Real.sqrt_lt_sqrt (by positivity)
    have : 0 < (1 + h / (k * a ^ 2)) * ((s1 - t1) ^ 2 + (s2 - t2) ^ 2) + (1 + h / (k * b ^ 2)) * (s3 - t3) ^ 2 := by
      by_contra hc
      push Not at hc
      have z1 : 0 ≤ (1 + h / (k * a ^ 2)) * ((s1 - t1) ^ 2 + (s2 - t2) ^ 2) := by positivity
      have z2 : 0 ≤ (1 + h / (k * b ^ 2)) * (s3 - t3) ^ 2 := by positivity
      have y1 : (1 + h / (k * a ^ 2)) * ((s1 - t1) ^ 2 + (s2 - t2) ^ 2) = 0 := by linarith
      have y2 : (1 + h / (k * b ^ 2)) * (s3 - t3) ^ 2 = 0 := by linarith
      have x1 := (mul_eq_zero.mp y1).resolve_left pa.ne'
      have x2 := (mul_eq_zero.mp y2).resolve_left pb.ne'
      have w1 : s1 - t1 = 0 := by
        apply pow_eq_zero_iff (two_ne_zero) |>.mp; linarith [sq_nonneg (s1 - t1), sq_nonneg (s2 - t2)]
      have w2 : s2 - t2 = 0 := by
        apply pow_eq_zero_iff (two_ne_zero) |>.mp; linarith [sq_nonneg (s1 - t1), sq_nonneg (s2 - t2)]
      have w3 : s3 - t3 = 0 := pow_eq_zero_iff (two_ne_zero) |>.mp x2
      apply hne
      rw [sub_eq_zero.mp w1, sub_eq_zero.mp w2, sub_eq_zero.mp w3]
    linarith
  · rw [lev]
    constructor
    · intro h0
      have := mul_pos h0 slope
      linarith
    · intro h0
      have : 0 < h * (2 * k + h * ((n1 ^ 2 + n2 ^ 2) / a ^ 2 + n3 ^ 2 / b ^ 2)) := by linarith
      exact (pos_iff_pos_of_mul_pos this).mpr slope
  · rw [lev]
    constructor
    · intro h0
      have := mul_neg_of_neg_of_pos h0 slope
      linarith
    · intro h0
      by_contra hc
      push Not at hc
      have := mul_nonneg hc slope.le
      linarith

/-- **C109.** In exact arithmetic, for every ellipsoid accepted by the library and every geodetic point whose height is
above `−b²/a` (6335.4 km below WGS84): `geodetic_to_geocentric` returns a point whose distance from the ellipsoid is the height,
outside for positive and inside for negative heights, and the foot of the vertical is the only nearest point. -/
theorem C109_height_is_distance (a f : ℝ) (ha : 0 < a) (c : EllipsoidConverter ℝ) (hc : EllipsoidConverter.new ⟨a, f⟩ = .ok c)
    (g : Geodetic ℝ) (hh : -(a * (1 - f) ^ 2) < g.height) :
    ∃ v, c.geodeticToGeocentric g = .ok v ∧ IsHeight a (a * (1 - f)) (v.x, v.y, v.z) g.height := by
  obtain ⟨S, k, h1, h2, h3, h4, h5, h6, h7⟩ := C46_geocentric a f ha c hc g
  obtain ⟨f0, f1, -, -⟩ := conv_eq hc
  have fb : 0 < a * (1 - f) := mul_pos ha (by linarith)
  refine ⟨_, h1, (isHeight_normal (k := k) fb ?_ h3 ?_ ?_ ?_ h7 h2 ?_).1⟩
  · have := mul_nonneg ha.le f0
    linarith
  · rw [div_eq_iff (by positivity)] at h4; linarith
  · rw [div_eq_iff (by positivity)] at h5; linarith
  · rw [div_eq_iff (by positivity)] at h6; linarith
  · rw [show (a * (1 - f)) ^ 2 / a = a * (1 - f) ^ 2 by field_simp]; exact hh

/-- **C109.** So no point of space has two geodetic coordinates above the centres of curvature: if the conversions of two
geodetic points with such heights agree, then the heights and the verticals agree. -/
theorem C109_injective (a f : ℝ) (ha : 0 < a) (c : EllipsoidConverter ℝ) (hc : EllipsoidConverter.new ⟨a, f⟩ = .ok c)
    (g g' : Geodetic ℝ) (hh : -(a * (1 - f) ^ 2) < g.height) (hh' : -(a * (1 - f) ^ 2) < g'.height)
    (e : c.geodeticToGeocentric g = c.geodeticToGeocentric g') :
    g.height = g'.height ∧ g.zenith = g'.zenith ∧
      (|g.phi| ≤ Real.pi / 2 → |g'.phi| ≤ Real.pi / 2 → g.phi = g'.phi ∧
        (|g.phi| < Real.pi / 2 → ∃ n : ℤ, g'.elong = g.elong + n * (2 * Real.pi))) := by
  obtain ⟨S, k, h1, h2, h3, h4, h5, h6, h7⟩ := C46_geocentric a f ha c hc g
  obtain ⟨S', k', h1', h2', h3', h4', h5', h6', h7'⟩ := C46_geocentric a f ha c hc g'
  obtain ⟨f0, f1, -, -⟩ := conv_eq hc
  have fb : 0 < a * (1 - f) := mul_pos ha (by linarith)
  have fab : a * (1 - f) ≤ a := by
    have := mul_nonneg ha.le f0
    linarith
  have fh : (a * (1 - f)) ^ 2 / a = a * (1 - f) ^ 2 := by field_simp
  rw [h1, h1'] at e
  have ev := Except.ok.inj e
  simp only [Vec3.mk.injEq] at ev
  rw [div_eq_iff (by positivity)] at h4 h5 h6 h4' h5' h6'
  obtain ⟨A1, A2, A3⟩ := isHeight_normal (k := k) fb fab h3 (by linarith) (by linarith) (by linarith) h7 h2 (by rw [fh]; exact hh)
  obtain ⟨B1, B2, B3⟩ := isHeight_normal (k := k') fb fab h3' (by linarith) (by linarith) (by linarith) h7' h2' (by rw [fh]; exact hh')
  rw [ev.1, ev.2.1, ev.2.2] at A1 A2 A3
  have eh := IsHeight.unique A1 B1
  have eS : (S.x, S.y, S.z) = (S'.x, S'.y, S'.z) := by
    by_contra hn
    have q1 := A3 (S'.x, S'.y, S'.z) h2' (Ne.symm hn)
    have q2 := B3 (S.x, S.y, S.z) h2 hn
    rw [B2] at q1
    rw [A2] at q2
    linarith
  simp only [Prod.mk.injEq] at eS
  obtain ⟨x1, x2, x3⟩ := eS
  rw [x1, h4'] at h4
  rw [x2, h5'] at h5
  rw [x3, h6'] at h6
  have a2 : a ^ 2 ≠ 0 := by positivity
  have b2 : (a * (1 - f)) ^ 2 ≠ 0 := by positivity
  have y1 := mul_right_cancel₀ a2 h4
  have y2 := mul_right_cancel₀ a2 h5
  have y3 := mul_right_cancel₀ b2 h6
  have kk : k' = k := by
    have : k' ^ 2 = k ^ 2 := by
      calc k' ^ 2 = (k' * g'.zenith.x) ^ 2 + (k' * g'.zenith.y) ^ 2 + (k' * g'.zenith.z) ^ 2 := by linear_combination -(k' ^ 2) * h7'
        _ = (k * g.zenith.x) ^ 2 + (k * g.zenith.y) ^ 2 + (k * g.zenith.z) ^ 2 := by rw [y1, y2, y3]
        _ = k ^ 2 := by linear_combination k ^ 2 * h7
    exact (pow_left_inj₀ h3'.le h3.le two_ne_zero).mp this
  rw [kk] at y1 y2 y3
  have z1 := mul_left_cancel₀ h3.ne' y1
  have z2 := mul_left_cancel₀ h3.ne' y2
  have z3 := mul_left_cancel₀ h3.ne' y3
  refine ⟨eh, ?_, fun p1 p2 => ?_⟩
  · cases hz : g.zenith; cases hz' : g'.zenith
    rw [hz, hz'] at z1 z2 z3
    simp only at z1 z2 z3
    rw [z1, z2, z3]
  · have s3 : Real.sin g'.phi = Real.sin g.phi := z3
    have hp : g.phi = g'.phi := Real.injOn_sin (abs_le.mp p1) (abs_le.mp p2) s3.symm
    refine ⟨hp, fun p3 => ?_⟩
    have cp : 0 < Real.cos g.phi := Real.cos_pos_of_mem_Ioo (abs_lt.mp p3)
    have s1 : Real.cos g'.phi * Real.cos g'.elong = Real.cos g.phi * Real.cos g.elong := z1
    have s2 : Real.cos g'.phi * Real.sin g'.elong = Real.cos g.phi * Real.sin g.elong := z2
    rw [← hp] at s1 s2
    have t1 := mul_left_cancel₀ cp.ne' s1
    have t2 := mul_left_cancel₀ cp.ne' s2
    have := Real.Angle.cos_sin_inj t1 t2
    obtain ⟨n, hn⟩ := Real.Angle.angle_eq_iff_two_pi_dvd_sub.mp this
    exact ⟨n, by linarith⟩

/-- The hypotheses hold for two ways of writing a place 6000 km below a point of the equator. -/
example : (∃ c, EllipsoidConverter.new (⟨6378137, 1 / 298⟩ : Ellipsoid ℝ) = .ok c) ∧
    ∀ c : EllipsoidConverter ℝ, EllipsoidConverter.new ⟨6378137, 1 / 298⟩ = .ok c →
      ∃ g g' : Geodetic ℝ, g ≠ g' ∧ -(6378137 * (1 - 1 / 298) ^ 2) < g.height ∧ -(6378137 * (1 - 1 / 298) ^ 2) < g'.height ∧
        c.geodeticToGeocentric g = c.geodeticToGeocentric g' := by
  refine ⟨(C45_new_ok_iff _ _).mpr ⟨by norm_num, by norm_num, by norm_num⟩, fun c hc => ?_⟩
  obtain ⟨-, f1, -, rfl⟩ := conv_eq hc
  refine ⟨⟨0, 0, -6000000⟩, ⟨2 * Real.pi, 0, -6000000⟩, ?_, by norm_num, by norm_num, ?_⟩
  · intro h
    have := congrArg Geodetic.elong h
    have p := Real.pi_pos
    simp only at this
    linarith
  · rw [geocentric_real _ _ f1, geocentric_real _ _ f1]
    simp

/-- **C109.** The bound on the height is the right one: on every flattened ellipsoid, below a point of the equator the
height given is no longer the height of the point as soon as it is under `−b²/a`. -/
theorem C109_bound_needed (a f : ℝ) (ha : 0 < a) (f0 : 0 < f) (c : EllipsoidConverter ℝ) (hc : EllipsoidConverter.new ⟨a, f⟩ = .ok c)
    (lam h : ℝ) (h0 : -a ≤ h) (hh : h < -(a * (1 - f) ^ 2)) :
    ∃ v, c.geodeticToGeocentric ⟨lam, 0, h⟩ = .ok v ∧ ¬ IsHeight a (a * (1 - f)) (v.x, v.y, v.z) h := by
  obtain ⟨-, f1, -, rfl⟩ := conv_eq hc
  refine ⟨_, geocentric_real a f f1 _, ?_⟩
  simp only [Real.cos_zero, Real.sin_zero, mul_zero, mul_one, one_pow, ne_eq, OfNat.ofNat_ne_zero, not_false_eq_true, zero_pow,
    add_zero, Real.sqrt_one, div_one]
  rintro ⟨⟨s, s1, s2, s3⟩, -⟩
  have w0 : 0 < 1 - f := by linarith
  have w1 : (1 - f) ^ 2 < 1 := by nlinarith
  obtain ⟨q, hq⟩ : ∃ q, q = (a + h) / (a * (1 - (1 - f) ^ 2)) := ⟨_, rfl⟩
  have dp : 0 < a * (1 - (1 - f) ^ 2) := mul_pos ha (by linarith)
  have q0 : 0 ≤ q := by rw [hq]; exact div_nonneg (by linarith) dp.le
  have q1 : q < 1 := by rw [hq, div_lt_one dp]; linarith
  have eq : a + h = q * (a * (1 - (1 - f) ^ 2)) := by rw [hq, div_mul_cancel₀ _ dp.ne']
  have r0 : 0 ≤ 1 - q ^ 2 := by nlinarith
  have u := Real.sin_sq_add_cos_sq lam
  have hr := Real.sq_sqrt r0
  have lt : level a (a * (1 - f)) (a * q * Real.cos lam, a * q * Real.sin lam, a * (1 - f) * √(1 - q ^ 2)) = 1 := by
    simp only [level]
    rw [mul_pow (a * (1 - f)), hr]
    field_simp
    linear_combination q ^ 2 * u
  have key : dist3 ((a + h) * Real.cos lam, (a + h) * Real.sin lam, 0)
      (a * q * Real.cos lam, a * q * Real.sin lam, a * (1 - f) * √(1 - q ^ 2)) < |h| := by
    simp only [dist3]
    rw [Real.sqrt_lt' (by rw [abs_pos]; nlinarith [pow_pos w0 2]), sq_abs]
    have e : ((a + h) * Real.cos lam - a * q * Real.cos lam) ^ 2 + ((a + h) * Real.sin lam - a * q * Real.sin lam) ^ 2 +
        (0 - a * (1 - f) * √(1 - q ^ 2)) ^ 2 = (a + h - a * q) ^ 2 + a ^ 2 * (1 - f) ^ 2 * (1 - q ^ 2) := by
      linear_combination (a + h - a * q) ^ 2 * u + a ^ 2 * (1 - f) ^ 2 * hr
    have e2 : (a + h - a * q) ^ 2 + a ^ 2 * (1 - f) ^ 2 * (1 - q ^ 2) = h ^ 2 - a ^ 2 * (1 - (1 - f) ^ 2) * (1 - q) ^ 2 := by
      have : h = q * (a * (1 - (1 - f) ^ 2)) - a := by linarith
      rw [this]; ring
    rw [e, e2]
    have : 0 < a ^ 2 * (1 - (1 - f) ^ 2) * (1 - q) ^ 2 :=
      mul_pos (mul_pos (by positivity) (by linarith)) (pow_pos (by linarith) 2)
    linarith
  rcases eq_or_ne (a * q * Real.cos lam, a * q * Real.sin lam, a * (1 - f) * √(1 - q ^ 2)) s with e | e
  · rw [e, s2] at key
    exact lt_irrefl _ key
  · exact lt_asymm key (s3 _ lt e)

example : (∃ c, EllipsoidConverter.new (⟨6378137, 1 / 298⟩ : Ellipsoid ℝ) = .ok c) ∧
    -6378137 ≤ (-6370000 : ℝ) ∧ (-6370000 : ℝ) < -(6378137 * (1 - 1 / 298) ^ 2) :=
  ⟨(C45_new_ok_iff _ _).mpr ⟨by norm_num, by norm_num, by norm_num⟩, by norm_num, by norm_num⟩

/-- Moving a point moves its distances by at most as much. -/
theorem dist3_near {u v t : ℝ × ℝ × ℝ} {E : ℝ} (h : dist3 u v ≤ E) : |dist3 u t - dist3 v t| ≤ E := by
  have e : ∀ u v : ℝ × ℝ × ℝ, dist3 u v = dist (!₂[u.1, u.2.1, u.2.2] : EuclideanSpace ℝ (Fin 3)) !₂[v.1, v.2.1, v.2.2] := by
    intro u v
    rw [EuclideanSpace.dist_eq, Fin.sum_univ_three]
    simp [dist3, Real.dist_eq, sq_abs]
  rw [e] at h
  rw [e, e]
  exact (abs_dist_sub_le _ _ _).trans h

/-- The point with geodetic coordinates `lam`, `φ`, `h` has the height `h`. -/
theorem isHeight_coords {a k N lam φ h : ℝ} (ha : 0 < a) (k0 : 0 < k) (k1 : k ≤ 1)
    (hN : N = a / √(Real.cos φ ^ 2 + k ^ 2 * Real.sin φ ^ 2)) (hh : -(a * k ^ 2) < h) :
    IsHeight a (a * k) ((N + h) * Real.cos φ * Real.cos lam, (N + h) * Real.cos φ * Real.sin lam, (k ^ 2 * N + h) * Real.sin φ) h := by
  have t := Real.sin_sq_add_cos_sq φ
  have u := Real.sin_sq_add_cos_sq lam
  have Dp : 0 < Real.cos φ ^ 2 + k ^ 2 * Real.sin φ ^ 2 := by
    have k2 := pow_pos k0 2
    rcases eq_or_ne (Real.sin φ) 0 with h | h
    · rw [h] at t ⊢; nlinarith
    · have : 0 < Real.sin φ ^ 2 := by positivity
      nlinarith [sq_nonneg (Real.cos φ), mul_pos k2 this]
  have sp := Real.sqrt_pos.mpr Dp
  have Np : 0 < N := by rw [hN]; positivity
  have eN : N ^ 2 * (Real.cos φ ^ 2 + k ^ 2 * Real.sin φ ^ 2) = a ^ 2 := by
    rw [hN, div_pow, Real.sq_sqrt Dp.le]
    field_simp
  have := (isHeight_normal (a := a) (b := a * k) (k := N / a ^ 2) (h := h) (s1 := N * Real.cos φ * Real.cos lam)
    (s2 := N * Real.cos φ * Real.sin lam) (s3 := k ^ 2 * N * Real.sin φ) (n1 := Real.cos φ * Real.cos lam)
    (n2 := Real.cos φ * Real.sin lam) (n3 := Real.sin φ) (by positivity) (by nlinarith) (by positivity) (by field_simp)
    (by field_simp) (by field_simp) (by linear_combination Real.cos φ ^ 2 * u + t)
    (by
      field_simp
      linear_combination eN + N ^ 2 * Real.cos φ ^ 2 * u)
    (by
      have : (a * k) ^ 2 / a = a * k ^ 2 := by field_simp
      rw [this]; exact hh)).1
  convert this using 3 <;> ring

/-- **C109 in binary64, forwards.** For finite longitude and latitude up to 360 degrees and every finite height from
−6300 km to 10 000 km, the distance from the computed point to the WGS84 ellipsoid is the magnitude of the height to
within 0.52 micrometres. -/
theorem C109_height_is_distance_f64 [Libm F64] (hL : LibmAcc) (w : EllipsoidConverter F64) (hw : EllipsoidConverter.new WGS84 = .ok w)
    (g : Geodetic360 F64) (l p h : ℚ) (hl : Is g.lon l) (hp : Is g.lat p) (hh : Is g.height h) (l1 : |l| ≤ 360) (p1 : |p| ≤ 360)
    (h0 : -6300000 ≤ h) (h1 : h ≤ 10 ^ 7) (b : ℝ) (hb : b = 6378137 * (1 - 1 / 298.257223563)) :
    ∃ (v : Vec3 F64) (x y z : ℚ), w.geodeticToGeocentric (Geodetic.from360 g) = .ok v ∧ Is v.x x ∧ Is v.y y ∧ Is v.z z ∧
      (∀ t, level 6378137 b t = 1 → |(h : ℝ)| - 5.2e-7 ≤ dist3 (x, y, z) t) ∧
      ∃ s, level 6378137 b s = 1 ∧ dist3 (x, y, z) s ≤ |(h : ℝ)| + 5.2e-7 := by
  obtain ⟨v, e, ⟨x, hx, ex⟩, ⟨y, hy, ey⟩, ⟨z, hz, ez⟩⟩ := C71_geocentric_f64 hL w hw g l p h hl hp hh l1 p1
    (abs_le.mpr ⟨by linarith, h1⟩) _ _ _ _ rfl rfl rfl rfl
  have h0' : (-6300000 : ℝ) ≤ h := by exact_mod_cast h0
  obtain ⟨⟨s, s1, s2, s3⟩, -⟩ := isHeight_coords (a := 6378137) (k := 1 - 1 / 298.257223563) (lam := l * (Real.pi / 180))
    (φ := p * (Real.pi / 180)) (h := h) (by norm_num) (by norm_num) (by norm_num) rfl (by norm_num; linarith)
  rw [← hb] at s1 s3
  refine ⟨v, x, y, z, e, hx, hy, hz, ?_⟩
  have near := fun t => dist3_near (t := t) (E := 5.2e-7) (u := (x, y, z)) (v := (_, _, _)) (by
    rw [dist3, Real.sqrt_le_iff]
    refine ⟨by norm_num, ?_⟩
    have q1 := sq_le_sq' (abs_le.mp ex).1 (abs_le.mp ex).2
    have q2 := sq_le_sq' (abs_le.mp ey).1 (abs_le.mp ey).2
    have q3 := sq_le_sq' (abs_le.mp ez).1 (abs_le.mp ez).2
    refine (add_le_add (add_le_add q1 q2) q3).trans (by norm_num))
  refine ⟨fun t ht => ?_, s, s1, ?_⟩
  · have n1 := (abs_le.mp (near t)).1
    rcases eq_or_ne t s with hs | hs
    · rw [hs] at n1 ⊢
      rw [s2] at n1
      linarith
    · have := s3 t ht hs
      linarith
  · have n1 := (abs_le.mp (near s)).2
    rw [s2] at n1
    linarith

/-- The hypotheses hold for a place 100 m above the ellipsoid, with a library that exists. -/
example : ∃ L : Libm F64, @LibmAcc L ∧ ∃ w, EllipsoidConverter.new (WGS84 : Ellipsoid F64) = .ok w ∧
    ∃ g : Geodetic360 F64, Is g.lon (90 : ℤ) ∧ Is g.lat (45 : ℤ) ∧ Is g.height (100 : ℤ) := by
  obtain ⟨w, hw⟩ := wgs84_f64
  exact ⟨goodLibm, exists_libmAcc, w, hw, ⟨Arith.ofInt 90, Arith.ofInt 45, Arith.ofInt 100⟩, Is.ofInt 90 (by norm_num),
    Is.ofInt 45 (by norm_num), Is.ofInt 100 (by norm_num)⟩

/-- **C109 in binary64, backwards.** Every finite point from 47 km below the WGS84 ellipsoid to 9400 times its size has a
height over it, and the height found by the binary64 code differs from it by at most `1e-15 (6378137 + |h|)`. -/
theorem C109_height_of_point_f64 [Libm F64] (hL : LibmAcc)
    (hat : ∀ (x : F64) (a : ℚ), Is x a → Near (Libm.atan x) (Real.arctan a) (1 / 2 ^ 50))
    (w : EllipsoidConverter F64) (hw : EllipsoidConverter.new WGS84 = .ok w) (v : Vec3 F64) (x y z : ℚ)
    (hx : Is v.x x) (hy : Is v.y y) (hz : Is v.z z) (b : ℝ) (hb : b = 6378137 * (1 - 1 / 298.257223563))
    (L0 : 0.9925 ^ 2 ≤ level 6378137 b (x, y, z)) (L1 : level 6378137 b (x, y, z) ≤ 9400 ^ 2) :
    ∃ (h : ℝ) (h' : ℚ), IsHeight 6378137 b (x, y, z) h ∧ Is (w.geocentricToGeodetic v).height h' ∧
      |(h' : ℝ) - h| ≤ 1e-15 * (6378137 + |h|) := by
  obtain ⟨k, hk⟩ : ∃ k : ℝ, k = 1 - 1 / 298.257223563 := ⟨_, rfl⟩
  rw [← hk] at hb
  have l0 : 0 ≤ level 6378137 b (x, y, z) := le_trans (by norm_num) L0
  obtain ⟨lam, φ, h, N, hφ, hN, h0, h1, ex, ey, ez⟩ := geodetic_of_point x y z k (√(level 6378137 b (x, y, z))) hk
    (by rw [Real.sq_sqrt l0, hb, level]) (Real.le_sqrt_of_sq_le L0) (Real.sqrt_le_iff.mpr ⟨by norm_num, L1⟩)
  obtain ⟨h', e, b1⟩ := C80_height_f64 hL hat w hw v x y z hx hy hz k N lam φ h hk hN hφ h0 h1 ex ey ez
  have H := isHeight_coords (a := 6378137) (lam := lam) (by norm_num) (by rw [hk]; norm_num) (by rw [hk]; norm_num) hN
    (h := h) (by rw [hk]; norm_num; linarith)
  rw [← ex, ← ey, ← ez, ← hb] at H
  exact ⟨h, h', H, e, b1⟩

/-- The hypotheses hold for the point of the equator 1000 m above the ellipsoid, with a library that exists. -/
example : ∃ L : Libm F64, @LibmAcc L ∧ (∀ (x : F64) (a : ℚ), Is x a → Near (L.atan x) (Real.arctan a) (1 / 2 ^ 50)) ∧
    ∃ w, EllipsoidConverter.new (WGS84 : Ellipsoid F64) = .ok w ∧
    ∃ v : Vec3 F64, Is v.x (6379137 : ℤ) ∧ Is v.y (0 : ℤ) ∧ Is v.z (0 : ℤ) ∧
      ∀ b : ℝ, (0.9925 : ℝ) ^ 2 ≤ level 6378137 b (6379137, 0, 0) ∧ level 6378137 b (6379137, 0, 0) ≤ 9400 ^ 2 := by
  obtain ⟨w, hw⟩ := wgs84_f64
  refine ⟨goodLibm, exists_libmAcc, goodLibm_atan, w, hw, ⟨Arith.ofInt 6379137, Arith.ofInt 0, Arith.ofInt 0⟩,
    Is.ofInt 6379137 (by norm_num), Is.ofInt 0 (by norm_num), Is.ofInt 0 (by norm_num), fun b => ?_⟩
  norm_num [level]

end Verif
