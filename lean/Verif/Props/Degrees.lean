import Verif.Props.HeightDistance
import Mathlib.Analysis.Calculus.Deriv.MeanValue
import Mathlib.Analysis.SpecialFunctions.Trigonometric.Deriv
import Mathlib.Analysis.SpecialFunctions.Sqrt

/-!
# C111: lengths of degrees of latitude and longitude

Code: `tofas/src/ellipsoid.rs`, `geodetic_to_geocentric`.
-/

namespace Verif

open Arith F64 Spec

/-- Radius of curvature of the meridian at the latitude `φ`, for semi-axes `a` and `a k`. -/
noncomputable def meridianRadius (a k φ : ℝ) : ℝ := a * k ^ 2 / √(Real.cos φ ^ 2 + k ^ 2 * Real.sin φ ^ 2) ^ 3

theorem radicand_pos' {k : ℝ} (k0 : 0 < k) (φ : ℝ) : 0 < Real.cos φ ^ 2 + k ^ 2 * Real.sin φ ^ 2 := by
  have := radicand_pos (1 - k) φ (by linarith)
  rwa [sub_sub_cancel] at this

theorem hasDerivAt_root {k : ℝ} (k0 : 0 < k) (φ : ℝ) :
    HasDerivAt (fun φ => √(Real.cos φ ^ 2 + k ^ 2 * Real.sin φ ^ 2))
      (-((1 - k ^ 2) * Real.sin φ * Real.cos φ) / √(Real.cos φ ^ 2 + k ^ 2 * Real.sin φ ^ 2)) φ := by
  have p := radicand_pos' k0 φ
  have h := (((Real.hasDerivAt_cos φ).pow 2).add (((Real.hasDerivAt_sin φ).pow 2).const_mul (k ^ 2))).sqrt p.ne'
  have sp := (Real.sqrt_pos.mpr p).ne'
  refine (show HasDerivAt (fun φ => √(Real.cos φ ^ 2 + k ^ 2 * Real.sin φ ^ 2)) (_ / (2 * √(Real.cos φ ^ 2 + k ^ 2 * Real.sin φ ^ 2))) φ
    from h).congr_deriv ?_
  rw [div_eq_div_iff (by positivity) sp]
  push_cast
  ring

/-- The meridian section: the two coordinates move in the direction of growing latitude, at the rate of the radius. -/
theorem hasDerivAt_meridian {a k : ℝ} (k0 : 0 < k) (h φ : ℝ) :
    HasDerivAt (fun φ => (a / √(Real.cos φ ^ 2 + k ^ 2 * Real.sin φ ^ 2) + h) * Real.cos φ)
      (-((meridianRadius a k φ + h) * Real.sin φ)) φ ∧
    HasDerivAt (fun φ => (k ^ 2 * (a / √(Real.cos φ ^ 2 + k ^ 2 * Real.sin φ ^ 2)) + h) * Real.sin φ)
      ((meridianRadius a k φ + h) * Real.cos φ) φ := by
  have p := radicand_pos' k0 φ
  have sp := Real.sqrt_pos.mpr p
  have r := hasDerivAt_root k0 φ
  have N := (hasDerivAt_const φ a).div r sp.ne'
  have t := Real.sin_sq_add_cos_sq φ
  have sq := Real.sq_sqrt p.le
  constructor
  · refine (show HasDerivAt (fun φ => (a / √(Real.cos φ ^ 2 + k ^ 2 * Real.sin φ ^ 2) + h) * Real.cos φ) _ φ from
      (N.add_const h).mul (Real.hasDerivAt_cos φ)).congr_deriv ?_
    simp only [meridianRadius, Pi.div_apply]
    generalize √(Real.cos φ ^ 2 + k ^ 2 * Real.sin φ ^ 2) = D at *
    field_simp
    linear_combination a * Real.sin φ * (-sq - k ^ 2 * t)
  · refine (show HasDerivAt (fun φ => (k ^ 2 * (a / √(Real.cos φ ^ 2 + k ^ 2 * Real.sin φ ^ 2)) + h) * Real.sin φ) _ φ from
      ((N.const_mul (k ^ 2)).add_const h).mul (Real.hasDerivAt_sin φ)).congr_deriv ?_
    simp only [meridianRadius, Pi.div_apply]
    generalize √(Real.cos φ ^ 2 + k ^ 2 * Real.sin φ ^ 2) = D at *
    field_simp
    linear_combination a * Real.cos φ * k ^ 2 * (sq + t)

/-- Chord of a meridian between two bounds of its radius of curvature. -/
theorem meridian_chord {a k h φ φ' m X : ℝ} (k0 : 0 < k) (hle : φ ≤ φ') (hpi : φ' - φ ≤ Real.pi) (m0 : 0 ≤ m)
    (lo : ∀ θ, φ ≤ θ → θ ≤ φ' → m ≤ meridianRadius a k θ + h) (hi : ∀ θ, φ ≤ θ → θ ≤ φ' → meridianRadius a k θ + h ≤ X)
    (ρ z : ℝ → ℝ) (hρ : ρ = fun φ => (a / √(Real.cos φ ^ 2 + k ^ 2 * Real.sin φ ^ 2) + h) * Real.cos φ)
    (hz : z = fun φ => (k ^ 2 * (a / √(Real.cos φ ^ 2 + k ^ 2 * Real.sin φ ^ 2)) + h) * Real.sin φ) :
    2 * m * Real.sin ((φ' - φ) / 2) ≤ √((ρ φ' - ρ φ) ^ 2 + (z φ' - z φ) ^ 2) ∧
      √((ρ φ' - ρ φ) ^ 2 + (z φ' - z φ) ^ 2) ≤ X * (φ' - φ) := by
  have dρ : ∀ θ, HasDerivAt ρ (-((meridianRadius a k θ + h) * Real.sin θ)) θ := fun θ => by
    rw [hρ]; exact (hasDerivAt_meridian k0 h θ).1
  have dz : ∀ θ, HasDerivAt z ((meridianRadius a k θ + h) * Real.cos θ) θ := fun θ => by
    rw [hz]; exact (hasDerivAt_meridian k0 h θ).2
  have mono : ∀ (F F' : ℝ → ℝ), (∀ θ, HasDerivAt F (F' θ) θ) → (∀ θ, φ ≤ θ → θ ≤ φ' → 0 ≤ F' θ) → F φ ≤ F φ' := by
    intro F F' hd hn
    refine monotoneOn_of_deriv_nonneg (convex_Icc φ φ') (fun θ _ => (hd θ).continuousAt.continuousWithinAt)
      (fun θ _ => (hd θ).differentiableAt.differentiableWithinAt) (fun θ ht => ?_) ⟨le_rfl, hle⟩ ⟨hle, le_rfl⟩ hle
    rw [interior_Icc] at ht
    rw [(hd θ).deriv]
    exact hn θ ht.1.le ht.2.le
  constructor
  · obtain ⟨μ, hμ⟩ : ∃ μ, μ = (φ + φ') / 2 := ⟨_, rfl⟩
    have key := mono (fun θ => -Real.sin μ * ρ θ + Real.cos μ * z θ - m * Real.sin (θ - μ))
      (fun θ => (meridianRadius a k θ + h - m) * Real.cos (θ - μ)) (fun θ => by
        have s : HasDerivAt (fun θ => Real.sin (θ - μ)) (Real.cos (θ - μ) * 1) θ :=
          ((hasDerivAt_id θ).sub_const μ).sin
        refine ((((dρ θ).const_mul (-Real.sin μ)).add ((dz θ).const_mul (Real.cos μ))).sub (s.const_mul m)).congr_deriv ?_
        rw [Real.cos_sub]; ring)
      (fun θ h1 h2 => mul_nonneg (by have := lo θ h1 h2; linarith)
        (Real.cos_nonneg_of_mem_Icc ⟨by rw [hμ]; linarith, by rw [hμ]; linarith⟩))
    rw [show φ - μ = -((φ' - φ) / 2) by rw [hμ]; ring, show φ' - μ = (φ' - φ) / 2 by rw [hμ]; ring, Real.sin_neg] at key
    refine Real.le_sqrt_of_sq_le ?_
    have u := Real.sin_sq_add_cos_sq μ
    have s0 : 0 ≤ Real.sin ((φ' - φ) / 2) := Real.sin_nonneg_of_nonneg_of_le_pi (by linarith) (by linarith)
    have k1 : 2 * m * Real.sin ((φ' - φ) / 2) ≤ -Real.sin μ * (ρ φ' - ρ φ) + Real.cos μ * (z φ' - z φ) := by linarith
    have k2 : 0 ≤ 2 * m * Real.sin ((φ' - φ) / 2) := by positivity
    refine (pow_le_pow_left₀ k2 k1 2).trans ?_
    nlinarith [sq_nonneg (Real.cos μ * (ρ φ' - ρ φ) + Real.sin μ * (z φ' - z φ))]
  · obtain ⟨L, hL⟩ : ∃ L, L = √((ρ φ' - ρ φ) ^ 2 + (z φ' - z φ) ^ 2) := ⟨_, rfl⟩
    rw [← hL]
    have L0 : 0 ≤ L := by rw [hL]; exact Real.sqrt_nonneg _
    have X0 : 0 ≤ X := m0.trans ((lo φ le_rfl hle).trans (hi φ le_rfl hle))
    rcases eq_or_lt_of_le L0 with e | Lp
    · rw [← e]; exact mul_nonneg X0 (by linarith)
    · have L2 : L ^ 2 = (ρ φ' - ρ φ) ^ 2 + (z φ' - z φ) ^ 2 := by rw [hL, Real.sq_sqrt (by positivity)]
      obtain ⟨u, hu⟩ : ∃ u, u = (ρ φ' - ρ φ) / L := ⟨_, rfl⟩
      obtain ⟨w, hw⟩ : ∃ w, w = (z φ' - z φ) / L := ⟨_, rfl⟩
      have uw : u ^ 2 + w ^ 2 = 1 := by rw [hu, hw]; field_simp; linarith
      have key := mono (fun θ => X * θ - (u * ρ θ + w * z θ))
        (fun θ => X - (meridianRadius a k θ + h) * (-(u * Real.sin θ) + w * Real.cos θ)) (fun θ => by
          refine (((hasDerivAt_id θ).const_mul X).sub (((dρ θ).const_mul u).add ((dz θ).const_mul w))).congr_deriv ?_
          ring)
        (fun θ h1 h2 => by
          have t := Real.sin_sq_add_cos_sq θ
          have c : -(u * Real.sin θ) + w * Real.cos θ ≤ 1 := by
            nlinarith [sq_nonneg (u + Real.sin θ), sq_nonneg (w - Real.cos θ)]
          have r0 := m0.trans (lo θ h1 h2)
          have r1 := hi θ h1 h2
          have := mul_le_mul_of_nonneg_left c r0
          linarith)
      have : u * (ρ φ' - ρ φ) + w * (z φ' - z φ) = L := by
        rw [hu, hw]; field_simp; linarith
      linarith

theorem meridianRadius_le {a k φ θ : ℝ} (a0 : 0 ≤ a) (k0 : 0 < k) (k1 : k ≤ 1) (h : Real.sin φ ^ 2 ≤ Real.sin θ ^ 2) :
    meridianRadius a k φ ≤ meridianRadius a k θ := by
  unfold meridianRadius
  have t := Real.sin_sq_add_cos_sq φ
  have t' := Real.sin_sq_add_cos_sq θ
  have p := Real.sqrt_pos.mpr (radicand_pos' k0 θ)
  have : Real.cos θ ^ 2 + k ^ 2 * Real.sin θ ^ 2 ≤ Real.cos φ ^ 2 + k ^ 2 * Real.sin φ ^ 2 := by
    have := mul_nonneg (sub_nonneg.mpr h) (sub_nonneg.mpr (pow_le_one₀ (n := 2) k0.le k1))
    linarith
  gcongr

theorem meridianRadius_bounds {a k φ : ℝ} (a0 : 0 ≤ a) (k0 : 0 < k) (k1 : k ≤ 1) :
    a * k ^ 2 ≤ meridianRadius a k φ ∧ meridianRadius a k φ ≤ a / k := by
  have e0 : meridianRadius a k 0 = a * k ^ 2 := by simp [meridianRadius]
  have e1 : meridianRadius a k (Real.pi / 2) = a / k := by
    simp only [meridianRadius, Real.cos_pi_div_two, Real.sin_pi_div_two]
    rw [show (0 : ℝ) ^ 2 + k ^ 2 * 1 ^ 2 = k ^ 2 by ring, Real.sqrt_sq k0.le]
    field_simp
  rw [← e0, ← e1]
  constructor
  · refine meridianRadius_le a0 k0 k1 ?_
    rw [Real.sin_zero, zero_pow two_ne_zero]; positivity
  · refine meridianRadius_le a0 k0 k1 ?_
    rw [Real.sin_pi_div_two]
    nlinarith [Real.sin_sq_add_cos_sq φ, sq_nonneg (Real.cos φ)]

/-- **C111.** In exact arithmetic, for every accepted ellipsoid, two places of one meridian at one height above `−b²/a` whose latitudes
differ by at most a half turn: the straight distance between the points returned by `geodetic_to_geocentric` is between the chord of
a circle of radius `b²/a + h` and the arc of a circle of radius `a²/b + h`. Between the equator and the north pole the radii may be
replaced by the radii of curvature at the nearer and the farther latitude: degrees of latitude grow towards the poles. -/
theorem C111_meridian (a f : ℝ) (ha : 0 < a) (c : EllipsoidConverter ℝ) (hc : EllipsoidConverter.new ⟨a, f⟩ = .ok c)
    (l φ φ' h : ℝ) (hh : -(a * (1 - f) ^ 2) ≤ h) (hle : φ ≤ φ') (hpi : φ' - φ ≤ Real.pi) :
    ∃ v v', c.geodeticToGeocentric ⟨l, φ, h⟩ = .ok v ∧ c.geodeticToGeocentric ⟨l, φ', h⟩ = .ok v' ∧
      2 * (a * (1 - f) ^ 2 + h) * Real.sin ((φ' - φ) / 2) ≤ dist3 (v'.x, v'.y, v'.z) (v.x, v.y, v.z) ∧
      dist3 (v'.x, v'.y, v'.z) (v.x, v.y, v.z) ≤ (a / (1 - f) + h) * (φ' - φ) ∧
      (0 ≤ φ → φ' ≤ Real.pi / 2 →
        2 * (meridianRadius a (1 - f) φ + h) * Real.sin ((φ' - φ) / 2) ≤ dist3 (v'.x, v'.y, v'.z) (v.x, v.y, v.z) ∧
        dist3 (v'.x, v'.y, v'.z) (v.x, v.y, v.z) ≤ (meridianRadius a (1 - f) φ' + h) * (φ' - φ)) := by
  obtain ⟨f0, f1, -, rfl⟩ := conv_eq hc
  have k0 : 0 < 1 - f := by linarith
  have k1 : 1 - f ≤ 1 := by linarith
  refine ⟨_, _, geocentric_real a f f1 _, geocentric_real a f f1 _, ?_⟩
  simp only
  have u := Real.sin_sq_add_cos_sq l
  have e : ∀ r r' z z' : ℝ, dist3 (r' * Real.cos l, r' * Real.sin l, z') (r * Real.cos l, r * Real.sin l, z) =
      √((r' - r) ^ 2 + (z' - z) ^ 2) := by
    intro r r' z z'
    unfold dist3
    congr 1
    linear_combination (r' - r) ^ 2 * u
  rw [e]
  have B := fun θ => meridianRadius_bounds (φ := θ) ha.le k0 k1
  refine ⟨(meridian_chord k0 hle hpi (X := a / (1 - f) + h) (by linarith) (fun θ _ _ => by linarith [(B θ).1])
    (fun θ _ _ => by linarith [(B θ).2]) _ _ rfl rfl).1, (meridian_chord k0 hle hpi (m := a * (1 - f) ^ 2 + h) (by linarith)
    (fun θ _ _ => by linarith [(B θ).1]) (fun θ _ _ => by linarith [(B θ).2]) _ _ rfl rfl).2, fun p0 p1 => ?_⟩
  have s : ∀ x y, 0 ≤ x → x ≤ y → y ≤ Real.pi / 2 → Real.sin x ^ 2 ≤ Real.sin y ^ 2 := fun x y h1 h2 h3 =>
    pow_le_pow_left₀ (Real.sin_nonneg_of_nonneg_of_le_pi h1 (by linarith [Real.pi_pos]))
      (Real.sin_le_sin_of_le_of_le_pi_div_two (by linarith [Real.pi_pos]) h3 h2) 2
  exact meridian_chord k0 hle hpi (by linarith [(B φ).1])
    (fun θ h1 h2 => by linarith [meridianRadius_le ha.le k0 k1 (s φ θ p0 h1 (h2.trans p1))])
    (fun θ h1 h2 => by linarith [meridianRadius_le ha.le k0 k1 (s θ φ' (p0.trans h1) h2 p1)]) _ _ rfl rfl

/-- **C111.** Two places of one parallel at one height are at the distance of a chord of the parallel. -/
theorem C111_parallel (a f : ℝ) (c : EllipsoidConverter ℝ) (hc : EllipsoidConverter.new ⟨a, f⟩ = .ok c)
    (l l' φ h N : ℝ) (hN : N = a / √(Real.cos φ ^ 2 + (1 - f) ^ 2 * Real.sin φ ^ 2)) :
    ∃ v v', c.geodeticToGeocentric ⟨l, φ, h⟩ = .ok v ∧ c.geodeticToGeocentric ⟨l', φ, h⟩ = .ok v' ∧
      dist3 (v'.x, v'.y, v'.z) (v.x, v.y, v.z) = 2 * |(N + h) * Real.cos φ * Real.sin ((l' - l) / 2)| := by
  obtain ⟨f0, f1, -, rfl⟩ := conv_eq hc
  refine ⟨_, _, geocentric_real a f f1 _, geocentric_real a f f1 _, ?_⟩
  simp only [← hN, dist3]
  rw [show ∀ x : ℝ, 2 * |x| = |2 * x| from fun x => by rw [abs_mul, abs_two], ← Real.sqrt_sq_eq_abs]
  congr 1
  have e1 : Real.cos l = Real.cos ((l' + l) / 2 - (l' - l) / 2) := by congr 1; ring
  have e2 : Real.sin l = Real.sin ((l' + l) / 2 - (l' - l) / 2) := by congr 1; ring
  have e3 : Real.cos l' = Real.cos ((l' + l) / 2 + (l' - l) / 2) := by congr 1; ring
  have e4 : Real.sin l' = Real.sin ((l' + l) / 2 + (l' - l) / 2) := by congr 1; ring
  rw [e1, e2, e3, e4, Real.cos_sub, Real.sin_sub, Real.cos_add, Real.sin_add]
  have u := Real.sin_sq_add_cos_sq ((l' + l) / 2)
  linear_combination 4 * ((N + h) * Real.cos φ * Real.sin ((l' - l) / 2)) ^ 2 * u

/-- Two places a degree of latitude apart, one above the other: the hypotheses hold. -/
example : (∃ c, EllipsoidConverter.new (⟨6378137, 1 / 298⟩ : Ellipsoid ℝ) = .ok c) ∧ -(6378137 * (1 - 1 / 298) ^ 2) ≤ (1000 : ℝ) ∧
    (Real.pi / 4 : ℝ) ≤ Real.pi / 4 + Real.pi / 180 ∧ Real.pi / 4 + Real.pi / 180 - Real.pi / 4 ≤ Real.pi ∧
    0 ≤ Real.pi / 4 ∧ Real.pi / 4 + Real.pi / 180 ≤ Real.pi / 2 := by
  have := Real.pi_pos
  exact ⟨(C45_new_ok_iff _ _).mpr ⟨by norm_num, by norm_num, by norm_num⟩, by norm_num, by linarith, by linarith, by linarith, by linarith⟩

theorem dist3_comm (u v : ℝ × ℝ × ℝ) : dist3 u v = dist3 v u := by
  unfold dist3; congr 1; ring

/-- Computed and exact point of a place, from C71. -/
theorem geocentric_near [Libm F64] (hL : LibmAcc) (w : EllipsoidConverter F64) (hw : EllipsoidConverter.new WGS84 = .ok w)
    (c : EllipsoidConverter ℝ) (hc : EllipsoidConverter.new ⟨6378137, 1 / 298.257223563⟩ = .ok c)
    (g : Geodetic360 F64) (l p h : ℚ) (hl : Is g.lon l) (hp : Is g.lat p) (hh : Is g.height h) (l1 : |l| ≤ 360) (p1 : |p| ≤ 360)
    (h1 : |h| ≤ 10 ^ 7) :
    ∃ (v : Vec3 F64) (x y z : ℚ) (v' : Vec3 ℝ), w.geodeticToGeocentric (Geodetic.from360 g) = .ok v ∧ Is v.x x ∧ Is v.y y ∧ Is v.z z ∧
      c.geodeticToGeocentric ⟨l * (Real.pi / 180), p * (Real.pi / 180), h⟩ = .ok v' ∧ dist3 (x, y, z) (v'.x, v'.y, v'.z) ≤ 5.2e-7 := by
  obtain ⟨v, e, ⟨x, hx, ex⟩, ⟨y, hy, ey⟩, ⟨z, hz, ez⟩⟩ := C71_geocentric_f64 hL w hw g l p h hl hp hh l1 p1 h1 _ _ _ _ rfl rfl rfl rfl
  obtain ⟨-, f1, -, rfl⟩ := conv_eq hc
  refine ⟨v, x, y, z, _, e, hx, hy, hz, geocentric_real _ _ f1 _, ?_⟩
  rw [dist3, Real.sqrt_le_iff]
  refine ⟨by norm_num, ?_⟩
  have q1 := sq_le_sq' (abs_le.mp ex).1 (abs_le.mp ex).2
  have q2 := sq_le_sq' (abs_le.mp ey).1 (abs_le.mp ey).2
  have q3 := sq_le_sq' (abs_le.mp ez).1 (abs_le.mp ez).2
  exact (add_le_add (add_le_add q1 q2) q3).trans (by norm_num)

theorem dist3_near2 {u u' v v' : ℝ × ℝ × ℝ} (h : dist3 u v ≤ 5.2e-7) (h' : dist3 u' v' ≤ 5.2e-7) :
    |dist3 u' u - dist3 v' v| ≤ 1.04e-6 := by
  have a := abs_le.mp (dist3_near (t := u) h')
  have b := abs_le.mp (dist3_near (t := v') h)
  rw [dist3_comm v' u] at a
  rw [dist3_comm v v'] at b
  rw [abs_le]
  norm_num at a b ⊢
  constructor <;> linarith

/-- **C111 in binary64.** For finite longitude, latitudes and height, in degrees and metres, and the WGS84 ellipsoid: the computed points
of two places of one meridian are as far apart as stated in `C111_meridian` to within 1.04 micrometres. One degree of latitude at
height zero is between 110.572 and 111.694 km. -/
theorem C111_meridian_f64 [Libm F64] (hL : LibmAcc) (w : EllipsoidConverter F64) (hw : EllipsoidConverter.new WGS84 = .ok w)
    (g g' : Geodetic360 F64) (l p p' h : ℚ) (hl : Is g.lon l) (hp : Is g.lat p) (hh : Is g.height h)
    (hl' : Is g'.lon l) (hp' : Is g'.lat p') (hh' : Is g'.height h) (l1 : |l| ≤ 360) (p1 : |p| ≤ 360) (p1' : |p'| ≤ 360)
    (h0 : -6335439 ≤ h) (h1 : h ≤ 10 ^ 7) (hle : p ≤ p') (hpi : p' - p ≤ 180) (δ : ℝ) (hδ : δ = (p' - p) * (Real.pi / 180)) :
    ∃ (v v' : Vec3 F64) (x y z x' y' z' : ℚ), w.geodeticToGeocentric (Geodetic.from360 g) = .ok v ∧
      w.geodeticToGeocentric (Geodetic.from360 g') = .ok v' ∧ Is v.x x ∧ Is v.y y ∧ Is v.z z ∧ Is v'.x x' ∧ Is v'.y y' ∧ Is v'.z z' ∧
      2 * (6335439 + h) * Real.sin (δ / 2) - 1.04e-6 ≤ dist3 (x', y', z') (x, y, z) ∧
      dist3 (x', y', z') (x, y, z) ≤ (6399594 + h) * δ + 1.04e-6 ∧
      (p' = p + 1 → h = 0 → 110572 ≤ dist3 (x', y', z') (x, y, z) ∧ dist3 (x', y', z') (x, y, z) ≤ 111694) := by
  obtain ⟨c, hc⟩ := (C45_new_ok_iff (6378137 : ℝ) (1 / 298.257223563)).mpr ⟨by norm_num, by norm_num, by norm_num⟩
  have ha : |h| ≤ 10 ^ 7 := abs_le.mpr ⟨by linarith, h1⟩
  obtain ⟨v, x, y, z, s, e1, e2, e3, e4, e5, e6⟩ := geocentric_near hL w hw c hc g l p h hl hp hh l1 p1 ha
  obtain ⟨v', x', y', z', s', g1, g2, g3, g4, g5, g6⟩ := geocentric_near hL w hw c hc g' l p' h hl' hp' hh' l1 p1' ha
  have hle' : (p : ℝ) ≤ p' := by exact_mod_cast hle
  have hpi' : (p' : ℝ) - p ≤ 180 := by exact_mod_cast hpi
  have h0' : (-6335439 : ℝ) ≤ h := by exact_mod_cast h0
  have pp := Real.pi_pos
  have d0 : 0 ≤ δ := by rw [hδ]; exact mul_nonneg (by linarith) (by linarith)
  have d1 : δ ≤ Real.pi := by rw [hδ]; nlinarith
  obtain ⟨t, t', k1, k2, k3, k4, -⟩ := C111_meridian _ _ (by norm_num) c hc (l * (Real.pi / 180)) (p * (Real.pi / 180))
    (p' * (Real.pi / 180)) h (by norm_num; linarith) (by nlinarith) (by rw [← sub_mul, ← hδ]; exact d1)
  rw [e5] at k1
  rw [g5] at k2
  obtain rfl := Except.ok.inj k1
  obtain rfl := Except.ok.inj k2
  rw [← sub_mul, ← hδ] at k3 k4
  have n := abs_le.mp (dist3_near2 e6 g6)
  have s0 : 0 ≤ Real.sin (δ / 2) := Real.sin_nonneg_of_nonneg_of_le_pi (by linarith) (by linarith)
  have A : 2 * (6335439 + h) * Real.sin (δ / 2) - 1.04e-6 ≤ dist3 (x', y', z') (x, y, z) := by
    have : 2 * (6335439 + h) * Real.sin (δ / 2) ≤ 2 * (6378137 * (1 - 1 / 298.257223563) ^ 2 + h) * Real.sin (δ / 2) := by
      refine mul_le_mul_of_nonneg_right ?_ s0
      norm_num
    linarith
  have B : dist3 (x', y', z') (x, y, z) ≤ (6399594 + h) * δ + 1.04e-6 := by
    have : (6378137 / (1 - 1 / 298.257223563) + h) * δ ≤ (6399594 + h) * δ := by
      refine mul_le_mul_of_nonneg_right ?_ d0
      norm_num
    linarith
  refine ⟨v, v', x, y, z, x', y', z', e1, g1, e2, e3, e4, g2, g3, g4, A, B, fun q1 q2 => ?_⟩
  have hd : δ = Real.pi / 180 := by rw [hδ, q1]; push_cast; ring
  have b1 := Real.pi_gt_d6
  have b2 := Real.pi_lt_d6
  rw [q2, hd] at A B
  norm_num at A B b1 b2 ⊢
  constructor
  · have x0 : 0 < Real.pi / 360 := by linarith
    have sx := Real.sin_gt_sub_cube x0
    have c3 : (Real.pi / 360) ^ 3 ≤ 0.00873 ^ 3 := pow_le_pow_left₀ x0.le (by norm_num; linarith) 3
    norm_num at c3
    rw [show Real.pi / 180 / 2 = Real.pi / 360 by ring] at A
    linarith
  · linarith

/-- **C111 in binary64, along a parallel.** -/
theorem C111_parallel_f64 [Libm F64] (hL : LibmAcc) (w : EllipsoidConverter F64) (hw : EllipsoidConverter.new WGS84 = .ok w)
    (g g' : Geodetic360 F64) (l l' p h : ℚ) (hl : Is g.lon l) (hp : Is g.lat p) (hh : Is g.height h)
    (hl' : Is g'.lon l') (hp' : Is g'.lat p) (hh' : Is g'.height h) (l1 : |l| ≤ 360) (l1' : |l'| ≤ 360) (p1 : |p| ≤ 360)
    (h1 : |h| ≤ 10 ^ 7) (φ N : ℝ) (hφ : φ = p * (Real.pi / 180))
    (hN : N = 6378137 / √(Real.cos φ ^ 2 + (1 - 1 / 298.257223563) ^ 2 * Real.sin φ ^ 2)) :
    ∃ (v v' : Vec3 F64) (x y z x' y' z' : ℚ), w.geodeticToGeocentric (Geodetic.from360 g) = .ok v ∧
      w.geodeticToGeocentric (Geodetic.from360 g') = .ok v' ∧ Is v.x x ∧ Is v.y y ∧ Is v.z z ∧ Is v'.x x' ∧ Is v'.y y' ∧ Is v'.z z' ∧
      |dist3 (x', y', z') (x, y, z) - 2 * _root_.abs ((N + h) * Real.cos φ * Real.sin ((l' - l) / 2 * (Real.pi / 180)))| ≤ 1.04e-6 := by
  obtain ⟨c, hc⟩ := (C45_new_ok_iff (6378137 : ℝ) (1 / 298.257223563)).mpr ⟨by norm_num, by norm_num, by norm_num⟩
  obtain ⟨v, x, y, z, s, e1, e2, e3, e4, e5, e6⟩ := geocentric_near hL w hw c hc g l p h hl hp hh l1 p1 h1
  obtain ⟨v', x', y', z', s', g1, g2, g3, g4, g5, g6⟩ := geocentric_near hL w hw c hc g' l' p h hl' hp' hh' l1' p1 h1
  obtain ⟨t, t', k1, k2, k3⟩ := C111_parallel _ _ c hc (l * (Real.pi / 180)) (l' * (Real.pi / 180)) φ h N hN
  rw [hφ, e5] at k1
  rw [hφ, g5] at k2
  obtain rfl := Except.ok.inj k1
  obtain rfl := Except.ok.inj k2
  refine ⟨v, v', x, y, z, x', y', z', e1, g1, e2, e3, e4, g2, g3, g4, ?_⟩
  have n := dist3_near2 e6 g6
  rw [k3] at n
  rwa [show ((l' : ℝ) - l) / 2 * (Real.pi / 180) = (l' * (Real.pi / 180) - l * (Real.pi / 180)) / 2 by ring]

/-- The hypotheses hold for places a degree of latitude, and a degree of longitude, apart. -/
example : ∃ L : Libm F64, @LibmAcc L ∧ ∃ w, EllipsoidConverter.new (WGS84 : Ellipsoid F64) = .ok w ∧
    ∃ g g' g'' : Geodetic360 F64, Is g.lon (7 : ℤ) ∧ Is g.lat (45 : ℤ) ∧ Is g.height (0 : ℤ) ∧ Is g'.lon (7 : ℤ) ∧ Is g'.lat (46 : ℤ) ∧
      Is g'.height (0 : ℤ) ∧ Is g''.lon (8 : ℤ) ∧ Is g''.lat (45 : ℤ) ∧ Is g''.height (0 : ℤ) := by
  obtain ⟨w, hw⟩ := wgs84_f64
  exact ⟨goodLibm, exists_libmAcc, w, hw, ⟨Arith.ofInt 7, Arith.ofInt 45, Arith.ofInt 0⟩, ⟨Arith.ofInt 7, Arith.ofInt 46, Arith.ofInt 0⟩,
    ⟨Arith.ofInt 8, Arith.ofInt 45, Arith.ofInt 0⟩, Is.ofInt _ (by norm_num), Is.ofInt _ (by norm_num), Is.ofInt _ (by norm_num),
    Is.ofInt _ (by norm_num), Is.ofInt _ (by norm_num), Is.ofInt _ (by norm_num), Is.ofInt _ (by norm_num), Is.ofInt _ (by norm_num),
    Is.ofInt _ (by norm_num)⟩

end Verif
