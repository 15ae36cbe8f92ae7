import Verif.Props.NoonAltitude
import Verif.Props.SunAccuracy

/-!
# C107: places of the Earth at one moment

The result of the calculator depends on the place only through the position and the zenith angle; the zenith angle is the angle
on the sphere to the place which has the Sun at the zenith.  Code: `tofas_extras/src/sun_angle.rs:113-203`.
-/

namespace Verif

open Arith F64 Matrix Spec

/-- What two calculators of one moment have in common, and where the vertical comes from. -/
theorem new_moment {α : Type} [Arith α] [Libm α] {p : Profile} {q q' : SunAngleParameters α} {c c' : SunAngleCalculator α}
    (hd : q'.date = q.date) (ht : q'.time = q.time) (hc : SunAngleCalculator.new p q = .ok c)
    (hc' : SunAngleCalculator.new p q' = .ok c') :
    c' = { c with p := c'.p, zen := c'.zen } ∧ c.zen = (Geodetic.from360 q.position).zenith ∧
      c'.zen = (Geodetic.from360 q'.position).zenith := by
  unfold SunAngleCalculator.new at hc hc'
  rw [hd, ht] at hc'
  rcases hj : (q.date.toJulian p : Rust (α × α)) with e | ⟨j0, j1⟩
  · simp only [hj] at hc; cases hc
  rcases ha : deltaAt p q.date q.time.toFractionOfDay with e | a
  · simp only [hj, ha, ok_bind] at hc; cases hc
  rcases a with e | a
  · simp only [hj, ha, ok_bind] at hc; cases hc
  rcases hw : EllipsoidConverter.new (WGS84 (α := α)) with e | w
  · simp only [hj, ha, hw, ok_bind, expect] at hc; cases hc
  rcases hg : w.geodeticToGeocentric (Geodetic.from360 q.position) with e | g
  · simp only [hj, ha, hw, hg, ok_bind, expect] at hc; cases hc
  rcases hg' : w.geodeticToGeocentric (Geodetic.from360 q'.position) with e | g'
  · simp only [hj, ha, hw, hg', ok_bind, expect] at hc'; cases hc'
  simp only [hj, ha, hw, hg, ok_bind, expect] at hc
  simp only [hj, ha, hw, hg', ok_bind, expect] at hc'
  obtain rfl := Except.ok.inj hc
  obtain rfl := Except.ok.inj hc'
  exact ⟨rfl, rfl, rfl⟩

/-- **C107, what depends on the place.** In any arithmetic (so also bit for bit in binary64) and with any mathematical
library, for two places, one date and one time of day: the results for one offset agree in every field except the
position of the place and the zenith angle; and the zenith angle depends on longitude and latitude only, not on the height. -/
theorem C107_place_only {α : Type} [Arith α] [Libm α] (p : Profile) (q q' : SunAngleParameters α) (c c' : SunAngleCalculator α)
    (hd : q'.date = q.date) (ht : q'.time = q.time) (hc : SunAngleCalculator.new p q = .ok c)
    (hc' : SunAngleCalculator.new p q' = .ok c') (δ : α) (r : SunAngleResult α) (hr : c.compute δ = .ok r) :
    ∃ r', c'.compute δ = .ok r' ∧ r' = { r with p := r'.p, sza := r'.sza } ∧
      (q'.position.lon = q.position.lon → q'.position.lat = q.position.lat → r'.sza = r.sza) := by
  obtain ⟨h1, h2, h3⟩ := new_moment hd ht hc hc'
  generalize c'.p = P at h1
  generalize hz : c'.zen = Z at h1
  rw [hz] at h3
  subst h1
  unfold SunAngleCalculator.compute at hr ⊢
  obtain ⟨e, he⟩ := C37_no_panic (TDB.fromTT (TT.fromTAI (TAI.fromUTC (c.jd0, c.jd1_date +.
    (c.fr +. δ /. lit 86400)) c.dat)) c.dtr)
  simp only [he, ok_bind] at hr ⊢
  obtain rfl := Except.ok.inj hr
  refine ⟨_, rfl, rfl, fun a b => ?_⟩
  have : Z = c.zen := by
    rw [h3, h2]
    unfold Geodetic.from360 Geodetic.zenith
    rw [a, b]
  rw [this]

/-- Every direction has a longitude and a latitude. -/
theorem direction (x y z : ℝ) : ∃ L D : ℝ, |D| ≤ 90 ∧
    x = Real.sqrt (x ^ 2 + y ^ 2 + z ^ 2) * (Real.cos (D * (Real.pi / 180)) * Real.cos (L * (Real.pi / 180))) ∧
    y = Real.sqrt (x ^ 2 + y ^ 2 + z ^ 2) * (Real.cos (D * (Real.pi / 180)) * Real.sin (L * (Real.pi / 180))) ∧
    z = Real.sqrt (x ^ 2 + y ^ 2 + z ^ 2) * Real.sin (D * (Real.pi / 180)) := by
  have hpi := Real.pi_pos
  set ρ := Real.sqrt (x ^ 2 + y ^ 2) with hρ
  have r2 : ρ ^ 2 = x ^ 2 + y ^ 2 := Real.sq_sqrt (by positivity)
  have r0 : 0 ≤ ρ := Real.sqrt_nonneg _
  have k1 : ‖(⟨ρ, z⟩ : ℂ)‖ = Real.sqrt (x ^ 2 + y ^ 2 + z ^ 2) := by
    rw [Complex.norm_eq_sqrt_sq_add_sq, r2]
  have k2 : ‖(⟨x, y⟩ : ℂ)‖ = ρ := by rw [Complex.norm_eq_sqrt_sq_add_sq]
  have a1 := Complex.norm_mul_cos_arg (⟨ρ, z⟩ : ℂ)
  have a2 := Complex.norm_mul_sin_arg (⟨ρ, z⟩ : ℂ)
  have a3 := Complex.norm_mul_cos_arg (⟨x, y⟩ : ℂ)
  have a4 := Complex.norm_mul_sin_arg (⟨x, y⟩ : ℂ)
  have a5 : |Complex.arg (⟨ρ, z⟩ : ℂ)| ≤ Real.pi / 2 := Complex.abs_arg_le_pi_div_two_iff.mpr r0
  rw [k1] at a1 a2
  rw [k2] at a3 a4
  simp only at a1 a2 a3 a4
  have e : ∀ t : ℝ, t * (180 / Real.pi) * (Real.pi / 180) = t := fun t => by field_simp
  refine ⟨Complex.arg (⟨x, y⟩ : ℂ) * (180 / Real.pi), Complex.arg (⟨ρ, z⟩ : ℂ) * (180 / Real.pi), ?_, ?_, ?_, ?_⟩
  · rw [abs_mul, abs_of_pos (show 0 < 180 / Real.pi by positivity)]
    calc _ ≤ Real.pi / 2 * (180 / Real.pi) := by gcongr
      _ = 90 := by field_simp; norm_num
  · rw [e, e, ← mul_assoc, a1, a3]
  · rw [e, e, ← mul_assoc, a1, a4]
  · rw [e, a2]

/-- Cosine of the angle on the sphere between two places, longitudes and latitudes in degrees. -/
theorem upward_dot (l b l' b' : ℝ) : upward l b 0 * upward l' b' 0 + upward l b 1 * upward l' b' 1 + upward l b 2 * upward l' b' 2 =
    Real.sin (b * (Real.pi / 180)) * Real.sin (b' * (Real.pi / 180)) +
      Real.cos (b * (Real.pi / 180)) * Real.cos (b' * (Real.pi / 180)) * Real.cos ((l - l') * (Real.pi / 180)) := by
  rw [sub_mul, Real.cos_sub]
  unfold upward
  simp
  ring

theorem upward_ang (l b l' b' : ℝ) : ang (upward l b) (upward l' b') =
    Real.arccos (Real.sin (b * (Real.pi / 180)) * Real.sin (b' * (Real.pi / 180)) +
      Real.cos (b * (Real.pi / 180)) * Real.cos (b' * (Real.pi / 180)) * Real.cos ((l - l') * (Real.pi / 180))) := by
  have h := cos_ang (upward l b) (upward l' b')
  rw [upward_len, upward_len, upward_dot, one_mul, mul_one] at h
  rw [← h, Real.arccos_cos (ang_nonneg _ _) (ang_le_pi _ _)]

/-- The part of the result which does not know the place, and the zenith angle of every place. -/
theorem one_moment (p : Profile) (q : SunAngleParameters ℝ) (hd : GoodDate q.date) (c : SunAngleCalculator ℝ)
    (hc : SunAngleCalculator.new p q = .ok c) (N : ℤ) (hN : DaysFrom mjdEpoch q.date.civil N) (δ : ℝ)
    (hb : |N - 51544.5 + (3600 * q.time.hour + 60 * q.time.minute + q.time.second + δ) / 86400| ≤ 36524) :
    ∃ r, c.compute δ = .ok r ∧ 0 < r.sun_e.norm ∧ ∀ (pos : Geodetic360 ℝ) (c' : SunAngleCalculator ℝ),
      SunAngleCalculator.new p { q with position := pos } = .ok c' →
      ∃ r', c'.compute δ = .ok r' ∧ r'.sun_e = r.sun_e ∧
        r'.sza = ang (upward pos.lon pos.lat) (fun i => r.sun_e.toVec i) := by
  obtain ⟨r, hr, -, -, -, -, -, b0, -⟩ := sun_at p q hd c hc N hN δ hb
  obtain ⟨ne, d1, d2⟩ := C53_sun_distance p q hd c hc δ r hr b0
  have pos : 0 < r.sun_e.norm := by linarith
  refine ⟨r, hr, pos, fun ps c' hc' => ?_⟩
  obtain ⟨r', hr', e, -⟩ := C107_place_only p q { q with position := ps } c c' rfl rfl hc hc' δ r hr
  obtain ⟨r'', hr'', -, -, -, h4, h5, h6⟩ := C53_sun_zenith_angle p { q with position := ps } hd c' hc' δ
  rw [hr'] at hr''
  obtain rfl := Except.ok.inj hr''
  have es : r'.sun_e = r.sun_e := by rw [e]
  have ee : r'.earth = r.earth := by rw [e]
  refine ⟨r', hr', es, ?_⟩
  have hz := h6 (by rw [ee]; exact ne)
  have hZ := upward_len ps.lon ps.lat
  have hS : len (fun i => r.sun_e.toVec i) = r.sun_e.norm := by
    rw [norm_real]; rfl
  refine eq_ang (by rw [hZ]; norm_num) (by rw [hS]; exact pos) h4 h5 ?_
  rw [hZ, hS, one_mul, ← es, hz]
  unfold upward
  simp [Vec3.toVec]

/-- **C107.** For every date and time of the years 1900 to 2100 there is one place of the Earth, longitude `L` and latitude
`D`, towards which the Sun stands, such that at this moment the solar zenith angle computed in exact arithmetic for *any* place
is the angle on the sphere between that place and `(L, D)`: its cosine is `sin φ sin D + cos φ cos D cos (λ − L)`. -/
theorem C107_subsolar_point (p : Profile) (q : SunAngleParameters ℝ) (hd : GoodDate q.date) (c : SunAngleCalculator ℝ)
    (hc : SunAngleCalculator.new p q = .ok c) (N : ℤ) (hN : DaysFrom mjdEpoch q.date.civil N) (δ : ℝ)
    (hb : |N - 51544.5 + (3600 * q.time.hour + 60 * q.time.minute + q.time.second + δ) / 86400| ≤ 36524) :
    ∃ r, c.compute δ = .ok r ∧ ∃ L D : ℝ, |D| ≤ 90 ∧
      r.sun_e.x = r.sun_e.norm * (Real.cos (D * (Real.pi / 180)) * Real.cos (L * (Real.pi / 180))) ∧
      r.sun_e.y = r.sun_e.norm * (Real.cos (D * (Real.pi / 180)) * Real.sin (L * (Real.pi / 180))) ∧
      r.sun_e.z = r.sun_e.norm * Real.sin (D * (Real.pi / 180)) ∧
      ∀ pos : Geodetic360 ℝ, ∃ c' r', SunAngleCalculator.new p { q with position := pos } = .ok c' ∧
        c'.compute δ = .ok r' ∧ r'.sun_e = r.sun_e ∧
          Real.cos r'.sza = Real.sin (pos.lat * (Real.pi / 180)) * Real.sin (D * (Real.pi / 180)) +
            Real.cos (pos.lat * (Real.pi / 180)) * Real.cos (D * (Real.pi / 180)) * Real.cos ((pos.lon - L) * (Real.pi / 180)) ∧
          (pos.lon = L → pos.lat = D → r'.sza = 0) := by
  obtain ⟨r, hr, hp, H⟩ := one_moment p q hd c hc N hN δ hb
  obtain ⟨L, D, h0, hx, hy, hz⟩ := direction r.sun_e.x r.sun_e.y r.sun_e.z
  have hn : Real.sqrt (r.sun_e.x ^ 2 + r.sun_e.y ^ 2 + r.sun_e.z ^ 2) = r.sun_e.norm := (norm_real _).symm
  rw [hn] at hx hy hz
  refine ⟨r, hr, L, D, h0, hx, hy, hz, fun pos => ?_⟩
  obtain ⟨c', hc'⟩ := (C52_new_exact p { q with position := pos } hd).1.mpr ((C52_new_exact p q hd).1.mp ⟨c, hc⟩)
  obtain ⟨r', hr', hse, hs⟩ := H pos c' hc'
  have hS : len (fun i => r.sun_e.toVec i) = r.sun_e.norm := by
    rw [norm_real]; rfl
  have hcos : Real.cos r'.sza = Real.sin (pos.lat * (Real.pi / 180)) * Real.sin (D * (Real.pi / 180)) +
      Real.cos (pos.lat * (Real.pi / 180)) * Real.cos (D * (Real.pi / 180)) * Real.cos ((pos.lon - L) * (Real.pi / 180)) := by
    have h := cos_ang (upward pos.lon pos.lat) (fun i => r.sun_e.toVec i)
    rw [← hs, upward_len, hS, one_mul] at h
    have e : upward pos.lon pos.lat 0 * r.sun_e.toVec 0 + upward pos.lon pos.lat 1 * r.sun_e.toVec 1 +
        upward pos.lon pos.lat 2 * r.sun_e.toVec 2 = (upward pos.lon pos.lat 0 * upward L D 0 +
          upward pos.lon pos.lat 1 * upward L D 1 + upward pos.lon pos.lat 2 * upward L D 2) * r.sun_e.norm := by
      have x0 : r.sun_e.toVec 0 = r.sun_e.norm * upward L D 0 := hx
      have x1 : r.sun_e.toVec 1 = r.sun_e.norm * upward L D 1 := hy
      have x2 : r.sun_e.toVec 2 = r.sun_e.norm * upward L D 2 := hz
      rw [x0, x1, x2]; ring
    rw [e, upward_dot] at h
    exact mul_right_cancel₀ hp.ne' h
  refine ⟨c', r', hc', hr', hse, hcos, fun a b => ?_⟩
  rw [a, b, sub_self, zero_mul, Real.cos_zero, mul_one] at hcos
  have := Real.sin_sq_add_cos_sq (D * (Real.pi / 180))
  have one : Real.cos r'.sza = 1 := by rw [hcos]; nlinarith
  have h1 := ang_nonneg (upward pos.lon pos.lat) (fun i => r.sun_e.toVec i)
  have h2 := ang_le_pi (upward pos.lon pos.lat) (fun i => r.sun_e.toVec i)
  rw [← hs] at h1 h2
  rw [← Real.arccos_cos h1 h2, one, Real.arccos_one]

/-- **C107, two places.** At one moment of the years 1900 to 2100 and in exact arithmetic: the solar zenith angles of two
places differ by at most the angle between them on the sphere; at the antipode the angle is the supplement; whole turns of
the longitude do not matter. -/
theorem C107_two_places (p : Profile) (q q' : SunAngleParameters ℝ) (hd : GoodDate q.date) (hdd : q'.date = q.date)
    (ht : q'.time = q.time) (c c' : SunAngleCalculator ℝ) (hc : SunAngleCalculator.new p q = .ok c)
    (hc' : SunAngleCalculator.new p q' = .ok c') (N : ℤ) (hN : DaysFrom mjdEpoch q.date.civil N) (δ : ℝ)
    (hb : |N - 51544.5 + (3600 * q.time.hour + 60 * q.time.minute + q.time.second + δ) / 86400| ≤ 36524) :
    ∃ r r', c.compute δ = .ok r ∧ c'.compute δ = .ok r' ∧
      |r.sza - r'.sza| ≤ Real.arccos (Real.sin (q.position.lat * (Real.pi / 180)) * Real.sin (q'.position.lat * (Real.pi / 180)) +
        Real.cos (q.position.lat * (Real.pi / 180)) * Real.cos (q'.position.lat * (Real.pi / 180)) *
          Real.cos ((q.position.lon - q'.position.lon) * (Real.pi / 180))) ∧
      (∀ k : ℤ, q'.position.lat = -q.position.lat → q'.position.lon = q.position.lon + 180 + 360 * k → r'.sza = Real.pi - r.sza) ∧
      (∀ k : ℤ, q'.position.lat = q.position.lat → q'.position.lon = q.position.lon + 360 * k → r'.sza = r.sza) := by
  obtain ⟨r, hr, hp, H⟩ := one_moment p q hd c hc N hN δ hb
  have q1 : q' = { q with position := q'.position } := by
    cases q'; cases q; simp only at hdd ht; subst hdd; subst ht; rfl
  obtain ⟨r', hr', -, hs'⟩ := H q'.position c' (by rw [← q1]; exact hc')
  obtain ⟨r0, hr0, -, hs⟩ := H q.position c hc
  rw [hr] at hr0
  obtain rfl := Except.ok.inj hr0
  have turn : ∀ k : ℤ, q'.position.lon = q.position.lon + 360 * k →
      Real.cos (q'.position.lon * (Real.pi / 180)) = Real.cos (q.position.lon * (Real.pi / 180)) ∧
      Real.sin (q'.position.lon * (Real.pi / 180)) = Real.sin (q.position.lon * (Real.pi / 180)) := by
    intro k hk
    have : q'.position.lon * (Real.pi / 180) = q.position.lon * (Real.pi / 180) + k * (2 * Real.pi) := by rw [hk]; ring
    rw [this, Real.cos_add_int_mul_two_pi, Real.sin_add_int_mul_two_pi]
    exact ⟨rfl, rfl⟩
  refine ⟨r, r', hr, hr', ?_, ?_, ?_⟩
  · rw [hs, hs', ← upward_ang, ang_comm (upward q.position.lon q.position.lat) (fun i => r.sun_e.toVec i),
      ang_comm (upward q'.position.lon q'.position.lat) (fun i => r.sun_e.toVec i)]
    exact ang_diff _ _ _
  · intro k h1 h2
    have e : upward q'.position.lon q'.position.lat = -upward q.position.lon q.position.lat := by
      have : q'.position.lon * (Real.pi / 180) = q.position.lon * (Real.pi / 180) + k * (2 * Real.pi) + Real.pi := by rw [h2]; ring
      unfold upward
      rw [h1, this, Real.cos_add_pi, Real.sin_add_pi, Real.cos_add_int_mul_two_pi, Real.sin_add_int_mul_two_pi, neg_mul,
        Real.cos_neg, Real.sin_neg]
      ext i; fin_cases i <;> simp
    rw [hs, hs', e, ang_comm, ang_neg, ang_comm]
  · intro k h1 h2
    rw [hs, hs']
    unfold upward
    rw [h1, (turn k h2).1, (turn k h2).2]

/-- **C107 in binary64.** For two places antipodal to each other and one moment: the cosines of which the program takes the
arc cosine are opposite to within `2.4e-9`; away from the zenith and the nadir the two printed angles add up to a half turn. -/
theorem C107_antipode_f64 [Libm F64] (hL : LibmAcc) (p : Profile) (q q' : SunAngleParameters F64) (δ : F64) (s l b h l' b' h' d : ℚ)
    (N : ℤ) (H : SunInput q δ s l b h d N) (H' : SunInput q' δ s l' b' h' d N) (hdd : q'.date = q.date) (ht : q'.time = q.time)
    (k : ℤ) (hb : b' = -b) (hl : l' = l + 180 + 360 * k) :
    ∃ c c' r r' R, SunAngleCalculator.new p q = .ok c ∧ SunAngleCalculator.new p q' = .ok c' ∧ c.compute δ = .ok r ∧
      c'.compute δ = .ok r' ∧ r'.sun_e = r.sun_e ∧
      (∃ x y : ℚ, Is (c.zen.normalize.dot r.sun_e.normalize) x ∧ Is (c'.zen.normalize.dot r'.sun_e.normalize) y ∧
        |(x : ℝ) + y| ≤ 2.4 / 10 ^ 9 ∧ |(x : ℝ) - Real.cos R| ≤ 1.2 / 10 ^ 9) ∧
      (1 / 2000 ≤ Real.sin R → ∃ x y : ℚ, Is r.sza x ∧ Is r'.sza y ∧
        |(x : ℝ) + y - Real.pi| ≤ 2.46 / 10 ^ 9 / Real.sin R + 1 / 2 ^ 49) := by
  obtain ⟨c, C, r, R, hc, hC, hr, hR, -, -, -, ⟨x, ix, ex⟩, ha⟩ := C72_sun_angle_f64 hL p q δ s l b h d N H
  obtain ⟨c', C', r', R', hc', hC', hr', hR', -, -, -, ⟨y, iy, ey⟩, ha'⟩ := C72_sun_angle_f64 hL p q' δ s l' b' h' d N H'
  obtain ⟨r'', hr'', e, -⟩ := C107_place_only p q q' c c' hdd ht hc hc' δ r hr
  rw [hr'] at hr''
  obtain rfl := Except.ok.inj hr''
  have eS : exactParams q' s l' b' h' = { exactParams q s l b h with position := (exactParams q' s l' b' h').position } := by
    unfold exactParams; rw [hdd, ht]
  obtain ⟨R0, R1, g1, g2, -, g4, -⟩ := C107_two_places p (exactParams q s l b h) (exactParams q' s l' b' h') H.date
    (by rw [eS]) (by rw [eS]) C C' hC hC' N H.days (d : ℝ) (by
      have := H.century
      have := (Rat.cast_le (K := ℝ)).mpr this
      push_cast at this
      show |(N : ℝ) - 51544.5 + (3600 * (q.time.hour : ℝ) + 60 * (q.time.minute : ℝ) + (s : ℝ) + (d : ℝ)) / 86400| ≤ 36524
      rw [abs_le] at this ⊢
      norm_num at this ⊢
      constructor <;> linarith [this.1, this.2])
  rw [hR] at g1
  rw [hR'] at g2
  obtain rfl := Except.ok.inj g1
  obtain rfl := Except.ok.inj g2
  have hsum := g4 k (by show (b' : ℝ) = -(b : ℝ); rw [hb]; push_cast; ring)
    (by show (l' : ℝ) = (l : ℝ) + 180 + 360 * k; rw [hl]; push_cast; ring)
  have hcos : Real.cos R'.sza = -Real.cos R.sza := by rw [hsum, Real.cos_pi_sub]
  refine ⟨c, c', r, r', R.sza, hc, hc', hr, hr', by rw [e], ⟨x, y, ix, iy, ?_, ex⟩, fun hs => ?_⟩
  · rw [hcos] at ey
    rw [abs_le] at ex ey ⊢
    norm_num at ex ey ⊢
    constructor <;> linarith [ex.1, ex.2, ey.1, ey.2]
  · obtain ⟨u, iu, eu⟩ := ha hs
    have hs' : Real.sin R'.sza = Real.sin R.sza := by rw [hsum, Real.sin_pi_sub]
    obtain ⟨v, iv, ev⟩ := ha' (by rw [hs']; exact hs)
    rw [hs', hsum] at ev
    refine ⟨u, v, iu, iv, ?_⟩
    have : (2.46 / 10 ^ 9 / Real.sin R.sza + 1 / 2 ^ 49 : ℝ) = 2 * (1.23 / 10 ^ 9 / Real.sin R.sza + 1 / 2 ^ 50) := by ring
    rw [this]
    rw [abs_le] at eu ev ⊢
    constructor <;> linarith [eu.1, eu.2, ev.1, ev.2]

/-- Lisbon and its antipode at 12:00 UTC on 5 April 2007, in exact arithmetic. -/
example : ∃ q q' : SunAngleParameters ℝ, GoodDate q.date ∧ q'.date = q.date ∧ q'.time = q.time ∧
    (∃ c, SunAngleCalculator.new .checked q = .ok c) ∧ (∃ c, SunAngleCalculator.new .checked q' = .ok c) ∧
    DaysFrom mjdEpoch q.date.civil 54195 ∧
    |((54195 : ℤ) : ℝ) - 51544.5 + (3600 * q.time.hour + 60 * q.time.minute + q.time.second + 0) / 86400| ≤ 36524 ∧
    q'.position.lat = -q.position.lat ∧ q'.position.lon = q.position.lon + 180 + 360 * (0 : ℤ) := by
  have hd : GoodDate ⟨2007, 4, 5⟩ := ⟨by decide, by decide, by decide⟩
  refine ⟨⟨⟨2007, 4, 5⟩, ⟨12, 0, 0⟩, { lon := -9, lat := 39, height := 100 }⟩,
    ⟨⟨2007, 4, 5⟩, ⟨12, 0, 0⟩, { lon := 171, lat := -39, height := 0 }⟩, hd, rfl, rfl, (C52_new_exact _ _ hd).1.mpr ?_,
    (C52_new_exact _ _ hd).1.mpr ?_, daysFrom_epoch (by decide), by norm_num [abs_le], by norm_num, by norm_num⟩
  all_goals
    unfold HMS.toFractionOfDay
    norm_num

/-- The same two places in binary64, with a library that exists. -/
example : ∃ (L : Libm F64) (q q' : SunAngleParameters F64), @LibmAcc L ∧ SunInput q (lit 0) 0 (-9) 39 100 0 54195 ∧
    SunInput q' (lit 0) 0 171 (-39) 0 0 54195 ∧ q'.date = q.date ∧ q'.time = q.time ∧ (171 : ℚ) = -9 + 180 + 360 * (0 : ℤ) := by
  have i0 : Is (lit 0 : F64) 0 := by have := Is.lit_int 0 (by norm_num); push_cast at this; exact this
  have i1 : Is (lit (-9) : F64) (-9) := by have := Is.lit_int (-9) (by norm_num); push_cast at this; exact this
  have i2 : Is (lit 39 : F64) 39 := by have := Is.lit_int 39 (by norm_num); push_cast at this; exact this
  have i3 : Is (lit 171 : F64) 171 := by have := Is.lit_int 171 (by norm_num); push_cast at this; exact this
  have i4 : Is (lit (-39) : F64) (-39) := by have := Is.lit_int (-39) (by norm_num); push_cast at this; exact this
  have i5 : Is (lit 100 : F64) 100 := by have := Is.lit_int 100 (by norm_num); push_cast at this; exact this
  refine ⟨goodLibm, ⟨⟨2007, 4, 5⟩, ⟨12, 0, lit 0⟩, { lon := lit (-9), lat := lit 39, height := lit 100 }⟩,
    ⟨⟨2007, 4, 5⟩, ⟨12, 0, lit 0⟩, { lon := lit 171, lat := lit (-39), height := lit 0 }⟩, exists_libmAcc,
    ⟨⟨by decide, by decide, by decide⟩, by decide, by decide, i0, by norm_num, by norm_num, i1, i2, i5, by norm_num, by norm_num,
      by norm_num, i0, by norm_num, daysFrom_epoch (by decide), by norm_num⟩,
    ⟨⟨by decide, by decide, by decide⟩, by decide, by decide, i0, by norm_num, by norm_num, i3, i4, i0, by norm_num, by norm_num,
      by norm_num, i0, by norm_num, daysFrom_epoch (by decide), by norm_num⟩, rfl, rfl, by norm_num⟩

end Verif
