import Verif.Props.SunRate

/-!
# C92: the tropics and the equator
-/

namespace Verif
open Matrix Spec Arith

/-- The mean Sun keeps within about 23 and a half degrees of the equator. -/
theorem meanSun_tropic {n : ℝ} (hn : |n| ≤ 36525) : |meanSun n 2| ≤ 0.39791 * len (meanSun n) := by
  obtain ⟨x, y, z, hx, hy, hz, s0, s1, s2⟩ := meanSun_coords n
  have hp := precession_le hn
  obtain ⟨so, co⟩ := sincos_obl obliquity_near
  have hcs := Real.sin_sq_add_cos_sq obliquity
  have hR := Real.sin_sq_add_cos_sq (earthAngle n)
  have hl : len (meanSun n) ^ 2 = meanSun n 0 ^ 2 + meanSun n 1 ^ 2 + meanSun n 2 ^ 2 := by
    unfold len; exact Real.sq_sqrt (by positivity)
  have l0 : 0 ≤ len (meanSun n) := len_nonneg _
  rw [s0, s1, s2] at hl
  rw [s2]
  clear s0 s1 s2
  generalize meanEarth n 0 = e0 at *
  generalize meanEarth n 1 = e1 at *
  generalize precessionAngle n = p at *
  generalize Real.sin obliquity = s at *
  generalize Real.cos obliquity = c at *
  generalize Real.sin (earthAngle n) = S at *
  generalize Real.cos (earthAngle n) = C at *
  generalize len (meanSun n) = L at *
  have hl' : L ^ 2 = e0 ^ 2 * (1 + p ^ 2) + e1 ^ 2 * (1 + p ^ 2 * s ^ 2) := by
    rw [hl, hx, hy, hz]
    linear_combination ((-e0 + p * (s * e1)) ^ 2 + (c * e1) ^ 2) * hR + e1 ^ 2 * hcs
  have p2 : p ^ 2 ≤ 0.009718 ^ 2 := sq_le_sq' (by linarith [abs_le.mp hp]) (abs_le.mp hp).2
  have s2 : s ^ 2 ≤ 0.3977775 ^ 2 := by
    rw [abs_le] at so
    norm_num at so
    apply sq_le_sq' <;> norm_num <;> linarith [so.1, so.2]
  have low : e0 ^ 2 + e1 ^ 2 ≤ L ^ 2 := by
    rw [hl']
    have := mul_nonneg (sq_nonneg e0) (sq_nonneg p)
    have := mul_nonneg (sq_nonneg e1) (mul_nonneg (sq_nonneg p) (sq_nonneg s))
    linarith
  have cs : z ^ 2 ≤ (p ^ 2 + s ^ 2) * (e0 ^ 2 + e1 ^ 2) := by
    rw [hz]
    nlinarith [sq_nonneg (p * e1 - s * e0)]
  apply abs_le_of_sq_le_sq _ (by positivity)
  rw [mul_pow]
  refine cs.trans (mul_le_mul ?_ low (by positivity) (by norm_num))
  norm_num at p2 s2 ⊢
  linarith

theorem ang_neg (u v : Fin 3 → ℝ) : ang u (-v) = Real.pi - ang u v := by
  unfold ang
  rw [WithLp.toLp_neg, InnerProductGeometry.angle_neg_right]

/-- The angle between the vertical and the north pole is the complement of the latitude. -/
theorem upward_pole {lon lat : ℝ} (h : |lat| ≤ 90) : ang (upward lon lat) ![0, 0, 1] = Real.pi / 2 - lat * (Real.pi / 180) := by
  have hpi := Real.pi_pos
  have hl := abs_le.mp h
  have a1 := mul_le_mul_of_nonneg_right hl.1 hpi.le
  have a2 := mul_le_mul_of_nonneg_right hl.2 hpi.le
  have l1 : len ![(0 : ℝ), 0, 1] = 1 := by unfold len; simp
  refine (eq_ang (by rw [upward_len]; norm_num) (by rw [l1]; norm_num) (by linarith) (by linarith) ?_).symm
  rw [upward_len, l1, Real.cos_pi_div_two_sub]
  simp [upward]

/-- The Sun of the program keeps within 23.6 degrees of the equator. -/
theorem declination_le {s : Fin 3 → ℝ} {n : ℝ} (hn : |n| ≤ 36525) (hl : 0.982 ≤ len s) (h : len (s - meanSun n) ≤ 0.00155) :
    |ang s ![0, 0, 1] - Real.pi / 2| ≤ 23.6 * (Real.pi / 180) := by
  have hz := meanSun_tropic hn
  have l1 : len ![(0 : ℝ), 0, 1] = 1 := by unfold len; simp
  have hc := cos_ang s ![0, 0, 1]
  rw [l1, mul_one] at hc
  simp only [Matrix.cons_val_zero, Matrix.cons_val_one, Matrix.cons_val, mul_zero, mul_one, zero_add] at hc
  have b1 := (abs_le_len (s - meanSun n) 2).trans h
  have b2 : len (meanSun n) ≤ len s + 0.00155 := by
    have := len_sub s (s - meanSun n)
    rw [sub_sub_cancel] at this
    linarith
  rw [Pi.sub_apply] at b1
  have t0 := ang_nonneg s ![0, 0, 1]
  have t1 := ang_le_pi s ![0, 0, 1]
  generalize ang s ![0, 0, 1] = t at *
  have hs : |Real.cos t| ≤ 0.40015 := by
    have : |Real.cos t| * len s ≤ 0.40015 * len s := by
      rw [← abs_of_nonneg (by linarith : 0 ≤ len s), ← abs_mul, abs_of_nonneg (by linarith : 0 ≤ len s), hc]
      have h1 : |s 2| ≤ |meanSun n 2| + 0.00155 := by
        have := abs_add_le (s 2 - meanSun n 2) (meanSun n 2)
        rw [sub_add_cancel] at this
        linarith
      norm_num at *
      linarith
    exact le_of_mul_le_mul_right this (by linarith)
  have p1 := Real.pi_gt_d4
  have p2 := Real.pi_lt_d4
  have big : 0.40015 ≤ Real.sin (23.6 * (Real.pi / 180)) := by
    have k1 := Real.sin_gt_sub_cube (x := 0.4118) (by norm_num)
    have k2 : Real.sin 0.4118 ≤ Real.sin (23.6 * (Real.pi / 180)) :=
      Real.sin_le_sin_of_le_of_le_pi_div_two (by norm_num; linarith) (by norm_num; linarith) (by norm_num at *; linarith)
    norm_num at k1 k2 ⊢
    linarith
  have e : Real.cos t = Real.sin (Real.pi / 2 - t) := (Real.sin_pi_div_two_sub t).symm
  rw [e, abs_le] at hs
  rw [abs_le]
  constructor
  · by_contra hlt
    push Not at hlt
    have := Real.sin_lt_sin_of_lt_of_le_pi_div_two (x := 23.6 * (Real.pi / 180)) (y := Real.pi / 2 - t) (by norm_num; linarith) (by linarith) (by linarith)
    linarith [hs.2]
  · by_contra hlt
    push Not at hlt
    have := Real.sin_lt_sin_of_lt_of_le_pi_div_two (x := Real.pi / 2 - t) (y := -(23.6 * (Real.pi / 180))) (by linarith) (by norm_num; linarith) (by linarith)
    rw [Real.sin_neg] at this
    linarith [hs.1]

/-- **C92.** Outside the tropics the Sun is never overhead.  For every accepted date, time and place and every offset, the
instant being within a century less a day of J2000.0, in exact arithmetic the zenith angle is at least `|latitude| - 23.6`
degrees and at most 180 degrees less that. -/
theorem C92_tropics (p : Profile) (q : SunAngleParameters ℝ) (hd : GoodDate q.date) (c : SunAngleCalculator ℝ)
    (hc : SunAngleCalculator.new p q = .ok c) (δ : ℝ) (N : ℤ) (hN : DaysFrom mjdEpoch q.date.civil N)
    (hb : |N - 51544.5 + (3600 * q.time.hour + 60 * q.time.minute + q.time.second + δ) / 86400| ≤ 36524)
    (hlat : |q.position.lat| ≤ 90) :
    ∃ r, c.compute δ = .ok r ∧ (|q.position.lat| - 23.6) * (Real.pi / 180) ≤ r.sza ∧
      r.sza ≤ Real.pi - (|q.position.lat| - 23.6) * (Real.pi / 180) := by
  obtain ⟨r, hr, htt, hut, -, -, hdat, b0, hz⟩ := sun_at p q hd c hc N hN δ hb
  refine ⟨r, hr, ?_⟩
  set n : ℝ := N - 51544.5 + (3600 * q.time.hour + 60 * q.time.minute + q.time.second + δ) / 86400 with hn
  have near := sun_near (n := n) b0 (by
    rw [htt, show 2400000.5 + N + (3600 * q.time.hour + 60 * q.time.minute + q.time.second + δ) / 86400 + (r.dat + 32.184) / 86400 -
      2451545 - n = (r.dat + 32.184) / 86400 by rw [hn]; norm_num; ring]
    rw [abs_le] at hdat ⊢
    constructor <;> norm_num <;> linarith [hdat.1, hdat.2]) (by
    rw [hut, show 2400000.5 + N + (3600 * q.time.hour + 60 * q.time.minute + q.time.second + δ) / 86400 - 0.072073685 / 86400 -
      2451545 - n = -0.072073685 / 86400 by rw [hn]; norm_num; ring]
    norm_num [abs_of_neg])
  have l1 : len ((celestialToTerrestrial r.tt r.ut1 (0.0349282 * AS2R) (0.4833163 * AS2R)).toMatrix *ᵥ (-(earthAt (r.tt.1 + r.tt.2)).heliocentric.p.toVec)) =
        len (-(earthAt (r.tt.1 + r.tt.2)).heliocentric.p.toVec) :=
    len_mulVec (mul_eq_one_comm.mp ((isRotation_iff _).mp (C38_celestial_to_terrestrial r.tt r.ut1 _ _)).1) _
  have hl := (earth_len b0).1
  rw [← l1] at hl
  have hdec := declination_le (hb.trans (by norm_num)) hl near
  rw [hz]
  change |ang ((celestialToTerrestrial r.tt r.ut1 (0.0349282 * AS2R) (0.4833163 * AS2R)).toMatrix *ᵥ (-(earthAt (r.tt.1 + r.tt.2)).heliocentric.p.toVec)) _ - _| ≤ _ at hdec
  generalize (celestialToTerrestrial r.tt r.ut1 (0.0349282 * AS2R) (0.4833163 * AS2R)).toMatrix *ᵥ (-(earthAt (r.tt.1 + r.tt.2)).heliocentric.p.toVec) = s at *
  have hup := upward_pole (lon := q.position.lon) hlat
  have t1 := ang_triangle (upward q.position.lon q.position.lat) s ![0, 0, 1]
  have t2 := ang_triangle s (upward q.position.lon q.position.lat) ![0, 0, 1]
  have t3 := ang_triangle (upward q.position.lon q.position.lat) ![0, 0, 1] s
  have t4 := ang_triangle (upward q.position.lon q.position.lat) (-![0, 0, 1]) s
  rw [ang_neg, ang_comm (-![0, 0, 1]) s, ang_neg] at t4
  rw [ang_comm s (upward _ _)] at t2
  rw [ang_comm ![0, 0, 1] s] at t3
  rw [hup] at t1 t2 t3 t4
  rw [abs_le] at hdec
  rcases abs_cases q.position.lat with ⟨e, -⟩ | ⟨e, -⟩ <;> rw [e] <;> constructor <;> linarith [hdec.1, hdec.2]

/-- The default parameters of the program at 60 degrees north. -/
example : GoodDate (SunAngleParameters.default (α := ℝ)).date ∧ |(60 : ℝ)| ≤ 90 ∧
    |((54195 : ℤ) : ℝ) - 51544.5 + (3600 * ((SunAngleParameters.default (α := ℝ)).time.hour : ℝ) +
      60 * (SunAngleParameters.default (α := ℝ)).time.minute + (SunAngleParameters.default (α := ℝ)).time.second + 3600) / 86400| ≤ 36524 := by
  refine ⟨⟨by decide, by decide, by decide⟩, ?_, ?_⟩ <;> norm_num [SunAngleParameters.default, abs_le]

/-- **C92.** The same in binary64 from 24 degrees of latitude on: for finite parameters within a century of J2000.0 and any
mathematical library accurate to `2^-50`, the zenith angle is a number at least `|latitude| - 23.61` degrees. -/
theorem C92_tropics_f64 [Libm F64] (hL : LibmAcc) (p : Profile) (q : SunAngleParameters F64) (δ : F64) (s l b h d : ℚ)
    (N : ℤ) (H : SunInput q δ s l b h d N) (h1 : 24 ≤ |b|) (h2 : |b| ≤ 90) :
    ∃ (c : SunAngleCalculator F64) (r : SunAngleResult F64) (z : ℚ), SunAngleCalculator.new p q = .ok c ∧
      c.compute δ = .ok r ∧ Is r.sza z ∧ (|(b : ℝ)| - 23.61) * (Real.pi / 180) ≤ z ∧
      z ≤ Real.pi - (|(b : ℝ)| - 23.61) * (Real.pi / 180) := by
  obtain ⟨c, C, r, R, hc, hC, hr, hR, -, -, -, -, acc⟩ := C72_sun_angle_f64 hL p q δ s l b h d N H
  have gd : GoodDate (exactParams q s l b h).date := H.date
  have hb : |(N : ℝ) - 51544.5 + (3600 * q.time.hour + 60 * q.time.minute + s + d) / 86400| ≤ 36524 := by
    have h1 := (Rat.cast_le (K := ℝ)).mpr H.century
    push_cast at h1
    refine le_trans (le_of_eq (congrArg (fun x : ℝ => |x|) ?_)) h1
    norm_num
    ring
  have h1' : 24 ≤ |(b : ℝ)| := by exact_mod_cast h1
  have h2' : |(b : ℝ)| ≤ 90 := by exact_mod_cast h2
  obtain ⟨R', hR', lo, hi⟩ := C92_tropics p (exactParams q s l b h) gd C hC d N H.days hb h2'
  obtain rfl := Except.ok.inj (hR.symm.trans hR')
  change (|(b : ℝ)| - 23.6) * (Real.pi / 180) ≤ _ at lo
  change _ ≤ Real.pi - (|(b : ℝ)| - 23.6) * (Real.pi / 180) at hi
  generalize |(b : ℝ)| = B at *
  have p1 := Real.pi_gt_d4
  have p2 := Real.pi_lt_d4
  have low : 0.0069 ≤ (B - 23.6) * (Real.pi / 180) := by
    have : 0.4 * (Real.pi / 180) ≤ (B - 23.6) * (Real.pi / 180) := by
      apply mul_le_mul_of_nonneg_right _ (by positivity)
      norm_num at *; linarith
    norm_num at *; linarith
  have hsin : 0.0068 ≤ Real.sin R.sza := by
    have mid : ∀ {y : ℝ}, 0.0069 ≤ y → y ≤ Real.pi / 2 → 0.0068 ≤ Real.sin y := by
      intro y h0 h1
      have k1 := Real.sin_gt_sub_cube (x := 0.0069) (by norm_num)
      have k2 := Real.sin_le_sin_of_le_of_le_pi_div_two (by norm_num at *; linarith) h1 h0
      norm_num at k1 k2 ⊢
      linarith
    rcases le_total R.sza (Real.pi / 2) with h3 | h3
    · exact mid (low.trans lo) h3
    · rw [← Real.sin_pi_sub]
      exact mid (by linarith) (by linarith)
  obtain ⟨z, iz, ez⟩ := acc (le_trans (by norm_num) hsin)
  refine ⟨c, r, z, hc, hr, iz, ?_⟩
  have small : 1.23 / 10 ^ 9 / Real.sin R.sza + 1 / 2 ^ 50 ≤ 0.01 * (Real.pi / 180) := by
    have : 1.23 / 10 ^ 9 / Real.sin R.sza ≤ 1.23 / 10 ^ 9 / 0.0068 := by gcongr
    refine (add_le_add this le_rfl).trans ?_
    norm_num at *
    linarith
  have ez := abs_le.mp (ez.trans small)
  have e : (B - 23.61) * (Real.pi / 180) = (B - 23.6) * (Real.pi / 180) - 0.01 * (Real.pi / 180) := by ring
  rw [e]
  constructor <;> linarith [ez.1, ez.2]

/-- The default parameters of the program moved to 60 degrees north, one hour later; a library that exists. -/
example : ∃ (L : Libm F64) (q : SunAngleParameters F64), @LibmAcc L ∧ SunInput q (lit 3600) 0 (-120) 60 0 3600 54195 ∧
    24 ≤ |(60 : ℚ)| ∧ |(60 : ℚ)| ≤ 90 := by
  have i0 : Is (lit 0 : F64) 0 := by have := Is.lit_int 0 (by norm_num); push_cast at this; exact this
  have i1 : Is (lit (-120) : F64) (-120) := by have := Is.lit_int (-120) (by norm_num); push_cast at this; exact this
  have i2 : Is (lit 60 : F64) 60 := by have := Is.lit_int 60 (by norm_num); push_cast at this; exact this
  have i3 : Is (lit 3600 : F64) 3600 := by have := Is.lit_int 3600 (by norm_num); push_cast at this; exact this
  refine ⟨goodLibm, { SunAngleParameters.default with position := ⟨lit (-120), lit 60, lit 0⟩ }, exists_libmAcc,
    ⟨⟨by decide, by decide, by decide⟩, by decide, by decide, i0, by
    norm_num [SunAngleParameters.default], by norm_num [SunAngleParameters.default], i1, i2, i0, by norm_num, by norm_num, by norm_num, i3, by norm_num,
    daysFrom_epoch (by decide), by norm_num [SunAngleParameters.default]⟩, by norm_num, by norm_num⟩

/-- Hour angles of the equator: the cosine four tenths of an hour before six hours. -/
theorem equator_sky {lon n sec T : ℝ} {N : ℤ} (hn : n = N - 51544.5 + sec / 86400) (hb : |n| ≤ 36524)
    (hT : T = sec / 3600 + lon / 15) :
    ((∃ k : ℤ, |T - 12 - 24 * k| ≤ 5.6) → 0.0016 ≤ meanHeight lon 0 n) ∧
    ((∃ k : ℤ, |T - 24 * k| ≤ 5.6) → meanHeight lon 0 n ≤ -0.0016) := by
  have hb' : |n| ≤ 36525 := hb.trans (by norm_num)
  have p1 := Real.pi_gt_d4
  have p2 := Real.pi_lt_d4
  have hour : ∀ t : ℝ, |t| ≤ 5.6 → 0.1 ≤ Real.cos (Real.pi / 12 * t) := by
    intro t ht
    rw [← Real.cos_abs (Real.pi / 12 * t), ← Real.sin_pi_div_two_sub]
    have : Real.sin (Real.pi / 30) ≤ Real.sin (Real.pi / 2 - |Real.pi / 12 * t|) := by
      rw [abs_mul, abs_of_pos (by positivity : 0 < Real.pi / 12)]
      have := mul_le_mul_of_nonneg_left ht (by positivity : 0 ≤ Real.pi / 12)
      apply Real.sin_le_sin_of_le_of_le_pi_div_two (by linarith)
      · have := mul_nonneg (by positivity : 0 ≤ Real.pi / 12) (abs_nonneg t)
        linarith
      · norm_num at this; linarith
    refine le_trans ?_ this
    have k1 := Real.sin_gt_sub_cube (x := 0.1046) (by norm_num)
    have k2 := Real.sin_le_sin_of_le_of_le_pi_div_two (x := 0.1046) (y := Real.pi / 30) (by norm_num; linarith) (by linarith) (by norm_num at *; linarith)
    norm_num at k1 k2 ⊢
    linarith
  have hsplit : meanHeight lon 0 n = Real.cos (lon * (Real.pi / 180)) * meanSun n 0 + Real.sin (lon * (Real.pi / 180)) * meanSun n 1 := by
    unfold meanHeight; simp
  rw [hsplit]
  constructor
  · rintro ⟨k, hk⟩
    have c1 := hour _ hk
    have s1 := Real.abs_sin_le_one (Real.pi / 12 * (T - 12 - 24 * k))
    have := meridian (lam := lon * (Real.pi / 180)) (h := Real.pi / 12 * (T - 12 - 24 * k)) hb'
      ⟨N - 51544 + k, by rw [hn, hT]; push_cast; ring⟩ (le_trans (by norm_num) c1)
    norm_num at *; linarith
  · rintro ⟨k, hk⟩
    have c1 := hour _ hk
    have s1 := Real.abs_sin_le_one (Real.pi / 12 * (T - 24 * k))
    have := antimeridian (lam := lon * (Real.pi / 180)) (h := Real.pi / 12 * (T - 24 * k)) hb'
      ⟨N - 51544 + k, by rw [hn, hT]; push_cast; ring⟩ (le_trans (by norm_num) c1)
    norm_num at *; linarith

/-- **C92.** Day and night are equal on the equator, every day: at latitude 0 and any longitude, within a century of J2000.0,
in local mean solar time the Sun is up from 6:24 to 17:36 and down from 18:24 to 5:36. -/
theorem C92_equator (p : Profile) (q : SunAngleParameters ℝ) (hd : GoodDate q.date) (c : SunAngleCalculator ℝ)
    (hc : SunAngleCalculator.new p q = .ok c) (δ : ℝ) (N : ℤ) (hN : DaysFrom mjdEpoch q.date.civil N) (sec T : ℝ)
    (hsec : sec = 3600 * q.time.hour + 60 * q.time.minute + q.time.second + δ)
    (hb : |N - 51544.5 + sec / 86400| ≤ 36524) (hlat : q.position.lat = 0) (hT : T = sec / 3600 + q.position.lon / 15) :
    ∃ r, c.compute δ = .ok r ∧
      ((∃ k : ℤ, |T - 12 - 24 * k| ≤ 5.6) → r.sza < Real.pi / 2) ∧
      ((∃ k : ℤ, |T - 24 * k| ≤ 5.6) → Real.pi / 2 < r.sza) := by
  obtain ⟨r, hr, up, dn⟩ := C83_above_below p q hd c hc δ N hN _ (by rw [hsec] : N - 51544.5 + sec / 86400 = _) hb
  obtain ⟨h1, h2⟩ := equator_sky (lon := q.position.lon) rfl hb hT
  rw [hlat] at up dn
  exact ⟨r, hr, fun h => (up (h1 h)).1, fun h => (dn (h2 h)).1⟩

/-- The default parameters are on the equator; five hours before and after noon at 120 degrees west. -/
example : GoodDate (SunAngleParameters.default (α := ℝ)).date ∧ (SunAngleParameters.default (α := ℝ)).position.lat = 0 ∧
    |((12 * 3600 + 10800 : ℝ) / 3600 + (SunAngleParameters.default (α := ℝ)).position.lon / 15) - 12 - 24 * ((0 : ℤ) : ℝ)| ≤ 5.6 ∧
    |((12 * 3600 - 32400 : ℝ) / 3600 + (SunAngleParameters.default (α := ℝ)).position.lon / 15) - 24 * ((0 : ℤ) : ℝ)| ≤ 5.6 := by
  refine ⟨⟨by decide, by decide, by decide⟩, ?_, ?_, ?_⟩ <;> norm_num [SunAngleParameters.default, abs_le]

/-- **C92.** The same in binary64: the cosine handed to `acos` has the sign of the day or of the night. -/
theorem C92_equator_f64 [Libm F64] (hL : LibmAcc) (p : Profile) (q : SunAngleParameters F64) (δ : F64)
    (s l h d : ℚ) (N : ℤ) (H : SunInput q δ s l 0 h d N) (T : ℚ)
    (hT : T = (3600 * q.time.hour + 60 * q.time.minute + s + d) / 3600 + l / 15) :
    ∃ (c : SunAngleCalculator F64) (r : SunAngleResult F64) (x : ℚ), SunAngleCalculator.new p q = .ok c ∧
      c.compute δ = .ok r ∧ Is (c.zen.normalize.dot r.sun_e.normalize) x ∧
      ((∃ k : ℤ, |T - 12 - 24 * k| ≤ 5.6) → 0 < x ∧ (x ≤ 1 → ∃ z : ℚ, Is r.sza z ∧ (z : ℝ) < Real.pi / 2)) ∧
      ((∃ k : ℤ, |T - 24 * k| ≤ 5.6) → x < 0 ∧ (-1 ≤ x → ∃ z : ℚ, Is r.sza z ∧ Real.pi / 2 < z)) := by
  obtain ⟨c, r, x, hc, hr, ix, up, dn⟩ := C83_above_below_f64 hL p q δ s l 0 h d N H _ rfl
  have hb : |(N : ℝ) - 51544.5 + (3600 * q.time.hour + 60 * q.time.minute + s + d) / 86400| ≤ 36524 := by
    have h1 := (Rat.cast_le (K := ℝ)).mpr H.century
    push_cast at h1
    refine le_trans (le_of_eq (congrArg (fun x : ℝ => |x|) ?_)) h1
    norm_num
    ring
  obtain ⟨h1, h2⟩ := equator_sky (lon := l) (T := T) rfl hb (by rw [hT]; push_cast; ring)
  rw [Rat.cast_zero] at up dn
  have cast : ∀ {y : ℚ}, |y| ≤ 5.6 → |(y : ℝ)| ≤ 5.6 := by
    intro y hy
    have := (Rat.cast_le (K := ℝ)).mpr hy
    push_cast at this
    norm_num at this ⊢
    exact this
  exact ⟨c, r, x, hc, hr, ix, fun ⟨k, hk⟩ => up (h1 ⟨k, by have := cast hk; push_cast at this; exact this⟩),
    fun ⟨k, hk⟩ => dn (h2 ⟨k, by have := cast hk; push_cast at this; exact this⟩)⟩

/-- The default parameters of the program eight hours later; a library that exists. -/
example : ∃ L : Libm F64, @LibmAcc L ∧
    SunInput (SunAngleParameters.default : SunAngleParameters F64) (lit 28800) 0 (-120) 0 0 28800 54195 := by
  have i0 : Is (lit 0 : F64) 0 := by have := Is.lit_int 0 (by norm_num); push_cast at this; exact this
  have i1 : Is (lit (-120) : F64) (-120) := by have := Is.lit_int (-120) (by norm_num); push_cast at this; exact this
  have i2 : Is (lit 28800 : F64) 28800 := by have := Is.lit_int 28800 (by norm_num); push_cast at this; exact this
  exact ⟨goodLibm, exists_libmAcc, ⟨⟨by decide, by decide, by decide⟩, by decide, by decide, i0, by
    norm_num [SunAngleParameters.default], by norm_num [SunAngleParameters.default], i1, i0, i0, by norm_num, by norm_num, by norm_num, i2, by norm_num,
    daysFrom_epoch (by decide), by norm_num [SunAngleParameters.default]⟩⟩

end Verif
