import Verif.Props.Places
import Verif.Props.SunRate

/-!
# C108: one moment written in two ways

A moment can be given by several dates, times of day and offsets: 24:00 is 0:00 of the next day, an offset of 86400 seconds is
the next day.  Code: `tofas_extras/src/sun_angle.rs:113-203`, `tofas/src/delta_at.rs:70-100`.
-/

namespace Verif

open Arith F64 Matrix Spec

/-- Two directions to the Sun at the same UT1 and two nearby TT. -/
theorem sun_same_ut {a b a' b' u v u' v' xp yp D : ℝ} (h : |a + b - 2451545| ≤ 36525) (h' : |a' + b' - 2451545| ≤ 36525)
    (hD : |a + b - (a' + b')| = D) (hU : u + v = u' + v') :
    ang ((celestialToTerrestrial (a, b) (u, v) xp yp).toMatrix *ᵥ (-(earthAt (a + b)).heliocentric.p.toVec))
      ((celestialToTerrestrial (a', b') (u', v') xp yp).toMatrix *ᵥ (-(earthAt (a' + b')).heliocentric.p.toVec)) ≤
        0.0291 * D + 2e-19 := by
  have D0 : 0 ≤ D := hD ▸ abs_nonneg _
  have orth : ∀ {m : Mat3 ℝ}, IsRotation m → m.toMatrixᵀ * m.toMatrix = 1 := fun hm =>
    mul_eq_one_comm.mp ((isRotation_iff _).mp hm).1
  have R3o : ∀ t, (R3 t)ᵀ * R3 t = 1 := fun t => by
    have := orth (IsRotation.rotation 2 t); rwa [rot_R3] at this
  obtain ⟨d1, d2⟩ := earth_len h
  obtain ⟨d1', d2'⟩ := earth_len h'
  have W := orth (C38_polar_motion xp yp 0)
  have Co := orth (C38_celestial_to_intermediate (a, b) 0 0 0).2
  have Co' := orth (C38_celestial_to_intermediate (a', b') 0 0 0).2
  have prod : ∀ a b u v : ℝ, (celestialToTerrestrial (a, b) (u, v) xp yp).toMatrix *ᵥ (-(earthAt (a + b)).heliocentric.p.toVec) =
      (polarMotionMatrix xp yp 0).toMatrix *ᵥ (R3 (rotationAngle (u, v)) *ᵥ
        ((celestialToIntermediate (a, b)).toMatrix *ᵥ (-(earthAt (a + b)).heliocentric.p.toVec))) := by
    intro a b u v
    rw [C43_product, ← Matrix.mulVec_mulVec, ← Matrix.mulVec_mulVec]
    rfl
  rw [prod, prod, C32_split_independent u' v' u v hU.symm]
  have n1 : len ((celestialToIntermediate (a, b)).toMatrix *ᵥ (-(earthAt (a + b)).heliocentric.p.toVec)) =
    len (-(earthAt (a + b)).heliocentric.p.toVec) := len_mulVec Co _
  have n1' : len ((celestialToIntermediate (a', b')).toMatrix *ᵥ (-(earthAt (a' + b')).heliocentric.p.toVec)) =
    len (-(earthAt (a' + b')).heliocentric.p.toVec) := len_mulVec Co' _
  have hdiff := g_lip h h' hD
  rw [← n1] at d1
  rw [← n1'] at d1'
  generalize (celestialToIntermediate (a, b)).toMatrix *ᵥ (-(earthAt (a + b)).heliocentric.p.toVec) = g at *
  generalize (celestialToIntermediate (a', b')).toMatrix *ᵥ (-(earthAt (a' + b')).heliocentric.p.toVec) = g' at *
  have g0 : 0 < len g := lt_of_lt_of_le (by norm_num) d1
  have g0' : 0 < len g' := lt_of_lt_of_le (by norm_num) d1'
  rw [ang_mulVec W (by rw [len_mulVec (R3o _)]; exact g0) (by rw [len_mulVec (R3o _)]; exact g0'), ang_mulVec (R3o _) g0 g0']
  refine (ang_le_dist (by norm_num) d1 d1' hdiff).trans ?_
  have p2 := Real.pi_lt_d4
  have := mul_le_mul_of_nonneg_right (show Real.pi / 2 ≤ 1.5708 by norm_num at p2 ⊢; linarith) (show 0 ≤ (0.01815 * D + 1.1e-19) / 0.982 by positivity)
  refine this.trans ?_
  norm_num; linarith

/-- **C108.** Let two calculators of the same place, with whatever dates, times of day and offsets, be asked for the same
moment of UTC between 1900 and 2100, in exact arithmetic. Then UTC, UT1 and the Earth rotation angle are the same; the zenith
angles differ by at most `3.4e-7` radians per second of difference of the delta AT of the two dates; and if these agree, so do
TT, the vectors to the Earth and to the Sun and the zenith angle. -/
theorem C108_same_moment (p p' : Profile) (q q' : SunAngleParameters ℝ) (hd : GoodDate q.date) (hd' : GoodDate q'.date)
    (hlon : q'.position.lon = q.position.lon) (hlat : q'.position.lat = q.position.lat) (c c' : SunAngleCalculator ℝ)
    (hc : SunAngleCalculator.new p q = .ok c) (hc' : SunAngleCalculator.new p' q' = .ok c') (N N' : ℤ)
    (hN : DaysFrom mjdEpoch q.date.civil N) (hN' : DaysFrom mjdEpoch q'.date.civil N') (δ δ' : ℝ)
    (hb : |N - 51544.5 + (3600 * q.time.hour + 60 * q.time.minute + q.time.second + δ) / 86400| ≤ 36524)
    (he : N' + (3600 * q'.time.hour + 60 * q'.time.minute + q'.time.second + δ') / 86400 =
      N + (3600 * q.time.hour + 60 * q.time.minute + q.time.second + δ) / 86400) :
    ∃ r r', c.compute δ = .ok r ∧ c'.compute δ' = .ok r' ∧ r.dat = c.dat ∧ r'.dat = c'.dat ∧
      r'.utc.1 + r'.utc.2 = r.utc.1 + r.utc.2 ∧ r'.ut1.1 + r'.ut1.2 = r.ut1.1 + r.ut1.2 ∧ r'.era = r.era ∧
      |r'.sza - r.sza| ≤ 3.4e-7 * |r'.dat - r.dat| + 2e-19 ∧
      (r'.dat = r.dat → r'.tt.1 + r'.tt.2 = r.tt.1 + r.tt.2 ∧ r'.earth = r.earth ∧ r'.sun_e = r.sun_e ∧ r'.sza = r.sza) := by
  obtain ⟨r, hr, htt, hut, -, -, -, b0, hz⟩ := sun_at p q hd c hc N hN δ hb
  obtain ⟨r', hr', htt', hut', -, -, -, b0', hz'⟩ := sun_at p' q' hd' c' hc' N' hN' δ' (by
    rw [show (N' : ℝ) - 51544.5 + (3600 * q'.time.hour + 60 * q'.time.minute + q'.time.second + δ') / 86400 =
      N - 51544.5 + (3600 * q.time.hour + 60 * q.time.minute + q.time.second + δ) / 86400 by linarith]
    exact hb)
  obtain ⟨-, -, -, -, -, f6, f7, f8, f9, -, f11⟩ := new_fields hd hc
  obtain ⟨-, -, -, -, -, g6, g7, g8, g9, -, g11⟩ := new_fields hd' hc'
  obtain ⟨s, hs, -, -, -, -, -, e6, -, -, -, e10, e11, e12, e13⟩ := compute_real c δ
  obtain ⟨s', hs', -, -, -, -, -, e6', -, -, -, e10', e11', e12', e13'⟩ := compute_real c' δ'
  rw [hr] at hs; rw [hr'] at hs'
  obtain rfl := Except.ok.inj hs
  obtain rfl := Except.ok.inj hs'
  obtain ⟨s, M, hs, hM, -, -, -, hu, -⟩ := C60_time_scales_exact p q hd c hc δ
  obtain ⟨s', M', hs', hM', -, -, -, hu', -⟩ := C60_time_scales_exact p' q' hd' c' hc' δ'
  rw [hr] at hs; rw [hr'] at hs'
  obtain rfl := Except.ok.inj hs
  obtain rfl := Except.ok.inj hs'
  obtain rfl : M = N := (daysFrom_unique _ _ (by decide) hd.civil _ hM).trans
    (daysFrom_unique _ _ (by decide) hd.civil _ hN).symm
  obtain rfl : M' = N' := (daysFrom_unique _ _ (by decide) hd'.civil _ hM').trans
    (daysFrom_unique _ _ (by decide) hd'.civil _ hN').symm
  have hU : r'.ut1.1 + r'.ut1.2 = r.ut1.1 + r.ut1.2 := by rw [hut, hut']; linarith
  refine ⟨r, r', hr, hr', e6, e6', by rw [hu, hu']; linarith, hU, ?_, ?_, fun hdat => ?_⟩
  · rw [e10, e10']; exact C32_split_independent _ _ _ _ hU
  · rw [hz, hz', hlon, hlat]
    refine (ang_diff _ _ _).trans ?_
    refine (sun_same_ut b0' b0 (D := |r'.dat - r.dat| / 86400) ?_ hU).trans ?_
    · rw [show |r'.dat - r.dat| / 86400 = |(r'.dat - r.dat) / 86400| by
        rw [abs_div, abs_of_pos (show (0 : ℝ) < 86400 by norm_num)]]
      refine congrArg (fun x : ℝ => |x|) ?_
      rw [htt, htt']
      linarith
    · have := abs_nonneg (r'.dat - r.dat)
      norm_num; linarith
  · have hT : r'.tt.1 + r'.tt.2 = r.tt.1 + r.tt.2 := by rw [htt, htt', hdat]; linarith
    have hE : r'.earth = r.earth := by rw [e11, e11', hT, f7, g7]
    have hS : r'.sun_e = r.sun_e := by
      have k := (C42_split_independent _ _ _ _ hT).2.2.2.2.2.2.2 _ _ _ _ c.xp c.yp hU
      rw [e12, e12', hE, g8, g9, ← f8, ← f9]
      rw [show r'.tt = (r'.tt.1, r'.tt.2) from rfl, show r'.ut1 = (r'.ut1.1, r'.ut1.2) from rfl, k]
    exact ⟨hT, hE, hS, by rw [e13, e13', hS, f11, g11, hlon, hlat]⟩

/-- The leap second table steps by at most one second from month to month after January 1972. -/
theorem datRow_step_le (m : ℤ) (h : 23665 < m) : (datRow (m + 1)).dat ≤ (datRow m).dat + 1 := by
  by_cases hl : 24205 < m
  · rw [datRow_late m hl, datRow_late (m + 1) (by omega)]; norm_num
  · have := datRow_table (fun m r => (datRow (m + 1)).dat ≤ r.dat + 1) 23666 540
      (by decide +kernel) m (by omega) (by omega)
    exact this

/-- The delta AT of a calculator for a date after January 1972. -/
theorem dat_late {p : Profile} {q : SunAngleParameters ℝ} (hd : GoodDate q.date) {c : SunAngleCalculator ℝ}
    (hc : SunAngleCalculator.new p q = .ok c) (h : monthNo 1972 1 < monthNo q.date.year q.date.month) :
    c.dat = ((datRow (monthNo q.date.year q.date.month)).dat : ℝ) := by
  obtain ⟨-, -, -, a4, -⟩ := new_fields hd hc
  have hy : 1960 ≤ q.date.year := by
    have h1 := hd.civil.2.1
    simp only [GregorianDate.civil] at h1
    unfold monthNo at h; omega
  have hy' : q.date.year ≤ 178956969 := by
    have := hd.late; unfold marchYear at this; split at this <;> omega
  rw [if_neg (by omega)] at a4
  have nb : ¬ (c.fr <. lit 0 || lit 1 <. c.fr) = true := by
    intro hb; rw [deltaAt_bad p _ c.fr hb] at a4; cases a4
  rw [deltaAt_some p _ c.fr nb hy hy' ⟨hd.civil.1, hd.civil.2.1⟩,
    (datRow_integer _ (by have : monthNo 1972 1 = 23665 := by decide
                          omega)).1] at a4
  simp only [lit_real] at a4
  exact (Option.some.inj (Except.ok.inj (Except.ok.inj a4))).symm

/-- **C108, the dates.** In the setting of `C108_same_moment`: two dates before 1960, or two dates of one month after January
1972, or any two dates after January 2017, give the same Sun and the same zenith angle. A date after January 1972 and the
next day (24:00 and 0:00, say) give zenith angles which differ by at most `3.5e-7` radians (0.07 seconds of arc), the leap
second; any two dates after January 1972 by at most `9.2e-6` radians. -/
theorem C108_other_date (p p' : Profile) (q q' : SunAngleParameters ℝ) (hd : GoodDate q.date) (hd' : GoodDate q'.date)
    (hlon : q'.position.lon = q.position.lon) (hlat : q'.position.lat = q.position.lat) (c c' : SunAngleCalculator ℝ)
    (hc : SunAngleCalculator.new p q = .ok c) (hc' : SunAngleCalculator.new p' q' = .ok c') (N N' : ℤ)
    (hN : DaysFrom mjdEpoch q.date.civil N) (hN' : DaysFrom mjdEpoch q'.date.civil N') (δ δ' : ℝ)
    (hb : |N - 51544.5 + (3600 * q.time.hour + 60 * q.time.minute + q.time.second + δ) / 86400| ≤ 36524)
    (he : N' + (3600 * q'.time.hour + 60 * q'.time.minute + q'.time.second + δ') / 86400 =
      N + (3600 * q.time.hour + 60 * q.time.minute + q.time.second + δ) / 86400) :
    ∃ r r', c.compute δ = .ok r ∧ c'.compute δ' = .ok r' ∧
      ((q.date.year < 1960 ∧ q'.date.year < 1960 ∨
        monthNo 1972 1 < monthNo q.date.year q.date.month ∧ q'.date.year = q.date.year ∧ q'.date.month = q.date.month ∨
        monthNo 2017 1 < monthNo q.date.year q.date.month ∧ monthNo 2017 1 < monthNo q'.date.year q'.date.month) →
          r'.sun_e = r.sun_e ∧ r'.sza = r.sza) ∧
      (monthNo 1972 1 < monthNo q.date.year q.date.month → q'.date.civil = next q.date.civil → |r'.sza - r.sza| ≤ 3.5e-7) ∧
      (monthNo 1972 1 < monthNo q.date.year q.date.month → monthNo 1972 1 < monthNo q'.date.year q'.date.month →
        |r'.sza - r.sza| ≤ 9.2e-6) := by
  obtain ⟨r, r', hr, hr', d1, d2, -, -, -, hle, heq⟩ :=
    C108_same_moment p p' q q' hd hd' hlon hlat c c' hc hc' N N' hN hN' δ δ' hb he
  have m0 : monthNo 1972 1 = 23665 := by decide
  have m1 : monthNo 2017 1 = 24205 := by decide
  refine ⟨r, r', hr, hr', fun h => ?_, fun h hn => ?_, fun h h' => ?_⟩
  · have : r'.dat = r.dat := by
      rw [d1, d2]
      rcases h with ⟨h, h'⟩ | ⟨h, hy, hm⟩ | ⟨h, h'⟩
      · obtain ⟨-, -, -, -, a5, -⟩ := new_fields hd hc
        obtain ⟨-, -, -, -, b5, -⟩ := new_fields hd' hc'
        rw [a5 h, b5 h']
      · rw [dat_late hd hc h, dat_late hd' hc' (by rw [hy, hm]; exact h), hy, hm]
      · rw [dat_late hd hc (by omega), dat_late hd' hc' (by omega), datRow_late _ (by omega), datRow_late _ (by omega)]
    exact (heq this).2.2
  · have hm : monthNo q'.date.year q'.date.month = monthNo q.date.year q.date.month ∨
        monthNo q'.date.year q'.date.month = monthNo q.date.year q.date.month + 1 := by
      obtain ⟨c1, c2, -, -⟩ := hd.civil
      unfold next GregorianDate.civil at hn
      simp only [GregorianDate.civil] at c1 c2
      unfold monthNo
      simp only at hn
      split_ifs at hn <;> simp only [Prod.mk.injEq] at hn <;> omega
    have hdat : |r'.dat - r.dat| ≤ 1 := by
      rw [d1, d2, dat_late hd hc h, dat_late hd' hc' (by omega)]
      rcases hm with hm | hm
      · rw [hm]; norm_num
      · have k1 := datRow_step_mono (monthNo q.date.year q.date.month) (by omega)
        have k2 := datRow_step_le (monthNo q.date.year q.date.month) (by omega)
        rw [hm]
        have k1 := (Rat.cast_le (K := ℝ)).mpr k1
        have k2 := (Rat.cast_le (K := ℝ)).mpr k2
        push_cast at k2
        rw [abs_le]; constructor <;> linarith
    generalize |r'.dat - r.dat| = D at *
    refine hle.trans ?_
    norm_num; linarith
  · have hdat : |r'.dat - r.dat| ≤ 27 := by
      rw [d1, d2, dat_late hd hc h, dat_late hd' hc' h']
      obtain ⟨-, n, n1, n2, en⟩ := datRow_integer (monthNo q.date.year q.date.month) (by omega)
      obtain ⟨-, n', n1', n2', en'⟩ := datRow_integer (monthNo q'.date.year q'.date.month) (by omega)
      rw [en, en']
      have a1 : (10 : ℝ) ≤ n := by exact_mod_cast n1
      have a2 : (n : ℝ) ≤ 37 := by exact_mod_cast n2
      have a3 : (10 : ℝ) ≤ n' := by exact_mod_cast n1'
      have a4 : (n' : ℝ) ≤ 37 := by exact_mod_cast n2'
      push_cast
      rw [abs_le]; constructor <;> linarith
    generalize |r'.dat - r.dat| = D at *
    refine hle.trans ?_
    norm_num; linarith

/-- **C108 in binary64.** For the parameters of the accuracy theorem C72, one place, one moment and dates after January 1972,
the next day or the same month: the cosines of which the program takes the arc cosine differ by at most `3.6e-7` (a date and
the next day) and `2.4e-9` (one month). -/
theorem C108_same_moment_f64 [Libm F64] (hL : LibmAcc) (p : Profile) (q q' : SunAngleParameters F64) (δ δ' : F64)
    (s l b h d s' h' d' : ℚ) (N N' : ℤ) (H : SunInput q δ s l b h d N) (H' : SunInput q' δ' s' l b h' d' N')
    (hm : monthNo 1972 1 < monthNo q.date.year q.date.month)
    (he : N' + (3600 * q'.time.hour + 60 * q'.time.minute + s' + d') / 86400 =
      N + (3600 * q.time.hour + 60 * q.time.minute + s + d) / 86400) :
    ∃ c c' r r', SunAngleCalculator.new p q = .ok c ∧ SunAngleCalculator.new p q' = .ok c' ∧ c.compute δ = .ok r ∧
      c'.compute δ' = .ok r' ∧
      ∃ x y : ℚ, Is (c.zen.normalize.dot r.sun_e.normalize) x ∧ Is (c'.zen.normalize.dot r'.sun_e.normalize) y ∧
        (q'.date.year = q.date.year → q'.date.month = q.date.month → |x - y| ≤ 2.4e-9) ∧
        (q'.date.civil = next q.date.civil → |x - y| ≤ 3.6e-7) := by
  obtain ⟨c, C, r, R, hc, hC, hr, hR, -, -, -, ⟨x, ix, ex⟩, -⟩ := C72_sun_angle_f64 hL p q δ s l b h d N H
  obtain ⟨c', C', r', R', hc', hC', hr', hR', -, -, -, ⟨y, iy, ey⟩, -⟩ := C72_sun_angle_f64 hL p q' δ' s' l b h' d' N' H'
  obtain ⟨R0, R1, g1, g2, k1, k2, -⟩ := C108_other_date p p (exactParams q s l b h) (exactParams q' s' l b h') H.date H'.date
    rfl rfl C C' hC hC' N N' H.days H'.days (d : ℝ) (d' : ℝ) (by
      have := (Rat.cast_le (K := ℝ)).mpr H.century
      push_cast at this
      show |(N : ℝ) - 51544.5 + (3600 * (q.time.hour : ℝ) + 60 * (q.time.minute : ℝ) + (s : ℝ) + (d : ℝ)) / 86400| ≤ 36524
      rw [abs_le] at this ⊢
      norm_num at this ⊢
      constructor <;> linarith [this.1, this.2]) (by
      show (N' : ℝ) + (3600 * (q'.time.hour : ℝ) + 60 * (q'.time.minute : ℝ) + (s' : ℝ) + (d' : ℝ)) / 86400 =
        N + (3600 * (q.time.hour : ℝ) + 60 * (q.time.minute : ℝ) + (s : ℝ) + (d : ℝ)) / 86400
      exact_mod_cast congrArg (fun z : ℚ => (z : ℝ)) he)
  rw [hR] at g1
  rw [hR'] at g2
  obtain rfl := Except.ok.inj g1
  obtain rfl := Except.ok.inj g2
  refine ⟨c, c', r, r', hc, hc', hr, hr', x, y, ix, iy, fun hy hm' => ?_, fun hn => ?_⟩
  · have := (k1 (.inr (.inl ⟨hm, hy, hm'⟩))).2
    rw [this] at ey
    have : |(x : ℝ) - y| ≤ 2.4e-9 := by
      rw [abs_le] at ex ey ⊢
      norm_num at ex ey ⊢
      constructor <;> linarith [ex.1, ex.2, ey.1, ey.2]
    rw [← Rat.cast_le (K := ℝ)]
    push_cast
    norm_num at this ⊢
    exact this
  · have := k2 hm hn
    have hcos : |Real.cos R'.sza - Real.cos R.sza| ≤ 3.5e-7 := (Real.abs_cos_sub_cos_le _ _).trans this
    have : |(x : ℝ) - y| ≤ 3.6e-7 := by
      clear * - ex ey hcos
      generalize Real.cos R'.sza = u at *
      generalize Real.cos R.sza = v at *
      rw [abs_le] at ex ey hcos ⊢
      norm_num at ex ey hcos ⊢
      constructor <;> linarith [ex.1, ex.2, ey.1, ey.2, hcos.1, hcos.2]
    rw [← Rat.cast_le (K := ℝ)]
    push_cast
    norm_num at this ⊢
    exact this

/-- 31 December 2016 at 24:00 and 1 January 2017 at 0:00, in exact arithmetic. -/
example : ∃ q q' : SunAngleParameters ℝ, GoodDate q.date ∧ GoodDate q'.date ∧ q'.position = q.position ∧
    (∃ c, SunAngleCalculator.new .checked q = .ok c) ∧ (∃ c, SunAngleCalculator.new .checked q' = .ok c) ∧
    DaysFrom mjdEpoch q.date.civil 57753 ∧ DaysFrom mjdEpoch q'.date.civil 57754 ∧
    |((57753 : ℤ) : ℝ) - 51544.5 + (3600 * q.time.hour + 60 * q.time.minute + q.time.second + 60) / 86400| ≤ 36524 ∧
    ((57754 : ℤ) : ℝ) + (3600 * q'.time.hour + 60 * q'.time.minute + q'.time.second + 60) / 86400 =
      (57753 : ℤ) + (3600 * q.time.hour + 60 * q.time.minute + q.time.second + 60) / 86400 ∧
    monthNo 1972 1 < monthNo q.date.year q.date.month ∧ q'.date.civil = next q.date.civil := by
  have hd : GoodDate ⟨2016, 12, 31⟩ := ⟨by decide, by decide, by decide⟩
  have hd' : GoodDate ⟨2017, 1, 1⟩ := ⟨by decide, by decide, by decide⟩
  refine ⟨⟨⟨2016, 12, 31⟩, ⟨24, 0, 0⟩, { lon := -9, lat := 39, height := 100 }⟩,
    ⟨⟨2017, 1, 1⟩, ⟨0, 0, 0⟩, { lon := -9, lat := 39, height := 100 }⟩, hd, hd', rfl, (C52_new_exact _ _ hd).1.mpr ?_,
    (C52_new_exact _ _ hd').1.mpr ?_, daysFrom_epoch (by decide), daysFrom_epoch (by decide), by norm_num [abs_le], by norm_num,
    by decide, by decide⟩
  all_goals
    unfold HMS.toFractionOfDay
    norm_num

/-- The same in binary64, with a library that exists. -/
example : ∃ (L : Libm F64) (q q' : SunAngleParameters F64), @LibmAcc L ∧ SunInput q (lit 0) 0 (-9) 39 100 0 57753 ∧
    SunInput q' (lit 0) 0 (-9) 39 0 0 57754 ∧ monthNo 1972 1 < monthNo q.date.year q.date.month ∧
    ((57754 : ℤ) : ℚ) + (3600 * q'.time.hour + 60 * q'.time.minute + 0 + 0) / 86400 =
      (57753 : ℤ) + (3600 * q.time.hour + 60 * q.time.minute + 0 + 0) / 86400 ∧ q'.date.civil = next q.date.civil := by
  have i0 : Is (lit 0 : F64) 0 := by have := Is.lit_int 0 (by norm_num); push_cast at this; exact this
  have i1 : Is (lit (-9) : F64) (-9) := by have := Is.lit_int (-9) (by norm_num); push_cast at this; exact this
  have i2 : Is (lit 39 : F64) 39 := by have := Is.lit_int 39 (by norm_num); push_cast at this; exact this
  have i5 : Is (lit 100 : F64) 100 := by have := Is.lit_int 100 (by norm_num); push_cast at this; exact this
  refine ⟨goodLibm, ⟨⟨2016, 12, 31⟩, ⟨24, 0, lit 0⟩, { lon := lit (-9), lat := lit 39, height := lit 100 }⟩,
    ⟨⟨2017, 1, 1⟩, ⟨0, 0, lit 0⟩, { lon := lit (-9), lat := lit 39, height := lit 0 }⟩, exists_libmAcc,
    ⟨⟨by decide, by decide, by decide⟩, by decide, by decide, i0, by norm_num, by norm_num, i1, i2, i5, by norm_num, by norm_num,
      by norm_num, i0, by norm_num, daysFrom_epoch (by decide), by norm_num⟩,
    ⟨⟨by decide, by decide, by decide⟩, by decide, by decide, i0, by norm_num, by norm_num, i1, i2, i0, by norm_num, by norm_num,
      by norm_num, i0, by norm_num, daysFrom_epoch (by decide), by norm_num⟩, by decide, by norm_num, by decide⟩

end Verif
