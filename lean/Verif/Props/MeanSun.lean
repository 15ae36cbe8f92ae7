import Verif.Lemmas.MeanSunDates
import Verif.Props.SunAccuracy

/-!
# C83, C84: the Sun of the program against the mean Sun; noon, midnight and the polar seasons
-/

namespace Verif
open Arith F64 Spec Matrix

/-! ## C83 -/

/-- Delta AT in exact arithmetic is at most 100 s. -/
theorem deltaAt_real_le (p : Profile) (d : GregorianDate) (fd x : ℝ) (hd : GoodDate d) (hy : 1960 ≤ d.year)
    (h0 : 0 ≤ fd) (h1 : fd ≤ 1) (h : deltaAt p d fd = .ok (.ok (some x))) : |x| ≤ 100 := by
  have h' := deltaAt_row_real p d fd hd hy h0 h1
  simp only at h'
  rw [h] at h'
  have e := Option.some.inj (Except.ok.inj (Except.ok.inj h'))
  obtain ⟨y, m, dd⟩ := d
  obtain ⟨hm1, hm2, hd1, hd2⟩ := hd.civil
  simp only [GregorianDate.civil] at hm1 hm2 hd1 hd2 hy e
  by_cases hc : monthNo y m ≤ 23665
  · obtain ⟨o, r, er, ho, hr0, hr1, hq0, hq1⟩ := datRow_drift (monthNo y m) (by unfold monthNo; omega) hc
    have hyy : y ≤ 1972 := by unfold monthNo at hc; omega
    have hN : 36900 ≤ mjdN y m dd ∧ mjdN y m dd ≤ 41800 := by
      have := mjdN_cases y m dd
      have : monthLen y m ≤ 31 := by unfold monthLen; split_ifs <;> omega
      omega
    have e1 : (datRow (monthNo y m)).step.offset = (datRow (monthNo y m)).dat := rfl
    have e2 : (datRow (monthNo y m)).step.origin = o := by
      show (((datRow (monthNo y m)).drift).getD (0, 0)).1 = o; rw [er]; rfl
    have e3 : (datRow (monthNo y m)).step.rate = r := by
      show (((datRow (monthNo y m)).drift).getD (0, 0)).2 = r; rw [er]; rfl
    rw [e1, e2, e3] at e
    have N1 : (36900 : ℝ) ≤ mjdN y m dd := by exact_mod_cast hN.1
    have N2 : (mjdN y m dd : ℝ) ≤ 41800 := by exact_mod_cast hN.2
    have o1 : (37000 : ℝ) ≤ o ∧ (o : ℝ) ≤ 40000 := by
      rcases ho with rfl | rfl | rfl | rfl <;> norm_num
    have R0 : (0 : ℝ) ≤ r := by exact_mod_cast hr0
    have R1 : (r : ℝ) ≤ 26 / 10000 := by
      have := (Rat.cast_le (K := ℝ)).mpr hr1; push_cast at this; exact this
    have Q0 : (0 : ℝ) ≤ (datRow (monthNo y m)).dat := by exact_mod_cast hq0
    have Q1 : ((datRow (monthNo y m)).dat : ℝ) ≤ 5 := by exact_mod_cast hq1
    have k : |((mjdN y m dd : ℝ) + fd - o) * r| ≤ 5000 * (26 / 10000) := by
      rw [abs_mul, abs_of_nonneg R0]
      refine mul_le_mul ?_ R1 R0 (by norm_num)
      rw [abs_le]; constructor <;> linarith [o1.1, o1.2]
    rw [abs_le] at k
    rw [e, abs_le]
    constructor <;> linarith [k.1, k.2]
  · obtain ⟨er, j, j1, j2, ej⟩ := datRow_integer (monthNo y m) (by omega)
    have e1 : (datRow (monthNo y m)).step.offset = j := ej
    have e3 : (datRow (monthNo y m)).step.rate = 0 := by
      show (((datRow (monthNo y m)).drift).getD (0, 0)).2 = 0; rw [er]; rfl
    rw [e1, e3] at e
    have J1 : (0 : ℝ) ≤ j := by positivity
    have J2 : (j : ℝ) ≤ 37 := by exact_mod_cast j2
    rw [e, abs_le]
    push_cast
    constructor <;> linarith

/-- **C83.** For every calculator of the program in exact arithmetic and every offset such that the instant is `n` days
from 2000-01-01 12:00 UTC with `|n| ≤ 36524`: the Sun vector in the terrestrial frame, in astronomical units, is within
0.00155 of the Sun computed from mean orbital elements, precession to first order and the rotation angle of the Earth; and
the cosine of the zenith angle times the distance is within 0.00155 of the scalar product of the vertical with it. -/
theorem C83_mean_sun (p : Profile) (q : SunAngleParameters ℝ) (hd : GoodDate q.date) (c : SunAngleCalculator ℝ)
    (hc : SunAngleCalculator.new p q = .ok c) (δ : ℝ) (N : ℤ) (hN : DaysFrom mjdEpoch q.date.civil N) (n : ℝ)
    (hn : n = N - 51544.5 + (3600 * q.time.hour + 60 * q.time.minute + q.time.second + δ) / 86400) (hb : |n| ≤ 36524) :
    ∃ r, c.compute δ = .ok r ∧ 0.982 ≤ r.sun_e.norm / 149597870700 ∧ r.sun_e.norm / 149597870700 ≤ 1.019 ∧
      len ((fun i => r.sun_e.toVec i / 149597870700) - meanSun n) ≤ 0.00155 ∧
      |Real.cos r.sza * (r.sun_e.norm / 149597870700) -
        (Real.cos (q.position.lat * (Real.pi / 180)) * Real.cos (q.position.lon * (Real.pi / 180)) * meanSun n 0 +
         Real.cos (q.position.lat * (Real.pi / 180)) * Real.sin (q.position.lon * (Real.pi / 180)) * meanSun n 1 +
         Real.sin (q.position.lat * (Real.pi / 180)) * meanSun n 2)| ≤ 0.00155 := by
  obtain ⟨r, N', hr, hN', -, -, -, -, -, htt, hut, -, hd0, hd1⟩ := C60_time_scales_exact p q hd c hc δ
  obtain rfl : N' = N := (daysFrom_unique _ _ (by decide) hd.civil _ hN').trans
    (daysFrom_unique _ _ (by decide) hd.civil _ hN).symm
  have hdat : |r.dat| ≤ 100 := by
    by_cases hy : q.date.year < 1960
    · rw [hd0 hy]; norm_num
    · have hf := ((C52_new_exact p q hd).1).mp ⟨c, hc⟩
      have e : (3600 * (q.time.hour : ℝ) + 60 * q.time.minute + q.time.second) / 86400 = q.time.toFractionOfDay := by
        unfold HMS.toFractionOfDay
        simp only [mul_real, add_real, div_real, lit_real, ofInt_real]
        push_cast
        ring
      exact deltaAt_real_le p q.date _ _ hd (by omega) (by rw [e]; exact hf.1) (by rw [e]; exact hf.2) (hd1 (by omega))
  obtain ⟨r', hr', h1, h2, h3, h4, h5, h6⟩ := C53_sun_zenith_angle p q hd c hc δ
  rw [hr] at hr'
  obtain rfl := Except.ok.inj hr'
  rw [abs_le] at hdat hb
  have t1 : r.tt.1 + r.tt.2 - 2451545 - n = (r.dat + 32.184) / 86400 := by rw [htt, hn]; ring
  have t2 : r.ut1.1 + r.ut1.2 - 2451545 - n = -0.072073685 / 86400 := by rw [hut, hn]; ring
  have b1 : |r.tt.1 + r.tt.2 - 2451545 - n| ≤ 0.00154 := by
    rw [t1, abs_le]; constructor <;> norm_num <;> linarith [hdat.1, hdat.2]
  have b2 : |r.ut1.1 + r.ut1.2 - 2451545 - n| ≤ 8.35e-7 := by
    rw [t2, abs_le]; constructor <;> norm_num
  have b0 : |r.tt.1 + r.tt.2 - 2451545| ≤ 36525 := by
    rw [abs_le] at b1 ⊢; norm_num at b1; constructor <;> linarith [b1.1, b1.2, hb.1, hb.2]
  have key := sun_near b0 b1 b2
  obtain ⟨ne, d1, d2⟩ := C53_sun_distance p q hd c hc δ r hr b0
  have he := h2 _ (fromTDB_real _)
  have ev : (fun i => r.sun_e.toVec i / 149597870700) =
      (celestialToTerrestrial r.tt r.ut1 (0.0349282 * AS2R) (0.4833163 * AS2R)).toMatrix *ᵥ
        (-(earthAt (r.tt.1 + r.tt.2)).heliocentric.p.toVec) := by
    have : (fun i => -(149597870700 * r.earth.toVec i)) = (149597870700 : ℝ) • (-r.earth.toVec) := by
      ext i; simp
    rw [h1, this, mulVec_smul, ← he]
    ext i
    simp
  refine ⟨r, hr, by rw [le_div_iff₀ (by norm_num)]; exact d1, by rw [div_le_iff₀ (by norm_num)]; exact d2,
    by rw [ev]; exact key, ?_⟩
  rw [← ev] at key
  have hz := h6 ne
  set v : Fin 3 → ℝ := (fun i => r.sun_e.toVec i / 149597870700) - meanSun n with hv
  have hZ : len ![Real.cos (q.position.lat * (Real.pi / 180)) * Real.cos (q.position.lon * (Real.pi / 180)),
      Real.cos (q.position.lat * (Real.pi / 180)) * Real.sin (q.position.lon * (Real.pi / 180)),
      Real.sin (q.position.lat * (Real.pi / 180))] = 1 := by
    unfold len
    rw [Real.sqrt_eq_one]
    have a1 := Real.sin_sq_add_cos_sq (q.position.lat * (Real.pi / 180))
    have a2 := Real.sin_sq_add_cos_sq (q.position.lon * (Real.pi / 180))
    simp
    linear_combination a1 + Real.cos (q.position.lat * (Real.pi / 180)) ^ 2 * a2
  have hdot := dot_le ![Real.cos (q.position.lat * (Real.pi / 180)) * Real.cos (q.position.lon * (Real.pi / 180)),
      Real.cos (q.position.lat * (Real.pi / 180)) * Real.sin (q.position.lon * (Real.pi / 180)),
      Real.sin (q.position.lat * (Real.pi / 180))] v
  rw [hZ, one_mul] at hdot
  have v0 : v 0 = r.sun_e.x / 149597870700 - meanSun n 0 := rfl
  have v1 : v 1 = r.sun_e.y / 149597870700 - meanSun n 1 := rfl
  have v2 : v 2 = r.sun_e.z / 149597870700 - meanSun n 2 := rfl
  rw [v0, v1, v2] at hdot
  have hdot' := hdot.trans key
  rw [← mul_div_assoc, hz]
  clear hv hZ ev key hdot h1
  simp only [Matrix.cons_val_zero, Matrix.cons_val_one, Matrix.cons_val] at hdot'
  generalize meanSun n 0 = m0 at *
  generalize meanSun n 1 = m1 at *
  generalize meanSun n 2 = m2 at *
  refine le_trans (le_of_eq (congrArg (fun x : ℝ => |x|) ?_)) hdot'
  ring

/-- The hypotheses hold for the default parameters of the program. -/
example : GoodDate (SunAngleParameters.default (α := ℝ)).date ∧
    (∃ c, SunAngleCalculator.new .checked (SunAngleParameters.default (α := ℝ)) = .ok c) ∧
    DaysFrom mjdEpoch (SunAngleParameters.default (α := ℝ)).date.civil 54195 ∧ |(54195 : ℝ) - 51544.5 + (3600 * 12) / 86400| ≤ 36524 := by
  refine ⟨⟨by decide, by decide, by decide⟩, ?_, daysFrom_epoch (by decide), by norm_num [abs_le]⟩
  rw [(C52_new_exact _ _ ⟨by decide, by decide, by decide⟩).1]
  unfold SunAngleParameters.default HMS.toFractionOfDay
  norm_num

/-- **C83.** When the mean Sun is more than 0.0016 above (below) the horizon, the Sun of the program is above (below). -/
theorem C83_above_below (p : Profile) (q : SunAngleParameters ℝ) (hd : GoodDate q.date) (c : SunAngleCalculator ℝ)
    (hc : SunAngleCalculator.new p q = .ok c) (δ : ℝ) (N : ℤ) (hN : DaysFrom mjdEpoch q.date.civil N) (n : ℝ)
    (hn : n = N - 51544.5 + (3600 * q.time.hour + 60 * q.time.minute + q.time.second + δ) / 86400) (hb : |n| ≤ 36524) :
    ∃ r, c.compute δ = .ok r ∧
      (0.0016 ≤ meanHeight q.position.lon q.position.lat n → r.sza < Real.pi / 2 ∧ 0.00004 ≤ Real.cos r.sza) ∧
      (meanHeight q.position.lon q.position.lat n ≤ -0.0016 → Real.pi / 2 < r.sza ∧ Real.cos r.sza ≤ -0.00004) := by
  obtain ⟨r, hr, d1, d2, -, h⟩ := C83_mean_sun p q hd c hc δ N hN n hn hb
  obtain ⟨r', hr', -, -, -, z0, z1, -⟩ := C53_sun_zenith_angle p q hd c hc δ
  rw [hr] at hr'
  obtain rfl := Except.ok.inj hr'
  change |_ - meanHeight q.position.lon q.position.lat n| ≤ _ at h
  refine ⟨r, hr, ?_, ?_⟩ <;> intro hm <;> rw [abs_le] at h <;>
    generalize r.sun_e.norm / 149597870700 = D at * <;> generalize meanHeight _ _ n = m at *
  · have hc' : 0.00004 ≤ Real.cos r.sza := by
      by_contra hlt
      push Not at hlt
      have : Real.cos r.sza * D ≤ 0.00004 * 1.019 := by
        rcases le_total 0 (Real.cos r.sza) with h0 | h0
        · exact mul_le_mul hlt.le d2 (by linarith) (by norm_num)
        · exact (mul_nonpos_of_nonpos_of_nonneg h0 (by linarith)).trans (by norm_num)
      norm_num at *
      linarith [h.1]
    refine ⟨?_, hc'⟩
    by_contra hge
    push Not at hge
    have := Real.cos_nonpos_of_pi_div_two_le_of_le hge (by linarith [Real.pi_pos])
    linarith
  · have hc' : Real.cos r.sza ≤ -0.00004 := by
      by_contra hlt
      push Not at hlt
      have : -(0.00004 * 1.019) ≤ Real.cos r.sza * D := by
        rcases le_total 0 (Real.cos r.sza) with h0 | h0
        · exact le_trans (by norm_num) (mul_nonneg h0 (by linarith : 0 ≤ D))
        · have := mul_le_mul (show -Real.cos r.sza ≤ 0.00004 by linarith) d2 (by linarith) (by norm_num)
          linarith
      norm_num at *
      linarith [h.2]
    refine ⟨?_, hc'⟩
    by_contra hge
    push Not at hge
    have := Real.cos_nonneg_of_neg_pi_div_two_le_of_le (by linarith [Real.pi_pos]) hge
    linarith

/-- **C83.** The same in binary64, for every set of parameters of `SunInput` and every mathematical library accurate to
`2^-50`: the cosine handed to `acos` has the sign of the height of the mean Sun, and if it is at most one in absolute value
the zenith angle returned is less (more) than a right angle. -/
theorem C83_above_below_f64 [Libm F64] (hL : LibmAcc) (p : Profile) (q : SunAngleParameters F64) (δ : F64) (s l b h d : ℚ)
    (N : ℤ) (H : SunInput q δ s l b h d N) (n : ℝ)
    (hn : n = N - 51544.5 + (3600 * q.time.hour + 60 * q.time.minute + s + d) / 86400) :
    ∃ (c : SunAngleCalculator F64) (r : SunAngleResult F64) (x : ℚ), SunAngleCalculator.new p q = .ok c ∧
      c.compute δ = .ok r ∧ Is (c.zen.normalize.dot r.sun_e.normalize) x ∧
      (0.0016 ≤ meanHeight l b n → 0 < x ∧ (x ≤ 1 → ∃ z : ℚ, Is r.sza z ∧ (z : ℝ) < Real.pi / 2)) ∧
      (meanHeight l b n ≤ -0.0016 → x < 0 ∧ (-1 ≤ x → ∃ z : ℚ, Is r.sza z ∧ Real.pi / 2 < z)) := by
  obtain ⟨c, C, r, R, hc, hC, hr, hR, -, -, -, ⟨x, ix, ex⟩, -⟩ := C72_sun_angle_f64 hL p q δ s l b h d N H
  have gd : GoodDate (exactParams q s l b h).date := H.date
  have hb : |n| ≤ 36524 := by
    have h1 := (Rat.cast_le (K := ℝ)).mpr H.century
    push_cast at h1
    rw [hn]
    refine le_trans (le_of_eq (congrArg (fun x : ℝ => |x|) ?_)) h1
    norm_num
    ring
  obtain ⟨R', hR', up, dn⟩ := C83_above_below p (exactParams q s l b h) gd C hC d N H.days n
    (by rw [hn]; unfold exactParams; ring) hb
  rw [hR] at hR'
  obtain rfl := Except.ok.inj hR'
  obtain ⟨e, he, he1, hs, hsz, hrp⟩ := compute_geometry c δ hr
  refine ⟨c, r, x, hc, hr, ix, fun hm => ?_, fun hm => ?_⟩
  · obtain ⟨-, u⟩ := up hm
    rw [abs_le] at ex
    norm_num at ex u
    have x0 : (0.00003 : ℝ) < x := by norm_num; linarith [ex.1]
    have xp : 0 < x := by
      have : (0 : ℝ) < x := by linarith [show (0 : ℝ) < 0.00003 by norm_num]
      exact_mod_cast this
    refine ⟨xp, fun x1 => ?_⟩
    obtain ⟨z, iz, ez⟩ : Near r.sza (Real.arccos x) (1 / 2 ^ 50) := by
      rw [hsz]; exact hL.acos _ x ix (by rw [abs_le]; constructor <;> linarith)
    refine ⟨z, iz, ?_⟩
    have a1 : (x : ℝ) ≤ Real.arcsin x := by
      have h1 : (x : ℝ) ≤ 1 := by exact_mod_cast x1
      have := Real.sin_le (Real.arcsin_nonneg.mpr (by linarith : (0 : ℝ) ≤ x))
      rwa [Real.sin_arcsin (by linarith) h1] at this
    rw [Real.arccos, abs_le] at ez
    norm_num at ez x0
    linarith [ez.2]
  · obtain ⟨-, u⟩ := dn hm
    rw [abs_le] at ex
    norm_num at ex u
    have x0 : (x : ℝ) < -0.00003 := by norm_num; linarith [ex.2]
    have xp : x < 0 := by
      have : (x : ℝ) < 0 := by linarith [show (0 : ℝ) < 0.00003 by norm_num]
      exact_mod_cast this
    refine ⟨xp, fun x1 => ?_⟩
    obtain ⟨z, iz, ez⟩ : Near r.sza (Real.arccos x) (1 / 2 ^ 50) := by
      rw [hsz]; exact hL.acos _ x ix (by rw [abs_le]; constructor <;> linarith)
    refine ⟨z, iz, ?_⟩
    have a1 : Real.arcsin x ≤ x := by
      have h1 : (-1 : ℝ) ≤ x := by exact_mod_cast x1
      have := Real.sin_le (x := -Real.arcsin x) (by rw [← Real.arcsin_neg]; exact Real.arcsin_nonneg.mpr (by linarith))
      rw [Real.sin_neg, Real.sin_arcsin h1 (by linarith)] at this
      linarith
    rw [Real.arccos, abs_le] at ez
    norm_num at ez x0
    linarith [ez.1]

/-! ## C84 -/

/-- Noon and midnight up to 60 degrees of latitude, for the mean Sun. -/
theorem noon_midnight {lon lat n sec T : ℝ} {N : ℤ} (hn : n = N - 51544.5 + sec / 86400) (hb : |n| ≤ 36524) (hlat : |lat| ≤ 60)
    (hT : T = sec / 3600 + lon / 15) :
    ((∃ k : ℤ, |T - 12 - 24 * k| ≤ 2) → 0.0016 ≤ meanHeight lon lat n) ∧
    ((∃ k : ℤ, |T - 24 * k| ≤ 2) → meanHeight lon lat n ≤ -0.0016) := by
  have hb' : |n| ≤ 36525 := hb.trans (by norm_num)
  have hpi := Real.pi_pos
  have hdec := abs_le.mp (declination hb')
  have cphi : 1 / 2 ≤ Real.cos (lat * (Real.pi / 180)) := by
    rw [← Real.cos_pi_div_three, ← Real.cos_abs (lat * _)]
    apply Real.cos_le_cos_of_nonneg_of_le_pi (abs_nonneg _) (by linarith)
    rw [abs_mul, abs_of_pos (by positivity : 0 < Real.pi / 180)]
    nlinarith
  have sphi : |Real.sin (lat * (Real.pi / 180))| ≤ 0.866026 := by
    apply abs_le_of_sq_le_sq _ (by norm_num)
    have := Real.sin_sq_add_cos_sq (lat * (Real.pi / 180))
    nlinarith
  have sz : |Real.sin (lat * (Real.pi / 180)) * meanSun n 2| ≤ 0.866026 * 0.4212 := by
    rw [abs_mul]; exact mul_le_mul sphi (abs_le.mpr hdec) (abs_nonneg _) (by norm_num)
  have hour : ∀ t : ℝ, |t| ≤ 2 → 0.8660 ≤ Real.cos (Real.pi / 12 * t) ∧ |Real.sin (Real.pi / 12 * t)| ≤ 1 / 2 := by
    intro t ht
    have c1 : 0.8660 ≤ Real.cos (Real.pi / 12 * t) := by
      have : Real.cos (Real.pi / 6) ≤ Real.cos (Real.pi / 12 * t) := by
        rw [← Real.cos_abs (Real.pi / 12 * t)]
        apply Real.cos_le_cos_of_nonneg_of_le_pi (abs_nonneg _) (by linarith)
        rw [abs_mul, abs_of_pos (by positivity : 0 < Real.pi / 12)]
        nlinarith
      rw [Real.cos_pi_div_six] at this
      have : 1.732 ≤ Real.sqrt 3 := Real.le_sqrt_of_sq_le (by norm_num)
      linarith
    refine ⟨c1, ?_⟩
    have : Real.sin (Real.pi / 6) = 1 / 2 := Real.sin_pi_div_six
    rw [abs_le] at ht ⊢
    constructor
    · rw [← this, ← Real.sin_neg]
      apply Real.sin_le_sin_of_le_of_le_pi_div_two <;> nlinarith [ht.1, ht.2]
    · rw [← this]
      apply Real.sin_le_sin_of_le_of_le_pi_div_two <;> nlinarith [ht.1, ht.2]
  have hsplit : meanHeight lon lat n = Real.cos (lat * (Real.pi / 180)) * (Real.cos (lon * (Real.pi / 180)) * meanSun n 0 +
      Real.sin (lon * (Real.pi / 180)) * meanSun n 1) + Real.sin (lat * (Real.pi / 180)) * meanSun n 2 := by
    unfold meanHeight; ring
  rw [hsplit]
  rw [abs_le] at sz
  norm_num at sz
  constructor
  · rintro ⟨k, hk⟩
    obtain ⟨c1, c2⟩ := hour _ hk
    have := meridian (lam := lon * (Real.pi / 180)) (h := Real.pi / 12 * (T - 12 - 24 * k)) hb'
      ⟨N - 51544 + k, by rw [hn, hT]; push_cast; ring⟩ (by linarith)
    have m : 0.7339 ≤ Real.cos (lon * (Real.pi / 180)) * meanSun n 0 + Real.sin (lon * (Real.pi / 180)) * meanSun n 1 := by
      norm_num at *; linarith
    have := mul_le_mul cphi m (by norm_num) (by linarith)
    norm_num at *
    linarith [sz.1]
  · rintro ⟨k, hk⟩
    obtain ⟨c1, c2⟩ := hour _ hk
    have := antimeridian (lam := lon * (Real.pi / 180)) (h := Real.pi / 12 * (T - 24 * k)) hb'
      ⟨N - 51544 + k, by rw [hn, hT]; push_cast; ring⟩ (by linarith)
    have m : 0.7339 ≤ -(Real.cos (lon * (Real.pi / 180)) * meanSun n 0 + Real.sin (lon * (Real.pi / 180)) * meanSun n 1) := by
      norm_num at *; linarith
    have := mul_le_mul cphi m (by norm_num) (by linarith)
    norm_num at *
    linarith [sz.2]

/-- **C84.** For every date and time within a century of J2000.0 and every place up to 60 degrees of latitude: from two hours
before to two hours after noon in local mean solar time `T` (UTC plus one hour for every 15 degrees of east longitude) the Sun
is up, and from two hours before to two hours after midnight it is down. -/
theorem C84_noon_and_midnight (p : Profile) (q : SunAngleParameters ℝ) (hd : GoodDate q.date) (c : SunAngleCalculator ℝ)
    (hc : SunAngleCalculator.new p q = .ok c) (δ : ℝ) (N : ℤ) (hN : DaysFrom mjdEpoch q.date.civil N) (sec T : ℝ)
    (hsec : sec = 3600 * q.time.hour + 60 * q.time.minute + q.time.second + δ)
    (hb : |N - 51544.5 + sec / 86400| ≤ 36524) (hlat : |q.position.lat| ≤ 60) (hT : T = sec / 3600 + q.position.lon / 15) :
    ∃ r, c.compute δ = .ok r ∧
      ((∃ k : ℤ, |T - 12 - 24 * k| ≤ 2) → r.sza < Real.pi / 2) ∧
      ((∃ k : ℤ, |T - 24 * k| ≤ 2) → Real.pi / 2 < r.sza) := by
  obtain ⟨r, hr, up, dn⟩ := C83_above_below p q hd c hc δ N hN _ (by rw [hsec] : N - 51544.5 + sec / 86400 = _) hb
  obtain ⟨h1, h2⟩ := noon_midnight (lon := q.position.lon) (lat := q.position.lat) rfl hb hlat hT
  exact ⟨r, hr, fun h => (up (h1 h)).1, fun h => (dn (h2 h)).1⟩

/-- Noon and midnight at 120 degrees west, at 20:00 and 08:00 UT1. -/
example : GoodDate (SunAngleParameters.default (α := ℝ)).date ∧ |(SunAngleParameters.default (α := ℝ)).position.lat| ≤ 60 ∧
    |((12 * 3600 + 28800 : ℝ) / 3600 + (SunAngleParameters.default (α := ℝ)).position.lon / 15) - 12 - 24 * ((0 : ℤ) : ℝ)| ≤ 2 ∧
    |((12 * 3600 - 14400 : ℝ) / 3600 + (SunAngleParameters.default (α := ℝ)).position.lon / 15) - 24 * ((0 : ℤ) : ℝ)| ≤ 2 := by
  refine ⟨⟨by decide, by decide, by decide⟩, ?_, ?_, ?_⟩ <;> norm_num [SunAngleParameters.default, abs_le]

/-- **C84.** The same in binary64: the cosine handed to `acos` is positive around noon and negative around midnight. -/
theorem C84_noon_and_midnight_f64 [Libm F64] (hL : LibmAcc) (p : Profile) (q : SunAngleParameters F64) (δ : F64)
    (s l b h d : ℚ) (N : ℤ) (H : SunInput q δ s l b h d N) (hlat : |b| ≤ 60) (T : ℚ)
    (hT : T = (3600 * q.time.hour + 60 * q.time.minute + s + d) / 3600 + l / 15) :
    ∃ (c : SunAngleCalculator F64) (r : SunAngleResult F64) (x : ℚ), SunAngleCalculator.new p q = .ok c ∧
      c.compute δ = .ok r ∧ Is (c.zen.normalize.dot r.sun_e.normalize) x ∧
      ((∃ k : ℤ, |T - 12 - 24 * k| ≤ 2) → 0 < x ∧ (x ≤ 1 → ∃ z : ℚ, Is r.sza z ∧ (z : ℝ) < Real.pi / 2)) ∧
      ((∃ k : ℤ, |T - 24 * k| ≤ 2) → x < 0 ∧ (-1 ≤ x → ∃ z : ℚ, Is r.sza z ∧ Real.pi / 2 < z)) := by
  obtain ⟨c, r, x, hc, hr, ix, up, dn⟩ := C83_above_below_f64 hL p q δ s l b h d N H _ rfl
  have hb : |(N : ℝ) - 51544.5 + (3600 * q.time.hour + 60 * q.time.minute + s + d) / 86400| ≤ 36524 := by
    have h1 := (Rat.cast_le (K := ℝ)).mpr H.century
    push_cast at h1
    refine le_trans (le_of_eq (congrArg (fun x : ℝ => |x|) ?_)) h1
    norm_num
    ring
  obtain ⟨h1, h2⟩ := noon_midnight (lon := l) (lat := b) (T := T) rfl hb (by exact_mod_cast hlat) (by rw [hT]; push_cast; ring)
  exact ⟨c, r, x, hc, hr, ix, fun ⟨k, hk⟩ => up (h1 ⟨k, by exact_mod_cast hk⟩), fun ⟨k, hk⟩ => dn (h2 ⟨k, by exact_mod_cast hk⟩)⟩

/-- At the poles the height of the mean Sun is its distance from the plane of the equator. -/
theorem meanHeight_pole (lon n : ℝ) : meanHeight lon 90 n = meanSun n 2 ∧ meanHeight lon (-90) n = -meanSun n 2 := by
  have e : (90 : ℝ) * (Real.pi / 180) = Real.pi / 2 := by ring
  have e' : (-90 : ℝ) * (Real.pi / 180) = -(Real.pi / 2) := by ring
  unfold meanHeight
  rw [e, e', Real.cos_neg, Real.sin_neg, Real.cos_pi_div_two, Real.sin_pi_div_two]
  constructor <;> ring

/-- **C84.** From 1901 to 2098, at any instant of a UT1 day: at the north pole the Sun is up from 23 March to 20 September and
down from 25 September to 18 March; at the south pole the other way round. -/
theorem C84_polar_seasons (p : Profile) (q : SunAngleParameters ℝ) (hd : GoodDate q.date) (c : SunAngleCalculator ℝ)
    (hc : SunAngleCalculator.new p q = .ok c) (δ : ℝ) (sec : ℝ)
    (hsec : sec = 3600 * q.time.hour + 60 * q.time.minute + q.time.second + δ) (s0 : 0 ≤ sec) (s1 : sec ≤ 86400)
    (y1 : 1901 ≤ q.date.year) (y2 : q.date.year ≤ 2098) :
    ∃ r, c.compute δ = .ok r ∧
      (NorthLight q.date.month q.date.day →
        (q.position.lat = 90 → r.sza < Real.pi / 2) ∧ (q.position.lat = -90 → Real.pi / 2 < r.sza)) ∧
      (NorthDark q.date.month q.date.day →
        (q.position.lat = 90 → Real.pi / 2 < r.sza) ∧ (q.position.lat = -90 → r.sza < Real.pi / 2)) := by
  obtain ⟨r, hr, -⟩ := C53_sun_zenith_angle p q hd c hc δ
  have f0 : 0 ≤ sec / 86400 := by positivity
  have f1 : sec / 86400 ≤ 1 := by linarith
  have key : ∀ hb : |(mjdN q.date.year q.date.month q.date.day : ℝ) - 51544.5 + sec / 86400| ≤ 36524, _ := fun hb =>
    C83_above_below p q hd c hc δ (mjdN q.date.year q.date.month q.date.day) (daysFrom_epoch hd.civil) _ (by rw [hsec]) hb
  refine ⟨r, hr, fun hl => ?_, fun hl => ?_⟩
  · obtain ⟨hb, hz⟩ := north_light y1 y2 hd.civil hl f0 f1
    obtain ⟨r', hr', up, dn⟩ := key hb
    rw [hr] at hr'
    obtain rfl := Except.ok.inj hr'
    constructor <;> intro e <;> rw [e] at up dn
    · exact (up (by rw [(meanHeight_pole _ _).1]; exact hz)).1
    · exact (dn (by rw [(meanHeight_pole _ _).2]; linarith)).1
  · obtain ⟨hb, hz⟩ := north_dark y1 y2 hd.civil hl f0 f1
    obtain ⟨r', hr', up, dn⟩ := key hb
    rw [hr] at hr'
    obtain rfl := Except.ok.inj hr'
    constructor <;> intro e <;> rw [e] at up dn
    · exact (dn (by rw [(meanHeight_pole _ _).1]; exact hz)).1
    · exact (up (by rw [(meanHeight_pole _ _).2]; linarith)).1

/-- Midsummer at the north pole. -/
example : ∃ q : SunAngleParameters ℝ, GoodDate q.date ∧ (∃ c, SunAngleCalculator.new .checked q = .ok c) ∧
    q.position.lat = 90 ∧ NorthLight q.date.month q.date.day ∧ ¬NorthDark q.date.month q.date.day := by
  refine ⟨{ SunAngleParameters.default with date := ⟨2007, 6, 21⟩, position := ⟨0, 90, 0⟩ }, ⟨by decide, by decide, by decide⟩, ?_,
    rfl, by norm_num [NorthLight], by norm_num [NorthDark]⟩
  rw [(C52_new_exact _ _ ⟨by decide, by decide, by decide⟩).1]
  unfold SunAngleParameters.default HMS.toFractionOfDay
  norm_num

/-- **C84.** The polar seasons in binary64. -/
theorem C84_polar_seasons_f64 [Libm F64] (hL : LibmAcc) (p : Profile) (q : SunAngleParameters F64) (δ : F64) (s l b h d : ℚ)
    (N : ℤ) (H : SunInput q δ s l b h d N) (s0 : 0 ≤ 3600 * (q.time.hour : ℚ) + 60 * q.time.minute + s + d)
    (s1 : 3600 * (q.time.hour : ℚ) + 60 * q.time.minute + s + d ≤ 86400)
    (y1 : 1901 ≤ q.date.year) (y2 : q.date.year ≤ 2098) :
    ∃ (c : SunAngleCalculator F64) (r : SunAngleResult F64) (x : ℚ), SunAngleCalculator.new p q = .ok c ∧
      c.compute δ = .ok r ∧ Is (c.zen.normalize.dot r.sun_e.normalize) x ∧
      ((b = 90 ∧ NorthLight q.date.month q.date.day ∨ b = -90 ∧ NorthDark q.date.month q.date.day) →
        0 < x ∧ (x ≤ 1 → ∃ z : ℚ, Is r.sza z ∧ (z : ℝ) < Real.pi / 2)) ∧
      ((b = 90 ∧ NorthDark q.date.month q.date.day ∨ b = -90 ∧ NorthLight q.date.month q.date.day) →
        x < 0 ∧ (-1 ≤ x → ∃ z : ℚ, Is r.sza z ∧ Real.pi / 2 < z)) := by
  obtain ⟨c, r, x, hc, hr, ix, up, dn⟩ := C83_above_below_f64 hL p q δ s l b h d N H _ rfl
  have f0 : 0 ≤ (3600 * q.time.hour + 60 * q.time.minute + s + d) / (86400 : ℝ) := by
    have : (0 : ℝ) ≤ 3600 * q.time.hour + 60 * q.time.minute + s + d := by exact_mod_cast s0
    positivity
  have f1 : (3600 * q.time.hour + 60 * q.time.minute + s + d) / (86400 : ℝ) ≤ 1 := by
    have : (3600 * q.time.hour + 60 * q.time.minute + s + d : ℝ) ≤ 86400 := by exact_mod_cast s1
    linarith
  rw [H.N_eq] at up dn
  refine ⟨c, r, x, hc, hr, ix, ?_, ?_⟩
  · rintro (⟨rfl, hl⟩ | ⟨rfl, hl⟩)
    · exact up (by push_cast; rw [(meanHeight_pole _ _).1]; exact (north_light y1 y2 H.date.civil hl f0 f1).2)
    · exact up (by push_cast; rw [(meanHeight_pole _ _).2]; linarith [(north_dark y1 y2 H.date.civil hl f0 f1).2])
  · rintro (⟨rfl, hl⟩ | ⟨rfl, hl⟩)
    · exact dn (by push_cast; rw [(meanHeight_pole _ _).1]; exact (north_dark y1 y2 H.date.civil hl f0 f1).2)
    · exact dn (by push_cast; rw [(meanHeight_pole _ _).2]; linarith [(north_light y1 y2 H.date.civil hl f0 f1).2])

/-- New year at the north pole, in binary64. -/
example : ∃ (L : Libm F64) (q : SunAngleParameters F64), @LibmAcc L ∧ SunInput q (lit 3600) 0 0 90 0 3600 54101 ∧
    NorthDark q.date.month q.date.day := by
  have i0 : Is (lit 0 : F64) 0 := by have := Is.lit_int 0 (by norm_num); push_cast at this; exact this
  have i1 : Is (lit 90 : F64) 90 := by have := Is.lit_int 90 (by norm_num); push_cast at this; exact this
  have i2 : Is (lit 3600 : F64) 3600 := by have := Is.lit_int 3600 (by norm_num); push_cast at this; exact this
  refine ⟨goodLibm, { SunAngleParameters.default with date := ⟨2007, 1, 1⟩, position := ⟨lit 0, lit 90, lit 0⟩ }, exists_libmAcc,
    ⟨⟨by decide, by decide, by decide⟩, by decide, by decide, i0, by
    norm_num [SunAngleParameters.default], by norm_num [SunAngleParameters.default], i0, i1, i0, by norm_num, by norm_num, by norm_num, i2, by norm_num,
    daysFrom_epoch (by decide), by norm_num [SunAngleParameters.default]⟩, by norm_num [NorthDark]⟩

/-- For C83: midsummer at the north pole, where the mean Sun is up at every moment of the day. -/
example : ∃ q : SunAngleParameters ℝ, GoodDate q.date ∧ (∃ c, SunAngleCalculator.new .checked q = .ok c) ∧ ∀ f : ℝ, 0 ≤ f → f ≤ 1 →
    |(mjdN q.date.year q.date.month q.date.day : ℝ) - 51544.5 + f| ≤ 36524 ∧
    0.0016 ≤ meanHeight q.position.lon q.position.lat ((mjdN q.date.year q.date.month q.date.day : ℝ) - 51544.5 + f) := by
  have hd : GoodDate ⟨2007, 6, 21⟩ := ⟨by decide, by decide, by decide⟩
  refine ⟨{ SunAngleParameters.default with date := ⟨2007, 6, 21⟩, position := ⟨0, 90, 0⟩ }, hd, ?_, fun f f0 f1 => ?_⟩
  · rw [(C52_new_exact _ _ hd).1]
    unfold SunAngleParameters.default HMS.toFractionOfDay
    norm_num
  · obtain ⟨a, b⟩ := north_light (y := 2007) (m := 6) (d := 21) (by norm_num) (by norm_num) hd.civil (by norm_num [NorthLight]) f0 f1
    exact ⟨a, by rw [(meanHeight_pole _ _).1]; exact b⟩

end Verif
