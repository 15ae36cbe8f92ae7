import Verif.Props.EquationOfTime

/-!
# C124: the equinoxes
-/

namespace Verif
open Arith Matrix Spec F64

/-- From 23 March to 20 September. -/
def Spec.SunNorth (m d : ℤ) : Prop := (3 < m ∨ m = 3 ∧ 23 ≤ d) ∧ (m < 9 ∨ m = 9 ∧ d ≤ 20)

/-- Up to 18 March and from 25 September on. -/
def Spec.SunSouth (m d : ℤ) : Prop := (m < 3 ∨ m = 3 ∧ d ≤ 18) ∨ 9 < m ∨ m = 9 ∧ 25 ≤ d

theorem north_high {n w : ℝ} {k : ℤ} (hn : |n| ≤ 36525)
    (hw : meanLongitude n - Real.pi + 0.0244287 * (n / 36525) = w + k * (2 * Real.pi)) (h : -0.0272 ≤ Real.sin w) : 0.00156 ≤ meanSun n 2 := by
  have h' := (abs_le.mp (season hn hw)).1
  have hs1 := Real.sin_le_one w
  have SC : |Real.sin w * Real.cos w| ≤ |Real.sin w| := by
    rw [abs_mul]; exact mul_le_of_le_one_right (abs_nonneg _) (Real.abs_cos_le_one w)
  generalize Real.sin w * Real.cos w = sc at *
  generalize Real.sin w = s at *
  rw [abs_le] at SC
  have hsq : s ^ 2 ≤ |s| := by
    rw [← sq_abs]
    have : |s| ≤ 1 := by rw [abs_le]; constructor <;> (norm_num at *; linarith)
    nlinarith [abs_nonneg s]
  rcases abs_cases s with ⟨e, -⟩ | ⟨e, hs⟩
  · rw [e] at SC hsq
    norm_num at *
    linarith [SC.1]
  · have hsq' : s ^ 2 ≤ -0.0272 * s := by nlinarith
    rw [e] at SC
    norm_num at *
    linarith [SC.1]

theorem south_low {n w : ℝ} {k : ℤ} (hn : |n| ≤ 36525)
    (hw : meanLongitude n - Real.pi + 0.0244287 * (n / 36525) = w + k * (2 * Real.pi)) (h : Real.sin w ≤ -0.038) : meanSun n 2 ≤ -0.00156 := by
  have h' := (abs_le.mp (season hn hw)).2
  have SC : |Real.sin w * Real.cos w| ≤ |Real.sin w| := by
    rw [abs_mul]; exact mul_le_of_le_one_right (abs_nonneg _) (Real.abs_cos_le_one w)
  have hsq := sq_nonneg (Real.sin w)
  generalize Real.sin w * Real.cos w = sc at *
  generalize Real.sin w = s at *
  rw [abs_of_neg (show s < 0 by linarith), abs_le] at SC
  norm_num at *
  linarith [SC.2]

theorem sin_ge_neg {w z : ℝ} (z0 : 0 ≤ z) (h1 : -z ≤ w) (h2 : w ≤ Real.pi + z) : -z ≤ Real.sin w := by
  rcases lt_or_ge w 0 with h | h
  · have := Real.sin_le (show 0 ≤ -w by linarith)
    rw [Real.sin_neg] at this
    linarith
  · rcases le_or_gt w Real.pi with h' | h'
    · exact (neg_nonpos.mpr z0).trans (Real.sin_nonneg_of_nonneg_of_le_pi h h')
    · have := Real.sin_le (show 0 ≤ w - Real.pi by linarith)
      rw [Real.sin_sub_pi] at this
      linarith

/-- The mean Sun on the days of the two halves of the year. -/
theorem half_years {y m d : ℤ} (h1 : 1901 ≤ y) (h2 : y ≤ 2098) (hd : IsDate (y, m, d)) {f : ℝ} (f0 : 0 ≤ f) (f1 : f ≤ 1) :
    |(mjdN y m d : ℝ) - 51544.5 + f| ≤ 36524 ∧ (SunNorth m d → 0.00156 ≤ meanSun ((mjdN y m d : ℝ) - 51544.5 + f) 2) ∧
      (SunSouth m d → meanSun ((mjdN y m d : ℝ) - 51544.5 + f) 2 ≤ -0.00156) := by
  obtain ⟨j, D, w, hD, hn, hw, w1, w2⟩ := phase_of_date h1 h2 hd f0 f1
  obtain ⟨m1, m2, d1, d2⟩ := hd
  simp only at m1 m2 d1 d2
  have hml : monthLen y m ≤ 31 := by unfold monthLen; split_ifs <;> omega
  have pi3 := Real.pi_gt_d6
  have pi4 := Real.pi_lt_d6
  refine ⟨hn, fun hs => ?_, fun hs => ?_⟩
  · have D1 : 53 ≤ D := by rcases hs with ⟨h | h, h' | h'⟩ <;> omega
    have D2 : D ≤ 234 := by rcases hs with ⟨h | h, h' | h'⟩ <;> omega
    have D1' : (53 : ℝ) ≤ D := by exact_mod_cast D1
    have D2' : (D : ℝ) ≤ 234 := by exact_mod_cast D2
    refine north_high (hn.trans (by norm_num)) hw (sin_ge_neg (by norm_num) ?_ ?_) <;> (norm_num at *; linarith)
  · have E : (31 ≤ D ∧ D ≤ 48) ∨ (239 ≤ D ∧ D ≤ 398) := by
      rcases hs with (h | h) | (h | h) <;> omega
    refine south_low (hn.trans (by norm_num)) hw ?_
    rcases E with ⟨D1, D2⟩ | ⟨D1, D2⟩
    · have D1' : (31 : ℝ) ≤ D := by exact_mod_cast D1
      have D2' : (D : ℝ) ≤ 48 := by exact_mod_cast D2
      have := sin_above (t := -w) (x := 0.03801) (y := 0.038) (by norm_num) (by norm_num) (by norm_num at *; linarith) (by norm_num at *; linarith)
      rw [Real.sin_neg] at this
      linarith
    · have D1' : (239 : ℝ) ≤ D := by exact_mod_cast D1
      have D2' : (D : ℝ) ≤ 398 := by exact_mod_cast D2
      have := sin_above (t := w - Real.pi) (x := 0.03801) (y := 0.038) (by norm_num) (by norm_num) (by norm_num at *; linarith) (by norm_num at *; linarith)
      rw [Real.sin_sub_pi] at this
      linarith

/-- **C124.** The equinoxes are between 19 and 22 March and between 21 and 24 September: in exact arithmetic, for every date from
1901 to 2098, every place and every instant of the day, the Sun is north of the equator from 23 March to 20 September and south of it
up to 18 March and from 25 September on. -/
theorem C124_equinoxes (p : Profile) (q : SunAngleParameters ℝ) (hd : GoodDate q.date) (c : SunAngleCalculator ℝ)
    (hc : SunAngleCalculator.new p q = .ok c) (y1 : 1901 ≤ q.date.year) (y2 : q.date.year ≤ 2098) (δ : ℝ)
    (f0 : 0 ≤ 3600 * q.time.hour + 60 * q.time.minute + q.time.second + δ)
    (f1 : 3600 * q.time.hour + 60 * q.time.minute + q.time.second + δ ≤ 86400) :
    ∃ r, c.compute δ = .ok r ∧ (SunNorth q.date.month q.date.day → 1e6 ≤ r.sun_e.z) ∧
      (SunSouth q.date.month q.date.day → r.sun_e.z ≤ -1e6) := by
  obtain ⟨hb, hN, hS⟩ := half_years y1 y2 hd.civil
    (show 0 ≤ (3600 * q.time.hour + 60 * q.time.minute + q.time.second + δ) / 86400 by positivity) (by rw [div_le_one (by norm_num)]; exact f1)
  obtain ⟨r, hr, -, -, hm⟩ := sun_state p q hd c hc (mjdN q.date.year q.date.month q.date.day) (daysFrom_epoch hd.civil) δ hb
  have hz := (abs_le_len _ 2).trans hm
  have e : r.sun_e.toVec 2 = r.sun_e.z := rfl
  simp only [Pi.sub_apply, e] at hz
  rw [abs_le] at hz
  refine ⟨r, hr, fun h => ?_, fun h => ?_⟩
  · have := hN h
    generalize meanSun _ 2 = M at *
    norm_num at *; linarith [hz.1]
  · have := hS h
    generalize meanSun _ 2 = M at *
    norm_num at *; linarith [hz.2]

/-- 23 March 2024 and 18 March 2024 at noon. -/
example : ∃ q : ℤ → SunAngleParameters ℝ, (∀ d, (q d).date = ⟨2024, 3, d⟩) ∧
    (∀ d ∈ [(23 : ℤ), 18], GoodDate (q d).date ∧ (∃ c, SunAngleCalculator.new .checked (q d) = .ok c)) ∧ SunNorth 3 23 ∧ SunSouth 3 18 := by
  refine ⟨fun d => { SunAngleParameters.default with date := ⟨2024, 3, d⟩ }, fun _ => rfl, ?_, by unfold SunNorth; decide, by unfold SunSouth; decide⟩
  intro d hd'
  have hd : GoodDate ⟨2024, 3, d⟩ := by
    simp only [List.mem_cons, List.not_mem_nil, or_false] at hd'
    rcases hd' with rfl | rfl <;> exact ⟨by decide, by decide, by decide⟩
  refine ⟨hd, (C52_new_exact _ _ hd).1.mpr ?_⟩
  unfold SunAngleParameters.default HMS.toFractionOfDay
  norm_num

/-- **C124.** The same in binary64, for any mathematical library accurate to `2^-50` and finite parameters. -/
theorem C124_equinoxes_f64 [Libm F64] (hL : LibmAcc) (p : Profile) (q : SunAngleParameters F64) (δ : F64) (s l b h d : ℚ) (N : ℤ)
    (H : SunInput q δ s l b h d N) (y1 : 1901 ≤ q.date.year) (y2 : q.date.year ≤ 2098)
    (f0 : 0 ≤ 3600 * (q.time.hour : ℚ) + 60 * q.time.minute + s + d) (f1 : 3600 * (q.time.hour : ℚ) + 60 * q.time.minute + s + d ≤ 86400) :
    ∃ (c : SunAngleCalculator F64) (r : SunAngleResult F64) (z : ℚ), SunAngleCalculator.new p q = .ok c ∧ c.compute δ = .ok r ∧
      Is r.sun_e.z z ∧ (SunNorth q.date.month q.date.day → 0 < z) ∧ (SunSouth q.date.month q.date.day → z < 0) := by
  obtain ⟨c, C, r, R, hc, hC, hr, hR, -, -, ⟨-, -, ⟨w, iw, ew⟩⟩, -, -⟩ := C72_sun_angle_f64 hL p q δ s l b h d N H
  refine ⟨c, r, w, hc, hr, iw, ?_⟩
  have g0 := (Rat.cast_le (K := ℝ)).mpr f0
  have g1 := (Rat.cast_le (K := ℝ)).mpr f1
  push_cast at g0 g1
  obtain ⟨Q, hQ, k1, k2⟩ := C124_equinoxes p (exactParams q s l b h) H.date C hC y1 y2 d g0 g1
  obtain rfl := Except.ok.inj (hR.symm.trans hQ)
  rw [abs_le] at ew
  refine ⟨fun g => ?_, fun g => ?_⟩
  · have := k1 g
    have : (0 : ℝ) < w := by linarith [ew.1]
    exact_mod_cast this
  · have := k2 g
    have : (w : ℝ) < 0 := by linarith [ew.2]
    exact_mod_cast this

/-- A library that exists; 23 March 2024. -/
example : ∃ L : Libm F64, @LibmAcc L ∧
    SunInput ({ SunAngleParameters.default with date := ⟨2024, 3, 23⟩, position := ⟨lit (-30), lit 45, lit 0⟩ } : SunAngleParameters F64)
      (lit 50400) 0 (-30) 45 0 50400 60392 ∧ SunNorth 3 23 := by
  have i0 : Is (lit 0 : F64) 0 := by have := Is.lit_int 0 (by norm_num); push_cast at this; exact this
  have i1 : Is (lit (-30) : F64) (-30) := by have := Is.lit_int (-30) (by norm_num); push_cast at this; exact this
  have i2 : Is (lit 50400 : F64) 50400 := by have := Is.lit_int 50400 (by norm_num); push_cast at this; exact this
  have i3 : Is (lit 45 : F64) 45 := by have := Is.lit_int 45 (by norm_num); push_cast at this; exact this
  refine ⟨goodLibm, exists_libmAcc, ⟨⟨by decide, by decide, by decide⟩, by decide, by decide, i0, by
    norm_num [SunAngleParameters.default], by norm_num [SunAngleParameters.default], i1, i3, i0, by norm_num, by norm_num, by norm_num, i2, by norm_num,
    daysFrom_epoch (by decide), by norm_num [SunAngleParameters.default]⟩, by unfold SunNorth; decide⟩

theorem pole_sign {v : Fin 3 → ℝ} {lon : ℝ} (hl : 0 < len v) :
    (0 ≤ v 2 → ang (upward lon 90) v ≤ Real.pi / 2) ∧ (v 2 ≤ 0 → Real.pi / 2 ≤ ang (upward lon 90) v) := by
  have e : (90 : ℝ) * (Real.pi / 180) = Real.pi / 2 := by ring
  have hc := cos_ang (upward lon 90) v
  rw [upward_len, one_mul] at hc
  have hv : Real.cos (ang (upward lon 90) v) * len v = v 2 := by
    rw [hc]; simp [upward, e]
  have a0 := ang_nonneg (upward lon 90) v
  have a1 := ang_le_pi (upward lon 90) v
  generalize ang (upward lon 90) v = t at *
  constructor <;> intro h
  · by_contra hn
    push Not at hn
    have := Real.cos_neg_of_pi_div_two_lt_of_lt hn (by linarith)
    nlinarith
  · by_contra hn
    push Not at hn
    have := Real.cos_pos_of_mem_Ioo ⟨by linarith [Real.pi_pos], hn⟩
    nlinarith

/-- **C124.** At the north pole the Sun rises between the beginning of 19 March and the beginning of 23 March and sets between the
beginning of 21 September and the beginning of 25 September of every year from 1901 to 2098: there is an instant at which it stands on
the horizon, to `2e-18` radians. -/
theorem C124_polar_sunrise (p : Profile) (q : SunAngleParameters ℝ) (hd : GoodDate q.date) (c : SunAngleCalculator ℝ)
    (hc : SunAngleCalculator.new p q = .ok c) (y1 : 1901 ≤ q.date.year) (y2 : q.date.year ≤ 2098) (hlat : q.position.lat = 90)
    (hday : q.date.month = 3 ∧ q.date.day = 18 ∨ q.date.month = 9 ∧ q.date.day = 20) :
    ∃ δ r, 86400 ≤ 3600 * q.time.hour + 60 * q.time.minute + q.time.second + δ ∧
      3600 * q.time.hour + 60 * q.time.minute + q.time.second + δ ≤ 5 * 86400 ∧ c.compute δ = .ok r ∧ |r.sza - Real.pi / 2| ≤ 2e-18 := by
  obtain ⟨m', d', hd', hN', hs⟩ : ∃ m' d' : ℤ, IsDate (q.date.year, m', d') ∧
      mjdN q.date.year m' d' = mjdN q.date.year q.date.month q.date.day + 5 ∧
      (SunSouth q.date.month q.date.day ∧ SunNorth m' d' ∨ SunNorth q.date.month q.date.day ∧ SunSouth m' d') := by
    rcases hday with ⟨h1, h2⟩ | ⟨h1, h2⟩
    · refine ⟨3, 23, by unfold IsDate monthLen; simp, ?_, ?_⟩
      · rw [h1, h2]
        rcases mjdN_cases q.date.year 3 23 with ⟨h, -⟩ | ⟨-, e⟩
        · omega
        rcases mjdN_cases q.date.year 3 18 with ⟨h, -⟩ | ⟨-, e'⟩
        · omega
        rw [e, e']; omega
      · left; rw [h1, h2]; exact ⟨by unfold SunSouth; decide, by unfold SunNorth; decide⟩
    · refine ⟨9, 25, by unfold IsDate monthLen; simp, ?_, ?_⟩
      · rw [h1, h2]
        rcases mjdN_cases q.date.year 9 25 with ⟨h, -⟩ | ⟨-, e⟩
        · omega
        rcases mjdN_cases q.date.year 9 20 with ⟨h, -⟩ | ⟨-, e'⟩
        · omega
        rw [e, e']; omega
      · right; rw [h1, h2]; exact ⟨by unfold SunNorth; decide, by unfold SunSouth; decide⟩
  set S : ℝ := 3600 * q.time.hour + 60 * q.time.minute + q.time.second with hS
  have E0 : S + (86400 - S) = 86400 := by ring
  have E1 : S + (5 * 86400 - S) = 5 * 86400 := by ring
  have hN := daysFrom_epoch hd.civil
  obtain ⟨b, n, s⟩ := half_years y1 y2 hd.civil (f := 1) (by norm_num) le_rfl
  obtain ⟨b', n', s'⟩ := half_years y1 y2 hd' (f := 0) le_rfl (by norm_num)
  have eN : ((mjdN q.date.year m' d' : ℤ) : ℝ) - 51544.5 + 0 = (mjdN q.date.year q.date.month q.date.day : ℝ) - 51544.5 + 5 * 86400 / 86400 := by
    rw [hN']; push_cast; ring
  rw [eN] at b' n' s'
  rw [show ((1 : ℝ)) = 86400 / 86400 by norm_num] at b n s
  have b0 : |(mjdN q.date.year q.date.month q.date.day : ℝ) - 51544.5 + (3600 * q.time.hour + 60 * q.time.minute + q.time.second + (86400 - S)) / 86400| ≤ 36524 := by
    rw [← hS, E0]; exact b
  have b1 : |(mjdN q.date.year q.date.month q.date.day : ℝ) - 51544.5 + (3600 * q.time.hour + 60 * q.time.minute + q.time.second + (5 * 86400 - S)) / 86400| ≤ 36524 := by
    rw [← hS, E1]; exact b'
  obtain ⟨r, hr, z, l, hm⟩ := sun_state p q hd c hc (mjdN q.date.year q.date.month q.date.day) hN _ b0
  obtain ⟨r', hr', z', l', hm'⟩ := sun_state p q hd c hc (mjdN q.date.year q.date.month q.date.day) hN _ b1
  rw [← hS, E0] at hm
  rw [← hS, E1] at hm'
  have k := (abs_le_len _ 2).trans hm
  have k' := (abs_le_len _ 2).trans hm'
  rw [Pi.sub_apply, abs_le] at k k'
  rw [hlat] at z z'
  obtain ⟨u1, u2⟩ := pole_sign (lon := q.position.lon) (lt_of_lt_of_le (by norm_num) l)
  obtain ⟨v1, v2⟩ := pole_sign (lon := q.position.lon) (lt_of_lt_of_le (by norm_num) l')
  rw [← z] at u1 u2
  rw [← z'] at v1 v2
  have key : r.sza ≤ Real.pi / 2 ∧ Real.pi / 2 ≤ r'.sza ∨ r'.sza ≤ Real.pi / 2 ∧ Real.pi / 2 ≤ r.sza := by
    rcases hs with ⟨g, g'⟩ | ⟨g, g'⟩
    · right
      have t := s g
      have t' := n' g'
      exact ⟨v1 (by linarith [k'.1]), u2 (by linarith [k.2])⟩
    · left
      have t := n g
      have t' := s' g'
      exact ⟨u1 (by linarith [k.1]), v2 (by linarith [k'.2])⟩
  obtain ⟨δ, R, h1, h2, h3, h4⟩ := C90_every_angle_between p q hd c hc (86400 - S) (5 * 86400 - S) _ hN b0 b1 (by linarith) r r' hr hr' _ key
  exact ⟨δ, R, by linarith, by linarith, h3, h4⟩

/-- The north pole on 18 March 2024. -/
example : ∃ q : SunAngleParameters ℝ, GoodDate q.date ∧ (∃ c, SunAngleCalculator.new .checked q = .ok c) ∧ q.date.year = 2024 ∧
    q.position.lat = 90 ∧ q.date.month = 3 ∧ q.date.day = 18 := by
  have hd : GoodDate ⟨2024, 3, 18⟩ := ⟨by decide, by decide, by decide⟩
  refine ⟨{ SunAngleParameters.default with date := ⟨2024, 3, 18⟩, position := ⟨0, 90, 0⟩ }, hd, (C52_new_exact _ _ hd).1.mpr ?_, rfl, rfl, rfl, rfl⟩
  unfold SunAngleParameters.default HMS.toFractionOfDay
  norm_num

end Verif
