import Verif.Props.SunAngleTool

/-!
# C60: the time scales reported by the Sun angle calculator
-/

namespace Verif
open Arith F64 Spec

/-- **C60** (exact). For every valid date, time of day and offset, the reported dates are the civil date and time
of day plus the offset (UTC), plus delta AT (TAI), plus 32.184 s more (TT), and UTC - 0.072073685 s (UT1).  `N` is
the number of days from 1858-11-17. The reported Earth rotation angle is that of the reported UT1. -/
theorem C60_time_scales_exact (p : Profile) (q : SunAngleParameters ℝ) (hd : GoodDate q.date)
    (c : SunAngleCalculator ℝ) (hc : SunAngleCalculator.new p q = .ok c) (δ : ℝ) :
    ∃ (r : SunAngleResult ℝ) (N : ℤ), c.compute δ = .ok r ∧ DaysFrom mjdEpoch q.date.civil N ∧
      let J := 2400000.5 + N + (3600 * q.time.hour + 60 * q.time.minute + q.time.second + δ) / 86400
      r.jd0 = 2400000.5 ∧ r.jd0 + r.jd1 = J ∧ r.delta_s = δ ∧ r.utc.1 + r.utc.2 = J ∧
      r.tai.1 + r.tai.2 = J + r.dat / 86400 ∧
      r.tt.1 + r.tt.2 = J + (r.dat + 32.184) / 86400 ∧
      r.ut1.1 + r.ut1.2 = J - 0.072073685 / 86400 ∧
      r.era = rotationAngle r.ut1 ∧
      (q.date.year < 1960 → r.dat = 0) ∧
      (1960 ≤ q.date.year → deltaAt p q.date ((3600 * q.time.hour + 60 * q.time.minute + q.time.second) / 86400) =
        .ok (.ok (some r.dat))) := by
  obtain ⟨f1, f2, f3, f4, f5, f6, -⟩ := new_fields hd hc
  obtain ⟨r, hr, e1, e2, e3, -, e5, e6, e7, e8, e9, e10, -⟩ := compute_real c δ
  refine ⟨r, _, hr, daysFrom_epoch hd.civil, ?_⟩
  have ht : (q.time.second + 60 * (q.time.minute + 60 * q.time.hour)) / 86400 =
    (3600 * q.time.hour + 60 * q.time.minute + q.time.second) / 86400 := by ring
  have hJ : r.jd0 + r.jd1 = 2400000.5 + (mjdN q.date.civil.1 q.date.civil.2.1 q.date.civil.2.2 : ℤ) +
      (3600 * q.time.hour + 60 * q.time.minute + q.time.second + δ) / 86400 := by
    rw [e1, e2, f1, f2, f3]
    unfold GregorianDate.civil
    ring
  have hutc : r.utc.1 + r.utc.2 = r.jd0 + r.jd1 := by rw [e5]
  have htai : r.tai.1 + r.tai.2 = r.jd0 + r.jd1 + r.dat / 86400 := by
    rw [e7, C23_utc_to_tai_exact, hutc, e6]
  refine ⟨e1.trans f1, hJ, e3, hutc.trans hJ, by rw [htai, hJ], ?_, ?_, e10, ?_, ?_⟩
  · rw [e8, C22_tai_to_tt_exact, htai, hJ]; ring
  · have : r.ut1.1 + r.ut1.2 = r.jd0 + r.jd1 + c.dut1 / 86400 := by rw [e9]; ring
    rw [this, hJ, f6]; ring
  · intro h; rw [e6, f5 h]
  · intro h
    rw [f3, if_neg (by omega), ht] at f4
    rw [e6]; exact f4

example : GoodDate ⟨2007, 4, 5⟩ ∧
    ∃ c, SunAngleCalculator.new .checked (SunAngleParameters.default (α := ℝ)) = .ok c :=
  ⟨⟨by decide, by decide, by decide⟩, by
    rw [(C52_new_exact _ _ ⟨by decide, by decide, by decide⟩).1]
    unfold SunAngleParameters.default HMS.toFractionOfDay
    norm_num⟩

/-! ## Binary64 -/

theorem accepted_of_good {d : GregorianDate} (h : GoodDate d) : GregorianDate.new d.year d.month d.day = .ok d :=
  (accepted_iff d).mpr ⟨h.early, h.civil⟩

theorem GoodDate.year_le {d : GregorianDate} (h : GoodDate d) : d.year ≤ 1465073 := by
  have := h.late
  unfold marchYear at this
  split at this <;> omega

/-- delta AT is a finite number of at most 100 s. -/
theorem deltaAt_bounded (p : Profile) (d : GregorianDate) (fd : F64) (f : ℚ) (hd : GoodDate d) (hy : 1960 ≤ d.year)
    (h : Is fd f) (h0 : 0 ≤ f) (h1 : f ≤ 1) :
    ∃ (v : F64) (x : ℚ), deltaAt p d fd = .ok (.ok (some v)) ∧ Is v x ∧ |x| ≤ 100 := by
  have hyl := hd.year_le
  by_cases hl : monthNo 1972 1 < monthNo d.year d.month
  · obtain ⟨v, n, h1, h2, h3, h4, -⟩ := C20_delta_at_integer p d fd (accepted_of_good hd) (by omega) hl (by
      have := fract_ok h h0 h1
      rwa [Bool.or_eq_true] at this)
    refine ⟨v, n, h1, h2, ?_⟩
    have : |n| ≤ 100 := by rw [abs_le]; omega
    exact_mod_cast this
  · obtain ⟨v, hv, hn⟩ := deltaAt_row p d fd f hd.civil hy (by omega) h h0 h1
    obtain ⟨x, hx, hxn⟩ := hn.rat
    refine ⟨v, x, hv, hx, ?_⟩
    obtain ⟨y, m, dd⟩ := d
    obtain ⟨hm1, hm2, hd1, hd2⟩ := hd.civil
    simp only [GregorianDate.civil] at hm1 hm2 hd1 hd2 hy hl hxn
    have hc : monthNo y m ≤ 23665 := by have : monthNo 1972 1 = 23665 := by decide
                                        omega
    obtain ⟨o, r, e, ho, hr0, hr1, hq0, hq1⟩ := datRow_drift (monthNo y m) (by unfold monthNo; omega) hc
    have hyy : y ≤ 1972 := by unfold monthNo at hc; omega
    have hN : 36900 ≤ mjdN y m dd ∧ mjdN y m dd ≤ 41800 := by
      have := mjdN_cases y m dd
      have : monthLen y m ≤ 31 := by unfold monthLen; split_ifs <;> omega
      omega
    unfold DatData.step Step.value at hxn
    rw [e] at hxn
    simp only [Option.getD_some] at hxn
    have hN1 : (36900 : ℚ) ≤ mjdN y m dd := by exact_mod_cast hN.1
    have hN2 : (mjdN y m dd : ℚ) ≤ 41800 := by exact_mod_cast hN.2
    have hx1 : |(mjdN y m dd : ℚ) + f - o| ≤ 5000 := by
      rw [abs_le]; rcases ho with rfl | rfl | rfl | rfl <;> constructor <;> linarith
    have hx2 : |((mjdN y m dd : ℚ) + f - o) * r| ≤ 5000 * (26 / 10000) := by
      rw [abs_mul, abs_of_nonneg hr0]; exact mul_le_mul hx1 hr1 hr0 (by norm_num)
    rw [abs_le] at hxn hx2 ⊢
    have : (1 : ℚ) / 2 ^ 45 ≤ 1 := by norm_num
    constructor <;> linarith [hxn.1, hxn.2, hx2.1, hx2.2]

/-- The fraction of the day as rounded by the code. -/
theorem fod_is (h m : ℤ) (s : F64) (x : ℚ) (hh : 0 ≤ h ∧ h ≤ 255) (hm : 0 ≤ m ∧ m ≤ 255) (hs : Is s x)
    (hx : |x| ≤ 2 ^ 100) :
    Is (HMS.toFractionOfDay ⟨h, m, s⟩ : F64) (RN (RN (x + ((60 * (m + 60 * h) : ℤ) : ℚ)) / 86400)) := by
  have l60 : Is (lit 60 : F64) 60 := by
    have := Is.lit_int 60 (by norm_num); push_cast at this; exact this
  have i1 : Is (lit 60 *. Arith.ofInt h : F64) ((60 * h : ℤ) : ℚ) := by
    have a := Is.ofInt h (by rw [abs_le]; constructor <;> omega)
    have := l60.mul a (small_le_HUGE (by
      have : |(60 * h : ℤ)| ≤ 2 ^ 53 := by rw [abs_le]; constructor <;> omega
      have h3 : |((60 * h : ℤ) : ℚ)| ≤ 2 ^ 53 := by exact_mod_cast this
      push_cast at h3
      exact h3.trans (by norm_num)))
    rw [show (60 : ℚ) * h = ((60 * h : ℤ) : ℚ) by push_cast; ring, RN_exact (RepQ.int _ (by rw [abs_le]; constructor <;> omega))] at this
    exact this
  have i2 : Is (Arith.ofInt m +. lit 60 *. Arith.ofInt h : F64) ((m + 60 * h : ℤ) : ℚ) := by
    have a := Is.ofInt m (by rw [abs_le]; constructor <;> omega)
    have := a.add_exact i1 (by
      rw [show (m : ℚ) + ((60 * h : ℤ) : ℚ) = ((m + 60 * h : ℤ) : ℚ) by push_cast; ring]
      exact RepQ.int _ (by rw [abs_le]; constructor <;> omega)) (small_lt_OVQ (by
      rw [show (m : ℚ) + ((60 * h : ℤ) : ℚ) = ((m + 60 * h : ℤ) : ℚ) by push_cast; ring]
      have : |(m + 60 * h : ℤ)| ≤ 2 ^ 53 := by rw [abs_le]; constructor <;> omega
      have h3 : |((m + 60 * h : ℤ) : ℚ)| ≤ 2 ^ 53 := by exact_mod_cast this
      exact h3.trans (by norm_num)))
    exact this.congr (by push_cast; ring)
  have i3 : Is (lit 60 *. (Arith.ofInt m +. lit 60 *. Arith.ofInt h) : F64) ((60 * (m + 60 * h) : ℤ) : ℚ) := by
    have := l60.mul i2 (small_le_HUGE (by
      have : |(60 * (m + 60 * h) : ℤ)| ≤ 2 ^ 53 := by rw [abs_le]; constructor <;> omega
      have h3 : |((60 * (m + 60 * h) : ℤ) : ℚ)| ≤ 2 ^ 53 := by exact_mod_cast this
      push_cast at h3 ⊢
      exact h3.trans (by norm_num)))
    rw [show (60 : ℚ) * ((m + 60 * h : ℤ) : ℚ) = ((60 * (m + 60 * h) : ℤ) : ℚ) by push_cast; ring,
      RN_exact (RepQ.int _ (by rw [abs_le]; constructor <;> omega))] at this
    exact this
  set K : ℚ := ((60 * (m + 60 * h) : ℤ) : ℚ) with hK
  have hKb : |K| ≤ 2 ^ 53 := by
    have : |(60 * (m + 60 * h) : ℤ)| ≤ 2 ^ 53 := by rw [abs_le]; constructor <;> omega
    rw [hK]; exact_mod_cast this
  have hxK : |x + K| ≤ 2 ^ 101 := (abs_add_le _ _).trans (by
    have : (2 : ℚ) ^ 101 = 2 ^ 100 + 2 ^ 100 := by norm_num
    have : (2 : ℚ) ^ 53 ≤ 2 ^ 100 := by norm_num
    linarith)
  have i4 := hs.add i3 (small_le_HUGE (hxK.trans (by norm_num)))
  have e4 := RN_err' (x + K)
  have b4 : |RN (x + K)| ≤ 2 ^ 102 := by
    have : RN (x + K) = (RN (x + K) - (x + K)) + (x + K) := by ring
    rw [this]
    refine (abs_add_le _ _).trans ?_
    have : |x + K| / 2 ^ 53 ≤ 2 ^ 101 / 2 ^ 53 := by gcongr
    have : (2 : ℚ) ^ 101 / 2 ^ 53 + 1 / 2 ^ 100 + 2 ^ 101 ≤ 2 ^ 102 := by norm_num
    linarith
  have i5 := i4.div lit86400_is (by norm_num) (small_le_HUGE (by
    rw [abs_div, abs_of_pos (show (0 : ℚ) < 86400 by norm_num), div_le_iff₀ (by norm_num)]
    exact b4.trans (by norm_num)))
  exact i5

/-- The `f64` fraction of day: its exact value is in `[0,1]` up to rounding and it is off by at most `3 * 2^-53`. -/
theorem fod_near (h m : ℤ) (s : F64) (x : ℚ) (hh : 0 ≤ h ∧ h ≤ 255) (hm : 0 ≤ m ∧ m ≤ 255) (hs : Is s x)
    (hx : |x| ≤ 2 ^ 100) (h0 : ¬ ((HMS.toFractionOfDay ⟨h, m, s⟩ : F64) <. lit 0) = true)
    (h1 : ¬ ((lit 1 : F64) <. HMS.toFractionOfDay ⟨h, m, s⟩) = true) :
    ∃ r, Is (HMS.toFractionOfDay ⟨h, m, s⟩ : F64) r ∧ 0 ≤ r ∧ r ≤ 1 ∧
      |r - (3600 * h + 60 * m + x) / 86400| ≤ 3 / 2 ^ 53 := by
  have fin := fod_is h m s x hh hm hs hx
  set K : ℚ := ((60 * (m + 60 * h) : ℤ) : ℚ) with hK
  have e4 := RN_err' (x + K)
  have e5 := RN_err' (RN (x + K) / 86400)
  have l0 : Is (lit 0 : F64) 0 := by
    have := Is.lit_int 0 (by norm_num); push_cast at this; exact this
  have l1 : Is (lit 1 : F64) 1 := by
    have := Is.lit_int 1 (by norm_num); push_cast at this; exact this
  rw [Is.lt_iff fin l0, not_lt] at h0
  rw [Is.lt_iff l1 fin, not_lt] at h1
  refine ⟨_, fin, h0, h1, ?_⟩
  have hT : (3600 * h + 60 * m + x) / 86400 = (x + K) / 86400 := by rw [hK]; push_cast; ring
  rw [hT]
  set T := x + K
  set A := RN T
  set B := RN (A / 86400)
  have hA : |A / 86400| ≤ 11 / 10 := by
    by_contra hcon
    rw [not_le] at hcon
    have hb : |B| ≤ 1 := by rw [abs_le]; constructor <;> linarith
    have : |A / 86400| ≤ |B| + |B - A / 86400| := by
      have : A / 86400 = B - (B - A / 86400) := by ring
      calc |A / 86400| = |B - (B - A / 86400)| := by rw [← this]
        _ ≤ _ := abs_sub _ _
    have h6 : |A / 86400| / 2 ^ 53 ≤ |A / 86400| / 100 := by gcongr; norm_num
    have h7 : (1 : ℚ) / 2 ^ 100 ≤ 1 / 100 := by norm_num
    linarith
  have hA' : |A| ≤ 95040 := by
    rw [abs_div, abs_of_pos (show (0 : ℚ) < 86400 by norm_num), div_le_iff₀ (by norm_num)] at hA
    linarith
  have hT' : |T| ≤ 95100 := by
    by_contra hcon
    rw [not_le] at hcon
    have : |T| ≤ |A| + |A - T| := by
      have : T = A - (A - T) := by ring
      calc |T| = |A - (A - T)| := by rw [← this]
        _ ≤ _ := abs_sub _ _
    have h6 : |T| / 2 ^ 53 ≤ |T| / 10000000 := by gcongr; norm_num
    have h7 : (1 : ℚ) / 2 ^ 100 ≤ 1 / 100 := by norm_num
    linarith
  have k1 : |A / 86400 - T / 86400| ≤ (95100 / 2 ^ 53 + 1 / 2 ^ 100) / 86400 := by
    rw [← sub_div, abs_div, abs_of_pos (show (0 : ℚ) < 86400 by norm_num)]
    have : |T| / 2 ^ 53 ≤ 95100 / 2 ^ 53 := by gcongr
    have : |A - T| ≤ 95100 / 2 ^ 53 + 1 / 2 ^ 100 := by linarith
    gcongr
  have k2 : |B - A / 86400| ≤ (11 / 10) / 2 ^ 53 + 1 / 2 ^ 100 := by
    have : |A / 86400| / 2 ^ 53 ≤ (11 / 10) / 2 ^ 53 := by gcongr
    linarith
  have : B - T / 86400 = (B - A / 86400) + (A / 86400 - T / 86400) := by ring
  rw [this]
  refine (abs_add_le _ _).trans ((add_le_add k2 k1).trans ?_)
  norm_num


/-- The fields of the result of `compute` that concern time, in any arithmetic. -/
theorem compute_time {α : Type} [Arith α] [Libm α] (c : SunAngleCalculator α) (δ : α) :
    ∃ r, c.compute δ = .ok r ∧ r.jd0 = c.jd0 ∧ r.jd1 = c.jd1_date +. (c.fr +. δ /. lit 86400) ∧
      r.utc = (r.jd0, r.jd1) ∧ r.dat = c.dat ∧ r.tai = TAI.fromUTC r.utc c.dat ∧ r.tt = TT.fromTAI r.tai ∧
      r.ut1 = (r.jd0, r.jd1 +. c.dut1 /. lit 86400) := by
  unfold SunAngleCalculator.compute
  obtain ⟨e, he⟩ := C37_no_panic (TDB.fromTT (TT.fromTAI (TAI.fromUTC (c.jd0, c.jd1_date +.
    (c.fr +. δ /. lit 86400)) c.dat)) c.dtr)
  simp only [he, ok_bind]
  exact ⟨_, rfl, rfl, rfl, rfl, rfl, rfl, rfl, rfl⟩

/-- **C60** (f64). For every date from -4799 through 8000, every finite time of day that `new` accepts, every offset
of at most `10^9` seconds, every position and every libm: the parts of the reported UTC, TAI, TT and UT1 dates are
finite, the first parts are exactly 2400000.5 and the exact sums differ from the exact dates (for the reported delta AT) by at most
`(3*|N| + 9*|offset|/86400 + 15) * 2^-53` days, `N` being the day number. (2 microseconds for the present
century.) -/
theorem C60_time_scales_f64 [Libm F64] (p : Profile) (q : SunAngleParameters F64) (hd : GoodDate q.date)
    (hyl : q.date.year ≤ 8000) (hh : 0 ≤ q.time.hour ∧ q.time.hour ≤ 255)
    (hm : 0 ≤ q.time.minute ∧ q.time.minute ≤ 255) (s : ℚ) (hs : Is q.time.second s) (hsb : |s| ≤ 2 ^ 100)
    (c : SunAngleCalculator F64) (hc : SunAngleCalculator.new p q = .ok c) (δ : F64) (d : ℚ) (hδ : Is δ d)
    (hdb : |d| ≤ 10 ^ 9) :
    ∃ (r : SunAngleResult F64) (N : ℤ) (u1 u2 a1 a2 t1 t2 w1 w2 dat : ℚ), c.compute δ = .ok r ∧
      DaysFrom mjdEpoch q.date.civil N ∧
      Is r.utc.1 u1 ∧ Is r.utc.2 u2 ∧ Is r.tai.1 a1 ∧ Is r.tai.2 a2 ∧ Is r.tt.1 t1 ∧ Is r.tt.2 t2 ∧
      Is r.ut1.1 w1 ∧ Is r.ut1.2 w2 ∧ Is r.dat dat ∧ |dat| ≤ 100 ∧
      u1 = 2400000.5 ∧ a1 = 2400000.5 ∧ t1 = 2400000.5 ∧ w1 = 2400000.5 ∧
      let J := 2400000.5 + N + (3600 * q.time.hour + 60 * q.time.minute + s + d) / 86400
      let B := (3 * |(N : ℚ)| + 9 * |d| / 86400 + 15) / 2 ^ 53
      |u1 + u2 - J| ≤ B ∧ |a1 + a2 - (J + dat / 86400)| ≤ B ∧
      |t1 + t2 - (J + (dat + 32.184) / 86400)| ≤ B ∧ |w1 + w2 - (J - 0.072073685 / 86400)| ≤ B := by
  obtain ⟨w, hw⟩ := wgs84_f64
  obtain ⟨h1, h2⟩ := new_outcome (q := q) (hd.day p) (hd.month p) hw
  by_cases hb : (q.time.toFractionOfDay <. lit 0) = true ∨ (lit 1 <. q.time.toFractionOfDay) = true ∨
      ¬ ((lit 0 : F64) <. wgsRadicand (Libm.cos (Geodetic.from360 q.position).phi)
        (Libm.sin (Geodetic.from360 q.position).phi)) = true
  · rw [h1 hb] at hc; cases hc
  obtain ⟨c', hc', f1, f2, f3, f4, f5, f6, -⟩ := h2 hb
  rw [hc'] at hc
  obtain rfl := Except.ok.inj hc
  clear h1 h2 hc hc'
  push Not at hb
  obtain ⟨f, hf, hf0, hf1, hfe⟩ := fod_near q.time.hour q.time.minute q.time.second s hh hm hs hsb hb.1 hb.2.1
  have hf' : Is c'.fr f := by rw [f3]; exact hf
  -- delta AT
  obtain ⟨dat, hdat, hdatb⟩ : ∃ x, Is c'.dat x ∧ |x| ≤ 100 := by
    by_cases hy : q.date.year < 1960
    · rw [f5 hy]
      refine ⟨0, ?_, by norm_num⟩
      have := Is.lit_int 0 (by norm_num); push_cast at this; exact this
    · obtain ⟨v, x, g1, g2, g3⟩ := deltaAt_bounded p q.date _ f hd (by omega) hf hf0 hf1
      have : deltaAt p q.date q.time.toFractionOfDay = .ok (.ok (some v)) := g1
      rw [this, if_neg hy] at f4
      have e := Option.some.inj (Except.ok.inj (Except.ok.inj f4))
      exact ⟨x, e ▸ g2, g3⟩
  obtain ⟨r, hr, e1, e2, e3, e4, e5, e6, e7⟩ := compute_time c' δ
  set N : ℤ := mjdN q.date.year q.date.month q.date.day with hN
  have hNb : -2450000 ≤ N ∧ N ≤ 2250000 := by
    have := mjdN_cases q.date.year q.date.month q.date.day
    obtain ⟨hm1, hm2, hd1, hd2⟩ := hd.civil
    simp only [GregorianDate.civil] at hm1 hm2 hd1 hd2
    have h3 : monthLen q.date.year q.date.month ≤ 31 := by unfold monthLen; split_ifs <;> omega
    have := hd.early
    omega
  have hNq1 : (-2450000 : ℚ) ≤ N := by exact_mod_cast hNb.1
  have hNq2 : (N : ℚ) ≤ 2250000 := by exact_mod_cast hNb.2
  have hNa : |(N : ℚ)| ≤ 2450000 := by rw [abs_le]; constructor <;> linarith
  -- the offset in days
  set D : ℚ := d / 86400 with hD
  have hDa : |D| = |d| / 86400 := by rw [hD, abs_div, abs_of_pos (show (0 : ℚ) < 86400 by norm_num)]
  have hDb : |D| ≤ 11600 := by rw [hDa, div_le_iff₀ (by norm_num)]; linarith
  have hd100 : |d| ≤ 2 ^ 100 := hdb.trans (by norm_num)
  -- the sums
  obtain ⟨g, hg, hge⟩ := part_add (b := f) hf' (div_day hδ hd100) (by rw [abs_of_nonneg hf0]; linarith)
    (small_div hd100)
  rw [← hD] at hge
  rw [abs_of_nonneg hf0] at hge
  have hN0 : Is c'.jd1_date N := by
    rw [f2]; exact Is.ofInt N (by rw [abs_le]; constructor <;> omega)
  have gq : |g - (f + D)| ≤ (3 + 3 * |D|) / 2 ^ 53 := by
    refine hge.trans ?_
    have : |D| / 2 ^ 53 / 2 ^ 53 ≤ |D| / 2 ^ 53 / 2 := by gcongr; norm_num
    have x1 : f / 2 ^ 53 ≤ 1 / 2 ^ 53 := by gcongr
    have x2 : (|D| + (|D| / 2 ^ 53 + 1 / 2 ^ 100)) / 2 ^ 53 = |D| / 2 ^ 53 + |D| / 2 ^ 53 / 2 ^ 53 + 1 / 2 ^ 100 / 2 ^ 53 := by ring
    have x3 : (3 + 3 * |D|) / 2 ^ 53 = 3 / 2 ^ 53 + 3 * (|D| / 2 ^ 53) := by ring
    have x4 : (0 : ℚ) ≤ |D| / 2 ^ 53 := by positivity
    have x5 : (1 : ℚ) / 2 ^ 53 + 1 / 2 ^ 100 / 2 ^ 53 + 1 / 2 ^ 100 + 1 / 2 ^ 100 ≤ 3 / 2 ^ 53 := by norm_num
    linarith
  set F : ℚ := (3600 * q.time.hour + 60 * q.time.minute + s) / 86400 with hF
  have gF : |g - (F + D)| ≤ (6 + 3 * |D|) / 2 ^ 53 := by
    have : g - (F + D) = (g - (f + D)) + (f - F) := by ring
    rw [this]
    refine (abs_add_le _ _).trans ?_
    have : (6 + 3 * |D|) / 2 ^ 53 = (3 + 3 * |D|) / 2 ^ 53 + 3 / 2 ^ 53 := by ring
    linarith
  have gb : |g| ≤ |D| + 2 := by
    have : g = (g - (f + D)) + f + D := by ring
    have h3 : |g| ≤ |g - (f + D)| + |f| + |D| := by
      calc |g| = |(g - (f + D)) + f + D| := by rw [← this]
        _ ≤ _ := (abs_add_le _ _).trans (by gcongr; exact abs_add_le _ _)
    rw [abs_of_nonneg hf0] at h3
    have : (3 + 3 * |D|) / 2 ^ 53 ≤ 1 := by
      rw [div_le_one (by norm_num)]
      linarith
    linarith
  obtain ⟨j, hj, hje⟩ : ∃ j, Is r.jd1 j ∧ |j - (N + (F + D))| ≤ (9 + |(N : ℚ)| + 5 * |D|) / 2 ^ 53 := by
    have hNg : |(N : ℚ) + g| ≤ |(N : ℚ)| + |D| + 2 := (abs_add_le _ _).trans (by linarith)
    refine ⟨_, by rw [e2]; exact hN0.add hg (small_le_HUGE (hNg.trans (by
      have : (2 : ℚ) ^ 200 ≥ 10 ^ 9 := by norm_num
      linarith))), ?_⟩
    have h3 := RN_err_le hNg
    have : RN (N + g) - (N + (F + D)) = (RN (N + g) - (N + g)) + (g - (F + D)) := by ring
    rw [this]
    refine (abs_add_le _ _).trans ((add_le_add h3 gF).trans ?_)
    have x3 : (9 + |(N : ℚ)| + 5 * |D|) / 2 ^ 53 - ((|(N : ℚ)| + |D| + 2) / 2 ^ 53 + (6 + 3 * |D|) / 2 ^ 53) =
      1 / 2 ^ 53 + |D| / 2 ^ 53 := by ring
    have x4 : (0 : ℚ) ≤ |D| / 2 ^ 53 := by positivity
    have x5 : (1 : ℚ) / 2 ^ 100 ≤ 1 / 2 ^ 53 := by norm_num
    linarith
  have hFb : |F| ≤ 2 := by
    have : F = f - (f - F) := by ring
    calc |F| = |f - (f - F)| := by rw [← this]
      _ ≤ |f| + |f - F| := abs_sub _ _
      _ ≤ 2 := by
        rw [abs_of_nonneg hf0]
        have : (3 : ℚ) / 2 ^ 53 ≤ 1 := by norm_num
        linarith
  have herr : (9 + |(N : ℚ)| + 5 * |D|) / 2 ^ 53 ≤ 1 / 10 ^ 9 := by
    rw [div_le_iff₀ (by norm_num)]
    norm_num
    linarith
  have jb : |j| ≤ |(N : ℚ)| + |D| + 5 / 2 := by
    have : j = (j - (N + (F + D))) + N + F + D := by ring
    have h3 : |j| ≤ |j - (N + (F + D))| + |(N : ℚ)| + |F| + |D| := by
      calc |j| = |(j - (N + (F + D))) + N + F + D| := by rw [← this]
        _ ≤ _ := (abs_add_le _ _).trans (by
          gcongr; exact (abs_add_le _ _).trans (by gcongr; exact abs_add_le _ _))
    norm_num at herr ⊢
    linarith
  have ju : j ≤ 2262000 := by
    have := (abs_le.mp hje).2
    have := (abs_le.mp hFb).2
    have := (abs_le.mp hDb).2
    norm_num at herr
    linarith
  have hj100 : |j| ≤ 2 ^ 100 := jb.trans (by
    have : (2 : ℚ) ^ 100 ≥ 10 ^ 9 := by norm_num
    linarith)
  have h0 : Is r.jd0 2400000.5 := by
    rw [e1, f1]
    have : Is (lit 2400000.5 : F64) 2400000.5 := by
      refine Is.lit_exact _ ?_ (small_le_HUGE (by norm_num))
      have := RepQ.dyadic 4800001 1 (by norm_num) (by norm_num)
      convert this using 1
      norm_num
    exact this
  -- TAI
  obtain ⟨z, a, hz, ha, -, hae⟩ := (C23_utc_to_tai_f64 r.jd0 r.jd1 c'.dat 2400000.5 j dat h0 hj hdat (by norm_num) hj100
    (hdatb.trans (by norm_num))).1 (by linarith)
  have hdd : |dat / 86400| ≤ 1 / 800 := by
    rw [abs_div, abs_of_pos (show (0 : ℚ) < 86400 by norm_num), div_le_iff₀ (by norm_num)]
    linarith
  have hae' : |a - (j + dat / 86400)| ≤ (|(N : ℚ)| + |D| + 26 / 10) / 2 ^ 53 := by
    have e0 : 2400000.5 + a - (2400000.5 + j + dat / 86400) = a - (j + dat / 86400) := by ring
    rw [e0] at hae
    refine hae.trans ?_
    have x1 : |j| / 2 ^ 53 ≤ (|(N : ℚ)| + |D| + 5 / 2) / 2 ^ 53 := by gcongr
    have x2 : 3 * |dat / 86400| / 2 ^ 53 ≤ 3 * (1 / 800) / 2 ^ 53 := by gcongr
    have x3 : (|(N : ℚ)| + |D| + 26 / 10) / 2 ^ 53 = (|(N : ℚ)| + |D| + 5 / 2) / 2 ^ 53 + (1 / 10) / 2 ^ 53 := by ring
    have x4 : (3 : ℚ) * (1 / 800) / 2 ^ 53 + 1 / 2 ^ 98 ≤ (1 / 10) / 2 ^ 53 := by norm_num
    linarith
  have hae1 : (|(N : ℚ)| + |D| + 26 / 10) / 2 ^ 53 ≤ 1 / 1000 := by
    rw [div_le_iff₀ (by norm_num)]
    norm_num
    linarith
  have ab : |a| ≤ |(N : ℚ)| + |D| + 26 / 10 := by
    have : a = (a - (j + dat / 86400)) + j + dat / 86400 := by ring
    have h3 : |a| ≤ |a - (j + dat / 86400)| + |j| + |dat / 86400| := by
      calc |a| = |(a - (j + dat / 86400)) + j + dat / 86400| := by rw [← this]
        _ ≤ _ := (abs_add_le _ _).trans (by gcongr; exact abs_add_le _ _)
    linarith
  have au : a < 2400000.5 := by
    have := (abs_le.mp hae').2
    have := (abs_le.mp hdd).2
    norm_num
    linarith
  -- TT
  obtain ⟨z', t, hz', ht, hte⟩ := (C22_tai_to_tt_f64 r.jd0 z 2400000.5 a h0 ha (by norm_num) (ab.trans (by
    have : (2 : ℚ) ^ 100 ≥ 10 ^ 9 := by norm_num
    linarith))).1 au
  -- UT1
  obtain ⟨dut, hdut, hdute⟩ : ∃ x, Is c'.dut1 x ∧ |x - (-0.072073685)| ≤ 1 / 2 ^ 56 := by
    rw [f6]
    refine ⟨_, Is.lit _ (small_le_HUGE (by norm_num [abs_le])), ?_⟩
    exact (RN_err_le (M := 0.08) (by norm_num [abs_le])).trans (by norm_num)
  have hdutb : |dut| ≤ 1 := by
    have := abs_le.mp hdute
    rw [abs_le]
    have : (1 : ℚ) / 2 ^ 56 ≤ 1 / 10 := by norm_num
    constructor <;> norm_num at * <;> linarith
  obtain ⟨hw1, hw2⟩ := add_seconds h0 hj hdut hj100 (hdutb.trans (by norm_num)) (corr_huge hj100 (hdutb.trans (by norm_num)))
  refine ⟨r, N, 2400000.5, j, 2400000.5, a, 2400000.5, t, 2400000.5, RN (j + RN (dut / 86400)), dat, hr, daysFrom_epoch hd.civil, ?_, ?_, ?_, ?_, ?_, ?_, ?_, ?_,
    by rw [e4]; exact hdat, hdatb, rfl, rfl, rfl, rfl, ?_⟩
  · rw [e3]; exact h0
  · rw [e3]; exact hj
  · rw [e5, e3, hz]; exact h0
  · rw [e5, e3, hz]; exact ha
  · rw [e6, e5, e3, hz, hz']; exact h0
  · rw [e6, e5, e3, hz, hz']; exact ht
  · rw [e7]; exact h0
  · rw [e7]; exact hw1
  have hJ : (3600 * (q.time.hour : ℚ) + 60 * q.time.minute + s + d) / 86400 = F + D := by rw [hF, hD]; ring
  have hB : (3 * |(N : ℚ)| + 9 * |d| / 86400 + 15) / 2 ^ 53 = (3 * |(N : ℚ)| + 9 * |D| + 15) / 2 ^ 53 := by
    rw [hDa]; ring
  intro J B
  have hJ' : J = 2400000.5 + N + (F + D) := by rw [← hJ]
  have hB' : B = (3 * |(N : ℚ)| + 9 * |D| + 15) / 2 ^ 53 := hB
  clear_value J B
  subst hJ' hB'
  have n0 : (0 : ℚ) ≤ |(N : ℚ)| / 2 ^ 53 := by positivity
  have d0 : (0 : ℚ) ≤ |D| / 2 ^ 53 := by positivity
  have y1 : (9 + |(N : ℚ)| + 5 * |D|) / 2 ^ 53 = 9 / 2 ^ 53 + |(N : ℚ)| / 2 ^ 53 + 5 * (|D| / 2 ^ 53) := by ring
  have y2 : (|(N : ℚ)| + |D| + 26 / 10) / 2 ^ 53 = |(N : ℚ)| / 2 ^ 53 + |D| / 2 ^ 53 + (26 / 10) / 2 ^ 53 := by ring
  have y3 : (3 * |(N : ℚ)| + 9 * |D| + 15) / 2 ^ 53 = 3 * (|(N : ℚ)| / 2 ^ 53) + 9 * (|D| / 2 ^ 53) + 15 / 2 ^ 53 := by ring
  rw [y3]
  rw [y1] at hje
  rw [y2] at hae'
  have hjt : |a - (N + (F + D) + dat / 86400)| ≤ 116 / 10 / 2 ^ 53 + 2 * (|(N : ℚ)| / 2 ^ 53) + 6 * (|D| / 2 ^ 53) := by
    have : a - (N + (F + D) + dat / 86400) = (a - (j + dat / 86400)) + (j - (N + (F + D))) := by ring
    rw [this]
    refine (abs_add_le _ _).trans ((add_le_add hae' hje).trans (le_of_eq ?_))
    ring
  refine ⟨?_, ?_, ?_, ?_⟩
  · have : 2400000.5 + j - (2400000.5 + N + (F + D)) = j - (N + (F + D)) := by ring
    rw [this]
    refine hje.trans ?_
    have : (9 : ℚ) / 2 ^ 53 ≤ 15 / 2 ^ 53 := by norm_num
    linarith
  · have : 2400000.5 + a - (2400000.5 + N + (F + D) + dat / 86400) = a - (N + (F + D) + dat / 86400) := by ring
    rw [this]
    refine hjt.trans ?_
    have : (116 / 10 : ℚ) / 2 ^ 53 ≤ 15 / 2 ^ 53 := by norm_num
    linarith
  · have e0 : 2400000.5 + t - (2400000.5 + a + 32.184 / 86400) = t - (a + 32.184 / 86400) := by ring
    rw [e0] at hte
    have : 2400000.5 + t - (2400000.5 + N + (F + D) + (dat + 32.184) / 86400) =
      (t - (a + 32.184 / 86400)) + (a - (N + (F + D) + dat / 86400)) := by ring
    rw [this]
    refine (abs_add_le _ _).trans ((add_le_add hte hjt).trans ?_)
    have x1 : |a| / 2 ^ 53 ≤ (|(N : ℚ)| + |D| + 26 / 10) / 2 ^ 53 := by gcongr
    rw [y2] at x1
    have : (116 / 10 : ℚ) / 2 ^ 53 + 26 / 10 / 2 ^ 53 + 1 / 2 ^ 62 ≤ 15 / 2 ^ 53 := by norm_num
    linarith
  · have e0 : 2400000.5 + RN (j + RN (dut / 86400)) - (2400000.5 + j + dut / 86400) =
      RN (j + RN (dut / 86400)) - (j + dut / 86400) := by ring
    rw [e0] at hw2
    have : 2400000.5 + RN (j + RN (dut / 86400)) - (2400000.5 + N + (F + D) - 0.072073685 / 86400) =
      (RN (j + RN (dut / 86400)) - (j + dut / 86400)) + (j - (N + (F + D))) + (dut - (-0.072073685)) / 86400 := by ring
    rw [this]
    refine (abs_add_le _ _).trans ((add_le_add ((abs_add_le _ _).trans (add_le_add hw2 hje)) (le_refl _)).trans ?_)
    have x1 : |j| / 2 ^ 53 ≤ (|(N : ℚ)| + |D| + 5 / 2) / 2 ^ 53 := by gcongr
    have x2 : (|(N : ℚ)| + |D| + 5 / 2) / 2 ^ 53 = |(N : ℚ)| / 2 ^ 53 + |D| / 2 ^ 53 + 5 / 2 / 2 ^ 53 := by ring
    have x3 : 3 * |dut / 86400| / 2 ^ 53 ≤ 3 * (1 / 86400) / 2 ^ 53 := by
      gcongr
      rw [abs_div, abs_of_pos (show (0 : ℚ) < 86400 by norm_num)]
      gcongr
    have x4 : |(dut - (-0.072073685)) / 86400| ≤ 1 / 2 ^ 56 / 86400 := by
      rw [abs_div, abs_of_pos (show (0 : ℚ) < 86400 by norm_num)]
      gcongr
    have : (3 : ℚ) * (1 / 86400) / 2 ^ 53 + 1 / 2 ^ 56 / 86400 + 9 / 2 ^ 53 + 5 / 2 / 2 ^ 53 + 1 / 2 ^ 98 ≤ 15 / 2 ^ 53 := by norm_num
    linarith

-- a libm whose cosine and sine lie on the unit circle; 2007-04-05 23:59:59.5
example : ∃ _ : Libm F64, ∃ (q : SunAngleParameters F64) (c : SunAngleCalculator F64), GoodDate q.date ∧
    q.date.year ≤ 8000 ∧ q.time.hour = 23 ∧ q.time.minute = 59 ∧ Is q.time.second (119 / 2) ∧
    SunAngleCalculator.new .checked q = .ok c ∧ Is (lit 600 : F64) 600 := by
  let L : Libm F64 := ⟨fun _ => lit 0, fun _ => lit 1, id, id, id, id, fun x _ => x⟩
  have hd : GoodDate ⟨2007, 4, 5⟩ := ⟨by decide, by decide, by decide⟩
  obtain ⟨c, hc, -⟩ := (C52_new_f64 .checked ⟨⟨2007, 4, 5⟩, ⟨23, 59, lit (119 / 2)⟩, ⟨lit 0, lit 0, lit 0⟩⟩ hd).2
    (by
      rintro (h | h | h)
      · exact absurd h (by decide +kernel)
      · exact absurd h (by decide +kernel)
      · exact h (by
          show ((lit 0 : F64) <. wgsRadicand (lit 1) (lit 0)) = true
          decide +kernel))
  refine ⟨L, _, c, hd, by norm_num, rfl, rfl, ?_, hc, ?_⟩
  · refine Is.lit_exact _ ?_ (small_le_HUGE (by norm_num))
    have := RepQ.dyadic 119 1 (by norm_num) (by norm_num)
    convert this using 1
    norm_num
  · have := Is.lit_int 600 (by norm_num); push_cast at this; exact this

end Verif
