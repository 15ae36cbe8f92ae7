import Verif.Lemmas.ToJulian
import Verif.Lemmas.FinF64

/-!
# C01, C02, C03, C12: `GregorianDate::new` and `GregorianDate::to_julian`
-/

namespace Verif
open Spec F64

/-- **C01.** `GregorianDate::new` accepts exactly the dates of the proleptic Gregorian calendar with
year at least -4799, keeps the fields, and reports errors in the order year, month, day. -/
theorem C01_new_accepts_exactly_real_dates (y m d : ℤ) :
    (∀ D, GregorianDate.new y m d = .ok D ↔ (D = ⟨y, m, d⟩ ∧ -4799 ≤ y ∧ IsDate (y, m, d))) ∧
    (GregorianDate.new y m d = .error .badYear ↔ y < -4799) ∧
    (GregorianDate.new y m d = .error .badMonth ↔ -4799 ≤ y ∧ ¬ (1 ≤ m ∧ m ≤ 12)) ∧
    (GregorianDate.new y m d = .error .badDay ↔
      -4799 ≤ y ∧ (1 ≤ m ∧ m ≤ 12) ∧ ¬ (1 ≤ d ∧ d ≤ monthLen y m)) ∧
    GregorianDate.new y m d ≠ .error .badJulian ∧ GregorianDate.new y m d ≠ .error .badFract := by
  rw [new_spec]
  by_cases h1 : y < -4799
  · have h2 : ¬ (-4799 ≤ y) := by omega
    simp [h1, h2]
  · have h2 : -4799 ≤ y := by omega
    by_cases h3 : 1 ≤ m ∧ m ≤ 12
    · by_cases h4 : IsDate (y, m, d)
      · have h5 : 1 ≤ d ∧ d ≤ monthLen y m := h4.2.2
        simp [h1, h2, h3, h4, h5, eq_comm]
      · have h5 : ¬ (1 ≤ d ∧ d ≤ monthLen y m) := fun h => h4 ⟨h3.1, h3.2, h.1, h.2⟩
        simp only [h1, h2, h3, h4, h5]
        simp
    · have h4 : ¬ IsDate (y, m, d) := fun h => h3 ⟨h.1, h.2.1⟩
      simp only [h1, h2, h3, h4]
      simp

-- 2000-02-29 exists, 1900-02-29 does not, -4800 is out of range
example : IsDate (2000, 2, 29) ∧ ¬ IsDate (1900, 2, 29) ∧ IsDate (2023, 12, 31) := by decide
example : GregorianDate.new 1900 2 29 = .error .badDay := by decide
example : GregorianDate.new 2000 2 29 = .ok ⟨2000, 2, 29⟩ := by decide

theorem accepted_iff (d : GregorianDate) :
    GregorianDate.new d.year d.month d.day = .ok d ↔ -4799 ≤ d.year ∧ IsDate d.civil := by
  have := (C01_new_accepts_exactly_real_dates d.year d.month d.day).1 d
  rw [this]
  exact ⟨fun h => ⟨h.2.1, h.2.2⟩, fun h => ⟨rfl, h.1, h.2⟩⟩

theorem mjd_zero_is : Is (GregorianDate.MJD_ZERO : F64) (4800001 / 2) := by
  have h : (2400000.5 : ℚ) = ((4800001 : ℤ) : ℚ) / 2 ^ 1 := by norm_num
  have := Is.lit_exact (2400000.5 : ℚ)
    (by rw [h]; exact RepQ.dyadic 4800001 1 (by norm_num) (by norm_num))
    (small_le_HUGE (by norm_num [abs_of_pos]))
  exact this.congr (by norm_num)

theorem mjdN_small {d : GregorianDate} (h : IsDate d.civil) (hy : -4799 ≤ d.year)
    (hY : marchYear d ≤ 1465072) : |mjdN d.year d.month d.day| ≤ 2 ^ 30 := by
  obtain ⟨y, m, dd⟩ := d
  obtain ⟨h1, h2, h3, h4⟩ := h
  simp only [GregorianDate.civil] at *
  have h5 := monthLen_le y m
  have hc := mjdN_cases y m dd
  unfold marchYear at hY
  simp only at hY
  rw [abs_le]
  split at hY <;> constructor <;> omega

theorem toJulian_f64 (p : Profile) (d : GregorianDate) (h : IsDate d.civil) (hy : -4799 ≤ d.year)
    (hY : marchYear d ≤ 1465072) :
    ∃ a b : F64, GregorianDate.toJulian p d = .ok (a, b) ∧ Is a (4800001 / 2) ∧
      Is b (mjdN d.year d.month d.day) := by
  refine ⟨GregorianDate.MJD_ZERO, Arith.ofInt (mjdN d.year d.month d.day), ?_, mjd_zero_is,
    Is.ofInt _ ((mjdN_small h hy hY).trans (by norm_num))⟩
  unfold GregorianDate.toJulian
  rw [toJulianDay_ok p d h hy hY]
  rfl

theorem marchYear_le (d : GregorianDate) : marchYear d ≤ d.year := by
  unfold marchYear; split <;> omega

/-- **C02.** For every date accepted by `new` up to year 1465072 `to_julian` does not overflow, in either
build profile, and returns `(2400000.5, N)` where `N` is, as an `f64`, exactly the signed number of
calendar days from 1858-11-17 to the date. -/
theorem C02_to_julian_counts_days (p : Profile) (d : GregorianDate)
    (hd : GregorianDate.new d.year d.month d.day = .ok d) (hy : d.year ≤ 1465072) :
    ∃ (a b : F64) (N : ℤ), GregorianDate.toJulian p d = .ok (a, b) ∧
      Is a 2400000.5 ∧ Is b N ∧ DaysFrom mjdEpoch d.civil N := by
  obtain ⟨h1, h2⟩ := (accepted_iff d).mp hd
  obtain ⟨a, b, e, ha, hb⟩ := toJulian_f64 p d h2 h1 ((marchYear_le d).trans hy)
  refine ⟨a, b, _, e, ha.congr (by norm_num), hb, ?_⟩
  have := daysFrom_mjdN mjdEpoch d.civil mjdEpoch_isDate h2
  rw [mjdN_epoch, sub_zero] at this
  exact this

/-- **C02**, second form: the following calendar day always gets the next day number. -/
theorem C02_to_julian_next_day (p : Profile) (d d' : GregorianDate)
    (hd : GregorianDate.new d.year d.month d.day = .ok d) (hy : d.year < 1465072)
    (hn : d'.civil = next d.civil) :
    ∃ (a b b' : F64) (N : ℤ), GregorianDate.toJulian p d = .ok (a, b) ∧
      GregorianDate.toJulian p d' = .ok (a, b') ∧ Is b N ∧ Is b' (N + 1 : ℤ) := by
  obtain ⟨h1, h2⟩ := (accepted_iff d).mp hd
  have h2' : IsDate d'.civil := hn ▸ next_isDate _ h2
  have hyy : d.year ≤ d'.year ∧ d'.year ≤ d.year + 1 := by
    have e : d'.year = (next d.civil).1 := by rw [← hn]; rfl
    rw [e]
    unfold next GregorianDate.civil
    simp only
    split
    · simp
    · split <;> simp
  have h1' : -4799 ≤ d'.year := by omega
  have m1 := marchYear_le d
  have m2 := marchYear_le d'
  refine ⟨GregorianDate.MJD_ZERO, Arith.ofInt (mjdN d.year d.month d.day),
    Arith.ofInt (mjdN d'.year d'.month d'.day), mjdN d.year d.month d.day, ?_, ?_,
    Is.ofInt _ ((mjdN_small h2 h1 (by omega)).trans (by norm_num)), ?_⟩
  · unfold GregorianDate.toJulian
    rw [toJulianDay_ok p d h2 h1 (by omega)]
    rfl
  · unfold GregorianDate.toJulian
    rw [toJulianDay_ok p d' h2' h1' (by omega)]
    rfl
  · have e := mjdN_next d.civil h2
    rw [← hn] at e
    have e' : mjdN d'.year d'.month d'.day = mjdN d.year d.month d.day + 1 := e
    rw [← e']
    exact Is.ofInt _ ((mjdN_small h2' h1' (by omega)).trans (by norm_num))

-- 2000-01-01 is MJD 51544; the theorem's hypotheses hold for it
example : GregorianDate.new 2000 1 1 = .ok ⟨2000, 1, 1⟩ ∧ (2000 : ℤ) ≤ 1465072 := by decide
example : (GregorianDate.mk 2000 1 1).toJulianDay .checked = .ok 51544 := by decide
example : next (1999, 12, 31) = (2000, 1, 1) := by decide

/-- **C03.** Exact overflow threshold of `to_julian`: for accepted dates (of `i32` year) whose year,
counted from March, is at least 1465073 a checked build panics and a wrapping build returns a number that
is not the day count; for all other accepted dates neither happens. -/
theorem C03_to_julian_overflow (d : GregorianDate) (hr : I32.InRange d.year)
    (hd : GregorianDate.new d.year d.month d.day = .ok d) :
    (1465073 ≤ (if d.month ≤ 2 then d.year - 1 else d.year) →
      GregorianDate.toJulian (α := F64) .checked d = .error .overflow ∧
      ∃ (a b : F64) (r : ℤ), GregorianDate.toJulian .wrapping d = .ok (a, b) ∧ Is b r ∧
        ¬ DaysFrom mjdEpoch d.civil r) ∧
    ((if d.month ≤ 2 then d.year - 1 else d.year) ≤ 1465072 → ∀ p : Profile,
      ∃ (a b : F64) (r : ℤ), GregorianDate.toJulian p d = .ok (a, b) ∧ Is b r ∧
        DaysFrom mjdEpoch d.civil r) := by
  obtain ⟨h1, h2⟩ := (accepted_iff d).mp hd
  constructor
  · intro h
    constructor
    · unfold GregorianDate.toJulian
      rw [toJulianDay_checked_overflow d h2 hr h]
      rfl
    · obtain ⟨r, e, hrr, hne⟩ := toJulianDay_wrapping_wrong d h2 hr h
      refine ⟨GregorianDate.MJD_ZERO, Arith.ofInt r, r, ?_, Is.ofInt _ ?_, ?_⟩
      · unfold GregorianDate.toJulian
        rw [e]; rfl
      · unfold I32.InRange at hrr
        rw [abs_le]; constructor <;> omega
      · intro hD
        have := daysFrom_unique mjdEpoch d.civil mjdEpoch_isDate h2 r hD
        rw [mjdN_epoch, sub_zero] at this
        exact hne this
  · intro h p
    obtain ⟨a, b, e, ha, hb⟩ := toJulian_f64 p d h2 h1 h
    refine ⟨a, b, _, e, hb, ?_⟩
    have := daysFrom_mjdN mjdEpoch d.civil mjdEpoch_isDate h2
    rw [mjdN_epoch, sub_zero] at this
    exact this

-- both sides of the threshold are inhabited by accepted dates
example : GregorianDate.new 1465073 3 1 = .ok ⟨1465073, 3, 1⟩ ∧ I32.InRange 1465073 := by decide
example : (GregorianDate.mk 1465073 3 1).toJulianDay .checked = .error .overflow := by decide
example : (GregorianDate.mk 1465073 2 28).toJulianDay .checked = .ok 534428043 := by decide

/-- **C12**, first part. For accepted dates, calendar order is the order of the day numbers returned by
`to_julian`. -/
theorem C12_to_julian_monotone (p : Profile) (d d' : GregorianDate)
    (hd : GregorianDate.new d.year d.month d.day = .ok d)
    (hd' : GregorianDate.new d'.year d'.month d'.day = .ok d')
    (hy : d.year ≤ 1465072) (hy' : d'.year ≤ 1465072) :
    ∃ a b a' b' : F64, GregorianDate.toJulian p d = .ok (a, b) ∧
      GregorianDate.toJulian p d' = .ok (a', b') ∧ a = a' ∧
      (Before d.civil d'.civil ↔ (b <. b') = true) := by
  obtain ⟨h1, h2⟩ := (accepted_iff d).mp hd
  obtain ⟨h1', h2'⟩ := (accepted_iff d').mp hd'
  have m1 := marchYear_le d
  have m2 := marchYear_le d'
  refine ⟨GregorianDate.MJD_ZERO, Arith.ofInt (mjdN d.year d.month d.day), GregorianDate.MJD_ZERO,
    Arith.ofInt (mjdN d'.year d'.month d'.day), ?_, ?_, rfl, ?_⟩
  · unfold GregorianDate.toJulian
    rw [toJulianDay_ok p d h2 h1 (by omega)]
    rfl
  · unfold GregorianDate.toJulian
    rw [toJulianDay_ok p d' h2' h1' (by omega)]
    rfl
  · have i1 := Is.ofInt (mjdN d.year d.month d.day)
      ((mjdN_small h2 h1 (by omega)).trans (by norm_num))
    have i2 := Is.ofInt (mjdN d'.year d'.month d'.day)
      ((mjdN_small h2' h1' (by omega)).trans (by norm_num))
    rw [i1.lt i2, before_iff d.civil d'.civil h2 h2']
    simp [GregorianDate.civil]

example : Before (1999, 12, 31) (2000, 1, 1) ∧ ¬ Before (2000, 1, 1) (2000, 1, 1) := by
  unfold Before; decide

end Verif
