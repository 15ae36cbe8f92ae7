import Verif.Lemmas.HMS
import Verif.Props.FromJulian

/-!
# C13 – C16: `HMS` and `GregorianDateHMS`
-/

namespace Verif
open Spec F64

/-- **C13.** For every `f64` in `[0,1]`, `from_fraction_of_day` succeeds with fields in range whose total is
exactly the rounded product `86400 f`; the hour is 24 only for `f = 1`. -/
theorem C13_fields_in_range (f : F64) (hf : isFin f = true) (h0 : 0 ≤ v f) (h1 : v f ≤ 1) :
    ∃ (h m : ℤ) (s : F64), HMS.fromFractionOfDay f = .ok ⟨h, m, s⟩ ∧
      0 ≤ h ∧ h ≤ 24 ∧ 0 ≤ m ∧ m ≤ 59 ∧ isFin s = true ∧ 0 ≤ v s ∧ v s < 60 ∧
      3600 * h + 60 * m + v s = v ((Arith.lit 86400 : F64) *. f) ∧
      (h = 24 ↔ v f = 1) := by
  have hx := Is.self hf
  obtain ⟨sec, e, hs, s0, s1⟩ := hms_f64 hx h0 h1
  have i86400 : Is (Arith.lit 86400 : F64) 86400 := by
    have := Is.lit_int 86400 (by norm_num); push_cast at this; exact this
  have ip : Is ((Arith.lit 86400 : F64) *. f) (RN (86400 * v f)) :=
    i86400.mul hx (small_le_HUGE (by rw [abs_of_nonneg (by linarith)]; norm_num; linarith))
  rw [ip.val]
  have hd : v f = 1 → RN (86400 * v f) = 86400 := by
    intro h
    rw [h, mul_one]
    have := RepQ.int 86400 (by norm_num)
    push_cast at this
    exact RN_exact this
  have hl : v f < 1 → RN (86400 * v f) < 86400 := RN_day_lt hx.rep
  generalize RN (86400 * v f) = s at *
  have a1 := Int.floor_le s
  have a2 := Int.lt_floor_add_one s
  have fl0 : 0 ≤ ⌊s⌋ := Int.floor_nonneg.mpr s0
  have fl1 : ⌊s⌋ ≤ 86400 := by
    have : (⌊s⌋ : ℚ) ≤ 86400 := a1.trans s1
    exact_mod_cast this
  have e60 : (60 * (⌊s⌋ / 60) : ℤ) = ⌊s⌋ - ⌊s⌋ % 60 := by omega
  have m0 : (0 : ℚ) ≤ (⌊s⌋ % 60 : ℤ) := by exact_mod_cast (by omega : 0 ≤ ⌊s⌋ % 60)
  have m1 : ((⌊s⌋ % 60 : ℤ) : ℚ) ≤ 59 := by exact_mod_cast (by omega : ⌊s⌋ % 60 ≤ 59)
  refine ⟨_, _, sec, e, by omega, by omega, by omega, by omega, hs.fin, ?_, ?_, ?_, ?_⟩
  · rw [hs.val, e60, Int.cast_sub]; linarith
  · rw [hs.val, e60, Int.cast_sub]; linarith
  · rw [hs.val]
    have : 3600 * (⌊s⌋ / 3600) + 60 * (⌊s⌋ % 3600 / 60) = 60 * (⌊s⌋ / 60) := by omega
    rw [← this]; push_cast; ring
  · constructor
    · intro h
      by_contra hne
      have := hl (lt_of_le_of_ne h1 hne)
      have h3 : ⌊s⌋ < 86400 := by rw [Int.floor_lt]; exact_mod_cast this
      omega
    · intro h
      rw [hd h]
      norm_num

/-- **C13**, errors: `BadFract` exactly for `f < 0` or `f > 1`; NaN is not rejected. -/
theorem C13_bad_fract (f : F64) :
    (HMS.fromFractionOfDay f = .error .badFract ↔
      (f <. (Arith.lit 0 : F64)) = true ∨ ((Arith.lit 1 : F64) <. f) = true) ∧
    (∀ e, HMS.fromFractionOfDay f = .error e → e = .badFract) ∧
    HMS.fromFractionOfDay F64.nan = .ok ⟨0, 0, F64.nan⟩ := by
  refine ⟨?_, ?_, by decide +kernel⟩
  · unfold HMS.fromFractionOfDay
    rw [← Bool.or_eq_true]
    split <;> rename_i h <;> simp [h]
  · intro e
    unfold HMS.fromFractionOfDay
    split
    · simp [eq_comm]
    · simp

example : isFin (Arith.lit 0.75 : F64) = true ∧
    HMS.fromFractionOfDay (Arith.lit 0.75 : F64) = .ok ⟨18, 0, Arith.lit 0⟩ := by decide +kernel

theorem lit60_is : Is (Arith.lit 60 : F64) 60 := by
  have := Is.lit_int 60 (by norm_num); push_cast at this; exact this
theorem lit86400_is : Is (Arith.lit 86400 : F64) 86400 := by
  have := Is.lit_int 86400 (by norm_num); push_cast at this; exact this

/-- The whole-minute part of `to_fraction_of_day` is exact. -/
theorem minutes_exact (h m : ℤ) (h0 : 0 ≤ h) (h1 : h ≤ 24) (m0 : 0 ≤ m) (m1 : m ≤ 59) :
    Is ((Arith.lit 60 : F64) *. (Arith.ofInt m +. Arith.lit 60 *. Arith.ofInt h))
      ((60 * m + 3600 * h : ℤ) : ℚ) := by
  have ih : Is (Arith.ofInt h : F64) h := Is.ofInt h (by rw [abs_le]; constructor <;> omega)
  have im : Is (Arith.ofInt m : F64) m := Is.ofInt m (by rw [abs_le]; constructor <;> omega)
  have key : ∀ {x y : F64} {a b : ℤ}, Is x a → Is y b → |a * b| ≤ 2 ^ 53 →
      Is (x *. y) ((a * b : ℤ) : ℚ) := by
    intro x y a b hx hy hb
    have hr := RepQ.int _ hb
    have h2 : |((a * b : ℤ) : ℚ)| ≤ 2 ^ 53 := by exact_mod_cast hb
    have := hx.mul hy (by
      rw [← Int.cast_mul]
      exact small_le_HUGE (h2.trans (by norm_num)))
    rw [← Int.cast_mul, RN_exact hr] at this
    exact this
  have i60 : Is (Arith.lit 60 : F64) ((60 : ℤ) : ℚ) := lit60_is.congr (by norm_num)
  have a := key i60 ih (by rw [abs_le]; constructor <;> omega)
  have b : Is (Arith.ofInt m +. (Arith.lit 60 : F64) *. Arith.ofInt h) ((m + 60 * h : ℤ) : ℚ) := by
    have hb : |m + 60 * h| ≤ 2 ^ 53 := by rw [abs_le]; constructor <;> omega
    have h2 : |((m + 60 * h : ℤ) : ℚ)| ≤ 2 ^ 53 := by exact_mod_cast hb
    have := im.add_exact a (by rw [← Int.cast_add]; exact RepQ.int _ hb)
      (by rw [← Int.cast_add]; exact small_lt_OVQ (h2.trans (by norm_num)))
    rw [← Int.cast_add] at this
    exact this
  have c := key i60 b (by rw [abs_le]; constructor <;> omega)
  exact c.congr (by push_cast; ring)

/-- **C14** in `f64`: for every `f` in `[0,1]` the round trip through hours, minutes and seconds changes the
fraction by at most `2^-52`. -/
theorem C14_fraction_round_trip_f64 (f : F64) (hf : isFin f = true) (h0 : 0 ≤ v f) (h1 : v f ≤ 1) :
    ∃ h : HMS F64, HMS.fromFractionOfDay f = .ok h ∧ isFin h.toFractionOfDay = true ∧
      |v h.toFractionOfDay - v f| ≤ 1 / 2 ^ 52 := by
  have hx := Is.self hf
  obtain ⟨sec, e, hs, s0, s1⟩ := hms_f64 hx h0 h1
  have hrep : RepQ (RN (86400 * v f)) := RN_rep _
  have herr := RN_err (86400 * v f)
  have hU : 1 / (2 * U) ≤ 1 / 2 ^ 53 := by
    have := U_inv_small
    refine this.trans (by norm_num)
  have herr' : |RN (86400 * v f) - 86400 * v f| ≤ 86400 / 2 ^ 53 := by
    refine herr.trans (max_le ?_ (hU.trans (by norm_num)))
    rw [abs_of_nonneg (by linarith)]
    apply div_le_div_of_nonneg_right _ (by norm_num)
    linarith
  generalize RN (86400 * v f) = s at *
  have a1 := Int.floor_le s
  have fl0 : 0 ≤ ⌊s⌋ := Int.floor_nonneg.mpr s0
  have fl1 : ⌊s⌋ ≤ 86400 := by
    have : (⌊s⌋ : ℚ) ≤ 86400 := a1.trans s1
    exact_mod_cast this
  have im := minutes_exact (⌊s⌋ / 3600) (⌊s⌋ % 3600 / 60) (by omega) (by omega) (by omega) (by omega)
  have eK : 60 * (⌊s⌋ % 3600 / 60) + 3600 * (⌊s⌋ / 3600) = 60 * (⌊s⌋ / 60) := by omega
  rw [eK] at im
  have hsum : s - (60 * (⌊s⌋ / 60) : ℤ) + (60 * (⌊s⌋ / 60) : ℤ) = s := by ring
  have it := hs.add_exact im (by rw [hsum]; exact hrep)
    (by rw [hsum]; exact small_lt_OVQ (by rw [abs_of_nonneg s0]; norm_num; linarith))
  rw [hsum] at it
  have hq0 : 0 ≤ s / 86400 := by positivity
  have hq1 : s / 86400 ≤ 1 := by rw [div_le_one (by norm_num)]; exact s1
  have ir := it.div lit86400_is (by norm_num)
    (small_le_HUGE (by rw [abs_of_nonneg hq0]; norm_num; linarith))
  refine ⟨_, e, ir.fin, ?_⟩
  have ev : v (HMS.toFractionOfDay ⟨⌊s⌋ / 3600, ⌊s⌋ % 3600 / 60, sec⟩) = RN (s / 86400) := ir.val
  rw [ev]
  have h2 : |RN (s / 86400) - s / 86400| ≤ 1 / 2 ^ 53 := by
    refine (RN_err _).trans (max_le ?_ hU)
    rw [abs_of_nonneg hq0]
    exact div_le_div_of_nonneg_right hq1 (by norm_num)
  have b1 := abs_le.mp h2
  have b2 := abs_le.mp herr'
  rw [abs_le]
  norm_num at b1 b2 ⊢
  constructor <;> linarith [b1.1, b1.2, b2.1, b2.2]

/-- A third of a day, which no `f64` is. -/
example : isFin (Arith.lit (1 / 3) : F64) = true ∧ 0 ≤ v (Arith.lit (1 / 3) : F64) ∧ v (Arith.lit (1 / 3) : F64) ≤ 1 ∧
    v (Arith.lit (1 / 3) : F64) ≠ 1 / 3 := by decide +kernel

/-- **C14** in exact arithmetic: the round trip is the identity. -/
theorem C14_fraction_round_trip_exact (f : ℝ) (h0 : 0 ≤ f) (h1 : f ≤ 1) :
    ∃ h : HMS ℝ, HMS.fromFractionOfDay f = .ok h ∧ h.toFractionOfDay = f := by
  refine ⟨_, hms_real h0 h1, ?_⟩
  rw [toFraction_real]
  simp only
  have : 60 * (⌊86400 * f⌋ / 60) = 60 * (⌊86400 * f⌋ % 3600 / 60 + 60 * (⌊86400 * f⌋ / 3600)) := by
    omega
  rw [this]
  push_cast
  field_simp
  ring

/-- 06:05:04.25. -/
example : HMS.toFractionOfDay ⟨6, 5, 4.25⟩ = (21904.25 / 86400 : ℝ) ∧ (0 : ℝ) ≤ 21904.25 / 86400 ∧ (21904.25 / 86400 : ℝ) ≤ 1 := by
  refine ⟨?_, by norm_num, by norm_num⟩
  rw [toFraction_real]; norm_num

/-- A valid time of day. -/
def ValidHMS (h : HMS ℝ) : Prop :=
  0 ≤ h.hour ∧ h.hour ≤ 23 ∧ 0 ≤ h.minute ∧ h.minute ≤ 59 ∧ 0 ≤ h.second ∧ h.second < 60

theorem toFraction_bounds {h : HMS ℝ} (hv : ValidHMS h) :
    0 ≤ h.toFractionOfDay ∧ h.toFractionOfDay < 1 := by
  obtain ⟨a1, a2, b1, b2, c1, c2⟩ := hv
  rw [toFraction_real]
  have A1 : (0 : ℝ) ≤ h.hour := by exact_mod_cast a1
  have A2 : (h.hour : ℝ) ≤ 23 := by exact_mod_cast a2
  have B1 : (0 : ℝ) ≤ h.minute := by exact_mod_cast b1
  have B2 : (h.minute : ℝ) ≤ 59 := by exact_mod_cast b2
  constructor
  · positivity
  · rw [div_lt_one (by norm_num)]; linarith

/-- **C15** in exact arithmetic: every valid time of day survives the round trip through a fraction. -/
theorem C15_hms_round_trip_exact (h : HMS ℝ) (hv : ValidHMS h) :
    HMS.fromFractionOfDay h.toFractionOfDay = .ok h := by
  obtain ⟨f0, f1⟩ := toFraction_bounds hv
  rw [hms_real f0 f1.le]
  obtain ⟨a1, a2, b1, b2, c1, c2⟩ := hv
  have e : 86400 * h.toFractionOfDay = h.second + ((60 * (h.minute + 60 * h.hour) : ℤ) : ℝ) := by
    rw [toFraction_real]; push_cast; field_simp
  rw [e]
  have hf : ⌊h.second + ((60 * (h.minute + 60 * h.hour) : ℤ) : ℝ)⌋ =
      ⌊h.second⌋ + 60 * (h.minute + 60 * h.hour) := Int.floor_add_intCast _ _
  rw [hf]
  have s0 : 0 ≤ ⌊h.second⌋ := Int.floor_nonneg.mpr c1
  have s1 : ⌊h.second⌋ < 60 := by rw [Int.floor_lt]; exact_mod_cast c2
  have e1 : (⌊h.second⌋ + 60 * (h.minute + 60 * h.hour)) / 3600 = h.hour := by omega
  have e2 : (⌊h.second⌋ + 60 * (h.minute + 60 * h.hour)) % 3600 / 60 = h.minute := by omega
  have e3 : 60 * ((⌊h.second⌋ + 60 * (h.minute + 60 * h.hour)) / 60) =
      60 * (h.minute + 60 * h.hour) := by omega
  rw [e1, e2, e3, add_sub_cancel_right]

example : ValidHMS ⟨23, 59, 59.999⟩ := by unfold ValidHMS; norm_num

/-- **C15** in `f64`: the fields need not survive; 00:13:00 comes back as 00:12:59.99…. -/
theorem C15_hms_round_trip_f64_false :
    ∃ s : F64, HMS.fromFractionOfDay (HMS.toFractionOfDay (⟨0, 13, Arith.lit 0⟩ : HMS F64)) =
      .ok ⟨0, 12, s⟩ ∧ ((Arith.lit 59 : F64) <. s) = true ∧ (s <. (Arith.lit 60 : F64)) = true := by
  refine ⟨Arith.sub (Arith.lit 86400 *. HMS.toFractionOfDay (⟨0, 13, Arith.lit 0⟩ : HMS F64))
    (Arith.lit 720), by decide +kernel, by decide +kernel, by decide +kernel⟩

/-- **C15** in `f64`, what remains true: for every valid time of day the total number of seconds is
preserved to within `3·2^-37` (about 22 ps), and the conversion succeeds. -/
theorem C15_hms_round_trip_f64_partial (h m : ℤ) (s : F64) (h0 : 0 ≤ h) (h1 : h ≤ 23) (m0 : 0 ≤ m)
    (m1 : m ≤ 59) (hs : isFin s = true) (s0 : 0 ≤ v s) (s1 : v s < 60) :
    ∃ (h' m' : ℤ) (s' : F64),
      HMS.fromFractionOfDay (HMS.toFractionOfDay (⟨h, m, s⟩ : HMS F64)) = .ok ⟨h', m', s'⟩ ∧
      |(3600 * h' + 60 * m' + v s') - (3600 * h + 60 * m + v s)| ≤ 3 / 2 ^ 37 := by
  have is := Is.self hs
  have im := minutes_exact h m h0 (by omega) m0 m1
  have k0 : (0 : ℚ) ≤ ((60 * m + 3600 * h : ℤ) : ℚ) := by exact_mod_cast (by omega)
  have k1 : ((60 * m + 3600 * h : ℤ) : ℚ) ≤ 86340 := by exact_mod_cast (by omega)
  have eT : (3600 * h + 60 * m + v s : ℚ) = v s + ((60 * m + 3600 * h : ℤ) : ℚ) := by
    push_cast; ring
  rw [eT]
  have it := is.add im (small_le_HUGE (by
    rw [abs_of_nonneg (by linarith)]; norm_num at k1 ⊢; linarith))
  generalize ((60 * m + 3600 * h : ℤ) : ℚ) = K at *
  have t0 : 0 ≤ RN (v s + K) := RN_nonneg (by linarith)
  have t1 : RN (v s + K) ≤ 86400 := RN_le_of_le (by
    have := RepQ.int 86400 (by norm_num)
    push_cast at this; exact this) (by linarith)
  have err1 := RN_err_grid (v s + K) (-36) (by norm_num) (by
    rw [abs_of_nonneg (by linarith)]; norm_num; linarith)
  generalize RN (v s + K) = T at *
  have q0 : 0 ≤ T / 86400 := by positivity
  have q1 : T / 86400 ≤ 1 := by rw [div_le_one (by norm_num)]; exact t1
  have iq := it.div lit86400_is (by norm_num) (small_le_HUGE (by
    rw [abs_of_nonneg q0]; norm_num; linarith))
  have err2 := RN_err_grid (T / 86400) (-53) (by norm_num) (by
    rw [abs_of_nonneg q0]; norm_num; linarith)
  have f0 : 0 ≤ RN (T / 86400) := RN_nonneg q0
  have f1 : RN (T / 86400) ≤ 1 := RN_le_of_le (by
    have := RepQ.int 1 (by norm_num)
    push_cast at this; exact this) q1
  generalize RN (T / 86400) = f at *
  obtain ⟨sec, e, hsec, u0, u1⟩ := hms_f64 iq f0 f1
  have err3 := RN_err_grid (86400 * f) (-36) (by norm_num) (by
    rw [abs_of_nonneg (by linarith)]; norm_num; linarith)
  generalize RN (86400 * f) = w at *
  refine ⟨_, _, sec, e, ?_⟩
  rw [hsec.val]
  have eK : 60 * (⌊w⌋ / 60) = 60 * (⌊w⌋ % 3600 / 60) + 3600 * (⌊w⌋ / 3600) := by omega
  have ew : (3600 * ((⌊w⌋ / 3600 : ℤ) : ℚ) + 60 * ((⌊w⌋ % 3600 / 60 : ℤ) : ℚ) +
      (w - (60 * (⌊w⌋ / 60) : ℤ))) = w := by
    rw [eK]; push_cast; ring
  rw [ew]
  have b1 := abs_le.mp err1
  have b2 := abs_le.mp err2
  have b3 := abs_le.mp err3
  rw [abs_le]
  norm_num at b1 b2 b3 ⊢
  constructor <;> linarith [b1.1, b1.2, b2.1, b2.2, b3.1, b3.2]

/-- The last second of the day. -/
example : (0 : ℤ) ≤ 23 ∧ (59 : ℤ) ≤ 59 ∧ isFin (Arith.lit 59.999 : F64) = true ∧ 0 ≤ v (Arith.lit 59.999 : F64) ∧ v (Arith.lit 59.999 : F64) < 60 := by
  refine ⟨by norm_num, by norm_num, by decide +kernel, ?_, ?_⟩ <;> decide +kernel

/-- A day from JD -32000 on is in a March-based year from -4800 on. -/
theorem marchYear_ge {d : GregorianDate} (h : IsDate d.civil) (hN : -2432001 ≤ mjdN d.year d.month d.day)
    (hy : -4800 ≤ d.year) : -4800 ≤ marchYear d := by
  obtain ⟨y, m, dd⟩ := d
  obtain ⟨h1, h2, h3, h4⟩ := h
  simp only [GregorianDate.civil] at *
  have h5 := monthLen_le y m
  have hc := mjdN_cases y m dd
  unfold marchYear
  simp only
  split <;> omega

/-- **C16** in exact arithmetic, Julian → civil → Julian: the sum is preserved exactly. -/
theorem C16_julian_round_trip_exact (p : Profile) (x y : ℝ) (h1 : -32000 ≤ x + y)
    (h2 : x + y ≤ 536802340) :
    ∃ (g : GregorianDateHMS ℝ) (a b : ℝ), GregorianDateHMS.fromJulian p x y = .ok (.ok g) ∧
      GregorianDateHMS.toJulian p g = .ok (a, b) ∧ a + b = x + y := by
  obtain ⟨d, f, N, e, hdate, hy, hN, f0, f1, hs⟩ := C06_from_julian_exact p x y h1 h2
  obtain ⟨hms, hh, hb⟩ := C14_fraction_round_trip_exact f f0 f1.le
  have u := daysFrom_unique _ _ mjdEpoch_isDate hdate N hN
  rw [mjdN_epoch, sub_zero] at u
  have hN2 : N ≤ 534402340 := by
    have : (N : ℝ) ≤ 534402340 := by norm_num at hs; linarith
    exact_mod_cast this
  have hyr : d.year < 1465003 := by
    apply year_lt_of_mjdN hdate
    rw [← u]
    have : mjdN 1465003 1 1 = 534402417 := by decide
    omega
  have hm := marchYear_le d
  have hN1 : -2432001 ≤ N := by
    have : (-2432002 : ℝ) < N := by norm_num at hs; linarith
    have : (-2432002 : ℤ) < N := by exact_mod_cast this
    omega
  have g1 : -4800 ≤ marchYear d := marchYear_ge hdate (by simp only [GregorianDate.civil] at u; omega) hy
  refine ⟨⟨d, hms⟩, GregorianDate.MJD_ZERO, Arith.ofInt N +. f, ?_, ?_, ?_⟩
  · unfold GregorianDateHMS.fromJulian
    rw [e, ok_bind]
    simp only [hh]
    rfl
  · unfold GregorianDateHMS.toJulian GregorianDate.toJulian
    simp only
    rw [toJulianDay_ok' p d hdate g1 (by omega)]
    simp only [ok_bind]
    rw [hb, u]
    rfl
  · unfold GregorianDate.MJD_ZERO
    simp only [lit_real, ofInt_real, add_real]
    rw [← hs]
    push_cast
    ring

example : (-32000 : ℝ) ≤ 2400000.5 + 54195.75 ∧ (2400000.5 + 54195.75 : ℝ) ≤ 536802340 := by norm_num

/-- **C16** in exact arithmetic, civil → Julian → civil: every valid date and time is recovered exactly. -/
theorem C16_civil_round_trip_exact (p : Profile) (g : GregorianDateHMS ℝ)
    (hd : GregorianDate.new g.date.year g.date.month g.date.day = .ok g.date)
    (hy : g.date.year ≤ 1465000) (hv : ValidHMS g.hms) :
    ∃ a b : ℝ, GregorianDateHMS.toJulian p g = .ok (a, b) ∧
      GregorianDateHMS.fromJulian p a b = .ok (.ok g) := by
  obtain ⟨d, h⟩ := g
  simp only at hd hy hv
  obtain ⟨g1, g2⟩ := (accepted_iff d).mp hd
  have hm := marchYear_le d
  obtain ⟨f0, f1⟩ := toFraction_bounds hv
  obtain ⟨N, hN⟩ : ∃ N, N = mjdN d.year d.month d.day := ⟨_, rfl⟩
  have b1 : -2431739 ≤ N := by
    have : mjdN (-4799) 1 1 = -2431739 := by decide
    by_contra hc
    have := year_lt_of_mjdN g2 (-4799) (by simp only [GregorianDate.civil]; omega)
    simp only [GregorianDate.civil] at this
    omega
  have b2 : N < 534401687 := by
    have : mjdN 1465001 1 1 = 534401687 := by decide
    by_contra hc
    have := year_ge_of_mjdN g2 1465001 (by simp only [GregorianDate.civil]; omega)
    simp only [GregorianDate.civil] at this
    omega
  have c1 : (-2431739 : ℝ) ≤ N := by exact_mod_cast b1
  have c2 : (N : ℝ) < 534401687 := by exact_mod_cast b2
  refine ⟨GregorianDate.MJD_ZERO, Arith.ofInt N +. h.toFractionOfDay, ?_, ?_⟩
  · unfold GregorianDateHMS.toJulian GregorianDate.toJulian
    simp only
    rw [toJulianDay_ok p d g2 g1 (by omega)]
    simp only [ok_bind]
    rw [hN]
    rfl
  · have esum : (GregorianDate.MJD_ZERO : ℝ) + (Arith.ofInt N +. h.toFractionOfDay) =
        2400000.5 + N + h.toFractionOfDay := by
      unfold GregorianDate.MJD_ZERO
      simp only [lit_real, ofInt_real, add_real]
      push_cast
      ring
    obtain ⟨d', f', N', e, hdate, -, hN', f0', f1', hs⟩ :=
      C06_from_julian_exact p (GregorianDate.MJD_ZERO : ℝ) (Arith.ofInt N +. h.toFractionOfDay)
        (by rw [esum]; norm_num; linarith) (by rw [esum]; norm_num; linarith)
    rw [esum] at hs
    have hNN : N' = N := by
      have g3 : (N' : ℝ) < N + 1 := by linarith
      have g4 : (N : ℝ) < N' + 1 := by linarith
      have g3' : N' < N + 1 := by exact_mod_cast g3
      have g4' : N < N' + 1 := by exact_mod_cast g4
      omega
    subst hNN
    have hff : f' = h.toFractionOfDay := by linarith
    have u := daysFrom_unique _ _ mjdEpoch_isDate hdate N' hN'
    rw [mjdN_epoch, sub_zero] at u
    have hdd : d'.civil = d.civil := mjdN_inj _ _ hdate g2 (by
      simp only [GregorianDate.civil] at u ⊢; omega)
    have hdd' : d' = d := by
      cases d; cases d'
      simp only [GregorianDate.civil, Prod.mk.injEq] at hdd
      simp only [GregorianDate.mk.injEq]
      exact hdd
    unfold GregorianDateHMS.fromJulian
    rw [e, ok_bind]
    simp only [hff, hdd', C15_hms_round_trip_exact h hv]
    rfl

example : GregorianDate.new 2024 2 29 = .ok ⟨2024, 2, 29⟩ ∧ (2024 : ℤ) ≤ 1465000 := by decide

/-- **C16** in `f64`: for all finite pairs with `f64` sum in `[-32000, 536802340]`,
`GregorianDateHMS::from_julian` succeeds, and the instant it denotes is within
`2^-53 (|min(dj1,dj2)| + 3) + 2^-53` of the exact sum. -/
theorem C16_from_julian_f64 (p : Profile) (x y : F64) (hx : isFin x = true) (hy : isFin y = true)
    (hlo : ((Arith.lit (-32000.0) : F64) <=. (x +. y)) = true)
    (hhi : ((x +. y) <=. (Arith.lit 536802340 : F64)) = true) :
    ∃ (d : GregorianDate) (h m : ℤ) (s : F64) (N : ℤ),
      GregorianDateHMS.fromJulian p x y = .ok (.ok ⟨d, ⟨h, m, s⟩⟩) ∧ IsDate d.civil ∧
      DaysFrom mjdEpoch d.civil N ∧ 0 ≤ h ∧ h ≤ 24 ∧ 0 ≤ m ∧ m ≤ 59 ∧ 0 ≤ v s ∧ v s < 60 ∧
      |(2400000.5 + N + (3600 * h + 60 * m + v s) / 86400) - (v x + v y)| ≤
        (|min (v x) (v y)| + 4) / 2 ^ 53 := by
  obtain ⟨d, f, N, e, hdate, -, hN, hf, f0, f1, he, -⟩ := C05_from_julian_instant p x y hx hy hlo hhi
  obtain ⟨h, m, s, eh, a1, a2, a3, a4, -, a6, a7, a8, -⟩ := C13_fields_in_range f hf f0 f1
  refine ⟨d, h, m, s, N, ?_, hdate, hN, a1, a2, a3, a4, a6, a7, ?_⟩
  · unfold GregorianDateHMS.fromJulian
    rw [e, ok_bind]
    simp only [eh]
    rfl
  · rw [a8]
    have ip : Is ((Arith.lit 86400 : F64) *. f) (RN (86400 * v f)) :=
      lit86400_is.mul (Is.self hf)
        (small_le_HUGE (by rw [abs_of_nonneg (by linarith)]; norm_num; linarith))
    rw [ip.val]
    have herr := RN_err (86400 * v f)
    have hU : 1 / (2 * U) ≤ 1 / 2 ^ 53 := U_inv_small.trans (by norm_num)
    have herr' : |RN (86400 * v f) - 86400 * v f| ≤ 86400 / 2 ^ 53 := by
      refine herr.trans (max_le ?_ (hU.trans (by norm_num)))
      rw [abs_of_nonneg (by linarith)]
      apply div_le_div_of_nonneg_right _ (by norm_num)
      linarith
    have b1 := abs_le.mp he
    have b2 := abs_le.mp herr'
    rw [abs_le]
    constructor <;> linarith [b1.1, b1.2, b2.1, b2.2]

example : GregorianDateHMS.fromJulian .checked (Arith.lit 2451545 : F64) (Arith.lit 0.25) =
    .ok (.ok ⟨⟨2000, 1, 1⟩, ⟨18, 0, Arith.lit 0⟩⟩) := by decide +kernel

end Verif
