import Verif.Model.Time
import Verif.Float.Near
import Verif.Props.HMS

/-!
# Time scales: C22 - C25
-/

namespace Verif
open Arith F64

/-! ## C22 -/

/-- **C22.** `TT::from(TAI)` adds exactly 32.184 s, in exact arithmetic, however the date is split. -/
theorem C22_tai_to_tt_exact (t : ℝ × ℝ) :
    (TT.fromTAI t).1 + (TT.fromTAI t).2 = t.1 + t.2 + 32.184 / 86400 := by
  unfold TT.fromTAI DTAT
  simp only [lit_real, div_real, add_real]
  split <;> (simp only; push_cast; ring)

theorem dtat_near : Near (DTAT : F64) (32.184 / 86400) (1 / 2 ^ 63) := by
  have h1 := (Near.lit (32.184 : ℚ) (M := 33) (by norm_num) (by norm_num)).mono
    (show _ ≤ (33 / 2 ^ 53 + 1 / 2 ^ 100 : ℝ) from le_rfl)
  have h2 := h1.div_exact lit86400_is (by norm_num) (C := 1 / 86400)
    (by norm_num) (M := 33 / 86400) (by norm_num) (by norm_num)
  refine (h2.congr (by norm_num)).mono (by norm_num)

/-- Adding a small correction to one part of a two-part date. -/
theorem part_add {y c : F64} {b q e : ℚ} (hy : Is y b) (hc : Near c q e) (hb : |b| ≤ 2 ^ 100)
    (hq : |q| + e ≤ 2 ^ 100) :
    ∃ r, Is (y +. c) r ∧ |r - (b + q)| ≤ |b| / 2 ^ 53 + (|q| + e) / 2 ^ 53 + e + 1 / 2 ^ 100 := by
  obtain ⟨s, hs, hs'⟩ := hc.rat
  have hs1 : |s| ≤ |q| + e := by
    have : s = (s - q) + q := by ring
    rw [this]
    exact (abs_add_le _ _).trans (by linarith)
  have hbs : |b + s| ≤ |b| + (|q| + e) := (abs_add_le _ _).trans (by linarith)
  refine ⟨_, hy.add hs (small_le_HUGE (hbs.trans ?_)), ?_⟩
  · calc |b| + (|q| + e) ≤ 2 ^ 100 + 2 ^ 100 := by linarith
      _ ≤ 2 ^ 200 := by norm_num
  · have h := RN_err_le hbs
    have : RN (b + s) - (b + q) = (RN (b + s) - (b + s)) + (s - q) := by ring
    rw [this]
    refine (abs_add_le _ _).trans ?_
    have e1 : (|b| + (|q| + e)) / 2 ^ 53 = |b| / 2 ^ 53 + (|q| + e) / 2 ^ 53 := by ring
    rw [e1] at h
    linarith

theorem Is.lt_iff {x y : F64} {a b : ℚ} (hx : Is x a) (hy : Is y b) : (x <. y) = true ↔ a < b := by
  rw [hx.lt hy]; simp

/-- **C22.** In `f64`, for all finite parts (of magnitude up to `2^100`), the larger part is returned
bit for bit and the exact sum of the returned parts differs from the exact `a + b + 32.184/86400` by at
most `2^-53 * |changed part| + 2^-62` days. -/
theorem C22_tai_to_tt_f64 (x y : F64) (a b : ℚ) (hx : Is x a) (hy : Is y b) (ha : |a| ≤ 2 ^ 100)
    (hb : |b| ≤ 2 ^ 100) :
    (b < a → ∃ (z : F64) (r : ℚ), TT.fromTAI (x, y) = (x, z) ∧ Is z r ∧
      |a + r - (a + b + 32.184 / 86400)| ≤ |b| / 2 ^ 53 + 1 / 2 ^ 62) ∧
    (a ≤ b → ∃ (z : F64) (r : ℚ), TT.fromTAI (x, y) = (z, y) ∧ Is z r ∧
      |r + b - (a + b + 32.184 / 86400)| ≤ |a| / 2 ^ 53 + 1 / 2 ^ 62) := by
  have hd : Near (DTAT : F64) ((32.184 / 86400 : ℚ) : ℝ) ((1 / 2 ^ 63 : ℚ) : ℝ) := by
    refine (dtat_near.congr (by norm_num)).mono (by norm_num)
  constructor
  · intro h
    obtain ⟨r, hr, he⟩ := part_add hy hd hb (by norm_num)
    refine ⟨_, r, ?_, hr, ?_⟩
    · unfold TT.fromTAI; rw [if_pos (by exact (Is.lt_iff hy hx).mpr h)]
    · have : a + r - (a + b + 32.184 / 86400) = r - (b + 32.184 / 86400) := by ring
      rw [this]
      refine he.trans ?_
      rw [abs_of_pos (show (0 : ℚ) < 32.184 / 86400 by norm_num)]
      have : ((32.184 / 86400 : ℚ) + 1 / 2 ^ 63) / 2 ^ 53 + 1 / 2 ^ 63 + 1 / 2 ^ 100 ≤ 1 / 2 ^ 62 := by
        norm_num
      linarith
  · intro h
    obtain ⟨r, hr, he⟩ := part_add hx hd ha (by norm_num)
    refine ⟨_, r, ?_, hr, ?_⟩
    · unfold TT.fromTAI
      rw [if_neg (by simp only [Is.lt_iff hy hx]; exact not_lt.mpr h)]
    · have : r + b - (a + b + 32.184 / 86400) = r - (a + 32.184 / 86400) := by ring
      rw [this]
      refine he.trans ?_
      rw [abs_of_pos (show (0 : ℚ) < 32.184 / 86400 by norm_num)]
      have : ((32.184 / 86400 : ℚ) + 1 / 2 ^ 63) / 2 ^ 53 + 1 / 2 ^ 63 + 1 / 2 ^ 100 ≤ 1 / 2 ^ 62 := by
        norm_num
      linarith

-- a typical two-part date
example : ∃ x y : F64, Is x 2451545 ∧ Is y 0 ∧ |(2451545 : ℚ)| ≤ 2 ^ 100 :=
  ⟨lit 2451545, lit 0, by have := Is.lit_int 2451545 (by norm_num); push_cast at this; exact this,
    by have := Is.lit_int 0 (by norm_num); push_cast at this; exact this, by norm_num⟩

/-! ## C23 -/

/-- **C23.** `TAI::from_utc_delta_at` adds exactly `dat` seconds, in exact arithmetic. -/
theorem C23_utc_to_tai_exact (t : ℝ × ℝ) (dat : ℝ) :
    (TAI.fromUTC t dat).1 + (TAI.fromUTC t dat).2 = t.1 + t.2 + dat / 86400 := by
  unfold TAI.fromUTC
  simp only [lit_real, div_real, add_real]
  split <;> (simp only; push_cast; ring)

theorem div_day {d : F64} {q : ℚ} (hd : Is d q) (hq : |q| ≤ 2 ^ 100) :
    Near (d /. lit 86400) ((q / 86400 : ℚ) : ℝ) ((|q / 86400| / 2 ^ 53 + 1 / 2 ^ 100 : ℚ) : ℝ) := by
  have hh : |q / 86400| ≤ 2 ^ 200 := by
    rw [abs_div, abs_of_pos (show (0 : ℚ) < 86400 by norm_num), div_le_iff₀ (by norm_num)]
    exact hq.trans (by norm_num)
  refine ⟨_, hd.div lit86400_is (by norm_num) (small_le_HUGE hh), ?_⟩
  exact_mod_cast RN_err' (q / 86400)

theorem small_div {q : ℚ} (hq : |q| ≤ 2 ^ 100) :
    |q / 86400| + (|q / 86400| / 2 ^ 53 + 1 / 2 ^ 100) ≤ 2 ^ 100 := by
  have : |q / 86400| ≤ 2 ^ 100 / 86400 := by
    rw [abs_div, abs_of_pos (show (0 : ℚ) < 86400 by norm_num)]; gcongr
  calc |q / 86400| + (|q / 86400| / 2 ^ 53 + 1 / 2 ^ 100)
      ≤ 2 ^ 100 / 86400 + (2 ^ 100 / 86400 / 2 ^ 53 + 1 / 2 ^ 100) := by gcongr
    _ ≤ 2 ^ 100 := by norm_num

/-- Common shape of the five conversions, in `f64`: one part untouched, the other the correctly rounded
sum with the rounded correction, total error bounded. -/
theorem add_seconds {x y d : F64} {a b q : ℚ} (hx : Is x a) (hy : Is y b) (hd : Is d q)
    (hb : |b| ≤ 2 ^ 100) (hq : |q| ≤ 2 ^ 100) (hr : |b + RN (q / 86400)| ≤ HUGE) :
    Is (y +. (d /. lit 86400)) (RN (b + RN (q / 86400))) ∧
      |a + RN (b + RN (q / 86400)) - (a + b + q / 86400)| ≤
        |b| / 2 ^ 53 + 3 * |q / 86400| / 2 ^ 53 + 1 / 2 ^ 98 := by
  have _ := hx
  have hc : Is (d /. lit 86400) (RN (q / 86400)) := by
    refine hd.div lit86400_is (by norm_num) (small_le_HUGE ?_)
    rw [abs_div, abs_of_pos (show (0 : ℚ) < 86400 by norm_num), div_le_iff₀ (by norm_num)]
    exact hq.trans (by norm_num)
  have h0 := hy.add hc hr
  refine ⟨h0, ?_⟩
  obtain ⟨r, hr, he⟩ := part_add hy (div_day hd hq) hb (small_div hq)
  rw [h0.unique hr]
  have : a + r - (a + b + q / 86400) = r - (b + q / 86400) := by ring
  rw [this]
  refine he.trans ?_
  set Q := |q / 86400| with hQ
  have hQ0 : 0 ≤ Q := abs_nonneg _
  have hQ' : Q / 2 ^ 53 / 2 ^ 53 ≤ Q / 2 ^ 53 := div_le_self (by positivity) (by norm_num)
  have e1 : (Q + (Q / 2 ^ 53 + 1 / 2 ^ 100)) / 2 ^ 53
    = Q / 2 ^ 53 + Q / 2 ^ 53 / 2 ^ 53 + 1 / 2 ^ 100 / 2 ^ 53 := by ring
  have e2 : 3 * Q / 2 ^ 53 = Q / 2 ^ 53 + Q / 2 ^ 53 + Q / 2 ^ 53 := by ring
  rw [e1, e2]
  have e3 : (1 : ℚ) / 2 ^ 100 / 2 ^ 53 + 1 / 2 ^ 100 + 1 / 2 ^ 100 ≤ 1 / 2 ^ 98 := by norm_num
  linarith

theorem corr_huge {b q : ℚ} (hb : |b| ≤ 2 ^ 100) (hq : |q| ≤ 2 ^ 100) :
    |b + RN (q / 86400)| ≤ HUGE := by
  have h1 := RN_err' (q / 86400)
  have h2 := small_div hq
  have h3 : |RN (q / 86400)| ≤ 2 ^ 100 := by
    have : RN (q / 86400) = (RN (q / 86400) - q / 86400) + q / 86400 := by ring
    rw [this]
    exact (abs_add_le _ _).trans (by linarith)
  refine small_le_HUGE ((abs_add_le _ _).trans ((add_le_add hb h3).trans (by norm_num)))

/-- **C23.** In `f64`: one part (the larger) is returned bit for bit, the other is the correctly rounded
sum of the part and the correctly rounded `dat/86400`; the exact total is off by at most
`2^-53 * (|changed part| + 3*|dat|/86400) + 2^-98` days. -/
theorem C23_utc_to_tai_f64 (x y d : F64) (a b q : ℚ) (hx : Is x a) (hy : Is y b) (hd : Is d q)
    (ha : |a| ≤ 2 ^ 100) (hb : |b| ≤ 2 ^ 100) (hq : |q| ≤ 2 ^ 100) :
    (b < a → ∃ (z : F64) (r : ℚ), TAI.fromUTC (x, y) d = (x, z) ∧ Is z r ∧
      r = RN (b + RN (q / 86400)) ∧
      |a + r - (a + b + q / 86400)| ≤ |b| / 2 ^ 53 + 3 * |q / 86400| / 2 ^ 53 + 1 / 2 ^ 98) ∧
    (a ≤ b → ∃ (z : F64) (r : ℚ), TAI.fromUTC (x, y) d = (z, y) ∧ Is z r ∧
      r = RN (a + RN (q / 86400)) ∧
      |r + b - (a + b + q / 86400)| ≤ |a| / 2 ^ 53 + 3 * |q / 86400| / 2 ^ 53 + 1 / 2 ^ 98) := by
  constructor
  · intro h
    obtain ⟨h1, h2⟩ := add_seconds hx hy hd hb hq (corr_huge hb hq)
    refine ⟨_, _, ?_, h1, rfl, h2⟩
    unfold TAI.fromUTC
    simp only [if_pos ((Is.lt_iff hy hx).mpr h)]
  · intro h
    obtain ⟨h1, h2⟩ := add_seconds hy hx hd ha hq (corr_huge ha hq)
    refine ⟨_, _, ?_, h1, rfl, ?_⟩
    · unfold TAI.fromUTC
      simp only [if_neg (show ¬ (y <. x) = true by simp only [Is.lt_iff hy hx]; exact not_lt.mpr h)]
    · have e1 : RN (a + RN (q / 86400)) + b - (a + b + q / 86400)
          = b + RN (a + RN (q / 86400)) - (b + a + q / 86400) := by ring
      rw [e1]; exact h2

/-- Both orders of the parts. -/
example : ∃ x y d : F64, Is x (2451545 : ℤ) ∧ Is y (3 : ℤ) ∧ Is d (37 : ℤ) ∧ ((3 : ℤ) : ℚ) < (2451545 : ℤ) ∧
    TAI.fromUTC (x, y) d = (x, (TAI.fromUTC (y, x) d).1) :=
  ⟨Arith.ofInt 2451545, Arith.ofInt 3, Arith.ofInt 37, Is.ofInt _ (by norm_num), Is.ofInt _ (by norm_num), Is.ofInt _ (by norm_num),
    by norm_num, by decide +kernel⟩

/-! ## C24 -/

/-- **C24.** `TT::from_ut1` moves the total by exactly `+dt` seconds, `UT1::from_tt` by exactly `-dt`. -/
theorem C24_shift_exact (t : ℝ × ℝ) (dt : ℝ) :
    (TT.fromUT1 t dt).1 + (TT.fromUT1 t dt).2 = t.1 + t.2 + dt / 86400 ∧
    (UT1.fromTT t dt).1 + (UT1.fromTT t dt).2 = t.1 + t.2 - dt / 86400 := by
  unfold TT.fromUT1 UT1.fromTT D2S
  simp only [lit_real, div_real, add_real, sub_real]
  constructor <;> split <;> (simp only; push_cast; ring)

/-- **C24.** The two conversions are mutually inverse on totals, for every split and every `dt`. -/
theorem C24_inverse_total (t : ℝ × ℝ) (dt : ℝ) :
    (UT1.fromTT (TT.fromUT1 t dt) dt).1 + (UT1.fromTT (TT.fromUT1 t dt) dt).2 = t.1 + t.2 ∧
    (TT.fromUT1 (UT1.fromTT t dt) dt).1 + (TT.fromUT1 (UT1.fromTT t dt) dt).2 = t.1 + t.2 := by
  rw [(C24_shift_exact _ dt).2, (C24_shift_exact _ dt).1, (C24_shift_exact _ dt).1,
    (C24_shift_exact _ dt).2]
  constructor <;> ring

/-- **C24.** Both parts come back when the first conversion does not change which part is larger. -/
theorem C24_inverse_parts (t : ℝ × ℝ) (dt : ℝ) :
    ((t.2 < t.1 ↔ (TT.fromUT1 t dt).2 < (TT.fromUT1 t dt).1) → UT1.fromTT (TT.fromUT1 t dt) dt = t) ∧
    ((t.2 < t.1 ↔ (UT1.fromTT t dt).2 < (UT1.fromTT t dt).1) → TT.fromUT1 (UT1.fromTT t dt) dt = t) := by
  obtain ⟨a, b⟩ := t
  unfold TT.fromUT1 UT1.fromTT D2S
  simp only [lit_real, div_real, add_real, sub_real, lt_real]
  constructor <;> intro h <;> by_cases h1 : b < a
  all_goals
    simp only [h1, if_true, if_false, true_iff, false_iff] at h ⊢
    simp only [h, if_true, if_false]
    simp

-- the order is kept for the usual kind of split, and can change otherwise
example : ((0.25 : ℝ) < 2451545 ↔ (TT.fromUT1 ((2451545 : ℝ), 0.25) 70).2 < (TT.fromUT1 ((2451545 : ℝ), 0.25) 70).1) := by
  unfold TT.fromUT1 D2S; norm_num
example : ∃ (t : ℝ × ℝ) (dt : ℝ), UT1.fromTT (TT.fromUT1 t dt) dt ≠ t := by
  refine ⟨(0, 0), 86400, ?_⟩
  unfold TT.fromUT1 UT1.fromTT D2S
  norm_num

/-! ## C25 -/

/-- **C25.** `TDB::from_tt` adds exactly `dtr` seconds, in exact arithmetic. -/
theorem C25_tt_to_tdb_exact (t : ℝ × ℝ) (dtr : ℝ) :
    (TDB.fromTT t dtr).1 + (TDB.fromTT t dtr).2 = t.1 + t.2 + dtr / 86400 := by
  unfold TDB.fromTT D2S
  simp only [lit_real, div_real, add_real]
  split <;> (simp only; push_cast; ring)

/-- **C25.** With `dtr = 0` (of either sign) the values of both parts are unchanged, for all finite
`f64` parts. -/
theorem C25_tdb_zero_f64 (x y d : F64) (a b : ℚ) (hx : Is x a) (hy : Is y b) (hd : Is d 0) :
    Is (TDB.fromTT (x, y) d).1 a ∧ Is (TDB.fromTT (x, y) d).2 b := by
  have hc : Is (d /. D2S) 0 := by
    have := hd.div lit86400_is (by norm_num) (small_le_HUGE (by norm_num))
    rw [zero_div, RN_exact (by have := RepQ.int 0 (by norm_num); simpa using this)] at this
    exact this
  unfold TDB.fromTT
  simp only
  split
  · refine ⟨hx, ?_⟩
    have := hy.add_exact hc (by rw [add_zero]; exact hy.rep) (by rw [add_zero]; exact hy.lt_OVQ)
    exact this.congr (add_zero _)
  · refine ⟨?_, hy⟩
    have := hx.add_exact hc (by rw [add_zero]; exact hx.rep) (by rw [add_zero]; exact hx.lt_OVQ)
    exact this.congr (add_zero _)

/-- A time and no difference. -/
example : ∃ x y d : F64, Is x (2451545 : ℤ) ∧ Is y (3 : ℤ) ∧ Is d 0 :=
  ⟨Arith.ofInt 2451545, Arith.ofInt 3, Arith.ofInt 0, Is.ofInt _ (by norm_num), Is.ofInt _ (by norm_num),
    by have := Is.ofInt 0 (by norm_num); push_cast at this; exact this⟩

end Verif
