import Verif.Lemmas.SplitF64
import Verif.Lemmas.SplitReal
import Verif.Model.Calendar

/-!
# Hours, minutes and seconds
-/

namespace Verif
open F64

/-- Removing an integer not exceeding a representable number below `2^53` leaves a representable
number. -/
theorem RepQ.sub_int {x : ℚ} (h : RepQ x) (z : ℤ) (h0 : 0 ≤ z) (h1 : (z : ℚ) ≤ x)
    (h2 : x < 2 ^ 53) : RepQ (x - z) := by
  obtain ⟨n, hn, e⟩ := h
  obtain ⟨k, rfl⟩ := Int.eq_ofNat_of_zero_le h0
  have hx0 : 0 ≤ x := le_trans (by exact_mod_cast h0) h1
  rw [abs_of_nonneg hx0] at e
  have hU := U_pos
  have hUN : (UN : ℚ) = U := rfl
  have hk1 : k * UN ≤ n := by
    have : ((k * UN : ℕ) : ℚ) ≤ n := by
      push_cast; rw [← e, hUN]
      exact mul_le_mul_of_nonneg_right (by exact_mod_cast h1) hU.le
    exact_mod_cast this
  have hk2 : n < 2 ^ 53 * UN := by
    have : (n : ℚ) < ((2 ^ 53 * UN : ℕ) : ℚ) := by
      push_cast; rw [← e, hUN]
      exact mul_lt_mul_of_pos_right h2 hU
    exact_mod_cast this
  have hle : ulpExp n ≤ 1074 := by
    apply ulpExp_le_of_lt
    obtain ⟨m, hm⟩ : ∃ m : ℕ, m = 1074 := ⟨_, rfl⟩
    rw [← hm]
    rw [UN_eq_pow m hm, ← pow_add] at hk2
    rwa [add_comm] at hk2
  have hd : 2 ^ ulpExp n ∣ UN := by
    obtain ⟨m, hm⟩ : ∃ m : ℕ, m = 1074 := ⟨_, rfl⟩
    rw [UN_eq_pow m hm]
    exact pow_dvd_pow 2 (by omega)
  have hrep : RepNat (n - k * UN) := by
    apply rep_of_dvd_lt (e := ulpExp n)
    · exact Nat.dvd_sub (repNat_dvd hn) (Dvd.dvd.mul_left hd k)
    · exact lt_of_le_of_lt (Nat.sub_le _ _) (lt_two_pow_ulp n)
  refine ⟨n - k * UN, hrep, ?_⟩
  have h3 : 0 ≤ x - ((k : ℤ) : ℚ) := by linarith
  rw [abs_of_nonneg h3, Nat.cast_sub hk1]
  push_cast
  rw [sub_mul, e, hUN]

/-- A representable number below 1 is at most `1 - 2^-53`. -/
theorem RepQ.lt_one {x : ℚ} (h : RepQ x) (h1 : x < 1) : x ≤ 1 - 1 / 2 ^ 53 := by
  by_cases hx : x ≤ 1 / 2
  · exact hx.trans (by norm_num)
  push Not at hx
  obtain ⟨m, hm⟩ := h.dvd (-54) (by norm_num) (by
    rw [abs_of_pos (by linarith)]
    exact le_trans (by norm_num) hx.le)
  have e : ((2 : ℚ) ^ ((-54 : ℤ) + 1)) = 1 / 2 ^ 53 := by norm_num
  rw [e] at hm
  have : (m : ℚ) < 2 ^ 53 := by
    have h3 : (m : ℚ) = x * 2 ^ 53 := by rw [hm]; field_simp
    rw [h3]
    have := mul_lt_mul_of_pos_right h1 (show (0 : ℚ) < 2 ^ 53 by norm_num)
    linarith
  have h4 : m < 2 ^ 53 := by exact_mod_cast this
  have h5 : m ≤ 2 ^ 53 - 1 := by omega
  have h6 : (m : ℚ) ≤ 2 ^ 53 - 1 := by exact_mod_cast h5
  rw [hm]
  have := mul_le_mul_of_nonneg_right h6 (show (0 : ℚ) ≤ 1 / 2 ^ 53 by norm_num)
  refine this.trans ?_
  norm_num

/-- The number of seconds of a representable fraction below 1 rounds to less than a day. -/
theorem RN_day_lt {f : ℚ} (h : RepQ f) (h1 : f < 1) : RN (86400 * f) < 86400 := by
  have hf := h.lt_one h1
  set z : ℚ := 86400 - 1 / 2 ^ 36 with hz
  have hzr : RepQ z := by
    have : z = ((86400 * 2 ^ 36 - 1 : ℤ) : ℚ) / 2 ^ 36 := by rw [hz]; norm_num
    rw [this]
    exact RepQ.dyadic _ _ (by norm_num) (by norm_num)
  by_contra hc
  push Not at hc
  have hx : 86400 * f ≤ 86400 - 86400 / 2 ^ 53 := by linarith
  by_cases hxz : 86400 * f ≤ z
  · have := RN_le_of_le hzr hxz
    have : z < 86400 := by rw [hz]; norm_num
    linarith
  · push Not at hxz
    have h2 := RN_nearest (86400 * f) hzr
    have h3 : |z - 86400 * f| = 86400 * f - z := by rw [abs_of_neg (by linarith)]; ring
    rw [h3] at h2
    have h4 := le_abs_self (RN (86400 * f) - 86400 * f)
    rw [hz] at h2
    norm_num at hx h2
    linarith

/-- The fields for a fraction of day in `[0,1]` in `f64`. -/
theorem hms_f64 {x : F64} {f : ℚ} (hx : Is x f) (h0 : 0 ≤ f) (h1 : f ≤ 1) :
    ∃ (sec : F64), HMS.fromFractionOfDay x =
        .ok ⟨⌊RN (86400 * f)⌋ / 3600, ⌊RN (86400 * f)⌋ % 3600 / 60, sec⟩ ∧
      Is sec (RN (86400 * f) - (60 * (⌊RN (86400 * f)⌋ / 60) : ℤ)) ∧
      0 ≤ RN (86400 * f) ∧ RN (86400 * f) ≤ 86400 := by
  set s : ℚ := RN (86400 * f) with hs
  have hs0 : 0 ≤ s := RN_nonneg (by linarith)
  have hs1 : s ≤ 86400 := by
    have := RN_le_of_le (x := 86400 * f) (b := 86400) (by
      have := RepQ.int 86400 (by norm_num)
      push_cast at this; exact this) (by linarith)
    exact this
  have i0 : Is (Arith.lit 0 : F64) 0 := by
    have := Is.lit_int 0 (by norm_num); push_cast at this; exact this
  have i1 : Is (Arith.lit 1 : F64) 1 := by
    have := Is.lit_int 1 (by norm_num); push_cast at this; exact this
  have i86400 : Is (Arith.lit 86400 : F64) 86400 := by
    have := Is.lit_int 86400 (by norm_num); push_cast at this; exact this
  have is : Is (Arith.lit 86400 *. x) s := i86400.mul hx (small_le_HUGE (by
    rw [abs_of_nonneg (by linarith)]; norm_num; linarith))
  have hfl : truncQ s = ⌊s⌋ := truncQ_nonneg hs0
  have it : Is (Arith.trunc (Arith.lit 86400 *. x)) (⌊s⌋ : ℤ) := by
    have := is.trunc; rwa [hfl] at this
  have fl0 : 0 ≤ ⌊s⌋ := Int.floor_nonneg.mpr hs0
  have fl1 : ⌊s⌋ ≤ 86400 := by
    have : (⌊s⌋ : ℚ) ≤ 86400 := (Int.floor_le s).trans hs1
    exact_mod_cast this
  have g : (x <. (Arith.lit 0 : F64) || (Arith.lit 1 : F64) <. x) = false := by
    rw [hx.lt i0, i1.lt hx]; simp; exact ⟨h0, h1⟩
  have hsec : Is (Arith.ofInt (⌊s⌋ % 60) +. HMS.fract (Arith.lit 86400 *. x))
      (s - (60 * (⌊s⌋ / 60) : ℤ)) := by
    have ifr : Is (HMS.fract (Arith.lit 86400 *. x)) (s - ⌊s⌋) :=
      is.sub_exact it (is.rep.sub_int _ fl0 (Int.floor_le s) (by norm_num; linarith))
        (small_lt_OVQ (by
          have := Int.floor_le s
          have := Int.lt_floor_add_one s
          rw [abs_of_nonneg (by linarith)]
          exact le_trans (b := 1) (by linarith) (by norm_num)))
    have iof : Is (Arith.ofInt (⌊s⌋ % 60) : F64) ((⌊s⌋ % 60 : ℤ) : ℚ) :=
      Is.ofInt _ (by rw [abs_le]; constructor <;> omega)
    have e : ((⌊s⌋ % 60 : ℤ) : ℚ) + (s - ⌊s⌋) = s - (60 * (⌊s⌋ / 60) : ℤ) := by
      have : ⌊s⌋ % 60 = ⌊s⌋ - 60 * (⌊s⌋ / 60) := by omega
      rw [this]; push_cast; ring
    have hle : ((60 * (⌊s⌋ / 60) : ℤ) : ℚ) ≤ s := by
      refine le_trans ?_ (Int.floor_le s)
      have : 60 * (⌊s⌋ / 60) ≤ ⌊s⌋ := by omega
      exact_mod_cast this
    have hnn : 0 ≤ 60 * (⌊s⌋ / 60) := by omega
    have := iof.add_exact ifr
      (by rw [e]; exact is.rep.sub_int _ hnn hle (by norm_num; linarith))
      (by
        rw [e]
        apply small_lt_OVQ
        rw [abs_of_nonneg (by linarith)]
        have : (0 : ℚ) ≤ ((60 * (⌊s⌋ / 60) : ℤ) : ℚ) := by exact_mod_cast hnn
        exact le_trans (b := 86400) (by linarith) (by norm_num))
    rwa [e] at this
  refine ⟨_, ?_, hsec, hs0, hs1⟩
  unfold HMS.fromFractionOfDay
  simp only [g, Bool.false_eq_true, if_false]
  rw [it.castSat_int 0 4294967295 fl0 (by omega)]
  have e1 : ⌊s⌋ / 3600 % 256 = ⌊s⌋ / 3600 := by omega
  have e2 : ⌊s⌋ % 3600 / 60 % 256 = ⌊s⌋ % 3600 / 60 := by omega
  rw [e1, e2]

/-- The fields for a fraction of day in `[0,1]` in exact arithmetic. -/
theorem hms_real {f : ℝ} (h0 : 0 ≤ f) (h1 : f ≤ 1) :
    HMS.fromFractionOfDay f =
      .ok ⟨⌊86400 * f⌋ / 3600, ⌊86400 * f⌋ % 3600 / 60,
        86400 * f - (60 * (⌊86400 * f⌋ / 60) : ℤ)⟩ := by
  have g : (f <. (Arith.lit 0 : ℝ) || (Arith.lit 1 : ℝ) <. f) = false := by
    rw [Bool.or_eq_false_iff]; simp; exact ⟨h0, h1⟩
  have e86 : (Arith.lit 86400 : ℝ) *. f = 86400 * f := by simp
  unfold HMS.fromFractionOfDay
  simp only [g, Bool.false_eq_true, if_false, e86]
  set s : ℝ := 86400 * f with hs
  have hs0 : 0 ≤ s := by positivity
  have hs1 : s ≤ 86400 := by linarith
  have fl0 : 0 ≤ ⌊s⌋ := Int.floor_nonneg.mpr hs0
  have fl1 : ⌊s⌋ ≤ 86400 := by
    have : (⌊s⌋ : ℝ) ≤ 86400 := (Int.floor_le s).trans hs1
    exact_mod_cast this
  have ht : Arith.castSat 0 4294967295 (Arith.trunc s) = ⌊s⌋ := by
    rw [trunc_real, castSat_real, truncR_int, truncR_nonneg hs0]
    omega
  rw [ht]
  have e1 : ⌊s⌋ / 3600 % 256 = ⌊s⌋ / 3600 := by omega
  have e2 : ⌊s⌋ % 3600 / 60 % 256 = ⌊s⌋ % 3600 / 60 := by omega
  rw [e1, e2]
  congr 2
  unfold HMS.fract
  rw [trunc_real, truncR_nonneg hs0, ofInt_real, add_real, sub_real]
  have : ⌊s⌋ % 60 = ⌊s⌋ - 60 * (⌊s⌋ / 60) := by omega
  rw [this]; push_cast; ring

theorem toFraction_real (h : HMS ℝ) :
    h.toFractionOfDay = (h.second + 60 * (h.minute + 60 * h.hour)) / 86400 := by
  unfold HMS.toFractionOfDay; simp

end Verif
