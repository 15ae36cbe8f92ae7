import Verif.Lemmas.Calendar

/-!
# `to_julian`, integer part
-/

namespace Verif
open Spec

/-- The fields of a model date as a civil date of the specification. -/
def GregorianDate.civil (d : GregorianDate) : Civil := (d.year, d.month, d.day)

theorem new_spec (y m d : ℤ) :
    GregorianDate.new y m d =
      if y < -4799 then .error .badYear
      else if ¬ (1 ≤ m ∧ m ≤ 12) then .error .badMonth
      else if ¬ IsDate (y, m, d) then .error .badDay
      else .ok ⟨y, m, d⟩ := by
  unfold GregorianDate.new YEAR_MIN
  split
  · rfl
  · by_cases hm : 1 ≤ m ∧ m ≤ 12
    · have hm' : ¬ (m < 1 ∨ m > 12) := by omega
      simp only [Bool.or_eq_true, decide_eq_true_eq, hm', if_false, hm]
      have h4 : ∀ k : ℤ, y.tmod k = 0 ↔ k ∣ y := fun k => (Int.dvd_iff_tmod_eq_zero).symm
      have hlen : (if m = 2 then
            if (decide (y.tmod 100 = 0) && decide (y.tmod 400 ≠ 0)) = true then 28
            else if y.tmod 4 = 0 then 29 else MTAB.getD (m - 1).toNat 0
          else MTAB.getD (m - 1).toNat 0) = monthLen y m := by
        obtain ⟨ha, hb⟩ := hm
        unfold monthLen Leap
        simp only [Bool.and_eq_true, decide_eq_true_eq, ne_eq, h4]
        interval_cases m <;> simp [MTAB]
        split_ifs <;> first | rfl | omega
      simp only [hlen]
      have e : (d < 1 ∨ d > monthLen y m) ↔ ¬ IsDate (y, m, d) := by
        unfold IsDate; simp only; omega
      by_cases hd : IsDate (y, m, d)
      · have := e.not.mpr (not_not.mpr hd)
        simp [this, hd]
      · have := e.mpr hd
        simp [this, hd]
    · have hm' : m < 1 ∨ m > 12 := by omega
      simp [hm', hm]

theorem century_eq (a : ℤ) : 1461 * (a + 4800) / 4 - 3 * ((a + 4900) / 100) / 4 =
    365 * a + a / 4 - a / 100 + a / 400 + 1753164 := by
  have h1 : (a + 4900) / 100 = a / 100 + 49 := by omega
  have h2 : a / 400 = a / 100 / 4 := by omega
  have h3 : 1461 * (a + 4800) / 4 = 365 * a + a / 4 + 1753200 := by omega
  rw [h1, h2, h3]
  generalize a / 100 = c
  omega

/-- Year counted from March. -/
def marchYear (d : GregorianDate) : ℤ := if d.month ≤ 2 then d.year - 1 else d.year

/-- Also for March to December of the year -4800, which `new` rejects but `from_julian` returns. -/
theorem toJulianDay_ok' (p : Profile) (d : GregorianDate) (h : IsDate d.civil) (hy : -4800 ≤ marchYear d)
    (hY : marchYear d ≤ 1465072) :
    d.toJulianDay p = .ok (mjdN d.year d.month d.day) := by
  obtain ⟨y, m, dd⟩ := d
  obtain ⟨h1, h2, h3, h4⟩ := h
  simp only [GregorianDate.civil] at h1 h2 h3 h4 hy ⊢
  have h5 := monthLen_le y m
  have hmy : (m - 14).tdiv 12 = if m ≤ 2 then -1 else 0 := by
    interval_cases m <;> decide
  unfold marchYear at hY hy
  simp only at hY hy
  unfold GregorianDate.toJulianDay
  simp only
  rw [I32.sub_ok (by omega) (by omega), ok_bind, hmy]
  obtain ⟨a, ha⟩ : ∃ a, a = y + (if m ≤ 2 then -1 else 0) := ⟨_, rfl⟩
  have ha1 : -4800 ≤ a := by rw [ha]; split at hy <;> split <;> omega
  have ha2 : a ≤ 1465072 := by rw [ha]; split at hY <;> split <;> omega
  rw [I32.add_ok (by rw [← ha]; omega) (by rw [← ha]; omega), ok_bind, ← ha]
  rw [I32.add_ok (by omega) (by omega), ok_bind]
  rw [I32.mul_ok (by omega) (by omega), ok_bind]
  rw [I32.sub_ok (x := m) (by omega) (by omega), ok_bind]
  rw [I32.mul_ok (x := 12) (by split <;> omega) (by split <;> omega), ok_bind]
  rw [I32.sub_ok (by split <;> omega) (by split <;> omega), ok_bind]
  rw [I32.mul_ok (x := 367) (by split <;> omega) (by split <;> omega), ok_bind]
  rw [I32.add_ok (x := a) (by omega) (by omega), ok_bind]
  have e1 : (1461 * (a + 4800)).tdiv 4 = 1461 * (a + 4800) / 4 :=
    Int.tdiv_eq_ediv_of_nonneg (by omega)
  have e2 : (a + 4900).tdiv 100 = (a + 4900) / 100 := Int.tdiv_eq_ediv_of_nonneg (by omega)
  have e3 : (3 * ((a + 4900) / 100)).tdiv 4 = (3 * ((a + 4900) / 100)) / 4 :=
    Int.tdiv_eq_ediv_of_nonneg (by omega)
  have e4 : (367 * (m - 2 - 12 * (if m ≤ 2 then -1 else 0))).tdiv 12 =
      (367 * (m - 2 - 12 * (if m ≤ 2 then -1 else 0))) / 12 :=
    Int.tdiv_eq_ediv_of_nonneg (by split <;> omega)
  rw [e1, e2, e4]
  rw [I32.mul_ok (by omega) (by omega), ok_bind, e3]
  have b1 : 0 ≤ (367 * (m - 2 - 12 * (if m ≤ 2 then -1 else 0))) / 12 := by split <;> omega
  have b2 : (367 * (m - 2 - 12 * (if m ≤ 2 then -1 else 0))) / 12 ≤ 400 := by split <;> omega
  obtain ⟨b, hb⟩ : ∃ b, b = (367 * (m - 2 - 12 * (if m ≤ 2 then -1 else 0))) / 12 := ⟨_, rfl⟩
  rw [← hb] at b1 b2 ⊢
  rw [I32.add_ok (by omega) (by omega), ok_bind]
  rw [I32.sub_ok (by omega) (by omega), ok_bind]
  rw [I32.add_ok (by omega) (by omega), ok_bind]
  rw [I32.sub_ok (by omega) (by omega)]
  congr 1
  unfold mjdN
  simp only
  split at ha <;> rename_i hm
  · simp only [if_pos hm] at hb ⊢
    have hc := century_eq (y - 1)
    have : a = y - 1 := by omega
    subst this
    omega
  · simp only [if_neg hm] at hb ⊢
    have hc := century_eq y
    have : a = y := by omega
    subst this
    omega

theorem toJulianDay_ok (p : Profile) (d : GregorianDate) (h : IsDate d.civil) (hy : -4799 ≤ d.year)
    (hY : marchYear d ≤ 1465072) :
    d.toJulianDay p = .ok (mjdN d.year d.month d.day) :=
  toJulianDay_ok' p d h (by unfold marchYear; split <;> omega) hY

theorem toJulianDay_checked_overflow (d : GregorianDate) (h : IsDate d.civil)
    (hr : I32.InRange d.year) (hY : 1465073 ≤ marchYear d) :
    d.toJulianDay .checked = .error .overflow := by
  obtain ⟨y, m, dd⟩ := d
  obtain ⟨h1, h2, h3, h4⟩ := h
  simp only [GregorianDate.civil] at h1 h2 h3 h4 hr ⊢
  have hmy : (m - 14).tdiv 12 = if m ≤ 2 then -1 else 0 := by
    interval_cases m <;> decide
  unfold marchYear at hY
  unfold I32.InRange at hr
  simp only at hY
  unfold GregorianDate.toJulianDay
  simp only
  rw [I32.sub_ok (by omega) (by omega), ok_bind, hmy]
  obtain ⟨a, ha⟩ : ∃ a, a = y + (if m ≤ 2 then -1 else 0) := ⟨_, rfl⟩
  have ha1 : 1465073 ≤ a := by rw [ha]; split at hY <;> split <;> omega
  have ha2 : a ≤ 2147483647 := by rw [ha]; split at hY <;> split <;> omega
  rw [I32.add_ok (by rw [← ha]; omega) (by rw [← ha]; omega), ok_bind, ← ha]
  by_cases h48 : a + 4800 ≤ 2147483647
  · rw [I32.add_ok (by omega) h48, ok_bind]
    have : I32.mul .checked 1461 (a + 4800) = .error .overflow :=
      I32.norm_checked (by unfold I32.InRange; omega)
    rw [this, err_bind]
  · have : I32.add .checked a 4800 = .error .overflow :=
      I32.norm_checked (by unfold I32.InRange; omega)
    rw [this, err_bind]

theorem toJulianDay_wrapping_wrong (d : GregorianDate) (h : IsDate d.civil)
    (hr : I32.InRange d.year) (hY : 1465073 ≤ marchYear d) :
    ∃ r, d.toJulianDay .wrapping = .ok r ∧ I32.InRange r ∧ r ≠ mjdN d.year d.month d.day := by
  obtain ⟨y, m, dd⟩ := d
  obtain ⟨h1, h2, h3, h4⟩ := h
  simp only [GregorianDate.civil] at h1 h2 h3 h4 hr ⊢
  have h5 := monthLen_le y m
  have hmy : (m - 14).tdiv 12 = if m ≤ 2 then -1 else 0 := by
    interval_cases m <;> decide
  unfold marchYear at hY
  unfold I32.InRange at hr
  simp only at hY
  unfold GregorianDate.toJulianDay
  simp only
  rw [I32.sub_ok (by omega) (by omega), ok_bind, hmy]
  obtain ⟨a, ha⟩ : ∃ a, a = y + (if m ≤ 2 then -1 else 0) := ⟨_, rfl⟩
  have ha1 : 1465073 ≤ a := by rw [ha]; split at hY <;> split <;> omega
  have ha2 : a ≤ 2147483647 := by rw [ha]; split at hY <;> split <;> omega
  rw [I32.add_ok (by rw [← ha]; omega) (by rw [← ha]; omega), ok_bind, ← ha]
  rw [I32.sub_ok (x := m) (by omega) (by omega)]
  simp only [ok_bind]
  rw [I32.mul_ok (x := 12) (by split <;> omega) (by split <;> omega)]
  simp only [ok_bind]
  rw [I32.sub_ok (x := m - 2) (by split <;> omega) (by split <;> omega)]
  simp only [ok_bind]
  rw [I32.mul_ok (x := 367) (by split <;> omega) (by split <;> omega)]
  have e4 : (367 * (m - 2 - 12 * (if m ≤ 2 then -1 else 0))).tdiv 12 =
      (367 * (m - 2 - 12 * (if m ≤ 2 then -1 else 0))) / 12 :=
    Int.tdiv_eq_ediv_of_nonneg (by split <;> omega)
  simp only [ok_bind, e4]
  obtain ⟨b, hb⟩ : ∃ b, b = (367 * (m - 2 - 12 * (if m ≤ 2 then -1 else 0))) / 12 := ⟨_, rfl⟩
  have b1 : 0 ≤ b := by rw [hb]; split <;> omega
  have b2 : b ≤ 400 := by rw [hb]; split <;> omega
  rw [← hb]
  -- the true value
  have htrue : mjdN y m dd = 1461 * (a + 4800) / 4 + b - (3 * ((a + 4900) / 100)) / 4 + dd - 2432076 := by
    unfold mjdN
    simp only
    split at ha <;> rename_i hm
    · simp only [if_pos hm] at hb ⊢
      have hc := century_eq (y - 1)
      have : a = y - 1 := by omega
      subst this
      omega
    · simp only [if_neg hm] at hb ⊢
      have hc := century_eq y
      have : a = y := by omega
      subst this
      omega
  unfold I32.add I32.sub I32.mul
  simp only [I32.norm_wrapping, ok_bind]
  refine ⟨_, rfl, I32.wrap_range _, ?_⟩
  rw [htrue]
  by_cases hbig : 6000000 ≤ a
  · have := I32.wrap_range
      (I32.wrap
            (I32.wrap
                (I32.wrap
                  ((I32.wrap (1461 * I32.wrap (a + 4800))).tdiv 4 + b) -
                  (I32.wrap (3 * (I32.wrap (a + 4900)).tdiv 100)).tdiv 4) +
              dd) -
          2432076)
    unfold I32.InRange at this
    omega
  · have w1 : I32.wrap (a + 4800) = a + 4800 := by unfold I32.wrap; omega
    have w2 : I32.wrap (a + 4900) = a + 4900 := by unfold I32.wrap; omega
    rw [w1, w2]
    have e2 : (a + 4900).tdiv 100 = (a + 4900) / 100 := Int.tdiv_eq_ediv_of_nonneg (by omega)
    rw [e2]
    have w3 : I32.wrap (3 * ((a + 4900) / 100)) = 3 * ((a + 4900) / 100) := by unfold I32.wrap; omega
    rw [w3]
    have e3 : (3 * ((a + 4900) / 100)).tdiv 4 = (3 * ((a + 4900) / 100)) / 4 :=
      Int.tdiv_eq_ediv_of_nonneg (by omega)
    rw [e3]
    obtain ⟨c, hc⟩ : ∃ c, c = (3 * ((a + 4900) / 100)) / 4 := ⟨_, rfl⟩
    rw [← hc]
    have c1 : 0 ≤ c := by omega
    have c2 : c ≤ 50000 := by omega
    obtain ⟨X, hX⟩ : ∃ X, X = 1461 * (a + 4800) := ⟨_, rfl⟩
    rw [← hX]
    have x1 : 2147483648 ≤ X := by omega
    have x2 : X ≤ 9000000000 := by omega
    have hw : I32.wrap X = X - 4294967296 ∨ I32.wrap X = X - 8589934592 := by
      unfold I32.wrap; omega
    have hwr := I32.wrap_range X
    unfold I32.InRange at hwr
    obtain ⟨w, hwe⟩ : ∃ w, w = I32.wrap X := ⟨_, rfl⟩
    rw [← hwe] at hw hwr ⊢
    have ht : w.tdiv 4 = w / 4 ∨ w.tdiv 4 = w / 4 + 1 := by
      have := Int.tdiv_eq_ediv (a := w) (b := 4)
      rw [this]
      split
      · left; simp
      · right; simp
    obtain ⟨t, htt⟩ : ∃ t, t = w.tdiv 4 := ⟨_, rfl⟩
    rw [← htt] at ht ⊢
    clear hX hc ha hb htrue e2 e3 e4 w1 w2 w3 hmy htt hwe
    have q1 := I32.wrap_mod (t + b)
    obtain ⟨v1, hv1⟩ : ∃ v, v = I32.wrap (t + b) := ⟨_, rfl⟩
    rw [← hv1] at q1 ⊢
    have q2 := I32.wrap_mod (v1 - c)
    obtain ⟨v2, hv2⟩ : ∃ v, v = I32.wrap (v1 - c) := ⟨_, rfl⟩
    rw [← hv2] at q2 ⊢
    have q3 := I32.wrap_mod (v2 + dd)
    obtain ⟨v3, hv3⟩ : ∃ v, v = I32.wrap (v2 + dd) := ⟨_, rfl⟩
    rw [← hv3] at q3 ⊢
    have q4 := I32.wrap_mod (v3 - 2432076)
    obtain ⟨v4, hv4⟩ : ∃ v, v = I32.wrap (v3 - 2432076) := ⟨_, rfl⟩
    rw [← hv4] at q4 ⊢
    omega

end Verif
