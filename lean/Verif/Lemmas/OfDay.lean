import Verif.Lemmas.ToJulian

/-!
# `from_julian`, integer part
-/

namespace Verif
open Spec

theorem tdiv_nonneg {a : ℤ} (b : ℤ) (h : 0 ≤ a) : a.tdiv b = a / b := Int.tdiv_eq_ediv_of_nonneg h

/-- Day within the 100-year block. -/
theorem stage1 (L n : ℤ) (hn : n = 4 * L / 146097) :
    0 ≤ L - (146097 * n + 3) / 4 ∧ L - (146097 * n + 3) / 4 ≤ 36524 ∧
    (L - (146097 * n + 3) / 4 = 36524 → n % 4 = 0) := by
  have h1 : 146097 * n ≤ 4 * L := by omega
  have h2 : 4 * L < 146097 * n + 146097 := by omega
  clear hn
  obtain ⟨q, c, hq, hc0, hc1⟩ : ∃ q c : ℤ, n = 4 * q + c ∧ 0 ≤ c ∧ c ≤ 3 :=
    ⟨n / 4, n % 4, by omega, by omega, by omega⟩
  subst hq
  interval_cases c <;> omega

/-- Day within the year (counted from March). -/
theorem stage2 (l i : ℤ) (h0 : 0 ≤ l) (h1 : l ≤ 36524) (hi : i = 4000 * (l + 1) / 1461001) :
    0 ≤ i ∧ i ≤ 99 ∧ 1461 * i / 4 ≤ l ∧ l - 1461 * i / 4 ≤ 365 ∧
    (l - 1461 * i / 4 = 365 → i % 4 = 3 ∧ (i = 99 → l = 36524)) := by
  have i0 : 0 ≤ i := by omega
  have i1 : i ≤ 99 := by omega
  have h2 : 1461001 * i ≤ 4000 * (l + 1) := by omega
  have h3 : 4000 * (l + 1) < 1461001 * i + 1461001 := by omega
  clear hi
  obtain ⟨q, c, hq, hc0, hc1⟩ : ∃ q c : ℤ, i = 4 * q + c ∧ 0 ≤ c ∧ c ≤ 3 :=
    ⟨i / 4, i % 4, by omega, by omega, by omega⟩
  subst hq
  interval_cases c <;> omega

theorem ofDay_ok (p : Profile) (jd : ℤ) (h1 : -68569 ≤ jd) (h2 : jd ≤ 536802342) :
    ∃ d : GregorianDate, GregorianDate.ofDay p jd = .ok d ∧ IsDate d.civil ∧ -4900 ≤ d.year ∧
      mjdN d.year d.month d.day = jd - 2400001 := by
  unfold GregorianDate.ofDay
  rw [I32.add_ok (by omega) (by omega), ok_bind]
  obtain ⟨L, hL⟩ : ∃ L, L = jd + 68569 := ⟨_, rfl⟩
  rw [← hL]
  rw [I32.mul_ok (by omega) (by omega), ok_bind, tdiv_nonneg _ (by omega)]
  obtain ⟨n, hn⟩ : ∃ n, n = 4 * L / 146097 := ⟨_, rfl⟩
  rw [← hn]
  have hn0 : 0 ≤ n := by omega
  have hn1 : n ≤ 14699 := by omega
  simp only
  rw [I32.mul_ok (by omega) (by omega), ok_bind]
  rw [I32.add_ok (by omega) (by omega), ok_bind]
  rw [tdiv_nonneg _ (by omega)]
  obtain ⟨l1, hl1⟩ : ∃ l1, l1 = L - (146097 * n + 3) / 4 := ⟨_, rfl⟩
  obtain ⟨a1, a2, a3⟩ := stage1 L n hn
  rw [← hl1] at a1 a2 a3
  rw [I32.sub_ok (by omega) (by omega), ok_bind, ← hl1]
  rw [I32.add_ok (by omega) (by omega), ok_bind]
  rw [I32.mul_ok (by omega) (by omega), ok_bind]
  rw [tdiv_nonneg _ (by omega)]
  obtain ⟨i, hi⟩ : ∃ i, i = 4000 * (l1 + 1) / 1461001 := ⟨_, rfl⟩
  rw [← hi]
  obtain ⟨i0, i1, b1, b2, b3⟩ := stage2 l1 i a1 a2 hi
  rw [I32.mul_ok (by omega) (by omega), ok_bind, tdiv_nonneg _ (by omega)]
  rw [I32.sub_ok (by omega) (by omega), ok_bind, I32.add_ok (by omega) (by omega), ok_bind]
  obtain ⟨l2, hl2⟩ : ∃ l2, l2 = l1 - 1461 * i / 4 + 31 := ⟨_, rfl⟩
  rw [← hl2]
  have c1 : 31 ≤ l2 := by omega
  have c2 : l2 ≤ 396 := by omega
  have c3 : l2 = 396 → i % 4 = 3 ∧ (i = 99 → n % 4 = 0) := by
    intro h
    obtain ⟨u1, u2⟩ := b3 (by omega)
    exact ⟨u1, fun h9 => a3 (u2 h9)⟩
  rw [I32.mul_ok (by omega) (by omega), ok_bind, tdiv_nonneg _ (by omega)]
  obtain ⟨k, hk⟩ : ∃ k, k = 80 * l2 / 2447 := ⟨_, rfl⟩
  rw [← hk]
  have k0 : 1 ≤ k := by omega
  have k1 : k ≤ 12 := by omega
  rw [I32.mul_ok (by omega) (by omega), ok_bind, tdiv_nonneg _ (by omega)]
  rw [I32.sub_ok (by omega) (by omega), ok_bind]
  rw [tdiv_nonneg (a := k) _ (by omega)]
  rw [I32.add_ok (by omega) (by omega), ok_bind]
  rw [I32.mul_ok (by omega) (by omega), ok_bind]
  rw [I32.sub_ok (by omega) (by omega), ok_bind]
  rw [I32.sub_ok (by omega) (by omega), ok_bind]
  rw [I32.mul_ok (by omega) (by omega), ok_bind]
  rw [I32.add_ok (by omega) (by omega), ok_bind]
  rw [I32.add_ok (by omega) (by omega), ok_bind]
  refine ⟨_, rfl, ?_, ?_, ?_⟩
  · unfold IsDate GregorianDate.civil
    simp only
    have hM := monthLen_cases (100 * (n - 49) + i + k / 11) (k + 2 - 12 * (k / 11))
      (by omega) (by omega)
    clear hn hL hl1 hl2 hi a1 a2 a3 b1 b2 b3
    refine ⟨by omega, by omega, by omega, ?_⟩
    interval_cases k <;> omega
  · simp only; omega
  · simp only
    have hc := mjdN_cases (100 * (n - 49) + i + k / 11) (k + 2 - 12 * (k / 11))
      (l2 - 2447 * k / 80)
    obtain ⟨A, hA⟩ : ∃ A, A = 100 * (n - 49) + i := ⟨_, rfl⟩
    have A1 : A / 100 = n - 49 := by omega
    have A2 : A / 4 = 25 * (n - 49) + i / 4 := by omega
    have A3 : A / 400 = (n - 49) / 4 := by omega
    have hm : mjdN (100 * (n - 49) + i + k / 11) (k + 2 - 12 * (k / 11)) (l2 - 2447 * k / 80)
        = 365 * A + A / 4 - A / 100 + A / 400 + l2 - 678912 := by
      rw [← hA] at hc ⊢
      clear hA A1 A2 A3 hn hL hl1 hl2 hi a1 a2 a3 b1 b2 b3 c3
      interval_cases k <;> simp at hc ⊢ <;> omega
    rw [hm, A1, A2, A3, hA, hl2]
    have L1 : L = l1 + (146097 * n + 3) / 4 := by omega
    have L2 : (146097 * n + 3) / 4 = 36524 * n + (n + 3) / 4 := by omega
    have L3 : 1461 * i / 4 = 365 * i + i / 4 := by omega
    have L4 : (n - 49) / 4 = (n + 3) / 4 - 13 := by omega
    rw [L3, L4]
    rw [L2] at L1
    clear hc hm A1 A2 A3 L2 L3 L4 hk k0 k1 hl2 hn hi a3 b1 b2 b3 c1 c2 c3
    generalize (n + 3) / 4 = u at *
    generalize i / 4 = w at *
    omega

theorem ofDay_checked_overflow (jd : ℤ) (h1 : 536802343 ≤ jd) :
    GregorianDate.ofDay .checked jd = .error .overflow := by
  unfold GregorianDate.ofDay
  by_cases h : jd + 68569 ≤ 2147483647
  · rw [I32.add_ok (by omega) h, ok_bind]
    have : I32.mul .checked 4 (jd + 68569) = .error .overflow :=
      I32.norm_checked (by unfold I32.InRange; omega)
    rw [this, err_bind]
  · have : I32.add .checked jd 68569 = .error .overflow :=
      I32.norm_checked (by unfold I32.InRange; omega)
    rw [this, err_bind]

theorem tdiv_neg_bounds (a b : ℤ) (ha : a ≤ 0) (hb : 0 < b) :
    a ≤ b * a.tdiv b ∧ b * a.tdiv b < a + b := by
  have := Int.tdiv_eq_ediv_of_nonneg (a := -a) (b := b) (by omega)
  have h2 : a.tdiv b = -((-a) / b) := by
    rw [← this, Int.neg_tdiv, neg_neg]
  rw [h2]
  have h3 := Int.mul_ediv_add_emod (-a) b
  have h4 := Int.emod_nonneg (-a) hb.ne'
  have h5 := Int.emod_lt_of_pos (-a) hb
  constructor <;> nlinarith

/-- In a wrapping build the day field comes out near `2^30`: no calendar date. -/
theorem ofDay_wrapping_wrong (jd : ℤ) (h1 : 536802343 ≤ jd) (h2 : jd ≤ 1000000100) :
    ∃ d : GregorianDate, GregorianDate.ofDay .wrapping jd = .ok d ∧ ¬ IsDate d.civil := by
  unfold GregorianDate.ofDay
  rw [I32.add_ok (by omega) (by omega), ok_bind]
  obtain ⟨L, hL⟩ : ∃ L, L = jd + 68569 := ⟨_, rfl⟩
  rw [← hL]
  have e1 : I32.mul .wrapping 4 L = .ok (4 * L - 4294967296) := by
    unfold I32.mul
    rw [I32.norm_wrapping]
    congr 1
    unfold I32.wrap
    omega
  rw [e1, ok_bind]
  obtain ⟨g1, g2⟩ := tdiv_neg_bounds (4 * L - 4294967296) 146097 (by omega) (by omega)
  obtain ⟨n, hn⟩ : ∃ n, n = (4 * L - 4294967296).tdiv 146097 := ⟨_, rfl⟩
  rw [← hn] at g1 g2 ⊢
  simp only
  rw [I32.mul_ok (by omega) (by omega), ok_bind]
  rw [I32.add_ok (by omega) (by omega), ok_bind]
  obtain ⟨t, ht⟩ : ∃ t, t = (146097 * n + 3).tdiv 4 := ⟨_, rfl⟩
  have t1 : 146097 * n + 3 - 3 ≤ 4 * t ∧ 4 * t ≤ 146097 * n + 3 + 3 := by
    rcases le_total 0 (146097 * n + 3) with h | h
    · have := tdiv_nonneg 4 h
      omega
    · obtain ⟨u1, u2⟩ := tdiv_neg_bounds (146097 * n + 3) 4 h (by omega)
      omega
  rw [← ht]
  rw [I32.sub_ok (by omega) (by omega), ok_bind]
  obtain ⟨r, hr⟩ : ∃ r, r = L - t - 1073741824 := ⟨_, rfl⟩
  have r1 : -36528 ≤ r := by omega
  have r2 : r ≤ 2 := by omega
  have e2 : L - t = r + 1073741824 := by omega
  rw [e2, I32.add_ok (by omega) (by omega), ok_bind]
  have e3 : I32.mul .wrapping 4000 (r + 1073741824 + 1) = .ok (4000 * (r + 1)) := by
    unfold I32.mul
    rw [I32.norm_wrapping]
    congr 1
    unfold I32.wrap
    omega
  rw [e3, ok_bind]
  obtain ⟨i, hi⟩ : ∃ i, i = (4000 * (r + 1)).tdiv 1461001 := ⟨_, rfl⟩
  have i1 : -101 ≤ i ∧ i ≤ 0 := by
    rcases le_total 0 (4000 * (r + 1)) with h | h
    · have := tdiv_nonneg 1461001 h
      omega
    · obtain ⟨u1, u2⟩ := tdiv_neg_bounds (4000 * (r + 1)) 1461001 h (by omega)
      omega
  rw [← hi]
  rw [I32.mul_ok (by omega) (by omega), ok_bind]
  obtain ⟨s, hs⟩ : ∃ s, s = (1461 * i).tdiv 4 := ⟨_, rfl⟩
  have s1 : -36891 ≤ s ∧ s ≤ 0 := by
    obtain ⟨u1, u2⟩ := tdiv_neg_bounds (1461 * i) 4 (by omega) (by omega)
    omega
  rw [← hs]
  rw [I32.sub_ok (by omega) (by omega), ok_bind, I32.add_ok (by omega) (by omega), ok_bind]
  obtain ⟨q, hq⟩ : ∃ q, q = r - s + 31 := ⟨_, rfl⟩
  have e4 : r + 1073741824 - s + 31 = q + 1073741824 := by omega
  have q1 : -36497 ≤ q ∧ q ≤ 36924 := by omega
  rw [e4]
  have e5 : I32.mul .wrapping 80 (q + 1073741824) = .ok (80 * q) := by
    unfold I32.mul
    rw [I32.norm_wrapping]
    congr 1
    unfold I32.wrap
    omega
  rw [e5, ok_bind]
  obtain ⟨k, hk⟩ : ∃ k, k = (80 * q).tdiv 2447 := ⟨_, rfl⟩
  have k1 : -1200 ≤ k ∧ k ≤ 1210 := by
    rcases le_total 0 (80 * q) with h | h
    · have := tdiv_nonneg 2447 h
      omega
    · obtain ⟨u1, u2⟩ := tdiv_neg_bounds (80 * q) 2447 h (by omega)
      omega
  rw [← hk]
  rw [I32.mul_ok (by omega) (by omega), ok_bind]
  obtain ⟨z, hz⟩ : ∃ z, z = (2447 * k).tdiv 80 := ⟨_, rfl⟩
  have z1 : -40000 ≤ z ∧ z ≤ 40000 := by
    rcases le_total 0 (2447 * k) with h | h
    · have := tdiv_nonneg 80 h
      omega
    · obtain ⟨u1, u2⟩ := tdiv_neg_bounds (2447 * k) 80 h (by omega)
      omega
  rw [← hz]
  rw [I32.sub_ok (by omega) (by omega), ok_bind]
  have l1 : -200 ≤ k.tdiv 11 ∧ k.tdiv 11 ≤ 200 := by
    rcases le_total 0 k with h | h
    · have := tdiv_nonneg 11 h
      omega
    · obtain ⟨u1, u2⟩ := tdiv_neg_bounds k 11 h (by omega)
      omega
  obtain ⟨l, hl⟩ : ∃ l, l = k.tdiv 11 := ⟨_, rfl⟩
  rw [← hl] at l1 ⊢
  rw [I32.add_ok (by omega) (by omega), ok_bind]
  rw [I32.mul_ok (by omega) (by omega), ok_bind]
  rw [I32.sub_ok (by omega) (by omega), ok_bind]
  rw [I32.sub_ok (by omega) (by omega), ok_bind]
  rw [I32.mul_ok (by omega) (by omega), ok_bind]
  rw [I32.add_ok (by omega) (by omega), ok_bind]
  rw [I32.add_ok (by omega) (by omega), ok_bind]
  refine ⟨_, rfl, ?_⟩
  rintro ⟨_, _, _, h4⟩
  simp only [GregorianDate.civil] at h4
  have := monthLen_le (100 * (n - 49) + i + l) (k + 2 - 12 * l)
  omega

end Verif
