import Verif.Lemmas.EquationOfTimeSign
import Verif.Lemmas.MeanSunDates

/-!
# Dates on which the sundial is slow and dates on which it is fast
-/

namespace Verif
open Spec

theorem half_tan {w : ℝ} (h : Real.cos (w / 2) ≠ 0) :
    Real.sin w = 2 * Real.tan (w / 2) / (1 + Real.tan (w / 2) ^ 2) ∧
    Real.cos w = (1 - Real.tan (w / 2) ^ 2) / (1 + Real.tan (w / 2) ^ 2) := by
  have e : w = 2 * (w / 2) := by ring
  have hs := Real.sin_sq_add_cos_sq (w / 2)
  have d : 1 + Real.tan (w / 2) ^ 2 = 1 / Real.cos (w / 2) ^ 2 := by
    rw [Real.tan_eq_sin_div_cos]; field_simp; linarith
  constructor
  · rw [d, Real.tan_eq_sin_div_cos]
    conv_lhs => rw [e, Real.sin_two_mul]
    field_simp
  · rw [d, Real.tan_eq_sin_div_cos]
    conv_lhs => rw [e, Real.cos_two_mul]
    field_simp
    linarith

theorem sin_encl {h : ℝ} (h0 : 0 ≤ h) (h1 : h ≤ 1) :
    h - h ^ 3 / 6 - h ^ 5 / 100 ≤ Real.sin h ∧ Real.sin h ≤ h - h ^ 3 / 6 + h ^ 5 / 100 := by
  have := Real.sin_bound (x := h) (by rw [abs_of_nonneg h0]; exact h1)
  rw [abs_of_nonneg h0, abs_le] at this
  constructor <;> linarith [this.1, this.2]

/-- Tangents from the sines of a half and of a quarter. -/
theorem tan_encl {h s0 s1 c0 c1 t0 t1 : ℝ} (h0 : 0 ≤ h) (h1 : h ≤ 0.5) (a0 : s0 ≤ h - h ^ 3 / 6 - h ^ 5 / 100) (a1 : h - h ^ 3 / 6 + h ^ 5 / 100 ≤ s1)
    (s00 : 0 ≤ s0)
    (b0 : c0 ≤ 1 - 2 * ((h / 2) - (h / 2) ^ 3 / 6 + (h / 2) ^ 5 / 100) ^ 2)
    (b1 : 1 - 2 * ((h / 2) - (h / 2) ^ 3 / 6 - (h / 2) ^ 5 / 100) ^ 2 ≤ c1)
    (c00 : 0 ≤ c0) (t00 : 0 ≤ t0) (t10 : 0 ≤ t1)
    (k0 : t0 * (1 - 2 * s0 ^ 2) ≤ 2 * s0 * c0) (k1 : 2 * s1 * c1 ≤ t1 * (1 - 2 * s1 ^ 2)) :
    t0 ≤ Real.tan (2 * h) ∧ Real.tan (2 * h) ≤ t1 := by
  obtain ⟨x0, x1⟩ := sin_encl h0 (by norm_num at h1; linarith)
  obtain ⟨y0, y1⟩ := sin_encl (h := h / 2) (by linarith) (by norm_num at h1; linarith)
  have hq : 0 ≤ (h / 2) - (h / 2) ^ 3 / 6 - (h / 2) ^ 5 / 100 := by
    have : h ≤ 1 / 2 := by norm_num at h1; linarith
    have e3 : (h / 2) ^ 3 ≤ h / 2 := by
      have := pow_le_of_le_one (show 0 ≤ h / 2 by linarith) (by linarith) (show 3 ≠ 0 by norm_num); exact this
    have e5 : (h / 2) ^ 5 ≤ h / 2 := by
      have := pow_le_of_le_one (show 0 ≤ h / 2 by linarith) (by linarith) (show 5 ≠ 0 by norm_num); exact this
    linarith
  have hc : Real.cos h = 1 - 2 * Real.sin (h / 2) ^ 2 := by
    have := Real.sin_sq_add_cos_sq (h / 2)
    have e := Real.cos_two_mul (h / 2)
    rw [show 2 * (h / 2) = h by ring] at e
    linarith
  have z0 : c0 ≤ Real.cos h := by
    rw [hc]; nlinarith [mul_self_le_mul_self (hq.trans y0) y1]
  have z1 : Real.cos h ≤ c1 := by
    rw [hc]; nlinarith [mul_self_le_mul_self hq y0]
  have w0 : s0 ≤ Real.sin h := a0.trans x0
  have w1 : Real.sin h ≤ s1 := x1.trans a1
  have hs : Real.sin (2 * h) = 2 * Real.sin h * Real.cos h := Real.sin_two_mul h
  have hc2 : Real.cos (2 * h) = 1 - 2 * Real.sin h ^ 2 := by
    rw [Real.cos_two_mul]; linarith [Real.sin_sq_add_cos_sq h]
  have pos : 0 < Real.cos (2 * h) := by
    apply Real.cos_pos_of_mem_Ioo
    have := Real.pi_gt_three
    norm_num at h1
    constructor <;> linarith
  have m1 : Real.sin h * Real.cos h ≤ s1 * c1 := mul_le_mul w1 z1 (c00.trans z0) ((s00.trans w0).trans w1)
  have m0 : s0 * c0 ≤ Real.sin h * Real.cos h := mul_le_mul w0 z0 c00 (s00.trans w0)
  have q0 : s0 ^ 2 ≤ Real.sin h ^ 2 := pow_le_pow_left₀ s00 w0 2
  have q1 : Real.sin h ^ 2 ≤ s1 ^ 2 := pow_le_pow_left₀ (s00.trans w0) w1 2
  rw [Real.tan_eq_sin_div_cos]
  constructor
  · rw [le_div_iff₀ pos, hs, hc2]
    have := mul_le_mul_of_nonneg_left q0 t00
    linarith
  · rw [div_le_iff₀ pos, hs, hc2]
    have := mul_le_mul_of_nonneg_left q1 t10
    linarith

theorem tan_mono {x y : ℝ} (h1 : -1.5 ≤ x) (h2 : x ≤ y) (h3 : y ≤ 1.5) : Real.tan x ≤ Real.tan y := by
  have := Real.pi_gt_d6
  rcases h2.lt_or_eq with h | h
  · exact (Real.tan_lt_tan_of_lt_of_lt_pi_div_two (by norm_num at *; linarith) (by norm_num at *; linarith) h).le
  · rw [h]

theorem tan_735 : Real.tan 0.735 ≤ 0.905 := by
  have k := tan_encl (h := 0.36750000) (s0 := 0.35916077) (s1 := 0.35929484) (c0 := 0.93322821) (c1 := 0.93323128) (t0 := 0.90343871) (t1 := 0.90401364)
    (by norm_num) (by norm_num) (by norm_num) (by norm_num) (by norm_num) (by norm_num) (by norm_num) (by norm_num) (by norm_num)
    (by norm_num) (by norm_num) (by norm_num)
  rw [show (2 : ℝ) * 0.36750000 = 0.735 by norm_num] at k
  exact le_trans k.2 (by norm_num)

theorem tan_180 : Real.tan 0.18 ≤ 0.183 := by
  have k := tan_encl (h := 0.09000000) (s0 := 0.08987844) (s1 := 0.08987856) (c0 := 0.99595273) (c1 := 0.99595274) (t0 := 0.18196930) (t1 := 0.18196956)
    (by norm_num) (by norm_num) (by norm_num) (by norm_num) (by norm_num) (by norm_num) (by norm_num) (by norm_num) (by norm_num)
    (by norm_num) (by norm_num) (by norm_num)
  rw [show (2 : ℝ) * 0.09000000 = 0.18 by norm_num] at k
  exact le_trans k.2 (by norm_num)

theorem tan_240 : 0.244 ≤ Real.tan 0.24 := by
  have k := tan_encl (h := 0.12000000) (s0 := 0.11971175) (s1 := 0.11971225) (c0 := 0.99280863) (c1 := 0.99280864) (t0 := 0.24471571) (t1 := 0.24471680)
    (by norm_num) (by norm_num) (by norm_num) (by norm_num) (by norm_num) (by norm_num) (by norm_num) (by norm_num) (by norm_num)
    (by norm_num) (by norm_num) (by norm_num)
  rw [show (2 : ℝ) * 0.12000000 = 0.24 by norm_num] at k
  exact le_trans (by norm_num) k.1

theorem tan_6775 : Real.tan 0.6775 ≤ 0.8055 := by
  have k := tan_encl (h := 0.33875000) (s0 := 0.33222671) (s1 := 0.33231593) (c0 := 0.94317063) (c1 := 0.94317252) (t0 := 0.80422494) (t1 := 0.80456497)
    (by norm_num) (by norm_num) (by norm_num) (by norm_num) (by norm_num) (by norm_num) (by norm_num) (by norm_num) (by norm_num)
    (by norm_num) (by norm_num) (by norm_num)
  rw [show (2 : ℝ) * 0.33875000 = 0.6775 by norm_num] at k
  exact le_trans k.2 (by norm_num)

theorem tan_8233 : Real.tan 0.8233 ≤ 1.080 := by
  have k := tan_encl (h := 0.41165000) (s0 := 0.39990571) (s1 := 0.40014214) (c0 := 0.91646136) (c1 := 0.91646741) (t0 := 1.07769661) (t1 := 1.07894101)
    (by norm_num) (by norm_num) (by norm_num) (by norm_num) (by norm_num) (by norm_num) (by norm_num) (by norm_num) (by norm_num)
    (by norm_num) (by norm_num) (by norm_num)
  rw [show (2 : ℝ) * 0.41165000 = 0.8233 by norm_num] at k
  exact le_trans k.2 (by norm_num)

theorem tan_1957 : 0.197 ≤ Real.tan 0.1957 := by
  have k := tan_encl (h := 0.09785000) (s0 := 0.09769376) (s1 := 0.09769395) (c0 := 0.99521650) (c1 := 0.99521651) (t0 := 0.19823685) (t1 := 0.19823726)
    (by norm_num) (by norm_num) (by norm_num) (by norm_num) (by norm_num) (by norm_num) (by norm_num) (by norm_num) (by norm_num)
    (by norm_num) (by norm_num) (by norm_num)
  rw [show (2 : ℝ) * 0.09785000 = 0.1957 by norm_num] at k
  exact le_trans (by norm_num) k.1

theorem tan_1498 : Real.tan 0.1498 ≤ 0.1510 := by
  have k := tan_encl (h := 0.07490000) (s0 := 0.07482994) (s1 := 0.07483000) (c0 := 0.99719630) (c1 := 0.99719631) (t0 := 0.15093055) (t1 := 0.15093069)
    (by norm_num) (by norm_num) (by norm_num) (by norm_num) (by norm_num) (by norm_num) (by norm_num) (by norm_num) (by norm_num)
    (by norm_num) (by norm_num) (by norm_num)
  rw [show (2 : ℝ) * 0.07490000 = 0.1498 by norm_num] at k
  exact le_trans k.2 (by norm_num)

theorem tan_8013 : Real.tan 0.8013 ≤ 1.036 := by
  have k := tan_encl (h := 0.40065000) (s0 := 0.38982801) (s1 := 0.39003449) (c0 := 0.92080724) (c1 := 0.92081239) (t0 := 1.03138293) (t1 := 1.03241267)
    (by norm_num) (by norm_num) (by norm_num) (by norm_num) (by norm_num) (by norm_num) (by norm_num) (by norm_num) (by norm_num)
    (by norm_num) (by norm_num) (by norm_num)
  rw [show (2 : ℝ) * 0.40065000 = 0.8013 by norm_num] at k
  exact le_trans k.2 (by norm_num)

/-- Between `-1.47` and `0.36` the Sun is east of the meridian at mean noon. -/
theorem eotF_slow1 {w : ℝ} (h1 : -1.47 ≤ w) (h2 : w ≤ 0.36) : 0.0031 < eotF (Real.sin w) (Real.cos w) := by
  have hpi := Real.pi_gt_d6
  have hc : Real.cos (w / 2) ≠ 0 := (Real.cos_pos_of_mem_Ioo ⟨by norm_num at *; linarith, by norm_num at *; linarith⟩).ne'
  obtain ⟨e1, e2⟩ := half_tan hc
  have a := tan_mono (x := -0.735) (y := w / 2) (by norm_num) (by norm_num at *; linarith) (by norm_num at *; linarith)
  have b := tan_mono (x := w / 2) (y := 0.18) (by norm_num at *; linarith) (by norm_num at *; linarith) (by norm_num)
  rw [Real.tan_neg] at a
  have := eot_slow1 (t := Real.tan (w / 2)) (by have := tan_735; norm_num at *; linarith) (by have := tan_180; norm_num at *; linarith)
  rw [e1, e2]; linarith

theorem eotF_fast1 {w : ℝ} (h1 : 0.48 ≤ w) (h2 : w ≤ 1.355) : eotF (Real.sin w) (Real.cos w) < -0.0031 := by
  have hpi := Real.pi_gt_d6
  have hc : Real.cos (w / 2) ≠ 0 := (Real.cos_pos_of_mem_Ioo ⟨by norm_num at *; linarith, by norm_num at *; linarith⟩).ne'
  obtain ⟨e1, e2⟩ := half_tan hc
  have a := tan_mono (x := 0.24) (y := w / 2) (by norm_num) (by norm_num at *; linarith) (by norm_num at *; linarith)
  have b := tan_mono (x := w / 2) (y := 0.6775) (by norm_num at *; linarith) (by norm_num at *; linarith) (by norm_num)
  have := eot_fast1 (t := Real.tan (w / 2)) (by have := tan_240; norm_num at *; linarith) (by have := tan_6775; norm_num at *; linarith)
  rw [e1, e2]; linarith

/-- The chart around the longitude of 180 degrees. -/
theorem half_tan_pi {w : ℝ} (h : Real.cos ((w - Real.pi) / 2) ≠ 0) :
    Real.sin w = -(2 * Real.tan ((w - Real.pi) / 2) / (1 + Real.tan ((w - Real.pi) / 2) ^ 2)) ∧
    Real.cos w = -((1 - Real.tan ((w - Real.pi) / 2) ^ 2) / (1 + Real.tan ((w - Real.pi) / 2) ^ 2)) := by
  obtain ⟨e1, e2⟩ := half_tan h
  rw [← e1, ← e2, Real.sin_sub_pi, Real.cos_sub_pi, neg_neg, neg_neg]
  exact ⟨rfl, rfl⟩

theorem eotF_slow2 {w : ℝ} (h1 : 1.495 ≤ w) (h2 : w ≤ 2.75) : 0.0031 < eotF (Real.sin w) (Real.cos w) := by
  have hpi := Real.pi_gt_d6
  have hpi' := Real.pi_lt_d6
  have hc : Real.cos ((w - Real.pi) / 2) ≠ 0 := (Real.cos_pos_of_mem_Ioo ⟨by norm_num at *; linarith, by norm_num at *; linarith⟩).ne'
  obtain ⟨e1, e2⟩ := half_tan_pi hc
  have a := tan_mono (x := -0.8233) (y := (w - Real.pi) / 2) (by norm_num) (by norm_num at *; linarith) (by norm_num at *; linarith)
  have b := tan_mono (x := (w - Real.pi) / 2) (y := -0.1957) (by norm_num at *; linarith) (by norm_num at *; linarith) (by norm_num)
  rw [Real.tan_neg] at a b
  have := eot_slow2 (t := Real.tan ((w - Real.pi) / 2)) (by have := tan_8233; norm_num at *; linarith) (by have := tan_1957; norm_num at *; linarith)
  rw [e1, e2]; linarith

theorem eotF_fast2 {w : ℝ} (h1 : 2.842 ≤ w) (h2 : w ≤ 4.744) : eotF (Real.sin w) (Real.cos w) < -0.0031 := by
  have hpi := Real.pi_gt_d6
  have hpi' := Real.pi_lt_d6
  have hc : Real.cos ((w - Real.pi) / 2) ≠ 0 := (Real.cos_pos_of_mem_Ioo ⟨by norm_num at *; linarith, by norm_num at *; linarith⟩).ne'
  obtain ⟨e1, e2⟩ := half_tan_pi hc
  have a := tan_mono (x := -0.1498) (y := (w - Real.pi) / 2) (by norm_num) (by norm_num at *; linarith) (by norm_num at *; linarith)
  have b := tan_mono (x := (w - Real.pi) / 2) (y := 0.8013) (by norm_num at *; linarith) (by norm_num at *; linarith) (by norm_num)
  rw [Real.tan_neg] at a
  have := eot_fast2 (t := Real.tan ((w - Real.pi) / 2)) (by have := tan_1498; norm_num at *; linarith) (by have := tan_8013; norm_num at *; linarith)
  rw [e1, e2]; linarith

/-- At every longitude. -/
theorem eot_range (w : ℝ) :
    0 < 0.0765 * eotG (Real.sin w) (Real.cos w) + eotF (Real.sin w) (Real.cos w) - 0.0043 ∧
    0 < 0.0677 * eotG (Real.sin w) (Real.cos w) - eotF (Real.sin w) (Real.cos w) - 0.0043 := by
  have key : ∀ x : ℝ, 0 ≤ Real.cos x → Real.cos (x / 2) ≠ 0 ∧ -1 ≤ Real.tan (x / 2) ∧ Real.tan (x / 2) ≤ 1 := by
    intro x hx
    have h2 : Real.cos x = 2 * Real.cos (x / 2) ^ 2 - 1 := by rw [← Real.cos_two_mul]; congr 1; ring
    have hc : Real.cos (x / 2) ≠ 0 := by intro h; rw [h] at h2; norm_num at h2; linarith
    have e := (half_tan hc).2
    have d : 0 < 1 + Real.tan (x / 2) ^ 2 := by positivity
    rw [e, le_div_iff₀ d] at hx
    exact ⟨hc, abs_le.mp (abs_le_of_sq_le_sq (by linarith) (by norm_num))⟩
  rcases le_total 0 (Real.cos w) with h | h
  · obtain ⟨hc, a, b⟩ := key w h
    obtain ⟨e1, e2⟩ := half_tan hc
    rw [e1, e2]
    exact ⟨eot_low a b, eot_high a b⟩
  · obtain ⟨hc, a, b⟩ := key (w - Real.pi) (by rw [Real.cos_sub_pi]; linarith)
    obtain ⟨e1, e2⟩ := half_tan_pi hc
    rw [e1, e2]
    exact ⟨eot_low' a b, eot_high' a b⟩

/-- The longitude from the equinox of date on a given day. -/
theorem phase_of_date {y m d : ℤ} (h1 : 1901 ≤ y) (h2 : y ≤ 2098) (hd : IsDate (y, m, d)) {f : ℝ} (f0 : 0 ≤ f) (f1 : f ≤ 1) :
    ∃ (j D : ℤ) (w : ℝ), ((m ≤ 2 ∧ D = 367 * (m + 10) / 12 + d) ∨ (2 < m ∧ D = 367 * (m - 2) / 12 + d)) ∧
      |(mjdN y m d : ℝ) - 51544.5 + f| ≤ 36524 ∧
      meanLongitude ((mjdN y m d : ℝ) - 51544.5 + f) - Real.pi + 0.0244287 * (((mjdN y m d : ℝ) - 51544.5 + f) / 36525) =
        w + j * (2 * Real.pi) ∧
      -1.38816 + 0.0172027928 * (D + 27.75) - 0.01348 ≤ w ∧ w ≤ -1.38815 + 0.0172027928 * (D + 29.5) + 0.01322 := by
  obtain ⟨m1, m2, d1, d2⟩ := hd
  simp only at m1 m2 d1 d2
  have hml : monthLen y m ≤ 31 := by unfold monthLen; split_ifs <;> omega
  obtain ⟨a, D, hN, a1, a2, hD, D1, D2⟩ : ∃ a D : ℤ, mjdN y m d = 365 * a + a / 4 - a / 100 + a / 400 + D - 678912 ∧ 1900 ≤ a ∧ a ≤ 2098 ∧
      ((m ≤ 2 ∧ D = 367 * (m + 10) / 12 + d) ∨ (2 < m ∧ D = 367 * (m - 2) / 12 + d)) ∧ (0 ≤ D ∧ D ≤ 398) ∧ (a = 1900 → 300 ≤ D) := by
    rcases mjdN_cases y m d with ⟨h, e⟩ | ⟨h, e⟩
    · exact ⟨y - 1, 367 * (m + 10) / 12 + d, by rw [e]; ring, by omega, by omega, Or.inl ⟨by omega, rfl⟩, by
        rcases monthLen_cases y m m1 m2 with h' | h' | h' | h' <;> omega, by omega⟩
    · exact ⟨y, 367 * (m - 2) / 12 + d, by rw [e]; ring, by omega, by omega, Or.inr ⟨by omega, rfl⟩, by omega, by omega⟩
  obtain ⟨t, ht, t1, t2⟩ := day_count a1 a2 hN f0 f1
  generalize (mjdN y m d : ℝ) - 51544.5 + f = n at *
  have y1 : (-100 : ℝ) ≤ ((a - 2000 : ℤ) : ℝ) := by exact_mod_cast (by omega : -100 ≤ a - 2000)
  have y2 : ((a - 2000 : ℤ) : ℝ) ≤ 98 := by exact_mod_cast (by omega : a - 2000 ≤ 98)
  have D1' : (0 : ℝ) ≤ D := by exact_mod_cast D1.1
  have D2' : (D : ℝ) ≤ 398 := by exact_mod_cast D1.2
  have t1' : 27 ≤ t := by norm_num at t1; linarith
  have hn : |n| ≤ 36524 := by rw [abs_le]; constructor <;> (norm_num at *; linarith)
  have hp := phase_near (by rw [abs_le]; constructor <;> linarith) (by rw [abs_le]; constructor <;> (norm_num at *; linarith)) ht (hn.trans (by norm_num))
  rw [abs_le] at hp
  refine ⟨a - 2000, D, meanLongitude n - Real.pi + 0.0244287 * (n / 36525) - ((a - 2000 : ℤ) : ℝ) * (2 * Real.pi), hD, hn, by ring, ?_, ?_⟩
  · generalize meanLongitude n - Real.pi + 0.0244287 * (n / 36525) - ((a - 2000 : ℤ) : ℝ) * (2 * Real.pi) = w at *
    norm_num at *; linarith [hp.1]
  · generalize meanLongitude n - Real.pi + 0.0244287 * (n / 36525) - ((a - 2000 : ℤ) : ℝ) * (2 * Real.pi) = w at *
    norm_num at *; linarith [hp.2]

/-- The sundial is slow. -/
theorem eot_slow {y m d : ℤ} (h1 : 1901 ≤ y) (h2 : y ≤ 2098) (hd : IsDate (y, m, d)) (hs : SundialSlow m d) {f : ℝ} (f0 : 0 ≤ f) (f1 : f ≤ 1) :
    |(mjdN y m d : ℝ) - 51544.5 + f| ≤ 36524 ∧ ∃ (j : ℤ) (w : ℝ),
      meanLongitude ((mjdN y m d : ℝ) - 51544.5 + f) - Real.pi + 0.0244287 * (((mjdN y m d : ℝ) - 51544.5 + f) / 36525) =
        w + j * (2 * Real.pi) ∧ 0.0031 < eotF (Real.sin w) (Real.cos w) := by
  obtain ⟨j, D, w, hD, hn, hw, w1, w2⟩ := phase_of_date h1 h2 hd f0 f1
  refine ⟨hn, ?_⟩
  obtain ⟨m1, m2, d1, d2⟩ := hd
  simp only at m1 m2 d1 d2
  have hml : monthLen y m ≤ 31 := by unfold monthLen; split_ifs <;> omega
  have pi1 := Real.pi_gt_d6
  have pi2 := Real.pi_lt_d6
  have hcase : (334 ≤ D ∧ D ≤ 398) ∨ (31 ≤ D ∧ D ≤ 71) ∨ (141 ≤ D ∧ D ≤ 210) := by
    rcases hD with ⟨h, e⟩ | ⟨h, e⟩
    · left; omega
    · rcases hs with h' | h' | h' | h' | h' | h' <;> omega
  rcases hcase with ⟨a, b⟩ | ⟨a, b⟩ | ⟨a, b⟩
  · have a' : (334 : ℝ) ≤ D := by exact_mod_cast a
    have b' : (D : ℝ) ≤ 398 := by exact_mod_cast b
    refine ⟨j + 1, w - 2 * Real.pi, by rw [hw]; push_cast; ring, ?_⟩
    exact eotF_slow1 (by norm_num at *; linarith) (by norm_num at *; linarith)
  · have a' : (31 : ℝ) ≤ D := by exact_mod_cast a
    have b' : (D : ℝ) ≤ 71 := by exact_mod_cast b
    exact ⟨j, w, hw, eotF_slow1 (by norm_num at *; linarith) (by norm_num at *; linarith)⟩
  · have a' : (141 : ℝ) ≤ D := by exact_mod_cast a
    have b' : (D : ℝ) ≤ 210 := by exact_mod_cast b
    exact ⟨j, w, hw, eotF_slow2 (by norm_num at *; linarith) (by norm_num at *; linarith)⟩

/-- The sundial is fast. -/
theorem eot_fast {y m d : ℤ} (h1 : 1901 ≤ y) (h2 : y ≤ 2098) (hd : IsDate (y, m, d)) (hs : SundialFast m d) {f : ℝ} (f0 : 0 ≤ f) (f1 : f ≤ 1) :
    |(mjdN y m d : ℝ) - 51544.5 + f| ≤ 36524 ∧ ∃ (j : ℤ) (w : ℝ),
      meanLongitude ((mjdN y m d : ℝ) - 51544.5 + f) - Real.pi + 0.0244287 * (((mjdN y m d : ℝ) - 51544.5 + f) / 36525) =
        w + j * (2 * Real.pi) ∧ eotF (Real.sin w) (Real.cos w) < -0.0031 := by
  obtain ⟨j, D, w, hD, hn, hw, w1, w2⟩ := phase_of_date h1 h2 hd f0 f1
  refine ⟨hn, j, w, hw, ?_⟩
  obtain ⟨m1, m2, d1, d2⟩ := hd
  simp only at m1 m2 d1 d2
  have hml : monthLen y m ≤ 31 := by unfold monthLen; split_ifs <;> omega
  have hcase : (82 ≤ D ∧ D ≤ 129) ∨ (219 ≤ D ∧ D ≤ 326) := by
    rcases hD with ⟨h, e⟩ | ⟨h, e⟩
    · rcases hs with h' | h' | h' | h' | h' | h' | h' <;> omega
    · rcases hs with h' | h' | h' | h' | h' | h' | h' <;> omega
  rcases hcase with ⟨a, b⟩ | ⟨a, b⟩
  · have a' : (82 : ℝ) ≤ D := by exact_mod_cast a
    have b' : (D : ℝ) ≤ 129 := by exact_mod_cast b
    exact eotF_fast1 (by norm_num at *; linarith) (by norm_num at *; linarith)
  · have a' : (219 : ℝ) ≤ D := by exact_mod_cast a
    have b' : (D : ℝ) ≤ 326 := by exact_mod_cast b
    exact eotF_fast2 (by norm_num at *; linarith) (by norm_num at *; linarith)

end Verif
