import Verif.Lemmas.MeanSunSky
import Verif.Lemmas.Calendar

/-!
# Which dates are light and which are dark at the poles
-/

namespace Verif
open Spec

theorem meanLongitude_near {n : ℝ} (hn : |n| ≤ 36526) : |1.75343755707 + 0.01720212396717 * n - meanLongitude n| ≤ 1e-9 := by
  have p1 := Real.pi_gt_d20
  have p2 := Real.pi_lt_d20
  rw [abs_le] at hn
  have : meanLongitude n = (100.46457166 / 180 + 35999.37244981 / 36525 / 180 * n) * Real.pi := by
    unfold meanLongitude; ring
  rw [this]
  have q1 : |(100.46457166 / 180 + 35999.37244981 / 36525 / 180 * n) * (Real.pi - 3.14159265358979323846)| ≤ 1e-15 := by
    rw [abs_mul]
    have a1 : |100.46457166 / 180 + 35999.37244981 / 36525 / 180 * n| ≤ 300 := by
      rw [abs_le]; constructor <;> (norm_num; linarith [hn.1, hn.2])
    have a2 : |Real.pi - 3.14159265358979323846| ≤ 1e-20 := by
      rw [abs_le]; constructor <;> (norm_num at *; linarith)
    refine (mul_le_mul a1 a2 (abs_nonneg _) (by norm_num)).trans (by norm_num)
  rw [abs_le] at *
  constructor <;> (norm_num at *; linarith [q1.1, q1.2, hn.1, hn.2])

/-- The phase of the seasons `t` days after the beginning of year `y`, the years being counted from 2000. -/
theorem phase_near {n t y : ℝ} (hy : |y| ≤ 100) (ht : |t| ≤ 500) (h : n = 365.25 * y + t) (hn : |n| ≤ 36526) :
    |meanLongitude n - Real.pi + 0.0244287 * (n / 36525) - y * (2 * Real.pi) -
      (1.75343755707 - 3.14159265359 + 0.0172027928 * t + 0.00013476 * y)| ≤ 2e-6 := by
  have hL := meanLongitude_near hn
  have p1 := Real.pi_gt_d20
  have p2 := Real.pi_lt_d20
  have hp : |y * (Real.pi - 3.14159265358979323846)| ≤ 100 * 1e-20 := by
    rw [abs_mul]
    refine mul_le_mul hy ?_ (abs_nonneg _) (by norm_num)
    rw [abs_le]; constructor <;> (norm_num at *; linarith)
  rw [abs_le] at *
  subst h
  generalize meanLongitude _ = L at *
  have e : y * (2 * Real.pi) = 2 * (y * (Real.pi - 3.14159265358979323846)) + 2 * 3.14159265358979323846 * y := by ring
  rw [e]
  generalize y * (Real.pi - 3.14159265358979323846) = z at *
  constructor <;> (norm_num at *; linarith [hL.1, hL.2, hy.1, hy.2, ht.1, ht.2, hp.1, hp.2])

theorem sin_ge {t : ℝ} (h1 : 0.0415 ≤ t) (h2 : t ≤ Real.pi - 0.0415) : 0.041 ≤ Real.sin t := by
  have key : ∀ u : ℝ, 0.0415 ≤ u → u ≤ Real.pi / 2 → 0.041 ≤ Real.sin u := by
    intro u a b
    have m : Real.sin 0.0415 ≤ Real.sin u := by
      apply Real.sin_le_sin_of_le_of_le_pi_div_two _ b a
      linarith [Real.pi_gt_three]
    have := Real.sin_gt_sub_cube (x := 0.0415) (by norm_num)
    norm_num at *
    linarith
  rcases le_total t (Real.pi / 2) with h | h
  · exact key t h1 h
  · rw [← Real.sin_pi_sub]
    exact key _ (by linarith) (by linarith)

/-- Days since J2000.0 on the given day, against the March year `a` and the day `D` in it. -/
theorem day_count {a D : ℤ} (h1 : 1900 ≤ a) (h2 : a ≤ 2098) {N : ℤ}
    (hN : N = 365 * a + a / 4 - a / 100 + a / 400 + D - 678912) {f : ℝ} (f0 : 0 ≤ f) (f1 : f ≤ 1) :
    ∃ t : ℝ, (N : ℝ) - 51544.5 + f = 365.25 * ((a - 2000 : ℤ) : ℝ) + t ∧ D + 27.75 ≤ t ∧ t ≤ D + 29.5 := by
  refine ⟨(N : ℝ) - 51544.5 + f - 365.25 * ((a - 2000 : ℤ) : ℝ), by ring, ?_, ?_⟩
  · have : 1461 * (a - 2000) + 4 * (51573 + D) - 3 ≤ 4 * N := by omega
    have : (1461 * (a - 2000) + 4 * (51573 + D) - 3 : ℝ) ≤ 4 * N := by exact_mod_cast this
    push_cast
    norm_num
    linarith
  · have : 4 * N ≤ 1461 * (a - 2000) + 4 * (51573 + D) := by omega
    have : (4 * N : ℝ) ≤ 1461 * (a - 2000) + 4 * (51573 + D) := by exact_mod_cast this
    push_cast
    norm_num
    linarith

/-- From 23 March to 20 September the mean Sun is north of the equator. -/
theorem north_light {y m d : ℤ} (h1 : 1901 ≤ y) (h2 : y ≤ 2098) (hd : IsDate (y, m, d)) (hl : NorthLight m d) {f : ℝ}
    (f0 : 0 ≤ f) (f1 : f ≤ 1) : |(mjdN y m d : ℝ) - 51544.5 + f| ≤ 36524 ∧ 0.0016 ≤ meanSun ((mjdN y m d : ℝ) - 51544.5 + f) 2 := by
  obtain ⟨m1, m2, d1, d2⟩ := hd
  simp only at m1 m2 d1 d2
  have hml : monthLen y m ≤ 31 := by unfold monthLen; split_ifs <;> omega
  have hm3 : 3 ≤ m := by rcases hl.1 with h | h <;> omega
  obtain ⟨D, hN, D1, D2⟩ : ∃ D : ℤ, mjdN y m d = 365 * y + y / 4 - y / 100 + y / 400 + D - 678912 ∧ 53 ≤ D ∧ D ≤ 234 := by
    rcases mjdN_cases y m d with ⟨h, -⟩ | ⟨-, e⟩
    · omega
    · refine ⟨367 * (m - 2) / 12 + d, by rw [e]; ring, ?_, ?_⟩
      · rcases hl.1 with h | h <;> omega
      · rcases hl.2 with h | h <;> omega
  obtain ⟨t, ht, t1, t2⟩ := day_count (by omega) h2 hN f0 f1
  generalize (mjdN y m d : ℝ) - 51544.5 + f = n at *
  have D1' : (53 : ℝ) ≤ D := by exact_mod_cast D1
  have D2' : (D : ℝ) ≤ 234 := by exact_mod_cast D2
  have y1 : (-99 : ℝ) ≤ ((y - 2000 : ℤ) : ℝ) := by exact_mod_cast (by omega : -99 ≤ y - 2000)
  have y2 : ((y - 2000 : ℤ) : ℝ) ≤ 98 := by exact_mod_cast (by omega : y - 2000 ≤ 98)
  have hn : |n| ≤ 36524 := by rw [abs_le]; constructor <;> (norm_num at *; linarith)
  refine ⟨hn, ?_⟩
  have hp := phase_near (by rw [abs_le]; constructor <;> linarith) (by rw [abs_le]; constructor <;> (norm_num at *; linarith)) ht (hn.trans (by norm_num))
  rw [abs_le] at hp
  have pi3 := Real.pi_gt_d6
  refine summer (k := y - 2000) (hn.trans (by norm_num)) (by ring :
    _ = (meanLongitude n - Real.pi + 0.0244287 * (n / 36525) - ((y - 2000 : ℤ) : ℝ) * (2 * Real.pi)) + _) ?_ ?_
  · generalize meanLongitude n - Real.pi + 0.0244287 * (n / 36525) - ((y - 2000 : ℤ) : ℝ) * (2 * Real.pi) = w at *
    norm_num at *; linarith [hp.1]
  · generalize meanLongitude n - Real.pi + 0.0244287 * (n / 36525) - ((y - 2000 : ℤ) : ℝ) * (2 * Real.pi) = w at *
    norm_num at *; linarith [hp.2]

/-- Up to 18 March and from 25 September on the mean Sun is south of the equator. -/
theorem north_dark {y m d : ℤ} (h1 : 1901 ≤ y) (h2 : y ≤ 2098) (hd : IsDate (y, m, d)) (hl : NorthDark m d) {f : ℝ}
    (f0 : 0 ≤ f) (f1 : f ≤ 1) : |(mjdN y m d : ℝ) - 51544.5 + f| ≤ 36524 ∧ meanSun ((mjdN y m d : ℝ) - 51544.5 + f) 2 ≤ -0.0016 := by
  obtain ⟨m1, m2, d1, d2⟩ := hd
  simp only at m1 m2 d1 d2
  have hml : monthLen y m ≤ 31 := by unfold monthLen; split_ifs <;> omega
  obtain ⟨a, D, hN, a1, a2, hD⟩ : ∃ a D : ℤ, mjdN y m d = 365 * a + a / 4 - a / 100 + a / 400 + D - 678912 ∧ 1900 ≤ a ∧ a ≤ 2098 ∧
      ((239 ≤ D ∧ D ≤ 397) ∨ (31 ≤ D ∧ D ≤ 48)) := by
    rcases mjdN_cases y m d with ⟨h, e⟩ | ⟨h, e⟩
    · refine ⟨y - 1, 367 * (m + 10) / 12 + d, by rw [e]; ring, by omega, by omega, Or.inl ?_⟩
      rcases monthLen_cases y m m1 m2 with h' | h' | h' | h' <;> omega
    · refine ⟨y, 367 * (m - 2) / 12 + d, by rw [e]; ring, by omega, by omega, ?_⟩
      rcases hl with (h' | h') | (h' | h') <;> omega
  obtain ⟨t, ht, t1, t2⟩ := day_count a1 a2 hN f0 f1
  generalize (mjdN y m d : ℝ) - 51544.5 + f = n at *
  have y1 : (-100 : ℝ) ≤ ((a - 2000 : ℤ) : ℝ) := by exact_mod_cast (by omega : -100 ≤ a - 2000)
  have y2 : ((a - 2000 : ℤ) : ℝ) ≤ 98 := by exact_mod_cast (by omega : a - 2000 ≤ 98)
  have t1' : 58 ≤ t := by
    have : (31 : ℝ) ≤ D := by exact_mod_cast (by omega : 31 ≤ D)
    norm_num at *; linarith
  have t2' : t ≤ 427 := by
    have : (D : ℝ) ≤ 397 := by exact_mod_cast (by omega : D ≤ 397)
    norm_num at *; linarith
  have hn : |n| ≤ 36524 := by
    have : (D : ℝ) ≤ 397 := by exact_mod_cast (by omega : D ≤ 397)
    rw [abs_le]; constructor <;> (norm_num at *; linarith)
  refine ⟨hn, ?_⟩
  have hp := phase_near (by rw [abs_le]; constructor <;> linarith) (by rw [abs_le]; constructor <;> linarith) ht (hn.trans (by norm_num))
  rw [abs_le] at hp
  have pi3 := Real.pi_gt_d6
  have pi4 := Real.pi_lt_d6
  refine winter (k := a - 2000) (hn.trans (by norm_num)) (by ring :
    _ = (meanLongitude n - Real.pi + 0.0244287 * (n / 36525) - ((a - 2000 : ℤ) : ℝ) * (2 * Real.pi)) + _) ?_
  generalize meanLongitude n - Real.pi + 0.0244287 * (n / 36525) - ((a - 2000 : ℤ) : ℝ) * (2 * Real.pi) = w at *
  rcases hD with ⟨D1, D2⟩ | ⟨D1, D2⟩
  · have D1' : (239 : ℝ) ≤ D := by exact_mod_cast D1
    have D2' : (D : ℝ) ≤ 397 := by exact_mod_cast D2
    have := sin_ge (t := w - Real.pi) (by norm_num at *; linarith [hp.1]) (by norm_num at *; linarith [hp.2])
    rw [Real.sin_sub_pi] at this
    linarith
  · have D1' : (31 : ℝ) ≤ D := by exact_mod_cast D1
    have D2' : (D : ℝ) ≤ 48 := by exact_mod_cast D2
    have := sin_ge (t := -w) (by norm_num at *; linarith [hp.2]) (by norm_num at *; linarith [hp.1])
    rw [Real.sin_neg] at this
    linarith

end Verif
