import Verif.Lemmas.SunClimb
import Verif.Lemmas.MeanSunDates
import Verif.Spec.Seasons

/-!
# The Sun half a day later
-/

namespace Verif
open Arith Matrix Spec

/-- Projection on the plane of the equator. -/
def KE : M3 := !![1, 0, 0; 0, 1, 0; 0, 0, 0]

/-- Projection on the axis. -/
def KZ : M3 := !![0, 0, 0; 0, 0, 0; 0, 0, 1]

theorem R3_sum (m α : ℝ) : R3 (m + α) + R3 (m - α) = (2 * Real.cos α) • R3 m + (2 - 2 * Real.cos α) • KZ := by
  ext i j
  fin_cases i <;> fin_cases j <;>
    simp [R3, KZ, Real.cos_add, Real.cos_sub, Real.sin_add, Real.sin_sub] <;> ring

theorem KE_KZ : KE * KZ = 0 := by
  ext i j
  fin_cases i <;> fin_cases j <;> simp [KE, KZ, Matrix.mul_apply, Fin.sum_univ_three]

theorem MB.KE : MB KE 1 := by
  refine MB.of_vec (by norm_num) (fun v => ?_)
  rw [one_mul]
  unfold len
  apply Real.sqrt_le_sqrt
  simp [Verif.KE, Matrix.mulVec, dotProduct, Fin.sum_univ_three]
  nlinarith [sq_nonneg (v 2)]

/-- Half a day apart, the components of the Sun in the plane of the equator cancel up to `0.01785`. -/
theorem half_day_vec {a b a' b' am bm u v u' v' um vm : ℝ} (h : |a + b - 2451545| ≤ 36525) (h' : |a' + b' - 2451545| ≤ 36525)
    (hm : |am + bm - 2451545| ≤ 36525)
    (ht : a + b = am + bm - 1 / 4) (ht' : a' + b' = am + bm + 1 / 4) (hu : u + v = um + vm - 1 / 4)
    (hu' : u' + v' = um + vm + 1 / 4) {s s' : Fin 3 → ℝ}
    (hs : s = (celestialToTerrestrial (a, b) (u, v) (0.0349282 * AS2R) (0.4833163 * AS2R)).toMatrix *ᵥ (-(earthAt (a + b)).heliocentric.p.toVec))
    (hs' : s' = (celestialToTerrestrial (a', b') (u', v') (0.0349282 * AS2R) (0.4833163 * AS2R)).toMatrix *ᵥ (-(earthAt (a' + b')).heliocentric.p.toVec)) :
    len (KE *ᵥ (s + s')) ≤ 0.01785 := by
  have prod : ∀ a b u v : ℝ, (celestialToTerrestrial (a, b) (u, v) (0.0349282 * AS2R) (0.4833163 * AS2R)).toMatrix *ᵥ (-(earthAt (a + b)).heliocentric.p.toVec) =
      (polarMotionMatrix (0.0349282 * AS2R) (0.4833163 * AS2R) 0).toMatrix *ᵥ (R3 (rotationAngle (u, v)) *ᵥ
        ((celestialToIntermediate (a, b)).toMatrix *ᵥ (-(earthAt (a + b)).heliocentric.p.toVec))) := by
    intro a b u v
    rw [C43_product, ← Matrix.mulVec_mulVec, ← Matrix.mulVec_mulVec]
    rfl
  have g1 := g_lip (D := 1 / 4) h hm (by rw [ht, show am + bm - 1 / 4 - (am + bm) = -(1 / 4) by ring, abs_neg]; exact abs_of_nonneg (by norm_num))
  have g2 := g_lip (D := 1 / 4) h' hm (by rw [ht', show am + bm + 1 / 4 - (am + bm) = 1 / 4 by ring]; exact abs_of_nonneg (by norm_num))
  have e := era_turn u v
  have e' := era_turn u' v'
  have nm : len ((celestialToIntermediate (am, bm)).toMatrix *ᵥ (-(earthAt (am + bm)).heliocentric.p.toVec)) ≤ 1.019 := by
    have mC : MB (celestialToIntermediate (am, bm)).toMatrix 1 := MB.of_rotation (C38_celestial_to_intermediate (am, bm) 0 0 0).2
    have := mC.vec (-(earthAt (am + bm)).heliocentric.p.toVec)
    rw [one_mul] at this
    exact this.trans (earth_len hm).2
  have mW : MB (polarMotionMatrix (0.0349282 * AS2R) (0.4833163 * AS2R) 0 : Mat3 ℝ).toMatrix 1 := MB.of_rotation (C38_polar_motion _ _ _)
  have hW := wobble
  rw [prod] at hs hs'
  rw [hs, hs']
  clear prod hs hs'
  obtain ⟨α, hα⟩ : ∃ α, α = Real.pi * 1.00273781191135448 / 2 := ⟨_, rfl⟩
  have x0 : 2 * Real.pi * (0.7790572732640 + 1.00273781191135448 * (u + v - 2451545)) =
      2 * Real.pi * (0.7790572732640 + 1.00273781191135448 * (um + vm - 2451545)) - α := by rw [hu, hα]; ring
  have x1 : 2 * Real.pi * (0.7790572732640 + 1.00273781191135448 * (u' + v' - 2451545)) =
      2 * Real.pi * (0.7790572732640 + 1.00273781191135448 * (um + vm - 2451545)) + α := by rw [hu', hα]; ring
  rw [x0] at e
  rw [x1] at e'
  clear x0 x1
  generalize 2 * Real.pi * (0.7790572732640 + 1.00273781191135448 * (um + vm - 2451545)) = m at *
  have hc : |2 * Real.cos α| ≤ 0.0086012 := by
    have : Real.cos α = -Real.sin (Real.pi * 0.00273781191135448 / 2) := by
      rw [← Real.cos_add_pi_div_two, hα]; congr 1; ring
    rw [this, mul_neg, abs_neg, abs_mul, abs_of_pos (by norm_num : (0 : ℝ) < 2)]
    have := Real.abs_sin_le_abs (x := Real.pi * 0.00273781191135448 / 2)
    rw [abs_of_pos (show 0 < Real.pi * 0.00273781191135448 / 2 by positivity)] at this
    have p2 := Real.pi_lt_d6
    norm_num at p2 this ⊢
    linarith
  have sp := R3_sum m α
  have mR := MB.R3 (rotationAngle (u, v))
  have mR' := MB.R3 (rotationAngle (u', v'))
  have mm := MB.R3 m
  have mP := MB.R3 (m + α)
  have mQ := MB.R3 (m - α)
  generalize (celestialToIntermediate (a, b)).toMatrix *ᵥ (-(earthAt (a + b)).heliocentric.p.toVec) = g at *
  generalize (celestialToIntermediate (a', b')).toMatrix *ᵥ (-(earthAt (a' + b')).heliocentric.p.toVec) = g' at *
  generalize (celestialToIntermediate (am, bm)).toMatrix *ᵥ (-(earthAt (am + bm)).heliocentric.p.toVec) = gm at *
  generalize R3 (rotationAngle (u, v)) = R at *
  generalize R3 (rotationAngle (u', v')) = R' at *
  generalize R3 m = M at *
  generalize R3 (m + α) = P at *
  generalize R3 (m - α) = Q at *
  generalize Mat3.toMatrix (polarMotionMatrix (0.0349282 * AS2R) (0.4833163 * AS2R) 0) = W at *
  generalize 2 * Real.cos α = κ at *
  have key : KE *ᵥ (W *ᵥ (R *ᵥ g) + W *ᵥ (R' *ᵥ g')) =
      (KE * (W * R')) *ᵥ (g' - gm) + (KE * (W * R)) *ᵥ (g - gm) +
      (KE * (W * (R' - P) + W * (R - Q))) *ᵥ gm + (KE * ((W - 1) * (P + Q))) *ᵥ gm + (κ • (KE * M)) *ᵥ gm := by
    have e1 : KE * (P + Q) = κ • (KE * M) := by rw [sp, Matrix.mul_add, Matrix.mul_smul, Matrix.mul_smul, KE_KZ, smul_zero, add_zero]
    rw [← e1]
    simp only [Matrix.sub_mulVec, Matrix.add_mulVec, Matrix.mulVec_sub, Matrix.mulVec_add, Matrix.mul_sub, Matrix.mul_add, Matrix.sub_mul, Matrix.one_mul,
      Matrix.mulVec_mulVec]
    abel
  rw [key]
  have l1 := (MB.KE.mul (mW.mul mR')).vec (g' - gm)
  have l2 := (MB.KE.mul (mW.mul mR)).vec (g - gm)
  have l3 := (MB.KE.mul ((mW.mul e').add (mW.mul e))).vec gm
  have l4 := (MB.KE.mul (hW.mul (mP.add mQ))).vec gm
  have l5 := ((MB.KE.mul mm).smul κ).vec gm
  have n0 := len_nonneg gm
  have l3' := l3.trans (mul_le_mul_of_nonneg_left nm (by norm_num))
  have l4' := l4.trans (mul_le_mul_of_nonneg_left nm (by norm_num))
  have l5' := l5.trans (mul_le_mul (show |κ| * (1 * 1) ≤ 0.0086012 by rw [one_mul, mul_one]; exact hc) nm n0 (by norm_num))
  refine (len_add _ _).trans ?_
  refine (add_le_add (len_add _ _) le_rfl).trans ?_
  refine (add_le_add (add_le_add (len_add _ _) le_rfl) le_rfl).trans ?_
  refine (add_le_add (add_le_add (add_le_add (len_add _ _) le_rfl) le_rfl) le_rfl).trans ?_
  norm_num at *
  linarith

/-! ## Declination by date -/

/-- From 26 March to 17 September. -/
theorem summer_high {n w : ℝ} {k : ℤ} (hn : |n| ≤ 36525)
    (hw : meanLongitude n - Real.pi + 0.0244287 * (n / 36525) = w + k * (2 * Real.pi)) (h : 0.0135 ≤ Real.sin w) : 0.0175 ≤ meanSun n 2 := by
  have h' := (abs_le.mp (season hn hw)).1
  have hs1 := Real.sin_le_one w
  have SC : |Real.sin w * Real.cos w| ≤ |Real.sin w| := by
    rw [abs_mul]; exact mul_le_of_le_one_right (abs_nonneg _) (Real.abs_cos_le_one w)
  generalize Real.sin w * Real.cos w = sc at *
  generalize Real.sin w = s at *
  rw [abs_of_pos (show 0 < s by linarith), abs_le] at SC
  have hsq : s ^ 2 ≤ s := by nlinarith
  norm_num at *
  linarith [SC.1]

/-- Up to 15 March and from 28 September. -/
theorem winter_low {n w : ℝ} {k : ℤ} (hn : |n| ≤ 36525)
    (hw : meanLongitude n - Real.pi + 0.0244287 * (n / 36525) = w + k * (2 * Real.pi)) (h : Real.sin w ≤ -0.0785) : meanSun n 2 ≤ -0.0175 := by
  have h' := (abs_le.mp (season hn hw)).2
  have SC : |Real.sin w * Real.cos w| ≤ |Real.sin w| := by
    rw [abs_mul]; exact mul_le_of_le_one_right (abs_nonneg _) (Real.abs_cos_le_one w)
  have hsq := sq_nonneg (Real.sin w)
  generalize Real.sin w * Real.cos w = sc at *
  generalize Real.sin w = s at *
  rw [abs_of_neg (show s < 0 by linarith), abs_le] at SC
  norm_num at *
  linarith [SC.2]

theorem sin_above {t x y : ℝ} (hx : 0 < x) (hxy : y ≤ x - x ^ 3 / 6) (h1 : x ≤ t) (h2 : t ≤ Real.pi - x) : y ≤ Real.sin t := by
  have key : ∀ u : ℝ, x ≤ u → u ≤ Real.pi / 2 → y ≤ Real.sin u := by
    intro u a b
    have m : Real.sin x ≤ Real.sin u := by
      apply Real.sin_le_sin_of_le_of_le_pi_div_two _ b a
      linarith [Real.pi_gt_three]
    have := Real.sin_gt_sub_cube hx
    linarith
  rcases le_total t (Real.pi / 2) with h | h
  · exact key t h1 h
  · rw [← Real.sin_pi_sub]
    exact key _ (by linarith) (by linarith)

/-- Days since J2000.0 up to half a day before or after the given day, against the March year `a` and the day `D` in it. -/
theorem day_count_wide {a D : ℤ} (h1 : 1900 ≤ a) (h2 : a ≤ 2098) {N : ℤ}
    (hN : N = 365 * a + a / 4 - a / 100 + a / 400 + D - 678912) {f : ℝ} (f0 : -0.5 ≤ f) (f1 : f ≤ 1.5) :
    ∃ t : ℝ, (N : ℝ) - 51544.5 + f = 365.25 * ((a - 2000 : ℤ) : ℝ) + t ∧ D + 27.25 ≤ t ∧ t ≤ D + 30 := by
  refine ⟨(N : ℝ) - 51544.5 + f - 365.25 * ((a - 2000 : ℤ) : ℝ), by ring, ?_, ?_⟩
  · have : 1461 * (a - 2000) + 4 * (51573 + D) - 3 ≤ 4 * N := by omega
    have : (1461 * (a - 2000) + 4 * (51573 + D) - 3 : ℝ) ≤ 4 * N := by exact_mod_cast this
    push_cast
    norm_num at f0 ⊢
    linarith
  · have : 4 * N ≤ 1461 * (a - 2000) + 4 * (51573 + D) := by omega
    have : (4 * N : ℝ) ≤ 1461 * (a - 2000) + 4 * (51573 + D) := by exact_mod_cast this
    push_cast
    norm_num at f1 ⊢
    linarith

/-- From 26 March to 17 September the mean Sun is a degree or more north of the equator. -/
theorem summer_dates {y m d : ℤ} (h1 : 1901 ≤ y) (h2 : y ≤ 2098) (hd : IsDate (y, m, d)) (hl : NorthSummer m d) {f : ℝ}
    (f0 : -0.5 ≤ f) (f1 : f ≤ 1.5) : |(mjdN y m d : ℝ) - 51544.5 + f| ≤ 36524 ∧ 0.0175 ≤ meanSun ((mjdN y m d : ℝ) - 51544.5 + f) 2 := by
  obtain ⟨m1, m2, d1, d2⟩ := hd
  simp only at m1 m2 d1 d2
  have hml : monthLen y m ≤ 31 := by unfold monthLen; split_ifs <;> omega
  have hm3 : 3 ≤ m := by rcases hl.1 with h | h <;> omega
  obtain ⟨D, hN, D1, D2⟩ : ∃ D : ℤ, mjdN y m d = 365 * y + y / 4 - y / 100 + y / 400 + D - 678912 ∧ 56 ≤ D ∧ D ≤ 231 := by
    rcases mjdN_cases y m d with ⟨h, -⟩ | ⟨-, e⟩
    · omega
    · refine ⟨367 * (m - 2) / 12 + d, by rw [e]; ring, ?_, ?_⟩
      · rcases hl.1 with h | h <;> omega
      · rcases hl.2 with h | h <;> omega
  obtain ⟨t, ht, t1, t2⟩ := day_count_wide (by omega) h2 hN f0 f1
  generalize (mjdN y m d : ℝ) - 51544.5 + f = n at *
  have D1' : (56 : ℝ) ≤ D := by exact_mod_cast D1
  have D2' : (D : ℝ) ≤ 231 := by exact_mod_cast D2
  have y1 : (-99 : ℝ) ≤ ((y - 2000 : ℤ) : ℝ) := by exact_mod_cast (by omega : -99 ≤ y - 2000)
  have y2 : ((y - 2000 : ℤ) : ℝ) ≤ 98 := by exact_mod_cast (by omega : y - 2000 ≤ 98)
  have hn : |n| ≤ 36524 := by rw [abs_le]; constructor <;> (norm_num at *; linarith)
  refine ⟨hn, ?_⟩
  have hp := phase_near (by rw [abs_le]; constructor <;> linarith) (by rw [abs_le]; constructor <;> (norm_num at *; linarith)) ht (hn.trans (by norm_num))
  rw [abs_le] at hp
  have pi3 := Real.pi_gt_d6
  refine summer_high (k := y - 2000) (hn.trans (by norm_num)) (by ring :
    _ = (meanLongitude n - Real.pi + 0.0244287 * (n / 36525) - ((y - 2000 : ℤ) : ℝ) * (2 * Real.pi)) + _) ?_
  generalize meanLongitude n - Real.pi + 0.0244287 * (n / 36525) - ((y - 2000 : ℤ) : ℝ) * (2 * Real.pi) = w at *
  refine sin_above (x := 0.01351) (by norm_num) (by norm_num) ?_ ?_
  · norm_num at *; linarith [hp.1]
  · norm_num at *; linarith [hp.2]

/-- Up to 15 March and from 28 September on it is a degree or more south of it. -/
theorem winter_dates {y m d : ℤ} (h1 : 1901 ≤ y) (h2 : y ≤ 2098) (hd : IsDate (y, m, d)) (hl : NorthWinter m d) {f : ℝ}
    (f0 : -0.5 ≤ f) (f1 : f ≤ 1.5) : |(mjdN y m d : ℝ) - 51544.5 + f| ≤ 36524 ∧ meanSun ((mjdN y m d : ℝ) - 51544.5 + f) 2 ≤ -0.0175 := by
  obtain ⟨m1, m2, d1, d2⟩ := hd
  simp only at m1 m2 d1 d2
  have hml : monthLen y m ≤ 31 := by unfold monthLen; split_ifs <;> omega
  obtain ⟨a, D, hN, a1, a2, hD⟩ : ∃ a D : ℤ, mjdN y m d = 365 * a + a / 4 - a / 100 + a / 400 + D - 678912 ∧ 1900 ≤ a ∧ a ≤ 2098 ∧
      ((242 ≤ D ∧ D ≤ 397) ∨ (31 ≤ D ∧ D ≤ 45)) := by
    rcases mjdN_cases y m d with ⟨h, e⟩ | ⟨h, e⟩
    · refine ⟨y - 1, 367 * (m + 10) / 12 + d, by rw [e]; ring, by omega, by omega, Or.inl ?_⟩
      rcases monthLen_cases y m m1 m2 with h' | h' | h' | h' <;> omega
    · refine ⟨y, 367 * (m - 2) / 12 + d, by rw [e]; ring, by omega, by omega, ?_⟩
      rcases hl with (h' | h') | (h' | h') <;> omega
  obtain ⟨t, ht, t1, t2⟩ := day_count_wide a1 a2 hN f0 f1
  generalize (mjdN y m d : ℝ) - 51544.5 + f = n at *
  have y1 : (-100 : ℝ) ≤ ((a - 2000 : ℤ) : ℝ) := by exact_mod_cast (by omega : -100 ≤ a - 2000)
  have y2 : ((a - 2000 : ℤ) : ℝ) ≤ 98 := by exact_mod_cast (by omega : a - 2000 ≤ 98)
  have t1' : 58 ≤ t := by
    have : (31 : ℝ) ≤ D := by exact_mod_cast (by omega : 31 ≤ D)
    norm_num at *; linarith
  have t2' : t ≤ 427 := by
    have : (D : ℝ) ≤ 397 := by exact_mod_cast (by omega : D ≤ 397)
    norm_num at *; linarith
  have hn : |n| ≤ 36524 := by
    have : (D : ℝ) ≤ 397 := by exact_mod_cast (by omega : D ≤ 397)
    rw [abs_le]; constructor <;> (norm_num at *; linarith)
  refine ⟨hn, ?_⟩
  have hp := phase_near (by rw [abs_le]; constructor <;> linarith) (by rw [abs_le]; constructor <;> linarith) ht (hn.trans (by norm_num))
  rw [abs_le] at hp
  have pi3 := Real.pi_gt_d6
  have pi4 := Real.pi_lt_d6
  refine winter_low (k := a - 2000) (hn.trans (by norm_num)) (by ring :
    _ = (meanLongitude n - Real.pi + 0.0244287 * (n / 36525) - ((a - 2000 : ℤ) : ℝ) * (2 * Real.pi)) + _) ?_
  generalize meanLongitude n - Real.pi + 0.0244287 * (n / 36525) - ((a - 2000 : ℤ) : ℝ) * (2 * Real.pi) = w at *
  rcases hD with ⟨D1, D2⟩ | ⟨D1, D2⟩
  · have D1' : (242 : ℝ) ≤ D := by exact_mod_cast D1
    have D2' : (D : ℝ) ≤ 397 := by exact_mod_cast D2
    have := sin_above (t := w - Real.pi) (x := 0.07861) (y := 0.0785) (by norm_num) (by norm_num) (by norm_num at *; linarith [hp.1]) (by norm_num at *; linarith [hp.2])
    rw [Real.sin_sub_pi] at this
    linarith
  · have D1' : (31 : ℝ) ≤ D := by exact_mod_cast D1
    have D2' : (D : ℝ) ≤ 45 := by exact_mod_cast D2
    have := sin_above (t := -w) (x := 0.07861) (y := 0.0785) (by norm_num) (by norm_num) (by norm_num at *; linarith [hp.2]) (by norm_num at *; linarith [hp.1])
    rw [Real.sin_neg] at this
    linarith

end Verif
