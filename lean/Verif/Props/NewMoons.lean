import Verif.Props.Fundargs

/-!
# C128: the mean new moons, and the mean perigees, nodes and perihelia
-/

namespace Verif
open Arith

/-- **C128.** For the 2481 lunations around that of 6 January 2000, the mean elongation of the Moon at the published time of the mean new
moon, JD 2451550.09766 + 29.530588861 k + 0.00015437 T² with T = k/1236.85, is 19 to 20 seconds of arc short of a whole turn (half a
minute of time: the published times allow for the aberration of the Sun). -/
theorem C128_new_moons (k : ℤ) (hk : |k| ≤ 1240) (T t : ℝ) (hT : T = k / 1236.85)
    (ht : t = (2451550.09766 + 29.530588861 * k + 0.00015437 * T ^ 2 - 2451545) / 36525) :
    ∃ m : ℤ, -20 * AS2R < d03 t - m * (1296000 * AS2R) ∧ d03 t - m * (1296000 * AS2R) < -19 * AS2R := by
  obtain ⟨j, hj⟩ := (C31_fundamental_arguments t).2.2.2.1
  have hkr : |(k : ℝ)| ≤ 1240 := by exact_mod_cast hk
  have ek : (k : ℝ) = 1236.85 * T := by rw [hT]; ring
  rw [ek] at ht hkr
  rw [abs_le] at hkr
  have T1 : -1.0026 ≤ T := by norm_num at hkr ⊢; linarith [hkr.1]
  have T2 : T ≤ 1.0026 := by norm_num at hkr ⊢; linarith [hkr.2]
  have TT : T ^ 2 ≤ 1.0053 := by norm_num at T1 T2 ⊢; nlinarith
  have TT0 : ∀ c : ℝ, 2 * c * T - c ^ 2 ≤ T ^ 2 := fun c => by nlinarith [sq_nonneg (T - c)]
  obtain ⟨d, hd⟩ : ∃ d, d = t - T := ⟨_, rfl⟩
  have d1 : -0.0002 ≤ d ∧ d ≤ 0.0002 := by
    rw [hd, ht]; have := TT0 0; constructor <;> norm_num at T1 T2 TT this ⊢ <;> linarith
  have ta : |t| ≤ 1.0034 := by
    have e : t = T + d := by rw [hd]; ring
    rw [e, abs_le]; norm_num at T1 T2 d1 ⊢; constructor <;> linarith [d1.1, d1.2]
  have t3 : |t ^ 3| ≤ 1.011 := by
    rw [abs_pow]
    exact (pow_le_pow_left₀ (abs_nonneg t) ta 3).trans (by norm_num)
  have t4 : |t ^ 4| ≤ 1.014 := by
    rw [abs_pow]
    exact (pow_le_pow_left₀ (abs_nonneg t) ta 4).trans (by norm_num)
  have sqd : |t ^ 2 - T ^ 2| ≤ 0.0002 * 2.006 := by
    have e : t ^ 2 - T ^ 2 = d * (t + T) := by rw [hd]; ring
    have a1 : |d| ≤ 0.0002 := abs_le.mpr d1
    have a2 : |t + T| ≤ 2.006 := (abs_add_le t T).trans (by
      have : |T| ≤ 1.0026 := abs_le.mpr ⟨T1, T2⟩
      norm_num at this ta ⊢; linarith)
    rw [e, abs_mul]
    exact mul_le_mul a1 a2 (abs_nonneg _) (by norm_num)
  rw [abs_le] at t3 t4 sqd
  have main : -20 < poly4 1072260.703692 1602961601.2090 (-6.3706) 0.006593 (-0.00003169) t - (k + 1) * 1296000 ∧
      poly4 1072260.703692 1602961601.2090 (-6.3706) 0.006593 (-0.00003169) t - (k + 1) * 1296000 < -19 := by
    unfold poly4
    rw [ek]
    have l1 := TT0 0
    have l2 := TT0 (1 / 4)
    have l3 := TT0 (-1 / 4)
    have l4 := TT0 (1 / 2)
    have l5 := TT0 (-1 / 2)
    generalize t ^ 2 = q2 at *
    generalize t ^ 3 = q3 at *
    generalize t ^ 4 = q4 at *
    clear hd ta hj hT TT0
    subst ht
    generalize T ^ 2 = q at *
    obtain ⟨s1, s2⟩ := sqd
    obtain ⟨u1, u2⟩ := t3
    obtain ⟨v1, v2⟩ := t4
    constructor <;> norm_num at * <;> linarith
  refine ⟨k + 1 - j, ?_⟩
  have e : d03 t - ((k + 1 - j : ℤ) : ℝ) * (1296000 * AS2R) =
      (poly4 1072260.703692 1602961601.2090 (-6.3706) 0.006593 (-0.00003169) t - (k + 1) * 1296000) * AS2R := by
    rw [hj]; push_cast; ring
  rw [e]
  exact ⟨mul_lt_mul_of_pos_right main.1 as2r_pos, mul_lt_mul_of_pos_right main.2 as2r_pos⟩

/-- **C128.** For the 2657 anomalistic months around that of December 1999, the mean anomaly of the Moon at the published time of the mean
perigee, JD 2451534.6698 + 27.55454989 k - 0.0006691 T² with T = k/1325.55, is less than 3 seconds of arc (six seconds of time) from a
whole turn. -/
theorem C128_perigees (k : ℤ) (hk : |k| ≤ 1328) (T t : ℝ) (hT : T = k / 1325.55)
    (ht : t = (2451534.6698 + 27.55454989 * k - 0.0006691 * T ^ 2 - 2451545) / 36525) :
    ∃ m : ℤ, -3 * AS2R < l03 t - m * (1296000 * AS2R) ∧ l03 t - m * (1296000 * AS2R) < -1 * AS2R := by
  obtain ⟨j, hj⟩ := (C31_fundamental_arguments t).1
  have hkr : |(k : ℝ)| ≤ 1328 := by exact_mod_cast hk
  have ek : (k : ℝ) = 1325.55 * T := by rw [hT]; ring
  rw [ek] at ht hkr
  rw [abs_le] at hkr
  have T1 : -1.0026 ≤ T := by norm_num at hkr ⊢; linarith [hkr.1]
  have T2 : T ≤ 1.0026 := by norm_num at hkr ⊢; linarith [hkr.2]
  have TT : T ^ 2 ≤ 1.0053 := by norm_num at T1 T2 ⊢; nlinarith
  have TT0 : ∀ c : ℝ, 2 * c * T - c ^ 2 ≤ T ^ 2 := fun c => by nlinarith [sq_nonneg (T - c)]
  obtain ⟨d, hd⟩ : ∃ d, d = t - T := ⟨_, rfl⟩
  have d1 : -0.0003 ≤ d ∧ d ≤ 0.0003 := by
    rw [hd, ht]; have := TT0 0; constructor <;> norm_num at T1 T2 TT this ⊢ <;> linarith
  have ta : |t| ≤ 1.0034 := by
    have e : t = T + d := by rw [hd]; ring
    rw [e, abs_le]; norm_num at T1 T2 d1 ⊢; constructor <;> linarith [d1.1, d1.2]
  have t3 : |t ^ 3| ≤ 1.011 := by
    rw [abs_pow]
    exact (pow_le_pow_left₀ (abs_nonneg t) ta 3).trans (by norm_num)
  have t4 : |t ^ 4| ≤ 1.014 := by
    rw [abs_pow]
    exact (pow_le_pow_left₀ (abs_nonneg t) ta 4).trans (by norm_num)
  have sqd : |t ^ 2 - T ^ 2| ≤ 0.0003 * 2.006 := by
    have e : t ^ 2 - T ^ 2 = d * (t + T) := by rw [hd]; ring
    have a1 : |d| ≤ 0.0003 := abs_le.mpr d1
    have a2 : |t + T| ≤ 2.006 := (abs_add_le t T).trans (by
      have : |T| ≤ 1.0026 := abs_le.mpr ⟨T1, T2⟩
      norm_num at this ta ⊢; linarith)
    rw [e, abs_mul]
    exact mul_le_mul a1 a2 (abs_nonneg _) (by norm_num)
  rw [abs_le] at t3 t4 sqd
  have main : -3 < poly4 485868.249036 1717915923.2178 31.8792 0.051635 (-0.00024470) t - (k + 0) * 1296000 ∧
      poly4 485868.249036 1717915923.2178 31.8792 0.051635 (-0.00024470) t - (k + 0) * 1296000 < -1 := by
    unfold poly4
    rw [ek]
    have l1 := TT0 0
    have l2 := TT0 (1 / 4)
    have l3 := TT0 (-1 / 4)
    have l4 := TT0 (1 / 2)
    have l5 := TT0 (-1 / 2)
    generalize t ^ 2 = q2 at *
    generalize t ^ 3 = q3 at *
    generalize t ^ 4 = q4 at *
    clear hd ta hj hT TT0
    subst ht
    generalize T ^ 2 = q at *
    obtain ⟨s1, s2⟩ := sqd
    obtain ⟨u1, u2⟩ := t3
    obtain ⟨v1, v2⟩ := t4
    constructor <;> norm_num at * <;> linarith
  refine ⟨k + 0 - j, ?_⟩
  have e : l03 t - ((k + 0 - j : ℤ) : ℝ) * (1296000 * AS2R) =
      (poly4 485868.249036 1717915923.2178 31.8792 0.051635 (-0.00024470) t - (k + 0) * 1296000) * AS2R := by
    rw [hj]; push_cast; ring
  rw [e]
  exact ⟨mul_lt_mul_of_pos_right main.1 as2r_pos, mul_lt_mul_of_pos_right main.2 as2r_pos⟩

/-- **C128.** For the 2691 draconic months around that of January 2000, the mean argument of latitude of the Moon at the published time of its
passage through the ascending node, JD 2451565.1619 + 27.212220817 k + 0.0002762 T² with T = k/1342.23, is less than 4.2 seconds of
arc (eight seconds of time) past a whole turn. -/
theorem C128_nodes (k : ℤ) (hk : |k| ≤ 1345) (T t : ℝ) (hT : T = k / 1342.23)
    (ht : t = (2451565.1619 + 27.212220817 * k + 0.0002762 * T ^ 2 - 2451545) / 36525) :
    ∃ m : ℤ, 3 * AS2R < f03 t - m * (1296000 * AS2R) ∧ f03 t - m * (1296000 * AS2R) < 4.2 * AS2R := by
  obtain ⟨j, hj⟩ := (C31_fundamental_arguments t).2.2.1
  have hkr : |(k : ℝ)| ≤ 1345 := by exact_mod_cast hk
  have ek : (k : ℝ) = 1342.23 * T := by rw [hT]; ring
  rw [ek] at ht hkr
  rw [abs_le] at hkr
  have T1 : -1.0026 ≤ T := by norm_num at hkr ⊢; linarith [hkr.1]
  have T2 : T ≤ 1.0026 := by norm_num at hkr ⊢; linarith [hkr.2]
  have TT : T ^ 2 ≤ 1.0053 := by norm_num at T1 T2 ⊢; nlinarith
  have TT0 : ∀ c : ℝ, 2 * c * T - c ^ 2 ≤ T ^ 2 := fun c => by nlinarith [sq_nonneg (T - c)]
  obtain ⟨d, hd⟩ : ∃ d, d = t - T := ⟨_, rfl⟩
  have d1 : -0.0006 ≤ d ∧ d ≤ 0.0006 := by
    rw [hd, ht]; have := TT0 0; constructor <;> norm_num at T1 T2 TT this ⊢ <;> linarith
  have ta : |t| ≤ 1.0034 := by
    have e : t = T + d := by rw [hd]; ring
    rw [e, abs_le]; norm_num at T1 T2 d1 ⊢; constructor <;> linarith [d1.1, d1.2]
  have t3 : |t ^ 3| ≤ 1.011 := by
    rw [abs_pow]
    exact (pow_le_pow_left₀ (abs_nonneg t) ta 3).trans (by norm_num)
  have t4 : |t ^ 4| ≤ 1.014 := by
    rw [abs_pow]
    exact (pow_le_pow_left₀ (abs_nonneg t) ta 4).trans (by norm_num)
  have sqd : |t ^ 2 - T ^ 2| ≤ 0.0006 * 2.006 := by
    have e : t ^ 2 - T ^ 2 = d * (t + T) := by rw [hd]; ring
    have a1 : |d| ≤ 0.0006 := abs_le.mpr d1
    have a2 : |t + T| ≤ 2.006 := (abs_add_le t T).trans (by
      have : |T| ≤ 1.0026 := abs_le.mpr ⟨T1, T2⟩
      norm_num at this ta ⊢; linarith)
    rw [e, abs_mul]
    exact mul_le_mul a1 a2 (abs_nonneg _) (by norm_num)
  rw [abs_le] at t3 t4 sqd
  have main : 3 < poly4 335779.526232 1739527262.8478 (-12.7512) (-0.001037) 0.00000417 t - (k + 1) * 1296000 ∧
      poly4 335779.526232 1739527262.8478 (-12.7512) (-0.001037) 0.00000417 t - (k + 1) * 1296000 < 4.2 := by
    unfold poly4
    rw [ek]
    have l1 := TT0 0
    have l2 := TT0 (1 / 4)
    have l3 := TT0 (-1 / 4)
    have l4 := TT0 (1 / 2)
    have l5 := TT0 (-1 / 2)
    generalize t ^ 2 = q2 at *
    generalize t ^ 3 = q3 at *
    generalize t ^ 4 = q4 at *
    clear hd ta hj hT TT0
    subst ht
    generalize T ^ 2 = q at *
    obtain ⟨s1, s2⟩ := sqd
    obtain ⟨u1, u2⟩ := t3
    obtain ⟨v1, v2⟩ := t4
    constructor <;> norm_num at * <;> linarith
  refine ⟨k + 1 - j, ?_⟩
  have e : f03 t - ((k + 1 - j : ℤ) : ℝ) * (1296000 * AS2R) =
      (poly4 335779.526232 1739527262.8478 (-12.7512) (-0.001037) 0.00000417 t - (k + 1) * 1296000) * AS2R := by
    rw [hj]; push_cast; ring
  rw [e]
  exact ⟨mul_lt_mul_of_pos_right main.1 as2r_pos, mul_lt_mul_of_pos_right main.2 as2r_pos⟩

/-- **C128.** For the 201 years around 2000, the mean anomaly of the Sun at the published time of the mean perihelion of the Earth,
JD 2451547.507 + 365.2596358 k + 0.000156 T² with T = k/99.9975, is less than 0.1 seconds of arc (three seconds of time) past a whole
turn. -/
theorem C128_perihelia (k : ℤ) (hk : |k| ≤ 100) (T t : ℝ) (hT : T = k / 99.9975)
    (ht : t = (2451547.507 + 365.2596358 * k + 0.000156 * T ^ 2 - 2451545) / 36525) :
    ∃ m : ℤ, 0 * AS2R < lp03 t - m * (1296000 * AS2R) ∧ lp03 t - m * (1296000 * AS2R) < 0.1 * AS2R := by
  obtain ⟨j, hj⟩ := (C31_fundamental_arguments t).2.1
  have hkr : |(k : ℝ)| ≤ 100 := by exact_mod_cast hk
  have ek : (k : ℝ) = 99.9975 * T := by rw [hT]; ring
  rw [ek] at ht hkr
  rw [abs_le] at hkr
  have T1 : -1.0026 ≤ T := by norm_num at hkr ⊢; linarith [hkr.1]
  have T2 : T ≤ 1.0026 := by norm_num at hkr ⊢; linarith [hkr.2]
  have TT : T ^ 2 ≤ 1.0053 := by norm_num at T1 T2 ⊢; nlinarith
  have TT0 : ∀ c : ℝ, 2 * c * T - c ^ 2 ≤ T ^ 2 := fun c => by nlinarith [sq_nonneg (T - c)]
  obtain ⟨d, hd⟩ : ∃ d, d = t - T := ⟨_, rfl⟩
  have d1 : -0.0001 ≤ d ∧ d ≤ 0.0001 := by
    rw [hd, ht]; have := TT0 0; constructor <;> norm_num at T1 T2 TT this ⊢ <;> linarith
  have ta : |t| ≤ 1.0034 := by
    have e : t = T + d := by rw [hd]; ring
    rw [e, abs_le]; norm_num at T1 T2 d1 ⊢; constructor <;> linarith [d1.1, d1.2]
  have t3 : |t ^ 3| ≤ 1.011 := by
    rw [abs_pow]
    exact (pow_le_pow_left₀ (abs_nonneg t) ta 3).trans (by norm_num)
  have t4 : |t ^ 4| ≤ 1.014 := by
    rw [abs_pow]
    exact (pow_le_pow_left₀ (abs_nonneg t) ta 4).trans (by norm_num)
  have sqd : |t ^ 2 - T ^ 2| ≤ 0.0001 * 2.006 := by
    have e : t ^ 2 - T ^ 2 = d * (t + T) := by rw [hd]; ring
    have a1 : |d| ≤ 0.0001 := abs_le.mpr d1
    have a2 : |t + T| ≤ 2.006 := (abs_add_le t T).trans (by
      have : |T| ≤ 1.0026 := abs_le.mpr ⟨T1, T2⟩
      norm_num at this ta ⊢; linarith)
    rw [e, abs_mul]
    exact mul_le_mul a1 a2 (abs_nonneg _) (by norm_num)
  rw [abs_le] at t3 t4 sqd
  have main : 0 < poly4 1287104.793048 129596581.0481 (-0.5532) 0.000136 (-0.00001149) t - (k + 1) * 1296000 ∧
      poly4 1287104.793048 129596581.0481 (-0.5532) 0.000136 (-0.00001149) t - (k + 1) * 1296000 < 0.1 := by
    unfold poly4
    rw [ek]
    have l1 := TT0 0
    have l2 := TT0 (1 / 4)
    have l3 := TT0 (-1 / 4)
    have l4 := TT0 (1 / 2)
    have l5 := TT0 (-1 / 2)
    generalize t ^ 2 = q2 at *
    generalize t ^ 3 = q3 at *
    generalize t ^ 4 = q4 at *
    clear hd ta hj hT TT0
    subst ht
    generalize T ^ 2 = q at *
    obtain ⟨s1, s2⟩ := sqd
    obtain ⟨u1, u2⟩ := t3
    obtain ⟨v1, v2⟩ := t4
    constructor <;> norm_num at * <;> linarith
  refine ⟨k + 1 - j, ?_⟩
  have e : lp03 t - ((k + 1 - j : ℤ) : ℝ) * (1296000 * AS2R) =
      (poly4 1287104.793048 129596581.0481 (-0.5532) 0.000136 (-0.00001149) t - (k + 1) * 1296000) * AS2R := by
    rw [hj]; push_cast; ring
  rw [e]
  exact ⟨mul_lt_mul_of_pos_right main.1 as2r_pos, mul_lt_mul_of_pos_right main.2 as2r_pos⟩

/-- The lunation of January 2000 and that a thousand later. -/
example : |(0 : ℤ)| ≤ 1240 ∧ |(1000 : ℤ)| ≤ 1240 := by decide

end Verif
