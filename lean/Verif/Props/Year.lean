import Verif.Props.Newton

/-!
# C118: the year
-/

namespace Verif
open Arith F64

/-- Mean anomaly-like angle of the main term. -/
noncomputable def mainAngle (t : ℝ) : ℝ := 1.753485171504 + 6.283075850446 * t

theorem helio_main (t : ℝ) (ht : |t| ≤ 100) : ∃ ux uy : ℝ, |ux| ≤ 0.000752 ∧ |uy| ≤ 0.000694 ∧
    helioEcl 0 t = Real.cos (mainAngle t) + 0.008352579567414 * Real.cos (2 * mainAngle t - 1.796625938426) + 0.005611445335148 + ux ∧
    helioEcl 1 t = Real.sin (mainAngle t) + 0.008352579567414 * Real.sin (2 * mainAngle t - 1.796625938426) - 0.02442700893735 + uy := by
  obtain ⟨ex, hex, hx⟩ := helioX t ht
  obtain ⟨ey, hey, hy⟩ := helioY t ht
  have p1 := Real.pi_gt_d6
  have p2 := Real.pi_lt_d6
  have ht' := abs_le.mp ht
  have hθ : mainAngle t = 1.753485171504 + 6.283075850446 * t := rfl
  rw [← hθ] at hx
  generalize mainAngle t = θ at *
  have d1 : |1.710344404582 + 12.56615170089 * t - (2 * θ - 1.796625938426)| ≤ 0.000001 := by
    rw [hθ, abs_le]; constructor <;> norm_num <;> linarith
  have d2 : |0.1826583913846 + 6.283075850446 * t - (θ - Real.pi / 2)| ≤ 0.0000320 := by
    rw [hθ, abs_le]; constructor <;> norm_num at p1 p2 ⊢ <;> linarith
  have d3 : |0.139527799868 + 12.56615170089 * t - (2 * θ - 1.796625938426 - Real.pi / 2)| ≤ 0.0000220 := by
    rw [hθ, abs_le]; constructor <;> norm_num at p1 p2 ⊢ <;> linarith
  have k1 := cos_near _ _ _ d1
  have k2 := cos_near _ _ _ d2
  have k3 := cos_near _ _ _ d3
  rw [Real.cos_sub_pi_div_two] at k2 k3
  have bC := abs_le.mp (Real.abs_cos_le_one θ)
  have bS := abs_le.mp (Real.abs_sin_le_one θ)
  have bC2 := abs_le.mp (Real.abs_cos_le_one (2 * θ - 1.796625938426))
  have bS2 := abs_le.mp (Real.abs_sin_le_one (2 * θ - 1.796625938426))
  rw [abs_le] at k1 k2 k3 hex hey
  clear hθ d1 d2 d3
  refine ⟨helioEcl 0 t - (Real.cos θ + 0.008352579567414 * Real.cos (2 * θ - 1.796625938426) + 0.005611445335148),
    helioEcl 1 t - (Real.sin θ + 0.008352579567414 * Real.sin (2 * θ - 1.796625938426) - 0.02442700893735), ?_, ?_, by ring, by ring⟩
  · rw [hx, abs_le]
    constructor <;> linarith
  · rw [hy, abs_le]
    constructor <;> linarith

/-- Length of a chord of the unit circle. -/
theorem chord_len (a b : ℝ) : len ![Real.cos a - Real.cos b, Real.sin a - Real.sin b, 0] = 2 * |Real.sin ((a - b) / 2)| := by
  unfold len
  have h : (Real.cos a - Real.cos b) ^ 2 + (Real.sin a - Real.sin b) ^ 2 + 0 ^ 2 = (2 * Real.sin ((a - b) / 2)) ^ 2 := by
    have h1 := Real.cos_sq_add_sin_sq a
    have h2 := Real.cos_sq_add_sin_sq b
    have h3 := Real.cos_sub a b
    have h4 := Real.cos_sq ((a - b) / 2)
    have h5 := Real.cos_sq_add_sin_sq ((a - b) / 2)
    rw [show 2 * ((a - b) / 2) = a - b by ring] at h4
    linear_combination h1 + h2 + 2 * h3 - 4 * h5 + 4 * h4
  show Real.sqrt ((Real.cos a - Real.cos b) ^ 2 + (Real.sin a - Real.sin b) ^ 2 + 0 ^ 2) = _
  rw [h, Real.sqrt_sq_eq_abs, abs_mul, abs_two]

/-- The chord between two places of the Earth, in the ecliptic frame. -/
theorem helio_chord (t t' : ℝ) (ht : |t| ≤ 100) (ht' : |t'| ≤ 100) :
    |len ![helioEcl 0 t' - helioEcl 0 t, helioEcl 1 t' - helioEcl 1 t, helioEcl 2 t' - helioEcl 2 t] -
      (2 * |Real.sin (3.141537925223 * (t' - t))|)| ≤ 0.01884 := by
  obtain ⟨ux, uy, bx, by', hx, hy⟩ := helio_main t ht
  obtain ⟨ux', uy', bx', by'', hx', hy'⟩ := helio_main t' ht'
  have hz := helioZ t ht
  have hz' := helioZ t' ht'
  have e1 : 3.141537925223 * (t' - t) = (mainAngle t' - mainAngle t) / 2 := by unfold mainAngle; ring
  rw [e1, ← chord_len]
  have e2 : ![helioEcl 0 t' - helioEcl 0 t, helioEcl 1 t' - helioEcl 1 t, helioEcl 2 t' - helioEcl 2 t] =
      ![Real.cos (mainAngle t') - Real.cos (mainAngle t), Real.sin (mainAngle t') - Real.sin (mainAngle t), 0] +
      ((0.008352579567414 : ℝ) • ![Real.cos (2 * mainAngle t' - 1.796625938426) - Real.cos (2 * mainAngle t - 1.796625938426),
        Real.sin (2 * mainAngle t' - 1.796625938426) - Real.sin (2 * mainAngle t - 1.796625938426), 0] +
      ![ux' - ux, uy' - uy, helioEcl 2 t' - helioEcl 2 t]) := by
    funext i
    fin_cases i
    · show helioEcl 0 t' - helioEcl 0 t = _ + (0.008352579567414 * (_ - _) + _)
      rw [hx, hx']; simp; ring
    · show helioEcl 1 t' - helioEcl 1 t = _ + (0.008352579567414 * (_ - _) + _)
      rw [hy, hy']; simp; ring
    · show helioEcl 2 t' - helioEcl 2 t = 0 + (0.008352579567414 * 0 + (helioEcl 2 t' - helioEcl 2 t))
      ring
  have sm : ∀ (c : ℝ) (w : Fin 3 → ℝ), len (c • w) = |c| * len w := fun c w => by
    rw [len_eq, len_eq, WithLp.toLp_smul, norm_smul, Real.norm_eq_abs]
  have n1 : len ((0.008352579567414 : ℝ) • ![Real.cos (2 * mainAngle t' - 1.796625938426) - Real.cos (2 * mainAngle t - 1.796625938426),
        Real.sin (2 * mainAngle t' - 1.796625938426) - Real.sin (2 * mainAngle t - 1.796625938426), 0]) ≤ 0.016706 := by
    rw [sm, chord_len, abs_of_pos (by norm_num)]
    have := Real.abs_sin_le_one ((2 * mainAngle t' - 1.796625938426 - (2 * mainAngle t - 1.796625938426)) / 2)
    norm_num at this ⊢
    linarith
  have n2 : len ![ux' - ux, uy' - uy, helioEcl 2 t' - helioEcl 2 t] ≤ 0.00211 := by
    have b1 : |ux' - ux| ≤ 0.001504 := (abs_sub _ _).trans (by linarith)
    have b2 : |uy' - uy| ≤ 0.001388 := (abs_sub _ _).trans (by linarith)
    have b3 : |helioEcl 2 t' - helioEcl 2 t| ≤ 0.0005 := (abs_sub _ _).trans (by linarith)
    have c1 := sq_le_sq' (abs_le.mp b1).1 (abs_le.mp b1).2
    have c2 := sq_le_sq' (abs_le.mp b2).1 (abs_le.mp b2).2
    have c3 := sq_le_sq' (abs_le.mp b3).1 (abs_le.mp b3).2
    refine Real.sqrt_le_iff.mpr ⟨by norm_num, ?_⟩
    show (ux' - ux) ^ 2 + (uy' - uy) ^ 2 + (helioEcl 2 t' - helioEcl 2 t) ^ 2 ≤ _
    norm_num at c1 c2 c3 ⊢
    linarith
  rw [e2]
  have n3 := (len_add _ _).trans (add_le_add n1 n2)
  generalize (0.008352579567414 : ℝ) • _ + ![ux' - ux, uy' - uy, helioEcl 2 t' - helioEcl 2 t] = E at *
  generalize ![Real.cos (mainAngle t') - Real.cos (mainAngle t), Real.sin (mainAngle t') - Real.sin (mainAngle t), 0] = M at *
  have hl : |len (M + E) - len M| ≤ len (M + E - M) := by
    rw [len_eq, len_eq, len_eq, WithLp.toLp_sub]; exact abs_norm_sub_norm_le _ _
  rw [add_sub_cancel_left] at hl
  exact hl.trans (n3.trans (by norm_num))

/-- A sidereal year later: positions and velocities in the ecliptic frame. -/
theorem helio_return (t t' : ℝ) (ht : |t| ≤ 100) (ht' : |t'| ≤ 100) (h : |t' - t - 365.256363 / 365.25| ≤ 0.001 / 365.25) :
    len ![helioEcl 0 t' - helioEcl 0 t, helioEcl 1 t' - helioEcl 1 t, helioEcl 2 t' - helioEcl 2 t] ≤ 0.00171 ∧
    len ![helioEcl' 0 t' - helioEcl' 0 t, helioEcl' 1 t' - helioEcl' 1 t, helioEcl' 2 t' - helioEcl' 2 t] ≤ 0.02014 := by
  obtain ⟨h1, h2⟩ := abs_le.mp h
  have p1 := Real.pi_gt_d20
  have p2 := Real.pi_lt_d20
  have per : ∀ (b c : ℝ), |c * (t' - t) - 2 * Real.pi| ≤ 0.000018 → |Real.cos (b + c * t') - Real.cos (b + c * t)| ≤ 0.000018 ∧
      |Real.sin (b + c * t') - Real.sin (b + c * t)| ≤ 0.000018 := fun b c hc => by
    have e : b + c * t' - (b + c * t + 2 * Real.pi) = c * (t' - t) - 2 * Real.pi := by ring
    have g1 := cos_near (b + c * t') (b + c * t + 2 * Real.pi) 0.000018 (by rw [e]; exact hc)
    have g2 := sin_near_of (b + c * t') (b + c * t + 2 * Real.pi) 0.000018 (by rw [e]; exact hc)
    rw [Real.cos_add_two_pi] at g1
    rw [Real.sin_add_two_pi] at g2
    exact ⟨g1, g2⟩
  have per2 : ∀ (b c : ℝ), |c * (t' - t) - 4 * Real.pi| ≤ 0.000036 → |Real.cos (b + c * t') - Real.cos (b + c * t)| ≤ 0.000036 ∧
      |Real.sin (b + c * t') - Real.sin (b + c * t)| ≤ 0.000036 := fun b c hc => by
    have e : b + c * t' - (b + c * t + 2 * Real.pi + 2 * Real.pi) = c * (t' - t) - 4 * Real.pi := by ring
    have g1 := cos_near (b + c * t') (b + c * t + 2 * Real.pi + 2 * Real.pi) 0.000036 (by rw [e]; exact hc)
    have g2 := sin_near_of (b + c * t') (b + c * t + 2 * Real.pi + 2 * Real.pi) 0.000036 (by rw [e]; exact hc)
    rw [Real.cos_add_two_pi, Real.cos_add_two_pi] at g1
    rw [Real.sin_add_two_pi, Real.sin_add_two_pi] at g2
    exact ⟨g1, g2⟩
  have w1 : |(6.283075850446 : ℝ) * (t' - t) - 2 * Real.pi| ≤ 0.000018 := by
    rw [abs_le]; norm_num at p1 p2 h1 h2 ⊢; constructor <;> linarith
  have w2 : |(12.56615170089 : ℝ) * (t' - t) - 4 * Real.pi| ≤ 0.000036 := by
    rw [abs_le]; norm_num at p1 p2 h1 h2 ⊢; constructor <;> linarith
  obtain ⟨ex, hex, hx⟩ := helioX t ht
  obtain ⟨ey, hey, hy⟩ := helioY t ht
  obtain ⟨fx, hfx, gx⟩ := helioX' t ht
  obtain ⟨fy, hfy, gy⟩ := helioY' t ht
  obtain ⟨ex', hex', hx'⟩ := helioX t' ht'
  obtain ⟨ey', hey', hy'⟩ := helioY t' ht'
  obtain ⟨fx', hfx', gx'⟩ := helioX' t' ht'
  obtain ⟨fy', hfy', gy'⟩ := helioY' t' ht'
  have hz := helioZ t ht
  have hz' := helioZ t' ht'
  have kz := helioZ' t ht
  have kz' := helioZ' t' ht'
  obtain ⟨a1, a2⟩ := per 1.753485171504 _ w1
  obtain ⟨a3, a4⟩ := per 0.1826583913846 _ w1
  obtain ⟨a5, a6⟩ := per2 1.710344404582 _ w2
  obtain ⟨a7, a8⟩ := per2 0.139527799868 _ w2
  clear per per2 w1 w2 p1 p2 h1 h2 h
  have tri : ∀ {a b d1 d2 d3 E : ℝ}, |a| ≤ d1 → |b| ≤ d2 → |E| ≤ d3 → |a + b + E| ≤ d1 + d2 + d3 := fun h1 h2 h3 =>
    (abs_add_le _ _).trans (add_le_add ((abs_add_le _ _).trans (add_le_add h1 h2)) h3)
  have mulc : ∀ {a d : ℝ} (c : ℝ), |a| ≤ d → |c * a| ≤ |c| * d := fun c h => by
    rw [abs_mul]; exact mul_le_mul_of_nonneg_left h (abs_nonneg _)
  constructor
  · have b1 : |helioEcl 0 t' - helioEcl 0 t| ≤ 0.0011785 := by
      have e : helioEcl 0 t' - helioEcl 0 t = 0.9998292878132 * (Real.cos (1.753485171504 + 6.283075850446 * t') -
          Real.cos (1.753485171504 + 6.283075850446 * t)) + 0.008352579567414 * (Real.cos (1.710344404582 + 12.56615170089 * t') -
          Real.cos (1.710344404582 + 12.56615170089 * t)) + (ex' - ex) := by rw [hx, hx']; ring
      rw [e]
      exact (tri (mulc _ a1) (mulc _ a5) ((abs_sub _ _).trans (add_le_add hex' hex))).trans (by norm_num [abs_of_pos])
    have b2 : |helioEcl 1 t' - helioEcl 1 t| ≤ 0.0011185 := by
      have e : helioEcl 1 t' - helioEcl 1 t = 0.9998921098898 * (Real.cos (0.1826583913846 + 6.283075850446 * t') -
          Real.cos (0.1826583913846 + 6.283075850446 * t)) + 0.008352929742915 * (Real.cos (0.139527799868 + 12.56615170089 * t') -
          Real.cos (0.139527799868 + 12.56615170089 * t)) + (ey' - ey) := by rw [hy, hy']; ring
      rw [e]
      exact (tri (mulc _ a3) (mulc _ a7) ((abs_sub _ _).trans (add_le_add hey' hey))).trans (by norm_num [abs_of_pos])
    have b3 : |helioEcl 2 t' - helioEcl 2 t| ≤ 0.0005 := (abs_sub _ _).trans (by linarith)
    have c1 := sq_le_sq' (abs_le.mp b1).1 (abs_le.mp b1).2
    have c2 := sq_le_sq' (abs_le.mp b2).1 (abs_le.mp b2).2
    have c3 := sq_le_sq' (abs_le.mp b3).1 (abs_le.mp b3).2
    refine Real.sqrt_le_iff.mpr ⟨by norm_num, ?_⟩
    show (helioEcl 0 t' - helioEcl 0 t) ^ 2 + (helioEcl 1 t' - helioEcl 1 t) ^ 2 + (helioEcl 2 t' - helioEcl 2 t) ^ 2 ≤ _
    norm_num at c1 c2 c3 ⊢
    linarith
  · have b1 : |helioEcl' 0 t' - helioEcl' 0 t| ≤ 0.01398 := by
      have e : helioEcl' 0 t' - helioEcl' 0 t = (-(0.9998292878132 * 6.283075850446)) * (Real.sin (1.753485171504 + 6.283075850446 * t') -
          Real.sin (1.753485171504 + 6.283075850446 * t)) + (-(0.008352579567414 * 12.56615170089)) *
          (Real.sin (1.710344404582 + 12.56615170089 * t') -
          Real.sin (1.710344404582 + 12.56615170089 * t)) + (fx' - fx) := by rw [gx, gx']; ring
      rw [e]
      exact (tri (mulc _ a2) (mulc _ a6) ((abs_sub _ _).trans (add_le_add hfx' hfx))).trans (by norm_num [abs_of_pos])
    have b2 : |helioEcl' 1 t' - helioEcl' 1 t| ≤ 0.01402 := by
      have e : helioEcl' 1 t' - helioEcl' 1 t = (-(0.9998921098898 * 6.283075850446)) * (Real.sin (0.1826583913846 + 6.283075850446 * t') -
          Real.sin (0.1826583913846 + 6.283075850446 * t)) + (-(0.008352929742915 * 12.56615170089)) *
          (Real.sin (0.139527799868 + 12.56615170089 * t') -
          Real.sin (0.139527799868 + 12.56615170089 * t)) + (fy' - fy) := by rw [gy, gy']; ring
      rw [e]
      exact (tri (mulc _ a4) (mulc _ a8) ((abs_sub _ _).trans (add_le_add hfy' hfy))).trans (by norm_num [abs_of_pos])
    have b3 : |helioEcl' 2 t' - helioEcl' 2 t| ≤ 0.0036 := (abs_sub _ _).trans (by linarith)
    have c1 := sq_le_sq' (abs_le.mp b1).1 (abs_le.mp b1).2
    have c2 := sq_le_sq' (abs_le.mp b2).1 (abs_le.mp b2).2
    have c3 := sq_le_sq' (abs_le.mp b3).1 (abs_le.mp b3).2
    refine Real.sqrt_le_iff.mpr ⟨by norm_num, ?_⟩
    show (helioEcl' 0 t' - helioEcl' 0 t) ^ 2 + (helioEcl' 1 t' - helioEcl' 1 t) ^ 2 + (helioEcl' 2 t' - helioEcl' 2 t) ^ 2 ≤ _
    norm_num at c1 c2 c3 ⊢
    linarith

theorem toICRF_len (u v : Vec3 ℝ) : |len ((toICRF u).toVec - (toICRF v).toVec) - len ![u.x - v.x, u.y - v.y, u.z - v.z]| ≤
    1e-11 * len ![u.x - v.x, u.y - v.y, u.z - v.z] := by
  have n := toICRF_norm ⟨u.x - v.x, u.y - v.y, u.z - v.z⟩
  have e : (toICRF u).toVec - (toICRF v).toVec = (toICRF ⟨u.x - v.x, u.y - v.y, u.z - v.z⟩).toVec := by
    funext i
    simp only [toICRF_real]
    fin_cases i
    all_goals simp [Vec3.toVec]
    all_goals ring
  rw [e]
  have l1 := len_sq (toICRF ⟨u.x - v.x, u.y - v.y, u.z - v.z⟩).toVec
  have l2 := len_sq ![u.x - v.x, u.y - v.y, u.z - v.z]
  have e1 : (![u.x - v.x, u.y - v.y, u.z - v.z] : Fin 3 → ℝ) 0 ^ 2 + (![u.x - v.x, u.y - v.y, u.z - v.z] : Fin 3 → ℝ) 1 ^ 2 +
    (![u.x - v.x, u.y - v.y, u.z - v.z] : Fin 3 → ℝ) 2 ^ 2 = (u.x - v.x) ^ 2 + (u.y - v.y) ^ 2 + (u.z - v.z) ^ 2 := rfl
  rw [e1] at l2
  have e2 : (toICRF ⟨u.x - v.x, u.y - v.y, u.z - v.z⟩).toVec 0 ^ 2 + (toICRF ⟨u.x - v.x, u.y - v.y, u.z - v.z⟩).toVec 1 ^ 2 +
    (toICRF ⟨u.x - v.x, u.y - v.y, u.z - v.z⟩).toVec 2 ^ 2 = (toICRF ⟨u.x - v.x, u.y - v.y, u.z - v.z⟩).x ^ 2 +
    (toICRF ⟨u.x - v.x, u.y - v.y, u.z - v.z⟩).y ^ 2 + (toICRF ⟨u.x - v.x, u.y - v.y, u.z - v.z⟩).z ^ 2 := rfl
  rw [e2] at l1
  simp only at n
  rw [← l1, ← l2] at n
  have g1 := len_nonneg (toICRF ⟨u.x - v.x, u.y - v.y, u.z - v.z⟩).toVec
  have g2 := len_nonneg ![u.x - v.x, u.y - v.y, u.z - v.z]
  generalize len (toICRF ⟨u.x - v.x, u.y - v.y, u.z - v.z⟩).toVec = A at *
  generalize len ![u.x - v.x, u.y - v.y, u.z - v.z] = B at *
  rw [abs_le] at n ⊢
  constructor
  · have : ((1 - 1e-11) * B) ^ 2 ≤ A ^ 2 := by norm_num at n ⊢; nlinarith [n.1, sq_nonneg B]
    have := (abs_le_of_sq_le_sq' this g1).2
    linarith
  · have : A ^ 2 ≤ ((1 + 1e-11) * B) ^ 2 := by norm_num at n ⊢; nlinarith [n.2, sq_nonneg B]
    have := (abs_le_of_sq_le_sq' this (by positivity)).2
    linarith

theorem years_le {s : ℝ} (h : |s - 2451545| ≤ 36525) : |years s| ≤ 100 := by
  unfold years
  rw [abs_div, abs_of_pos (show (0 : ℝ) < 365.25 by norm_num), div_le_iff₀ (by norm_num)]
  norm_num at h ⊢; exact h

theorem earth_chord {s s' : ℝ} (h : |s - 2451545| ≤ 36525) (h' : |s' - 2451545| ≤ 36525) :
    |len ((earthAt s').heliocentric.p.toVec - (earthAt s).heliocentric.p.toVec) - (2 * |Real.sin (Real.pi * (s' - s) / 365.256363)|)|
      ≤ 0.01886 := by
  have c := helio_chord _ _ (years_le h) (years_le h')
  have n := toICRF_len ⟨helioEcl 0 (years s'), helioEcl 1 (years s'), helioEcl 2 (years s')⟩
    ⟨helioEcl 0 (years s), helioEcl 1 (years s), helioEcl 2 (years s)⟩
  simp only at n
  have p1 := Real.pi_gt_d20
  have p2 := Real.pi_lt_d20
  have d : |3.141537925223 * (years s' - years s) - Real.pi * (s' - s) / 365.256363| ≤ 0.000001 := by
    have e : 3.141537925223 * (years s' - years s) - Real.pi * (s' - s) / 365.256363 =
      (3.141537925223 / 365.25 - Real.pi / 365.256363) * (s' - s) := by unfold years; ring
    have d1 : |3.141537925223 / 365.25 - Real.pi / 365.256363| ≤ 1e-11 := by
      rw [abs_le]; norm_num at p1 p2 ⊢; constructor <;> linarith
    have d2 : |s' - s| ≤ 73050 := by
      rw [abs_le] at h h' ⊢; constructor <;> linarith [h.1, h.2, h'.1, h'.2]
    rw [e, abs_mul]
    exact (mul_le_mul d1 d2 (abs_nonneg _) (by norm_num)).trans (by norm_num)
  have d3 := (abs_abs_sub_abs_le _ _).trans (sin_near_of _ _ _ d)
  have d4 := Real.abs_sin_le_one (3.141537925223 * (years s' - years s))
  show |len ((toICRF _).toVec - (toICRF _).toVec) - _| ≤ _
  generalize |Real.sin (3.141537925223 * (years s' - years s))| = A at *
  generalize |Real.sin (Real.pi * (s' - s) / 365.256363)| = B at *
  generalize len ((toICRF _).toVec - (toICRF _).toVec) = C at *
  generalize len ![helioEcl 0 (years s') - helioEcl 0 (years s), helioEcl 1 (years s') - helioEcl 1 (years s),
    helioEcl 2 (years s') - helioEcl 2 (years s)] = D at *
  rw [abs_le] at *
  norm_num at *
  constructor <;> linarith [n.1, n.2, c.1, c.2, d3.1, d3.2]

theorem earth_return {s s' : ℝ} (h : |s - 2451545| ≤ 36525) (h' : |s' - 2451545| ≤ 36525) (hs : |s' - s - 365.256363| ≤ 0.001) :
    len ((earthAt s').heliocentric.p.toVec - (earthAt s).heliocentric.p.toVec) ≤ 0.001711 ∧
    len ((earthAt s').heliocentric.v.toVec - (earthAt s).heliocentric.v.toVec) ≤ 5.515e-5 := by
  obtain ⟨c, c'⟩ := helio_return _ _ (years_le h) (years_le h') (by
    have e : years s' - years s - 365.256363 / 365.25 = (s' - s - 365.256363) / 365.25 := by unfold years; ring
    rw [e, abs_div, abs_of_pos (show (0 : ℝ) < 365.25 by norm_num)]
    exact div_le_div_of_nonneg_right hs (by norm_num))
  have n := toICRF_len ⟨helioEcl 0 (years s'), helioEcl 1 (years s'), helioEcl 2 (years s')⟩
    ⟨helioEcl 0 (years s), helioEcl 1 (years s), helioEcl 2 (years s)⟩
  have n' := toICRF_len ⟨helioEcl' 0 (years s') / 365.25, helioEcl' 1 (years s') / 365.25, helioEcl' 2 (years s') / 365.25⟩
    ⟨helioEcl' 0 (years s) / 365.25, helioEcl' 1 (years s) / 365.25, helioEcl' 2 (years s) / 365.25⟩
  have sm : ∀ (c : ℝ) (w : Fin 3 → ℝ), len (c • w) = |c| * len w := fun c w => by
    rw [len_eq, len_eq, WithLp.toLp_smul, norm_smul, Real.norm_eq_abs]
  have e : ![helioEcl' 0 (years s') / 365.25 - helioEcl' 0 (years s) / 365.25, helioEcl' 1 (years s') / 365.25 - helioEcl' 1 (years s) / 365.25,
      helioEcl' 2 (years s') / 365.25 - helioEcl' 2 (years s) / 365.25] = (1 / 365.25 : ℝ) •
      ![helioEcl' 0 (years s') - helioEcl' 0 (years s), helioEcl' 1 (years s') - helioEcl' 1 (years s),
      helioEcl' 2 (years s') - helioEcl' 2 (years s)] := by
    funext i
    fin_cases i
    all_goals simp
    all_goals ring
  simp only at n n'
  rw [e, sm, abs_of_pos (show (0 : ℝ) < 1 / 365.25 by norm_num)] at n'
  rw [abs_le] at n n'
  constructor
  · show len ((toICRF _).toVec - (toICRF _).toVec) ≤ _
    norm_num at n c ⊢
    linarith [n.2]
  · show len ((toICRF _).toVec - (toICRF _).toVec) ≤ _
    generalize len ((toICRF _).toVec - (toICRF _).toVec) = A at *
    norm_num at n' c' ⊢
    linarith [n'.2]

/-- **C118.** For any two dates within a century of J2000.0 the distance between the two places of the Earth is the chord
`2 |sin (π d / Y)|` of a circle run through in `Y = 365.256363` days, to 0.019 astronomical units. -/
theorem C118_chord (a b a' b' : ℝ) (h : |a + b - 2451545| ≤ 36525) (h' : |a' + b' - 2451545| ≤ 36525) (e e' : EarthPosVel ℝ)
    (he : EarthPosVel.fromTDB (a, b) = .ok e) (he' : EarthPosVel.fromTDB (a', b') = .ok e') (d : ℝ) (hd : d = (a' + b') - (a + b)) :
    |len (e'.heliocentric.p.toVec - e.heliocentric.p.toVec) - (2 * |Real.sin (Real.pi * d / 365.256363)|)| ≤ 0.019 := by
  rw [fromTDB_real] at he he'
  obtain rfl := Except.ok.inj he
  obtain rfl := Except.ok.inj he'
  rw [hd]
  exact (earth_chord h h').trans (by norm_num)

/-- **C118.** One sidereal year later, to 0.001 day, the Earth is back at its place to 0.0018 astronomical units, with its velocity to
`5.6e-5` units per day (0.33 per cent). -/
theorem C118_year (a b a' b' : ℝ) (h : |a + b - 2451545| ≤ 36525) (h' : |a' + b' - 2451545| ≤ 36525) (e e' : EarthPosVel ℝ)
    (he : EarthPosVel.fromTDB (a, b) = .ok e) (he' : EarthPosVel.fromTDB (a', b') = .ok e')
    (hd : |(a' + b') - (a + b) - 365.256363| ≤ 0.001) :
    len (e'.heliocentric.p.toVec - e.heliocentric.p.toVec) ≤ 0.0018 ∧ len (e'.heliocentric.v.toVec - e.heliocentric.v.toVec) ≤ 5.6e-5 := by
  rw [fromTDB_real] at he he'
  obtain rfl := Except.ok.inj he
  obtain rfl := Except.ok.inj he'
  obtain ⟨h1, h2⟩ := earth_return h h' hd
  exact ⟨h1.trans (by norm_num), h2.trans (by norm_num)⟩

/-- **C118.** The same in binary64. -/
theorem C118_year_f64 [Libm F64] (hL : LibmAcc) (x y x' y' : F64) (a b a' b' : ℚ) (hx : Is x a) (hy : Is y b) (hx' : Is x' a')
    (hy' : Is y' b') (ha : |a| ≤ 4000000) (ha' : |a'| ≤ 4000000) (h : |a + b - 2451545| ≤ 36525)
    (h' : |a' + b' - 2451545| ≤ 36525) (d : ℝ) (hd : d = (a' + b' : ℝ) - (a + b)) :
    ∃ (e e' : EarthPosVel F64) (p v p' v' : Fin 3 → ℝ), EarthPosVel.fromTDB (x, y) = .ok e ∧ EarthPosVel.fromTDB (x', y') = .ok e' ∧
      ValueOf e.heliocentric.p p ∧ ValueOf e.heliocentric.v v ∧ ValueOf e'.heliocentric.p p' ∧ ValueOf e'.heliocentric.v v' ∧
      |len (p' - p) - (2 * |Real.sin (Real.pi * d / 365.256363)|)| ≤ 0.019 ∧
      (|d - 365.256363| ≤ 0.001 → len (p' - p) ≤ 0.0018 ∧ len (v' - v) ≤ 5.6e-5) := by
  obtain ⟨e, r, he, hr, np, nv, -⟩ := C68_ephemeris_f64 hL x y a b hx hy ha h
  obtain ⟨e', r', he', hr', np', nv', -⟩ := C68_ephemeris_f64 hL x' y' a' b' hx' hy' ha' h'
  rw [fromTDB_real] at hr hr'
  obtain rfl := Except.ok.inj hr
  obtain rfl := Except.ok.inj hr'
  have hR : |(a : ℝ) + b - 2451545| ≤ 36525 := by exact_mod_cast h
  have hR' : |(a' : ℝ) + b' - 2451545| ≤ 36525 := by exact_mod_cast h'
  obtain ⟨p, vp, lp⟩ := np.value (c := 6 / 10 ^ 11) (by norm_num) (by norm_num)
  obtain ⟨v, vv, lv⟩ := nv.value (c := 1.1 / 10 ^ 12) (by norm_num) (by norm_num)
  obtain ⟨p', vp', lp'⟩ := np'.value (c := 6 / 10 ^ 11) (by norm_num) (by norm_num)
  obtain ⟨v', vv', lv'⟩ := nv'.value (c := 1.1 / 10 ^ 12) (by norm_num) (by norm_num)
  have near : ∀ {q q' Q Q' : Fin 3 → ℝ} {c : ℝ}, len (q - Q) ≤ c → len (q' - Q') ≤ c → |len (q' - q) - len (Q' - Q)| ≤ 2 * c := by
    intro q q' Q Q' c h1 h2
    have hl : |len (q' - q) - len (Q' - Q)| ≤ len (q' - q - (Q' - Q)) := by
      rw [len_eq, len_eq, len_eq, WithLp.toLp_sub _ (q' - q)]; exact abs_norm_sub_norm_le _ _
    refine hl.trans ?_
    rw [show q' - q - (Q' - Q) = (q' - Q') - (q - Q) by abel]
    exact (len_sub _ _).trans (by linarith)
  refine ⟨e, e', p, v, p', v', he, he', vp, vv, vp', vv', ?_, fun hy => ?_⟩
  · have c := earth_chord hR hR'
    have g := near lp lp'
    simp only at g
    rw [← hd] at c
    rw [abs_le] at c g ⊢
    norm_num at c g ⊢
    constructor <;> linarith [c.1, c.2, g.1, g.2]
  · rw [hd] at hy
    obtain ⟨c1, c2⟩ := earth_return hR hR' hy
    have g1 := near lp lp'
    have g2 := near lv lv'
    simp only at g1 g2
    rw [abs_le] at g1 g2
    norm_num at c1 c2 g1 g2 ⊢
    constructor
    · linarith [g1.2]
    · linarith [g2.2]

/-- Two dates a sidereal year apart. -/
example : |(2451545 : ℝ) + 0 - 2451545| ≤ 36525 ∧ |(2451910 : ℝ) + 0.256 - 2451545| ≤ 36525 ∧
    |((2451910 : ℝ) + 0.256) - (2451545 + 0) - 365.256363| ≤ 0.001 := by norm_num [abs_le]

end Verif
