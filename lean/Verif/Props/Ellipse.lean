import Verif.Props.Year

/-!
# C119: the orbit is an ellipse with the Sun in one focus
-/

namespace Verif
open Arith F64

set_option maxHeartbeats 1000000 in
/-- Equation of the orbit in the ecliptic frame; `r` may differ slightly from the distance. -/
theorem helio_conic (t : ℝ) (ht : |t| ≤ 100) (r : ℝ) (hr : 0 < r)
    (hd : |r ^ 2 - (helioEcl 0 t ^ 2 + helioEcl 1 t ^ 2 + helioEcl 2 t ^ 2)| ≤ 1e-9) :
    |r + (-0.0037405 * helioEcl 0 t + 0.016281 * helioEcl 1 t) - 1| ≤ 0.0017 := by
  obtain ⟨ux, uy, bx, by', hx, hy⟩ := helio_main t ht
  have hz := helioZ t ht
  obtain ⟨o1, o2, o3, o4⟩ := omega_bounds
  have hC := Real.cos_sq_add_sin_sq (mainAngle t)
  have hC2 := Real.cos_sq_add_sin_sq (2 * mainAngle t - 1.796625938426)
  have bC2 := abs_le.mp (Real.abs_cos_le_one (2 * mainAngle t - 1.796625938426))
  have bS2 := abs_le.mp (Real.abs_sin_le_one (2 * mainAngle t - 1.796625938426))
  have hcomb : Real.cos (mainAngle t) * Real.cos (2 * mainAngle t - 1.796625938426)
      + Real.sin (mainAngle t) * Real.sin (2 * mainAngle t - 1.796625938426)
      = Real.cos (mainAngle t) * Real.cos 1.796625938426 + Real.sin (mainAngle t) * Real.sin 1.796625938426 := by
    rw [← Real.cos_sub, ← Real.cos_sub, ← Real.cos_neg (mainAngle t - 1.796625938426)]
    congr 1; ring
  generalize Real.cos (mainAngle t) = C at *
  generalize Real.sin (mainAngle t) = S at *
  generalize Real.cos (2 * mainAngle t - 1.796625938426) = C2 at *
  generalize Real.sin (2 * mainAngle t - 1.796625938426) = S2 at *
  generalize Real.cos 1.796625938426 = co at *
  generalize Real.sin 1.796625938426 = so at *
  generalize helioEcl 0 t = x at *
  generalize helioEcl 1 t = y at *
  generalize helioEcl 2 t = z at *
  have bx2 := abs_le.mp bx
  have by2 := abs_le.mp by'
  obtain ⟨a, ha⟩ : ∃ a, a = C * (0.008352579567414 * co + 0.005611445335148 + ux)
      + S * (0.008352579567414 * so - 0.02442700893735 + uy) := ⟨_, rfl⟩
  obtain ⟨q, hq⟩ : ∃ q, q = C * y - S * x := ⟨_, rfl⟩
  have h1 : C * x + S * y = 1 + a := by
    rw [ha, hx, hy]; linear_combination hC + 0.008352579567414 * hcomb
  have e1 : x ^ 2 + y ^ 2 = (1 + a) ^ 2 + q ^ 2 := by
    rw [← h1, hq]; linear_combination (-(x ^ 2 + y ^ 2)) * hC
  have qb : |q| ≤ 0.0368 := by
    have a1 : |y - S| ≤ 0.0336 := by rw [hy, abs_le]; constructor <;> linarith
    have a2 : |x - C| ≤ 0.0148 := by rw [hx, abs_le]; constructor <;> linarith
    have := cauchy2 (m := 0.0368) (by norm_num) hC (A := y - S) (B := -(x - C)) (by
      have b1 := sq_le_sq' (abs_le.mp a1).1 (abs_le.mp a1).2
      have b2 := sq_le_sq' (abs_le.mp a2).1 (abs_le.mp a2).2
      rw [neg_sq]
      norm_num at b1 b2 ⊢
      linarith)
    rwa [show C * (y - S) + S * -(x - C) = q by rw [hq]; ring] at this
  have ab : |a| ≤ 0.01777 := by
    rw [ha]
    refine cauchy2 (by norm_num) hC ?_
    have a1 : |0.008352579567414 * co + 0.005611445335148 + ux| ≤ 0.0046 := by
      rw [abs_le]; constructor <;> linarith
    have a2 : |0.008352579567414 * so - 0.02442700893735 + uy| ≤ 0.01705 := by
      rw [abs_le]; constructor <;> linarith
    have b1 := sq_le_sq' (abs_le.mp a1).1 (abs_le.mp a1).2
    have b2 := sq_le_sq' (abs_le.mp a2).1 (abs_le.mp a2).2
    norm_num at b1 b2 ⊢
    linarith
  rw [e1] at hd
  have hq2 := sq_le_sq' (abs_le.mp qb).1 (abs_le.mp qb).2
  have hz2 := sq_le_sq' (abs_le.mp hz).1 (abs_le.mp hz).2
  obtain ⟨d1, d2⟩ := abs_le.mp hd
  obtain ⟨a1, a2⟩ := abs_le.mp ab
  have r1 : 1 + a - 1e-8 ≤ r := by
    have : (1 + a - 1e-8) ^ 2 ≤ r ^ 2 := by
      have := sq_nonneg q
      have := sq_nonneg z
      norm_num at *
      linarith
    exact (abs_le_of_sq_le_sq' this hr.le).2
  have r2 : r ≤ 1 + a + 0.0007 := by
    have : r ^ 2 ≤ (1 + a + 0.0007) ^ 2 := by
      norm_num at *
      linarith
    exact (abs_le_of_sq_le_sq' this (by linarith)).2
  -- first order
  have f1 : |a + (-0.0037405 * C + 0.016281 * S)| ≤ 0.00112 := by
    rw [ha, show C * (0.008352579567414 * co + 0.005611445335148 + ux)
      + S * (0.008352579567414 * so - 0.02442700893735 + uy) + (-0.0037405 * C + 0.016281 * S) =
      C * (0.008352579567414 * co + 0.005611445335148 + ux - 0.0037405)
      + S * (0.008352579567414 * so - 0.02442700893735 + uy + 0.016281) by ring]
    refine cauchy2 (by norm_num) hC ?_
    have a1 : |0.008352579567414 * co + 0.005611445335148 + ux - 0.0037405| ≤ 0.00083 := by
      rw [abs_le]; constructor <;> linarith
    have a2 : |0.008352579567414 * so - 0.02442700893735 + uy + 0.016281| ≤ 0.00075 := by
      rw [abs_le]; constructor <;> linarith
    have b1 := sq_le_sq' (abs_le.mp a1).1 (abs_le.mp a1).2
    have b2 := sq_le_sq' (abs_le.mp a2).1 (abs_le.mp a2).2
    norm_num at b1 b2 ⊢
    linarith
  -- second order
  have f2 : |C2 * (-0.0037405) + S2 * 0.016281| ≤ 0.016706 := cauchy2 (by norm_num) hC2 (by norm_num)
  have e3 : r + (-0.0037405 * x + 0.016281 * y) - 1 = (r - (1 + a)) + (a + (-0.0037405 * C + 0.016281 * S)) +
      0.008352579567414 * (C2 * (-0.0037405) + S2 * 0.016281) - 0.0037405 * (0.005611445335148 + ux)
      + 0.016281 * (-0.02442700893735 + uy) := by rw [hx, hy]; ring
  rw [e3]
  generalize a + (-0.0037405 * C + 0.016281 * S) = F at *
  generalize C2 * (-0.0037405) + S2 * 0.016281 = G at *
  clear hd d1 d2 e1 e3 hC hC2 hcomb hq2 hz2 ha hx hy h1 hq
  rw [abs_le] at *
  norm_num at *
  constructor <;> linarith [f1.1, f1.2, f2.1, f2.2, bx2.1, bx2.2, by2.1, by2.2]

theorem earth_conic {s : ℝ} (h : |s - 2451545| ≤ 36525) (p : Fin 3 → ℝ) (hp : p = (earthAt s).heliocentric.p.toVec) :
    |len p + (-0.0037405 * p 0 + 0.0149375 * p 1 + 0.0064762 * p 2) - 1| ≤ 0.00171 ∧
    |-0.397776982902 * p 1 + 0.917482137087 * p 2| ≤ 0.000251 := by
  have ht := years_le h
  have d2 := (helio_dist _ ht).2
  have n := toICRF_norm ⟨helioEcl 0 (years s), helioEcl 1 (years s), helioEcl 2 (years s)⟩
  have lp := len_sq p
  have l1 := (helio_len h).1
  rw [← hp] at l1
  have e0 : p 0 = (toICRF ⟨helioEcl 0 (years s), helioEcl 1 (years s), helioEcl 2 (years s)⟩).x := by rw [hp]; rfl
  have e1 : p 1 = (toICRF ⟨helioEcl 0 (years s), helioEcl 1 (years s), helioEcl 2 (years s)⟩).y := by rw [hp]; rfl
  have e2 : p 2 = (toICRF ⟨helioEcl 0 (years s), helioEcl 1 (years s), helioEcl 2 (years s)⟩).z := by rw [hp]; rfl
  rw [e0, e1, e2] at lp
  rw [← lp] at n
  have c := helio_conic _ ht (len p) (by linarith) (n.trans (by norm_num at d2 ⊢; linarith))
  have hz := helioZ _ ht
  rw [toICRF_real] at e0 e1 e2
  simp only at e0 e1 e2
  clear n lp l1 hp
  rw [e0, e1, e2]
  generalize helioEcl 0 (years s) = X at *
  generalize helioEcl 1 (years s) = Y at *
  generalize helioEcl 2 (years s) = Z at *
  have bX : |X| ≤ 1.0188 := abs_le_of_sq_le_sq (by nlinarith [sq_nonneg Y, sq_nonneg Z]) (by norm_num)
  have bY : |Y| ≤ 1.0188 := abs_le_of_sq_le_sq (by nlinarith [sq_nonneg X, sq_nonneg Z]) (by norm_num)
  rw [abs_le] at c hz bX bY
  constructor
  · rw [abs_le]
    norm_num at *
    constructor <;> linarith [c.1, c.2, hz.1, hz.2, bX.1, bX.2, bY.1, bY.2]
  · rw [abs_le]
    norm_num at *
    constructor <;> linarith [c.1, c.2, hz.1, hz.2, bX.1, bX.2, bY.1, bY.2]

/-- **C119.** For every date within a century of J2000.0: the distance `r` of the Earth from the Sun satisfies the equation
`r = 1 - c · p` of an ellipse with the Sun in one focus, of eccentricity `|c| = 0.0167` and directed to the perihelion, up to 0.0018
astronomical units; and the Earth is within 0.0003 units of the plane of the ecliptic. -/
theorem C119_ellipse (a b : ℝ) (h : |a + b - 2451545| ≤ 36525) (e : EarthPosVel ℝ) (he : EarthPosVel.fromTDB (a, b) = .ok e)
    (p : Fin 3 → ℝ) (hp : p = e.heliocentric.p.toVec) (c n : Fin 3 → ℝ) (hc : c = ![-0.0037405, 0.0149375, 0.0064762])
    (hn : n = ![0, -0.397776982902, 0.917482137087]) :
    |len p - (1 - c ⬝ᵥ p)| ≤ 0.0018 ∧ |n ⬝ᵥ p| ≤ 0.0003 := by
  rw [fromTDB_real] at he
  obtain rfl := Except.ok.inj he
  obtain ⟨h1, h2⟩ := earth_conic h p hp
  have d1 : c ⬝ᵥ p = -0.0037405 * p 0 + 0.0149375 * p 1 + 0.0064762 * p 2 := by
    rw [hc]; simp [dotProduct, Fin.sum_univ_three]
  have d2 : n ⬝ᵥ p = -0.397776982902 * p 1 + 0.917482137087 * p 2 := by
    rw [hn]; simp [dotProduct, Fin.sum_univ_three]
  rw [d1, d2]
  exact ⟨by rw [show ∀ L K : ℝ, L - (1 - K) = L + K - 1 by intros; ring]; exact h1.trans (by norm_num), h2.trans (by norm_num)⟩

/-- The eccentricity. -/
theorem C119_eccentricity (c : Fin 3 → ℝ) (hc : c = ![-0.0037405, 0.0149375, 0.0064762]) : |len c - 0.016705| ≤ 0.000001 := by
  have e : len c = Real.sqrt ((-0.0037405) ^ 2 + 0.0149375 ^ 2 + 0.0064762 ^ 2) := by rw [hc]; rfl
  rw [e, abs_le]
  constructor
  · have : (0.016704 : ℝ) ≤ Real.sqrt ((-0.0037405) ^ 2 + 0.0149375 ^ 2 + 0.0064762 ^ 2) := Real.le_sqrt_of_sq_le (by norm_num)
    norm_num at this ⊢; linarith
  · have : Real.sqrt ((-0.0037405) ^ 2 + 0.0149375 ^ 2 + 0.0064762 ^ 2) ≤ 0.016706 := by
      rw [Real.sqrt_le_left (by norm_num)]; norm_num
    norm_num at this ⊢; linarith

/-- **C119.** The same in binary64. -/
theorem C119_ellipse_f64 [Libm F64] (hL : LibmAcc) (x y : F64) (a b : ℚ) (hx : Is x a) (hy : Is y b) (ha : |a| ≤ 4000000)
    (h : |a + b - 2451545| ≤ 36525) (c n : Fin 3 → ℝ) (hc : c = ![-0.0037405, 0.0149375, 0.0064762])
    (hn : n = ![0, -0.397776982902, 0.917482137087]) :
    ∃ (e : EarthPosVel F64) (p : Fin 3 → ℝ), EarthPosVel.fromTDB (x, y) = .ok e ∧ ValueOf e.heliocentric.p p ∧
      |len p - (1 - c ⬝ᵥ p)| ≤ 0.0018 ∧ |n ⬝ᵥ p| ≤ 0.0003 := by
  obtain ⟨e, r, he, hr, np, -⟩ := C68_ephemeris_f64 hL x y a b hx hy ha h
  rw [fromTDB_real] at hr
  obtain rfl := Except.ok.inj hr
  have hR : |(a : ℝ) + b - 2451545| ≤ 36525 := by exact_mod_cast h
  obtain ⟨p, vp, lp⟩ := np.value (c := 6 / 10 ^ 11) (by norm_num) (by norm_num)
  refine ⟨e, p, he, vp, ?_⟩
  obtain ⟨h1, h2⟩ := earth_conic hR _ rfl
  simp only at lp
  generalize (earthAt (a + b)).heliocentric.p.toVec = P at *
  have hl : |len p - len P| ≤ len (p - P) := by
    rw [len_eq, len_eq, len_eq, WithLp.toLp_sub]; exact abs_norm_sub_norm_le _ _
  have g : ∀ i, |p i - P i| ≤ 6 / 10 ^ 11 := fun i => (abs_le_len (p - P) i).trans lp
  have g0 := g 0
  have g1 := g 1
  have g2 := g 2
  have d1 : c ⬝ᵥ p = -0.0037405 * p 0 + 0.0149375 * p 1 + 0.0064762 * p 2 := by
    rw [hc]; simp [dotProduct, Fin.sum_univ_three]
  have d2 : n ⬝ᵥ p = -0.397776982902 * p 1 + 0.917482137087 * p 2 := by
    rw [hn]; simp [dotProduct, Fin.sum_univ_three]
  rw [d1, d2]
  replace hl := hl.trans lp
  clear g hc hn d1 d2 lp
  rw [abs_le] at h1 h2 hl g0 g1 g2
  constructor
  · rw [abs_le]
    norm_num at *
    constructor <;> linarith [h1.1, h1.2, hl.1, hl.2, g0.1, g0.2, g1.1, g1.2, g2.1, g2.2]
  · rw [abs_le]
    norm_num at *
    constructor <;> linarith [h2.1, h2.2, g1.1, g1.2, g2.1, g2.2]

/-- The date of the reference value in the test suite. -/
example : |(2453412 : ℝ) + 0.52501161 - 2451545| ≤ 36525 := by norm_num [abs_le]

end Verif
