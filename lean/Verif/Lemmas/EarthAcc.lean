import Verif.Props.EarthMotion

/-!
# Second derivative of the ephemeris series
-/

namespace Verif
open Arith Epv

/-- `∑ -a c² cos(b + c t)`. -/
noncomputable def ser0'' (L : List Triple) (t : ℝ) : ℝ :=
  (L.map fun d => -((d.1.q : ℝ) * d.2.2.q ^ 2 * Real.cos (d.2.1.q + d.2.2.q * t))).sum

theorem ser0''_cons (d : Triple) (L : List Triple) (t : ℝ) :
    ser0'' (d :: L) t = -((d.1.q : ℝ) * d.2.2.q ^ 2 * Real.cos (d.2.1.q + d.2.2.q * t)) + ser0'' L t := by
  simp [ser0'']

theorem hasDerivAt_ser0' (L : List Triple) (t : ℝ) : HasDerivAt (ser0' L) (ser0'' L t) t := by
  induction L with
  | nil => exact hasDerivAt_const t 0
  | cons d L ih =>
    have h1 : HasDerivAt (fun t : ℝ => (d.2.1.q : ℝ) + d.2.2.q * t) d.2.2.q t := by
      simpa using ((hasDerivAt_id t).const_mul (d.2.2.q : ℝ)).const_add (d.2.1.q : ℝ)
    have h2 := ((h1.sin.const_mul ((d.1.q : ℝ) * d.2.2.q)).neg).add ih
    have e : ser0' (d :: L) = fun t => -((d.1.q : ℝ) * d.2.2.q * Real.sin (d.2.1.q + d.2.2.q * t)) + ser0' L t :=
      funext fun t => ser0'_cons d L t
    rw [e]
    refine h2.congr_deriv ?_
    rw [ser0''_cons]
    ring

theorem ser0''_le (L : List Triple) (t : ℝ) : |ser0'' L t| ≤ (L.map (wt 2)).sum := by
  induction L with
  | nil => simp [ser0'']
  | cons d L ih =>
    rw [ser0''_cons, List.map_cons, List.sum_cons]
    refine (abs_add_le _ _).trans (add_le_add ?_ ih)
    rw [abs_neg, abs_mul, abs_mul, abs_pow]
    exact mul_le_of_le_one_right (by positivity) (Real.abs_cos_le_one _)

/-- Second derivative of `helioEcl`. -/
noncomputable def helioEcl'' (k : Fin 3) (t : ℝ) : ℝ :=
  ser0'' (EpvRef.E0 k) t + ((2 * ser0' (EpvRef.E1 k) t + t * ser0'' (EpvRef.E1 k) t)
    + (2 * ser0 (EpvRef.E2 k) t + 4 * t * ser0' (EpvRef.E2 k) t + t ^ 2 * ser0'' (EpvRef.E2 k) t))

theorem hasDerivAt_helioEcl' (k : Fin 3) (t : ℝ) : HasDerivAt (helioEcl' k) (helioEcl'' k t) t := by
  have i := hasDerivAt_id t
  have h := ((hasDerivAt_ser0' (EpvRef.E0 k) t).add
      ((hasDerivAt_ser0 (EpvRef.E1 k) t).add (i.mul (hasDerivAt_ser0' (EpvRef.E1 k) t)))).add
    (((i.const_mul 2).mul (hasDerivAt_ser0 (EpvRef.E2 k) t)).add ((i.pow 2).mul (hasDerivAt_ser0' (EpvRef.E2 k) t)))
  refine HasDerivAt.congr_deriv (f := helioEcl' k) h ?_
  unfold helioEcl''
  simp only [Pi.pow_apply, id]
  push_cast
  ring

/-- Bound on the second derivative of the terms with powers of `t`. -/
theorem secular2_le (k : Fin 3) {t : ℝ} (ht : |t| ≤ 100) :
    |(2 * ser0' (EpvRef.E1 k) t + t * ser0'' (EpvRef.E1 k) t)
      + (2 * ser0 (EpvRef.E2 k) t + 4 * t * ser0' (EpvRef.E2 k) t + t ^ 2 * ser0'' (EpvRef.E2 k) t)| ≤ 0.0096 := by
  have a1 := (ser0'_le (EpvRef.E1 k) t).trans (bd_E1 k).b1
  have a2 := (ser0''_le (EpvRef.E1 k) t).trans (bd_E1 k).b2
  have a3 := (ser0_wt (EpvRef.E2 k) t).trans (bd_E2 k).b0
  have a4 := (ser0'_le (EpvRef.E2 k) t).trans (bd_E2 k).b1
  have a5 := (ser0''_le (EpvRef.E2 k) t).trans (bd_E2 k).b2
  have b1 : |2 * ser0' (EpvRef.E1 k) t| ≤ 2 * (1.5 / 10 ^ 5) := by
    rw [abs_mul, abs_two]; linarith
  have b2 : |t * ser0'' (EpvRef.E1 k) t| ≤ 100 * (9.4 / 10 ^ 5) := by
    rw [abs_mul]; exact mul_le_mul ht a2 (abs_nonneg _) (by norm_num)
  have b3 : |2 * ser0 (EpvRef.E2 k) t| ≤ 2 * (1.1 / 10 ^ 10) := by
    rw [abs_mul, abs_two]; linarith
  have b4 : |4 * t * ser0' (EpvRef.E2 k) t| ≤ 400 * (6.2 / 10 ^ 10) := by
    rw [abs_mul, abs_mul, abs_of_pos (show (0 : ℝ) < 4 by norm_num)]
    exact mul_le_mul (by linarith) a4 (abs_nonneg _) (by norm_num)
  have b5 : |t ^ 2 * ser0'' (EpvRef.E2 k) t| ≤ 10000 * (4.9 / 10 ^ 9) := by
    rw [abs_mul, abs_pow]
    exact mul_le_mul (by nlinarith [abs_nonneg t]) a5 (abs_nonneg _) (by norm_num)
  refine (abs_add_le _ _).trans ((add_le_add ((abs_add_le _ _).trans (add_le_add b1 b2))
    ((abs_add_le _ _).trans (add_le_add ((abs_add_le _ _).trans (add_le_add b3 b4)) b5))).trans ?_)
  norm_num

theorem helioX'' (t : ℝ) (ht : |t| ≤ 100) : ∃ e : ℝ, |e| ≤ 0.3189 ∧
    helioEcl'' 0 t = -(0.9998292878132 * 6.283075850446 ^ 2 * Real.cos (1.753485171504 + 6.283075850446 * t))
      - 0.008352579567414 * 12.56615170089 ^ 2 * Real.cos (1.710344404582 + 12.56615170089 * t) + e := by
  have h0 := (Bd.of_chk (show chk (EpvRef.E0X.drop 3) 501 10400000000000000 62200000000000 3093000000000000 = true by
    decide +kernel)).b2
  have s := secular2_le 0 ht
  have r := (ser0''_le (EpvRef.E0X.drop 3) t).trans h0
  refine ⟨_, (abs_add_le _ _).trans ((add_le_add r s).trans (by norm_num)), ?_⟩
  show ser0'' EpvRef.E0X t + _ = _
  rw [E0X_split, ser0''_cons, ser0''_cons, ser0''_cons, ← E0X_split]
  simp only [Dec.q]
  norm_num
  ring

theorem helioY'' (t : ℝ) (ht : |t| ≤ 100) : ∃ e : ℝ, |e| ≤ 0.3191 ∧
    helioEcl'' 1 t = -(0.9998921098898 * 6.283075850446 ^ 2 * Real.cos (0.1826583913846 + 6.283075850446 * t))
      - 0.008352929742915 * 12.56615170089 ^ 2 * Real.cos (0.139527799868 + 12.56615170089 * t) + e := by
  have h0 := (Bd.of_chk (show chk (EpvRef.E0Y.drop 3) 501 10400000000000000 62440000000000 3095000000000000 = true by
    decide +kernel)).b2
  have s := secular2_le 1 ht
  have r := (ser0''_le (EpvRef.E0Y.drop 3) t).trans h0
  refine ⟨_, (abs_add_le _ _).trans ((add_le_add r s).trans (by norm_num)), ?_⟩
  show ser0'' EpvRef.E0Y t + _ = _
  rw [E0Y_split, ser0''_cons, ser0''_cons, ser0''_cons, ← E0Y_split]
  simp only [Dec.q]
  norm_num
  ring

theorem helioZ'' (t : ℝ) (ht : |t| ≤ 100) : |helioEcl'' 2 t| ≤ 0.0339 := by
  have h0 := (Bd.of_chk (show chk EpvRef.E0Z 501 10400000000000000 2950000000000 242000000000000 = true by
    decide +kernel)).b2
  have s := secular2_le 2 ht
  have r := (ser0''_le EpvRef.E0Z t).trans h0
  exact (abs_add_le _ _).trans ((add_le_add r s).trans (by norm_num))

set_option maxHeartbeats 2000000 in
/-- Coordinates in the plane of the ecliptic along (`C`, `S`) and across: position `1 + a`, `q`; acceleration
`-W (1 - 2 a + f)`, `-W (q + g)` and a rest `(l, m)`, where `W` is the square of the mean motion. -/
theorem helio_accel (t : ℝ) (ht : |t| ≤ 100) : ∃ C S a q f g l m : ℝ, C ^ 2 + S ^ 2 = 1 ∧
    C * helioEcl 0 t + S * helioEcl 1 t = 1 + a ∧ C * helioEcl 1 t - S * helioEcl 0 t = q ∧
    C * helioEcl'' 0 t + S * helioEcl'' 1 t = -(6.283075850446 ^ 2 * (1 - 2 * a + f)) + l ∧
    C * helioEcl'' 1 t - S * helioEcl'' 0 t = -(6.283075850446 ^ 2 * (q + g)) + m ∧
    |a| ≤ 0.01777 ∧ |q| ≤ 0.0368 ∧ |f| ≤ 0.00272 ∧ |g| ≤ 0.00136 ∧ l ^ 2 + m ^ 2 ≤ 0.4605 ^ 2 := by
  obtain ⟨ex, hex, hx⟩ := helioX t ht
  obtain ⟨ey, hey, hy⟩ := helioY t ht
  obtain ⟨fx, hfx, hx'⟩ := helioX'' t ht
  obtain ⟨fy, hfy, hy'⟩ := helioY'' t ht
  obtain ⟨o1, o2, o3, o4⟩ := omega_bounds
  have p1 := Real.pi_gt_d6
  have p2 := Real.pi_lt_d6
  have ht' := abs_le.mp ht
  set θ : ℝ := 1.753485171504 + 6.283075850446 * t with hθ
  set ω : ℝ := 1.796625938426 with hω
  have d1 : |1.710344404582 + 12.56615170089 * t - (2 * θ - ω)| ≤ 0.000001 := by
    rw [hθ, hω, abs_le]; constructor <;> norm_num <;> linarith
  have d2 : |0.1826583913846 + 6.283075850446 * t - (θ - Real.pi / 2)| ≤ 0.0000320 := by
    rw [hθ, abs_le]; constructor <;> norm_num at p1 p2 ⊢ <;> linarith
  have d3 : |0.139527799868 + 12.56615170089 * t - (2 * θ - ω - Real.pi / 2)| ≤ 0.0000220 := by
    rw [hθ, hω, abs_le]; constructor <;> norm_num at p1 p2 ⊢ <;> linarith
  have k1 := cos_near _ _ _ d1
  have k2 := cos_near _ _ _ d2
  have k3 := cos_near _ _ _ d3
  rw [Real.cos_sub_pi_div_two] at k2 k3
  clear d1 d2 d3
  generalize Real.cos (1.710344404582 + 12.56615170089 * t) = c1 at *
  generalize Real.cos (0.1826583913846 + 6.283075850446 * t) = c2 at *
  generalize Real.cos (0.139527799868 + 12.56615170089 * t) = c3 at *
  have hC := Real.cos_sq_add_sin_sq θ
  have bC := abs_le.mp (Real.abs_cos_le_one θ)
  have bS := abs_le.mp (Real.abs_sin_le_one θ)
  have bC2 := abs_le.mp (Real.abs_cos_le_one (2 * θ - ω))
  have bS2 := abs_le.mp (Real.abs_sin_le_one (2 * θ - ω))
  have hcomb : Real.cos θ * Real.cos (2 * θ - ω) + Real.sin θ * Real.sin (2 * θ - ω)
      = Real.cos θ * Real.cos ω + Real.sin θ * Real.sin ω := by
    rw [← Real.cos_sub, ← Real.cos_sub, ← Real.cos_neg (θ - ω)]
    congr 1; ring
  have hcomb2 : Real.cos θ * Real.sin (2 * θ - ω) - Real.sin θ * Real.cos (2 * θ - ω)
      = Real.sin θ * Real.cos ω - Real.cos θ * Real.sin ω := by
    rw [mul_comm, mul_comm (Real.sin θ) (Real.cos (2 * θ - ω)), ← Real.sin_sub, ← Real.sin_sub]
    congr 1; ring
  generalize Real.cos θ = C at *
  generalize Real.sin θ = S at *
  generalize Real.cos (2 * θ - ω) = C2 at *
  generalize Real.sin (2 * θ - ω) = S2 at *
  generalize Real.cos ω = co at *
  generalize Real.sin ω = so at *
  rw [abs_le] at k1 k2 k3 hex hey hfx hfy
  obtain ⟨ux, hux, hx⟩ : ∃ ux, |ux| ≤ 0.000752 ∧
      helioEcl 0 t = C + 0.008352579567414 * C2 + 0.005611445335148 + ux := by
    refine ⟨helioEcl 0 t - (C + 0.008352579567414 * C2 + 0.005611445335148), ?_, by ring⟩
    rw [hx, abs_le]
    constructor <;> linarith
  obtain ⟨uy, huy, hy⟩ : ∃ uy, |uy| ≤ 0.000694 ∧
      helioEcl 1 t = S + 0.008352579567414 * S2 - 0.02442700893735 + uy := by
    refine ⟨helioEcl 1 t - (S + 0.008352579567414 * S2 - 0.02442700893735), ?_, by ring⟩
    rw [hy, abs_le]
    constructor <;> linarith
  obtain ⟨vx, hvx, hx'⟩ : ∃ vx, |vx| ≤ 0.3257 ∧
      helioEcl'' 0 t = -(6.283075850446 ^ 2 * (C + 4 * 0.008352579567414 * C2)) + vx := by
    refine ⟨helioEcl'' 0 t + 6.283075850446 ^ 2 * (C + 4 * 0.008352579567414 * C2), ?_, by ring⟩
    rw [hx', abs_le]
    constructor <;> norm_num at * <;> linarith
  obtain ⟨vy, hvy, hy'⟩ : ∃ vy, |vy| ≤ 0.3248 ∧
      helioEcl'' 1 t = -(6.283075850446 ^ 2 * (S + 4 * 0.008352579567414 * S2)) + vy := by
    refine ⟨helioEcl'' 1 t + 6.283075850446 ^ 2 * (S + 4 * 0.008352579567414 * S2), ?_, by ring⟩
    rw [hy', abs_le]
    constructor <;> norm_num at * <;> linarith
  clear k1 k2 k3 hex hey hfx hfy
  generalize helioEcl 0 t = x at *
  generalize helioEcl 1 t = y at *
  generalize helioEcl'' 0 t = x' at *
  generalize helioEcl'' 1 t = y' at *
  obtain ⟨u1, u2⟩ := abs_le.mp hux
  obtain ⟨u3, u4⟩ := abs_le.mp huy
  have a1 : |3 * 0.008352579567414 * co + 0.005611445335148 + ux| ≤ 0.00098 := by
    rw [abs_le]; constructor <;> linarith
  have a2 : |3 * 0.008352579567414 * so - 0.02442700893735 + uy| ≤ 0.00083 := by
    rw [abs_le]; constructor <;> linarith
  have b1 := sq_le_sq' (abs_le.mp a1).1 (abs_le.mp a1).2
  have b2 := sq_le_sq' (abs_le.mp a2).1 (abs_le.mp a2).2
  refine ⟨C, S, C * (0.008352579567414 * co + 0.005611445335148 + ux)
      + S * (0.008352579567414 * so - 0.02442700893735 + uy), C * y - S * x,
      2 * (C * (3 * 0.008352579567414 * co + 0.005611445335148 + ux)
        + S * (3 * 0.008352579567414 * so - 0.02442700893735 + uy)),
      -(C * (3 * 0.008352579567414 * so - 0.02442700893735 + uy)
        - S * (3 * 0.008352579567414 * co + 0.005611445335148 + ux)),
      C * vx + S * vy, C * vy - S * vx, hC, ?_, rfl, ?_, ?_, ?_, ?_, ?_, ?_, ?_⟩
  · rw [hx, hy]
    linear_combination hC + 0.008352579567414 * hcomb
  · rw [hx', hy']
    linear_combination (-6.283075850446 ^ 2) * hC - 4 * 6.283075850446 ^ 2 * 0.008352579567414 * hcomb
  · rw [hx', hy', hx, hy]
    linear_combination (-3 * 6.283075850446 ^ 2 * 0.008352579567414) * hcomb2
  · refine cauchy2 (by norm_num) hC ?_
    have a1 : |0.008352579567414 * co + 0.005611445335148 + ux| ≤ 0.0046 := by
      rw [abs_le]; constructor <;> linarith
    have a2 : |0.008352579567414 * so - 0.02442700893735 + uy| ≤ 0.01705 := by
      rw [abs_le]; constructor <;> linarith
    have b1 := sq_le_sq' (abs_le.mp a1).1 (abs_le.mp a1).2
    have b2 := sq_le_sq' (abs_le.mp a2).1 (abs_le.mp a2).2
    norm_num at b1 b2 ⊢
    linarith
  · have a1 : |y - S| ≤ 0.0336 := by rw [hy, abs_le]; constructor <;> linarith
    have a2 : |x - C| ≤ 0.0148 := by rw [hx, abs_le]; constructor <;> linarith
    have := cauchy2 (m := 0.0368) (by norm_num) hC (A := y - S) (B := -(x - C)) (by
      have b1 := sq_le_sq' (abs_le.mp a1).1 (abs_le.mp a1).2
      have b2 := sq_le_sq' (abs_le.mp a2).1 (abs_le.mp a2).2
      rw [neg_sq]
      norm_num at b1 b2 ⊢
      linarith)
    rwa [show C * (y - S) + S * -(x - C) = C * y - S * x by ring] at this
  · rw [abs_mul, abs_two]
    have := cauchy2 (m := 0.00136) (by norm_num) hC (A := 3 * 0.008352579567414 * co + 0.005611445335148 + ux)
      (B := 3 * 0.008352579567414 * so - 0.02442700893735 + uy) (by norm_num at b1 b2 ⊢; linarith)
    linarith
  · rw [abs_neg, sub_eq_add_neg, ← mul_neg]
    refine cauchy2 (by norm_num) hC ?_
    rw [neg_sq]
    norm_num at b1 b2 ⊢
    linarith
  · rw [show (C * vx + S * vy) ^ 2 + (C * vy - S * vx) ^ 2 = vx ^ 2 + vy ^ 2 by
      linear_combination (vx ^ 2 + vy ^ 2) * hC]
    have b1 := sq_le_sq' (abs_le.mp hvx).1 (abs_le.mp hvx).2
    have b2 := sq_le_sq' (abs_le.mp hvy).1 (abs_le.mp hvy).2
    norm_num at b1 b2 ⊢
    linarith

end Verif
