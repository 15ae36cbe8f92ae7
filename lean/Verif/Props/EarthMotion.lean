import Verif.Lemmas.EpvSeries

/-!
# C89: motion of the Earth
-/

namespace Verif
open Arith Epv

theorem ser0'_cons (d : Triple) (L : List Triple) (t : ℝ) :
    ser0' (d :: L) t = -((d.1.q : ℝ) * d.2.2.q * Real.sin (d.2.1.q + d.2.2.q * t)) + ser0' L t := by
  simp [ser0']

theorem ser0'_le (L : List Triple) (t : ℝ) : |ser0' L t| ≤ (L.map (wt 1)).sum := by
  induction L with
  | nil => simp [ser0']
  | cons d L ih =>
    rw [ser0'_cons, List.map_cons, List.sum_cons]
    refine (abs_add_le _ _).trans (add_le_add ?_ ih)
    rw [abs_neg, abs_mul, abs_mul, wt_one]
    exact mul_le_of_le_one_right (by positivity) (Real.abs_sin_le_one _)

theorem ser0_wt (L : List Triple) (t : ℝ) : |ser0 L t| ≤ (L.map (wt 0)).sum := by
  induction L with
  | nil => simp [ser0]
  | cons d L ih =>
    rw [ser0_cons, List.map_cons, List.sum_cons]
    refine (abs_add_le _ _).trans (add_le_add ?_ ih)
    rw [abs_mul, wt_zero]
    exact mul_le_of_le_one_right (by positivity) (Real.abs_cos_le_one _)

/-- Bound on the derivative of the terms with powers of `t`. -/
theorem secular_le (k : Fin 3) {t : ℝ} (ht : |t| ≤ 100) {s : ℝ} (h1 : ((EpvRef.E1 k).map (wt 1)).sum ≤ s) :
    |(ser0 (EpvRef.E1 k) t + t * ser0' (EpvRef.E1 k) t)
      + (2 * t * ser0 (EpvRef.E2 k) t + t ^ 2 * ser0' (EpvRef.E2 k) t)| ≤ 0.00001 + 100 * s := by
  have a1 := (ser0_wt (EpvRef.E1 k) t).trans (bd_E1 k).b0
  have a2 := (ser0'_le (EpvRef.E1 k) t).trans h1
  have a3 := (ser0_wt (EpvRef.E2 k) t).trans (bd_E2 k).b0
  have a4 := (ser0'_le (EpvRef.E2 k) t).trans (bd_E2 k).b1
  have b2 : |t * ser0' (EpvRef.E1 k) t| ≤ 100 * s := by
    rw [abs_mul]; exact mul_le_mul ht a2 (abs_nonneg _) (by norm_num)
  have b3 : |2 * t * ser0 (EpvRef.E2 k) t| ≤ 200 * (1.1 / 10 ^ 10) := by
    rw [abs_mul, abs_mul, abs_two]; exact mul_le_mul (by linarith) a3 (abs_nonneg _) (by norm_num)
  have b4 : |t ^ 2 * ser0' (EpvRef.E2 k) t| ≤ 10000 * (6.2 / 10 ^ 10) := by
    rw [abs_mul, abs_pow]
    exact mul_le_mul (by nlinarith [abs_nonneg t]) a4 (abs_nonneg _) (by norm_num)
  refine (abs_add_le _ _).trans ((add_le_add ((abs_add_le _ _).trans (add_le_add a1 b2))
    ((abs_add_le _ _).trans (add_le_add b3 b4))).trans ?_)
  norm_num
  linarith

theorem helioX' (t : ℝ) (ht : |t| ≤ 100) : ∃ e : ℝ, |e| ≤ 0.00693 ∧
    helioEcl' 0 t = -(0.9998292878132 * 6.283075850446 * Real.sin (1.753485171504 + 6.283075850446 * t))
      - 0.008352579567414 * 12.56615170089 * Real.sin (1.710344404582 + 12.56615170089 * t) + e := by
  have h0 := (Bd.of_chk (show chk (EpvRef.E0X.drop 3) 501 10400000000000000 62200000000000 412000000000000000 = true by
    decide +kernel)).b1
  have h1 := (Bd.of_chk (show chk EpvRef.E1X 501 10400000000000000 69000000000 412000000000000000 = true by
    decide +kernel)).b1
  have s := secular_le 0 ht h1
  have r := (ser0'_le (EpvRef.E0X.drop 3) t).trans h0
  refine ⟨_, (abs_add_le _ _).trans ((add_le_add r s).trans (by norm_num)), ?_⟩
  show ser0' EpvRef.E0X t + _ + _ = _
  rw [E0X_split, ser0'_cons, ser0'_cons, ser0'_cons, ← E0X_split]
  simp only [Dec.q]
  norm_num
  ring

theorem helioY' (t : ℝ) (ht : |t| ≤ 100) : ∃ e : ℝ, |e| ≤ 0.00695 ∧
    helioEcl' 1 t = -(0.9998921098898 * 6.283075850446 * Real.sin (0.1826583913846 + 6.283075850446 * t))
      - 0.008352929742915 * 12.56615170089 * Real.sin (0.139527799868 + 12.56615170089 * t) + e := by
  have h0 := (Bd.of_chk (show chk (EpvRef.E0Y.drop 3) 501 10400000000000000 62440000000000 412000000000000000 = true by
    decide +kernel)).b1
  have h1 := (Bd.of_chk (show chk EpvRef.E1Y 501 10400000000000000 69000000000 412000000000000000 = true by
    decide +kernel)).b1
  have s := secular_le 1 ht h1
  have r := (ser0'_le (EpvRef.E0Y.drop 3) t).trans h0
  refine ⟨_, (abs_add_le _ _).trans ((add_le_add r s).trans (by norm_num)), ?_⟩
  show ser0' EpvRef.E0Y t + _ + _ = _
  rw [E0Y_split, ser0'_cons, ser0'_cons, ser0'_cons, ← E0Y_split]
  simp only [Dec.q]
  norm_num
  ring

theorem helioZ' (t : ℝ) (ht : |t| ≤ 100) : |helioEcl' 2 t| ≤ 0.0018 := by
  have h0 := (Bd.of_chk (show chk EpvRef.E0Z 501 10400000000000000 2950000000000 412000000000000000 = true by
    decide +kernel)).b1
  have h1 := (Bd.of_chk (show chk EpvRef.E1Z 501 10400000000000000 146000000000 412000000000000000 = true by
    decide +kernel)).b1
  have s := secular_le 2 ht h1
  have r := (ser0'_le EpvRef.E0Z t).trans h0
  show |ser0' EpvRef.E0Z t + _ + _| ≤ _
  rw [add_assoc]
  exact (abs_add_le _ _).trans ((add_le_add r s).trans (by norm_num))

theorem sin_near_of (a b d : ℝ) (h : |a - b| ≤ d) : |Real.sin a - Real.sin b| ≤ d := by
  have := cos_near (Real.pi / 2 - a) (Real.pi / 2 - b) d (by
    rw [show Real.pi / 2 - a - (Real.pi / 2 - b) = -(a - b) by ring, abs_neg]; exact h)
  rwa [Real.cos_pi_div_two_sub, Real.cos_pi_div_two_sub] at this

set_option maxHeartbeats 2000000 in
/-- Coordinates in the plane of the ecliptic along (`C`, `S`) and across: position `1 + a`, `q`; velocity `T`, `R`. -/
theorem helio_motion (t : ℝ) (ht : |t| ≤ 100) : ∃ C S a b q w R : ℝ, C ^ 2 + S ^ 2 = 1 ∧
    C * helioEcl 0 t + S * helioEcl 1 t = 1 + a ∧ C * helioEcl 1 t - S * helioEcl 0 t = q ∧
    C * helioEcl' 1 t - S * helioEcl' 0 t = 6.283075850446 * (1 + b) + w ∧
    C * helioEcl' 0 t + S * helioEcl' 1 t = R ∧
    |a| ≤ 0.01777 ∧ |b| ≤ 0.016706 ∧ |a + b| ≤ 0.00136 ∧ |q| ≤ 0.0368 ∧ |w| ≤ 0.0115 ∧ |R| ≤ 0.1166 := by
  obtain ⟨ex, hex, hx⟩ := helioX t ht
  obtain ⟨ey, hey, hy⟩ := helioY t ht
  obtain ⟨fx, hfx, hx'⟩ := helioX' t ht
  obtain ⟨fy, hfy, hy'⟩ := helioY' t ht
  obtain ⟨o1, o2, o3, o4⟩ := omega_bounds
  have p1 := Real.pi_gt_d6
  have p2 := Real.pi_lt_d6
  have ht' := abs_le.mp ht
  set θ : ℝ := 1.753485171504 + 6.283075850446 * t with hθ
  set ω : ℝ := 1.796625938426 with hω
  have d1 : |1.710344404582 + 12.56615170089 * t - (2 * θ - ω)| ≤ 0.000001 := by
    rw [hθ, hω, abs_le]; constructor <;> norm_num <;> linarith
  have d2 : |0.1826583913846 + 6.283075850446 * t - (θ - Real.pi / 2)| ≤ 0.0000320 := by
    rw [hθ, abs_le]; constructor <;> norm_num at p1 p2 ⊢ <;> linarith
  have d3 : |0.139527799868 + 12.56615170089 * t - (2 * θ - ω - Real.pi / 2)| ≤ 0.0000220 := by
    rw [hθ, hω, abs_le]; constructor <;> norm_num at p1 p2 ⊢ <;> linarith
  have k1 := cos_near _ _ _ d1
  have k2 := cos_near _ _ _ d2
  have k3 := cos_near _ _ _ d3
  have l1 := sin_near_of _ _ _ d1
  have l2 := sin_near_of _ _ _ d2
  have l3 := sin_near_of _ _ _ d3
  rw [Real.cos_sub_pi_div_two] at k2 k3
  rw [Real.sin_sub_pi_div_two] at l2 l3
  clear d1 d2 d3
  generalize Real.cos (1.710344404582 + 12.56615170089 * t) = c1 at *
  generalize Real.cos (0.1826583913846 + 6.283075850446 * t) = c2 at *
  generalize Real.cos (0.139527799868 + 12.56615170089 * t) = c3 at *
  generalize Real.sin (1.710344404582 + 12.56615170089 * t) = s1 at *
  generalize Real.sin (0.1826583913846 + 6.283075850446 * t) = s2 at *
  generalize Real.sin (0.139527799868 + 12.56615170089 * t) = s3 at *
  have hC := Real.cos_sq_add_sin_sq θ
  have hO := Real.cos_sq_add_sin_sq ω
  have hC2 := Real.cos_sq_add_sin_sq (2 * θ - ω)
  have bC := abs_le.mp (Real.abs_cos_le_one θ)
  have bS := abs_le.mp (Real.abs_sin_le_one θ)
  have bC2 := abs_le.mp (Real.abs_cos_le_one (2 * θ - ω))
  have bS2 := abs_le.mp (Real.abs_sin_le_one (2 * θ - ω))
  have hcomb : Real.cos θ * Real.cos (2 * θ - ω) + Real.sin θ * Real.sin (2 * θ - ω)
      = Real.cos θ * Real.cos ω + Real.sin θ * Real.sin ω := by
    rw [← Real.cos_sub, ← Real.cos_sub, ← Real.cos_neg (θ - ω)]
    congr 1; ring
  generalize Real.cos θ = C at *
  generalize Real.sin θ = S at *
  generalize Real.cos (2 * θ - ω) = C2 at *
  generalize Real.sin (2 * θ - ω) = S2 at *
  generalize Real.cos ω = co at *
  generalize Real.sin ω = so at *
  rw [abs_le] at k1 k2 k3 l1 l2 l3 hex hey hfx hfy
  obtain ⟨ux, hux, hx⟩ : ∃ ux, |ux| ≤ 0.000752 ∧
      helioEcl 0 t = C + 0.008352579567414 * C2 + 0.005611445335148 + ux := by
    refine ⟨helioEcl 0 t - (C + 0.008352579567414 * C2 + 0.005611445335148), ?_, by ring⟩
    rw [hx, abs_le]
    constructor <;> linarith
  obtain ⟨uy, huy, hy⟩ : ∃ uy, |uy| ≤ 0.000694 ∧
      helioEcl 1 t = S + 0.008352579567414 * S2 - 0.02442700893735 + uy := by
    refine ⟨helioEcl 1 t - (S + 0.008352579567414 * S2 - 0.02442700893735), ?_, by ring⟩
    rw [hy, abs_le]
    constructor <;> linarith
  obtain ⟨vx, hvx, hx'⟩ : ∃ vx, |vx| ≤ 0.0081 ∧
      helioEcl' 0 t = 6.283075850446 * (-S - 2 * 0.008352579567414 * S2) + vx := by
    refine ⟨helioEcl' 0 t - 6.283075850446 * (-S - 2 * 0.008352579567414 * S2), ?_, by ring⟩
    rw [hx', abs_le]
    constructor <;> linarith
  obtain ⟨vy, hvy, hy'⟩ : ∃ vy, |vy| ≤ 0.0079 ∧
      helioEcl' 1 t = 6.283075850446 * (C + 2 * 0.008352579567414 * C2) + vy := by
    refine ⟨helioEcl' 1 t - 6.283075850446 * (C + 2 * 0.008352579567414 * C2), ?_, by ring⟩
    rw [hy', abs_le]
    constructor <;> linarith
  clear k1 k2 k3 l1 l2 l3 hex hey hfx hfy
  generalize helioEcl 0 t = x at *
  generalize helioEcl 1 t = y at *
  generalize helioEcl' 0 t = x' at *
  generalize helioEcl' 1 t = y' at *
  have hu := And.intro (abs_le.mp hux) (abs_le.mp huy)
  obtain ⟨⟨u1, u2⟩, u3, u4⟩ := hu
  refine ⟨C, S, C * (0.008352579567414 * co + 0.005611445335148 + ux)
      + S * (0.008352579567414 * so - 0.02442700893735 + uy), 2 * 0.008352579567414 * (C * co + S * so), _,
      C * vy + S * (-vx), _, hC, ?_, rfl, ?_, rfl, ?_, ?_, ?_, ?_, ?_, ?_⟩
  · rw [hx, hy]
    linear_combination hC + 0.008352579567414 * hcomb
  · rw [hx', hy']
    linear_combination 6.283075850446 * hC + 2 * 6.283075850446 * 0.008352579567414 * hcomb
  · refine cauchy2 (by norm_num) hC ?_
    have a1 : |0.008352579567414 * co + 0.005611445335148 + ux| ≤ 0.0046 := by
      rw [abs_le]; constructor <;> linarith
    have a2 : |0.008352579567414 * so - 0.02442700893735 + uy| ≤ 0.01705 := by
      rw [abs_le]; constructor <;> linarith
    have b1 := sq_le_sq' (abs_le.mp a1).1 (abs_le.mp a1).2
    have b2 := sq_le_sq' (abs_le.mp a2).1 (abs_le.mp a2).2
    norm_num at b1 b2 ⊢
    linarith
  · rw [abs_mul, abs_of_pos (by norm_num)]
    have := cauchy2 (m := 1) (by norm_num) hC (A := co) (B := so) (by rw [hO]; norm_num)
    norm_num at this ⊢
    linarith
  · rw [show C * (0.008352579567414 * co + 0.005611445335148 + ux)
      + S * (0.008352579567414 * so - 0.02442700893735 + uy) + 2 * 0.008352579567414 * (C * co + S * so)
      = C * (3 * 0.008352579567414 * co + 0.005611445335148 + ux)
      + S * (3 * 0.008352579567414 * so - 0.02442700893735 + uy) by ring]
    refine cauchy2 (by norm_num) hC ?_
    have a1 : |3 * 0.008352579567414 * co + 0.005611445335148 + ux| ≤ 0.00098 := by
      rw [abs_le]; constructor <;> linarith
    have a2 : |3 * 0.008352579567414 * so - 0.02442700893735 + uy| ≤ 0.00083 := by
      rw [abs_le]; constructor <;> linarith
    have b1 := sq_le_sq' (abs_le.mp a1).1 (abs_le.mp a1).2
    have b2 := sq_le_sq' (abs_le.mp a2).1 (abs_le.mp a2).2
    norm_num at b1 b2 ⊢
    linarith
  · have a1 : |y - S| ≤ 0.0336 := by rw [hy, abs_le]; constructor <;> linarith
    have a2 : |x - C| ≤ 0.0148 := by rw [hx, abs_le]; constructor <;> linarith
    have := cauchy2 (m := 0.0368) (by norm_num) hC (A := y - S) (B := -(x - C)) (by
      have b1 := sq_le_sq' (abs_le.mp a1).1 (abs_le.mp a1).2
      have b2 := sq_le_sq' (abs_le.mp a2).1 (abs_le.mp a2).2
      rw [neg_sq]
      norm_num at b1 b2 ⊢
      linarith)
    rwa [show C * (y - S) + S * -(x - C) = C * y - S * x by ring] at this
  · refine cauchy2 (by norm_num) hC ?_
    rw [neg_sq]
    have b1 := sq_le_sq' (abs_le.mp hvx).1 (abs_le.mp hvx).2
    have b2 := sq_le_sq' (abs_le.mp hvy).1 (abs_le.mp hvy).2
    norm_num at b1 b2 ⊢
    linarith
  · rw [show C * x' + S * y' = 2 * 6.283075850446 * 0.008352579567414 * (C * (-S2) + S * C2) + (C * vx + S * vy) by
      rw [hx', hy']; ring]
    have g1 := cauchy2 (m := 1) (by norm_num) hC (A := -S2) (B := C2) (by rw [neg_sq]; linarith)
    have g2 := cauchy2 (m := 0.0115) (by norm_num) hC (A := vx) (B := vy) (by
      have b1 := sq_le_sq' (abs_le.mp hvx).1 (abs_le.mp hvx).2
      have b2 := sq_le_sq' (abs_le.mp hvy).1 (abs_le.mp hvy).2
      norm_num at b1 b2 ⊢
      linarith)
    rw [abs_le] at g1 g2 ⊢
    norm_num at g1 g2 ⊢
    constructor <;> linarith [g1.1, g1.2, g2.1, g2.2]

/-- Speed in the ecliptic frame, au per Julian year. -/
theorem helio_speed (t : ℝ) (ht : |t| ≤ 100) :
    6.1665 ^ 2 ≤ helioEcl' 0 t ^ 2 + helioEcl' 1 t ^ 2 + helioEcl' 2 t ^ 2 ∧
    helioEcl' 0 t ^ 2 + helioEcl' 1 t ^ 2 + helioEcl' 2 t ^ 2 ≤ 6.4011 ^ 2 := by
  obtain ⟨C, S, a, b, q, w, R, hC, -, -, hT, hR, -, hb, -, -, hw, hRb⟩ := helio_motion t ht
  have hz := helioZ' t ht
  have hz2 := sq_le_sq' (abs_le.mp hz).1 (abs_le.mp hz).2
  have hR2 := sq_le_sq' (abs_le.mp hRb).1 (abs_le.mp hRb).2
  have e : helioEcl' 0 t ^ 2 + helioEcl' 1 t ^ 2 = (6.283075850446 * (1 + b) + w) ^ 2 + R ^ 2 := by
    rw [← hT, ← hR]; linear_combination (-(helioEcl' 0 t ^ 2 + helioEcl' 1 t ^ 2)) * hC
  rw [abs_le] at hb hw
  have t1 : 6.1666 ≤ 6.283075850446 * (1 + b) + w := by linarith
  have t2 : 6.283075850446 * (1 + b) + w ≤ 6.3996 := by linarith
  have s1 := pow_le_pow_left₀ (by norm_num) t1 2
  have s2 := pow_le_pow_left₀ (by linarith) t2 2
  rw [e]
  have := sq_nonneg R
  have := sq_nonneg (helioEcl' 2 t)
  norm_num at s1 s2 hz2 hR2 ⊢
  constructor <;> linarith

/-- Twice the areal velocity in the plane of the ecliptic, au² per Julian year. -/
theorem helio_areal (t : ℝ) (ht : |t| ≤ 100) :
    |helioEcl 0 t * helioEcl' 1 t - helioEcl 1 t * helioEcl' 0 t - 6.283075850446| ≤ 0.0265 := by
  obtain ⟨C, S, a, b, q, w, R, hC, h1, h2, hT, hR, ha, hb, hab, hq, hw, hRb⟩ := helio_motion t ht
  have e : helioEcl 0 t * helioEcl' 1 t - helioEcl 1 t * helioEcl' 0 t
      = (1 + a) * (6.283075850446 * (1 + b) + w) - q * R := by
    rw [← h1, ← h2, ← hT, ← hR]
    linear_combination (-(helioEcl 0 t * helioEcl' 1 t - helioEcl 1 t * helioEcl' 0 t)) * hC
  rw [e, show (1 + a) * (6.283075850446 * (1 + b) + w) - q * R - 6.283075850446
    = 6.283075850446 * (a + b) + 6.283075850446 * (a * b) + w + a * w - q * R by ring]
  have m1 : |a * b| ≤ 0.01777 * 0.016706 := by rw [abs_mul]; exact mul_le_mul ha hb (abs_nonneg _) (by norm_num)
  have m2 : |a * w| ≤ 0.01777 * 0.0115 := by rw [abs_mul]; exact mul_le_mul ha hw (abs_nonneg _) (by norm_num)
  have m3 : |q * R| ≤ 0.0368 * 0.1166 := by rw [abs_mul]; exact mul_le_mul hq hRb (abs_nonneg _) (by norm_num)
  rw [abs_le] at *
  norm_num at *
  constructor <;> linarith [m1.1, m1.2, m2.1, m2.2, m3.1, m3.2]

/-- **C89.** Within 100 Julian years of J2000.0 the Earth moves around the Sun at 0.01688 to 0.01753 au per day. -/
theorem C89_speed (a b : ℝ) (h : |a + b - 2451545| ≤ 36525) (e : EarthPosVel ℝ)
    (he : EarthPosVel.fromTDB (a, b) = .ok e) :
    0.01688 ≤ e.heliocentric.v.norm ∧ e.heliocentric.v.norm ≤ 0.01753 := by
  rw [fromTDB_real] at he
  obtain rfl := Except.ok.inj he
  have ht : |years (a + b)| ≤ 100 := by
    unfold years
    rw [abs_div, abs_of_pos (show (0 : ℝ) < 365.25 by norm_num), div_le_iff₀ (by norm_num)]
    norm_num at h ⊢; exact h
  obtain ⟨d1, d2⟩ := helio_speed _ ht
  have hn := toICRF_norm ⟨helioEcl' 0 (years (a + b)) / 365.25, helioEcl' 1 (years (a + b)) / 365.25,
    helioEcl' 2 (years (a + b)) / 365.25⟩
  show _ ≤ Vec3.norm (toICRF _) ∧ Vec3.norm (toICRF _) ≤ _
  rw [norm_real]
  rw [abs_le] at hn
  simp only [div_pow, ← add_div] at hn
  constructor
  · refine Real.le_sqrt_of_sq_le ?_
    norm_num at hn d1 d2 ⊢
    linarith [hn.1]
  · rw [Real.sqrt_le_left (by norm_num)]
    norm_num at hn d1 d2 ⊢
    linarith [hn.2]

/-- **C89.** Kepler's second law: within 100 Julian years of J2000.0 the vector product of heliocentric position and velocity
is, to `0.000075` (0.44 per cent), the Gaussian constant `0.0172021` along the pole of the ecliptic. -/
theorem C89_areal (a b : ℝ) (h : |a + b - 2451545| ≤ 36525) (e : EarthPosVel ℝ)
    (he : EarthPosVel.fromTDB (a, b) = .ok e) (p v : Vec3 ℝ) (hp : p = e.heliocentric.p) (hv : v = e.heliocentric.v) :
    (p.y * v.z - p.z * v.y) ^ 2 + (p.z * v.x - p.x * v.z + 0.0172021 * 0.397776982902) ^ 2
      + (p.x * v.y - p.y * v.x - 0.0172021 * 0.917482137087) ^ 2 ≤ 0.000075 ^ 2 := by
  subst hp hv
  rw [fromTDB_real] at he
  obtain rfl := Except.ok.inj he
  have ht : |years (a + b)| ≤ 100 := by
    unfold years
    rw [abs_div, abs_of_pos (show (0 : ℝ) < 365.25 by norm_num), div_le_iff₀ (by norm_num)]
    norm_num at h ⊢; exact h
  have hz := helio_areal _ ht
  obtain ⟨-, d2⟩ := helio_dist _ ht
  obtain ⟨-, s2⟩ := helio_speed _ ht
  have z1 := helioZ _ ht
  have z2 := helioZ' _ ht
  unfold earthAt
  simp only [toICRF_real]
  generalize helioEcl 0 (years (a + b)) = X at *
  generalize helioEcl 1 (years (a + b)) = Y at *
  generalize helioEcl 2 (years (a + b)) = Z at *
  generalize helioEcl' 0 (years (a + b)) = U at *
  generalize helioEcl' 1 (years (a + b)) = V at *
  generalize helioEcl' 2 (years (a + b)) = W at *
  have bX : |X| ≤ 1.0188 := abs_le_of_sq_le_sq (by nlinarith [sq_nonneg Y, sq_nonneg Z]) (by norm_num)
  have bY : |Y| ≤ 1.0188 := abs_le_of_sq_le_sq (by nlinarith [sq_nonneg X, sq_nonneg Z]) (by norm_num)
  have bU : |U| ≤ 6.4011 := abs_le_of_sq_le_sq (by nlinarith [sq_nonneg V, sq_nonneg W]) (by norm_num)
  have bV : |V| ≤ 6.4011 := abs_le_of_sq_le_sq (by nlinarith [sq_nonneg U, sq_nonneg W]) (by norm_num)
  have m1 : |Y * W - Z * V| ≤ 0.0035 := by
    refine (abs_sub _ _).trans ?_
    rw [abs_mul, abs_mul]
    have := mul_le_mul bY z2 (abs_nonneg _) (by norm_num)
    have := mul_le_mul z1 bV (abs_nonneg _) (by norm_num)
    norm_num at *
    linarith
  have m2 : |Z * U - X * W| ≤ 0.0035 := by
    refine (abs_sub _ _).trans ?_
    rw [abs_mul, abs_mul]
    have := mul_le_mul bX z2 (abs_nonneg _) (by norm_num)
    have := mul_le_mul z1 bU (abs_nonneg _) (by norm_num)
    norm_num at *
    linarith
  obtain ⟨k, hk⟩ : ∃ k, k = X * V - Y * U - 6.283075850446 := ⟨_, rfl⟩
  obtain ⟨f, hf⟩ : ∃ f, f = Y * W - Z * V := ⟨_, rfl⟩
  obtain ⟨g, hg⟩ : ∃ g, g = Z * U - X * W := ⟨_, rfl⟩
  rw [← hk] at hz
  rw [← hf] at m1
  rw [← hg] at m2
  have q1 := sq_le_sq' (abs_le.mp hz).1 (abs_le.mp hz).2
  have q2 := sq_le_sq' (abs_le.mp m1).1 (abs_le.mp m1).2
  have q3 := sq_le_sq' (abs_le.mp m2).1 (abs_le.mp m2).2
  rw [abs_le] at hz m1 m2
  -- the product in the other frame, up to small terms
  obtain ⟨r1, hr1, e1⟩ : ∃ r, |r| ≤ 1e-8 ∧ (-0.000000230286 * X + 0.917482137087 * Y - 0.397776982902 * Z) *
      (0.397776982902 * (V / 365.25) + 0.917482137087 * (W / 365.25)) - (0.397776982902 * Y + 0.917482137087 * Z) *
      (-0.000000230286 * (U / 365.25) + 0.917482137087 * (V / 365.25) - 0.397776982902 * (W / 365.25))
      = f / 365.25 + r := by
    refine ⟨((0.917482137087 ^ 2 + 0.397776982902 ^ 2 - 1) * f + 0.000000230286 * 0.917482137087 * g
        - 0.000000230286 * 0.397776982902 * (k + 6.283075850446)) / 365.25, ?_, by rw [hf, hg, hk]; ring⟩
    rw [abs_le]; constructor <;> norm_num <;> linarith
  obtain ⟨r2, hr2, e2⟩ : ∃ r, |r| ≤ 1e-8 ∧ (0.397776982902 * Y + 0.917482137087 * Z) *
      (U / 365.25 + 0.000000211284 * (V / 365.25) - 0.000000091603 * (W / 365.25))
      - (X + 0.000000211284 * Y - 0.000000091603 * Z) * (0.397776982902 * (V / 365.25) + 0.917482137087 * (W / 365.25))
      + 0.0172021 * 0.397776982902 = (0.917482137087 * g - 0.397776982902 * k) / 365.25 + r := by
    refine ⟨(-(0.000000211284 * 0.917482137087 + 0.000000091603 * 0.397776982902) * f
        + 0.397776982902 * (0.0172021 * 365.25 - 6.283075850446)) / 365.25, ?_, by rw [hf, hg, hk]; ring⟩
    rw [abs_le]; constructor <;> norm_num <;> linarith
  obtain ⟨r3, hr3, e3⟩ : ∃ r, |r| ≤ 1e-7 ∧ (X + 0.000000211284 * Y - 0.000000091603 * Z) *
      (-0.000000230286 * (U / 365.25) + 0.917482137087 * (V / 365.25) - 0.397776982902 * (W / 365.25))
      - (-0.000000230286 * X + 0.917482137087 * Y - 0.397776982902 * Z) *
      (U / 365.25 + 0.000000211284 * (V / 365.25) - 0.000000091603 * (W / 365.25))
      - 0.0172021 * 0.917482137087 = (0.397776982902 * g + 0.917482137087 * k) / 365.25 + r := by
    refine ⟨((0.000000091603 * 0.917482137087 - 0.000000211284 * 0.397776982902) * f
        + 0.000000091603 * 0.000000230286 * g + 0.000000211284 * 0.000000230286 * (k + 6.283075850446)
        + 0.917482137087 * (6.283075850446 - 0.0172021 * 365.25)) / 365.25, ?_, by rw [hf, hg, hk]; ring⟩
    rw [abs_le]; constructor <;> norm_num <;> linarith
  rw [e1, e2, e3]
  clear * - hz m1 m2 q1 q2 q3 hr1 hr2 hr3
  rw [abs_le] at hr1 hr2 hr3
  have t1 : |f / 365.25| ≤ 0.00001 := by rw [abs_le]; constructor <;> norm_num <;> linarith
  have t2 : |(0.917482137087 * g - 0.397776982902 * k) / 365.25| ≤ 0.0001 := by
    rw [abs_le]; constructor <;> norm_num <;> linarith
  have t3 : |(0.397776982902 * g + 0.917482137087 * k) / 365.25| ≤ 0.0001 := by
    rw [abs_le]; constructor <;> norm_num <;> linarith
  have grow : ∀ {A r A0 r0 : ℝ}, |A| ≤ A0 → -r0 ≤ r ∧ r ≤ r0 → (A + r) ^ 2 ≤ A ^ 2 + 2 * (A0 * r0) + r0 ^ 2 := by
    intro A r A0 r0 hA hr
    have r0' : 0 ≤ r0 := by linarith [hr.1, hr.2]
    have h1 : A * r ≤ A0 * r0 := by
      refine (le_abs_self _).trans ?_
      rw [abs_mul]
      exact mul_le_mul hA (abs_le.mpr hr) (abs_nonneg _) ((abs_nonneg _).trans hA)
    have h2 := sq_le_sq' hr.1 hr.2
    nlinarith
  have w1 := grow t1 hr1
  have w2 := grow t2 hr2
  have w3 := grow t3 hr3
  have id : (f / 365.25) ^ 2 + ((0.917482137087 * g - 0.397776982902 * k) / 365.25) ^ 2
      + ((0.397776982902 * g + 0.917482137087 * k) / 365.25) ^ 2
      = (f ^ 2 + (0.917482137087 ^ 2 + 0.397776982902 ^ 2) * (g ^ 2 + k ^ 2)) / 365.25 ^ 2 := by ring
  have fin : (f ^ 2 + (0.917482137087 ^ 2 + 0.397776982902 ^ 2) * (g ^ 2 + k ^ 2)) / 365.25 ^ 2 ≤ 0.0000741 ^ 2 := by
    rw [div_le_iff₀ (by norm_num)]
    norm_num at q1 q2 q3 ⊢
    linarith
  rw [← id] at fin
  norm_num at w1 w2 w3 fin ⊢
  linarith

/-- The date of the reference value in the test suite. -/
example : |(2453412 : ℝ) + 0.52501161 - 2451545| ≤ 36525 := by norm_num [abs_le]

end Verif
