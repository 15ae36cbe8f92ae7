import Verif.Props.HeightAccuracy
import Verif.Props.Tests

/-!
# C82: `test_ellipsoid`
-/

namespace Verif
open Arith F64

/-- A library whose sine and cosine have a relative error of at most `2^-51` (to the smallest numbers) and whose
`atan2` is on the right side of the cut. -/
structure LibmRel [Libm F64] : Prop where
  sin : ∀ (x : F64) (a : ℚ), Is x a → |a| ≤ 2 ^ 30 → Near (Libm.sin x) (Real.sin a) (|Real.sin a| / 2 ^ 51 + 1 / 10 ^ 60)
  cos : ∀ (x : F64) (a : ℚ), Is x a → |a| ≤ 2 ^ 30 → Near (Libm.cos x) (Real.cos a) (|Real.cos a| / 2 ^ 51 + 1 / 10 ^ 60)
  atan2 : ∀ (y x : F64) (b a : ℚ), Is y b → Is x a → (b ≠ 0 ∨ 0 < a) → Near (Libm.atan2 y x) (Complex.arg ⟨a, b⟩) (1 / 2 ^ 50)

theorem exists_near_rel (ρ : ℝ) (h : |ρ| ≤ 4) : ∃ y : F64, Near y ρ (|ρ| / 2 ^ 51 + 1 / 10 ^ 60) := by
  have t0 : (0 : ℝ) < 1 / 10 ^ 70 := by positivity
  obtain ⟨q, h1, h2⟩ := exists_rat_btwn (show ρ < ρ + 1 / 10 ^ 70 by linarith)
  have hq : |(q : ℝ) - ρ| ≤ 1 / 10 ^ 70 := abs_le.mpr ⟨by linarith, by linarith⟩
  have hq' : |(q : ℝ)| ≤ |ρ| + 1 / 10 ^ 70 := by
    have : (q : ℝ) = ρ + (q - ρ) := by ring
    rw [this]
    exact (abs_add_le _ _).trans (add_le_add le_rfl hq)
  have hb : |(q : ℝ)| ≤ 5 := by
    refine hq'.trans ?_
    norm_num
    linarith
  refine ⟨Arith.lit q, RN q, ?_, ?_⟩
  · exact Is.lit q (small_le_HUGE (by
      have : |q| ≤ 5 := by exact_mod_cast hb
      linarith))
  · have e := RN_err_tiny q (σ := 1 / 2 ^ 230) ⟨le_rfl, by norm_num⟩
    have σ2 : (1 : ℝ) / 2 ^ 230 / 2 ^ 100 ≤ 1 / 10 ^ 70 := by
      rw [div_div, one_div_le_one_div (by positivity) (by positivity), ← pow_add]
      calc (10 : ℝ) ^ 70 ≤ 16 ^ 70 := by gcongr; norm_num
        _ = 2 ^ 280 := by rw [show (16 : ℝ) = 2 ^ 4 by norm_num, ← pow_mul]
        _ ≤ 2 ^ (230 + 100) := pow_le_pow_right₀ (by norm_num) (by norm_num)
    have e3 : ((RN q : ℚ) : ℝ) - ρ = (((RN q : ℚ) : ℝ) - q) + (q - ρ) := by ring
    rw [e3]
    refine (abs_add_le _ _).trans ((add_le_add (e.trans (add_le_add le_rfl σ2)) hq).trans ?_)
    clear e σ2 e3
    have := abs_nonneg ρ
    generalize |ρ| = R at *
    generalize |(q : ℝ)| = Q at *
    norm_num at *
    linarith

/-- A library with relative accuracy. -/
@[instance_reducible] noncomputable def relLibm : Libm F64 where
  sin x := Classical.epsilon fun y => Near y (Real.sin (v x)) (|Real.sin (v x)| / 2 ^ 51 + 1 / 10 ^ 60)
  cos x := Classical.epsilon fun y => Near y (Real.cos (v x)) (|Real.cos (v x)| / 2 ^ 51 + 1 / 10 ^ 60)
  tan := goodLibm.tan
  acos := goodLibm.acos
  asin := goodLibm.asin
  atan := goodLibm.atan
  atan2 := goodLibm.atan2

theorem relLibm_rel : @LibmRel relLibm := by
  let _ := relLibm
  refine ⟨?_, ?_, ?_⟩
  · rintro x a ⟨-, rfl⟩ -
    exact Classical.epsilon_spec (exists_near_rel _ ((Real.abs_sin_le_one _).trans (by norm_num)))
  · rintro x a ⟨-, rfl⟩ -
    exact Classical.epsilon_spec (exists_near_rel _ ((Real.abs_cos_le_one _).trans (by norm_num)))
  · rintro y x b a ⟨-, rfl⟩ ⟨-, rfl⟩ -
    refine Classical.epsilon_spec (exists_near _ ?_)
    exact (Complex.abs_arg_le_pi _).trans Real.pi_lt_four.le

theorem relLibm_acc : @LibmAcc relLibm := by
  let _ := relLibm
  have hR : LibmRel := relLibm_rel
  have hG := exists_libmAcc
  refine ⟨fun x a h1 h2 => (hR.sin x a h1 h2).mono ?_, fun x a h1 h2 => (hR.cos x a h1 h2).mono ?_, @LibmAcc.atan goodLibm hG,
    @LibmAcc.acos goodLibm hG, @LibmAcc.atan2 goodLibm hG⟩
  · have := Real.abs_sin_le_one (a : ℝ)
    norm_num
    linarith
  · have := Real.abs_cos_le_one (a : ℝ)
    norm_num
    linarith

/-! ## Elementary bounds -/

/-- A vector of small relative distance from a unit vector has nearly unit length. -/
theorem unit_len_rel (C S θ : ℝ) (h1 : |C - Real.cos θ| ≤ |Real.cos θ| / 2 ^ 51 + 1 / 10 ^ 60)
    (h2 : |S - Real.sin θ| ≤ |Real.sin θ| / 2 ^ 51 + 1 / 10 ^ 60) : |√(C ^ 2 + S ^ 2) - 1| ≤ 4441 / 10 ^ 19 := by
  have e5 : Real.cos θ ^ 2 + Real.sin θ ^ 2 + 0 ^ 2 = 1 := by have := Real.sin_sq_add_cos_sq θ; linarith
  have e0 : √((C - Real.cos θ) ^ 2 + (S - Real.sin θ) ^ 2 + 0 ^ 2) ≤ 4441 / 10 ^ 19 := by
    have g1 := tri3 (|Real.cos θ| / 2 ^ 51) (1 / 10 ^ 60) (|Real.sin θ| / 2 ^ 51) (1 / 10 ^ 60) 0 0
    have g2 : √((|Real.cos θ| / 2 ^ 51) ^ 2 + (|Real.sin θ| / 2 ^ 51) ^ 2 + 0 ^ 2) = 1 / 2 ^ 51 := by
      have : (|Real.cos θ| / 2 ^ 51) ^ 2 + (|Real.sin θ| / 2 ^ 51) ^ 2 + 0 ^ 2 = (1 / 2 ^ 51) ^ 2 := by
        rw [div_pow, div_pow, sq_abs, sq_abs]
        linear_combination (1 / 2 ^ 51) ^ 2 * e5
      rw [this, Real.sqrt_sq (by positivity)]
    have g3 := norm3_le (1 / 10 ^ 60) (1 / 10 ^ 60) 0
    rw [abs_of_pos (by positivity), abs_zero] at g3
    have g4 : √((C - Real.cos θ) ^ 2 + (S - Real.sin θ) ^ 2 + 0 ^ 2) ≤
        √((|Real.cos θ| / 2 ^ 51 + 1 / 10 ^ 60) ^ 2 + (|Real.sin θ| / 2 ^ 51 + 1 / 10 ^ 60) ^ 2 + (0 + 0) ^ 2) := by
      apply Real.sqrt_le_sqrt
      have t1 := sq_le_sq' (abs_le.mp h1).1 (abs_le.mp h1).2
      have t2 := sq_le_sq' (abs_le.mp h2).1 (abs_le.mp h2).2
      rw [add_zero]
      linarith
    refine g4.trans (g1.trans ?_)
    rw [g2]
    refine (add_le_add le_rfl g3).trans ?_
    norm_num
  have e1 := tri3 (Real.cos θ) (C - Real.cos θ) (Real.sin θ) (S - Real.sin θ) 0 0
  have e2 := tri3 C (-(C - Real.cos θ)) S (-(S - Real.sin θ)) 0 0
  have e3 : C + -(C - Real.cos θ) = Real.cos θ := by ring
  have e4 : S + -(S - Real.sin θ) = Real.sin θ := by ring
  have e6 : C ^ 2 + S ^ 2 + 0 ^ 2 = C ^ 2 + S ^ 2 := by ring
  rw [add_sub_cancel, add_sub_cancel, add_zero, e5, e6, Real.sqrt_one] at e1
  rw [e3, e4, add_zero, e5, e6, Real.sqrt_one, neg_sq, neg_sq] at e2
  generalize √((C - Real.cos θ) ^ 2 + (S - Real.sin θ) ^ 2 + 0 ^ 2) = X at *
  exact abs_le.mpr ⟨by linarith, by linarith⟩

/-- The angle of a vector near a unit vector. -/
theorem arcsin_near (C S θ m : ℝ) (hm : m = √(C ^ 2 + S ^ 2)) (m1 : |m - 1| ≤ 1 / 100) (C0 : 0 < C)
    (h1 : |C - Real.cos θ| ≤ 1 / 2 ^ 50) (h2 : |S - Real.sin θ| ≤ 1 / 2 ^ 50) (hθ : |θ| ≤ Real.pi / 2) :
    |Real.arcsin (S / m) - θ| ≤ 1 / 10 ^ 14 := by
  have pp := Real.pi_pos
  have p4 := Real.pi_lt_four
  obtain ⟨ma, mb⟩ := abs_le.mp m1
  have mp : 0 < m := by linarith
  have hm2 : m ^ 2 = C ^ 2 + S ^ 2 := by rw [hm, Real.sq_sqrt (by positivity)]
  have Sm : |S| ≤ m := abs_le_of_sq_le_sq (by nlinarith) mp.le
  have s1 : S / m ≤ 1 := by rw [div_le_one mp]; exact (abs_le.mp Sm).2
  have s2 : -1 ≤ S / m := by rw [le_div_iff₀ mp]; linarith [(abs_le.mp Sm).1]
  obtain ⟨φ, hφ⟩ : ∃ φ, φ = Real.arcsin (S / m) := ⟨_, rfl⟩
  have sφ : Real.sin φ = S / m := by rw [hφ, Real.sin_arcsin s2 s1]
  have cφ : Real.cos φ = C / m := by
    rw [hφ, Real.cos_arcsin]
    have : 1 - (S / m) ^ 2 = (C / m) ^ 2 := by
      rw [div_pow, div_pow]
      field_simp
      linarith
    rw [this, Real.sqrt_sq (by positivity)]
  have φ1 : |φ| ≤ Real.pi / 2 := by
    rw [hφ]
    exact abs_le.mpr ⟨Real.neg_pi_div_two_le_arcsin _, Real.arcsin_le_pi_div_two _⟩
  rw [← hφ]
  have hs : Real.sin (φ - θ) = ((S - Real.sin θ) * Real.cos θ - (C - Real.cos θ) * Real.sin θ) / m := by
    rw [Real.sin_sub, sφ, cφ]; ring
  have hc : Real.cos (φ - θ) = (1 + ((S - Real.sin θ) * Real.sin θ + (C - Real.cos θ) * Real.cos θ)) / m := by
    rw [Real.cos_sub, sφ, cφ, ← Real.sin_sq_add_cos_sq θ]; ring
  have b : ∀ a t : ℝ, |a| ≤ 1 / 2 ^ 50 → |t| ≤ 1 → |a * t| ≤ 1 / 2 ^ 50 := fun a t ha ht => by
    rw [abs_mul]
    exact (mul_le_mul ha ht (abs_nonneg _) (by positivity)).trans (by norm_num)
  have b1 := abs_le.mp (b _ _ h2 (Real.abs_cos_le_one θ))
  have b2 := abs_le.mp (b _ _ h1 (Real.abs_sin_le_one θ))
  have b3 := abs_le.mp (b _ _ h2 (Real.abs_sin_le_one θ))
  have b4 := abs_le.mp (b _ _ h1 (Real.abs_cos_le_one θ))
  have cp : 0 < Real.cos (φ - θ) := by
    rw [hc]
    refine div_pos ?_ mp
    norm_num at b3 b4
    linarith [b3.1, b4.1]
  have sb : |Real.sin (φ - θ)| ≤ 2 / 10 ^ 15 := by
    rw [hs, abs_div, abs_of_pos mp, div_le_iff₀ mp]
    refine (abs_sub _ _).trans ((add_le_add (b _ _ h2 (Real.abs_cos_le_one θ)) (b _ _ h1 (Real.abs_sin_le_one θ))).trans ?_)
    norm_num
    linarith
  have d1 : |φ - θ| ≤ Real.pi / 2 := by
    by_contra hn
    have hn' := not_le.mp hn
    have : Real.cos |φ - θ| ≤ 0 := Real.cos_nonpos_of_pi_div_two_le_of_le hn'.le
      (((abs_sub _ _).trans (add_le_add φ1 hθ)).trans (by linarith))
    rw [Real.cos_abs] at this
    linarith
  have d2 : 2 / Real.pi * |φ - θ| ≤ Real.sin |φ - θ| := Real.mul_le_sin (abs_nonneg _) d1
  have d3 : Real.sin |φ - θ| ≤ |Real.sin (φ - θ)| := by
    rcases abs_cases (φ - θ) with ⟨e, -⟩ | ⟨e, -⟩ <;> rw [e]
    · exact le_abs_self _
    · rw [Real.sin_neg]; exact neg_le_abs _
  have d4 : 1 / 2 * |φ - θ| ≤ 2 / Real.pi * |φ - θ| := by
    apply mul_le_mul_of_nonneg_right _ (abs_nonneg _)
    rw [div_le_div_iff₀ (by norm_num) pp]
    linarith
  norm_num at sb ⊢
  linarith

theorem sin_far (t : ℝ) (h1 : Real.pi / 2 ≤ t) (h2 : t ≤ Real.pi - 1 / 10 ^ 16) : 5 / 10 ^ 17 ≤ Real.sin t := by
  have pp := Real.pi_pos
  have := Real.mul_le_sin (x := Real.pi - t) (by have : (0 : ℝ) < 1 / 10 ^ 16 := by positivity
                                                 linarith) (by linarith)
  rw [Real.sin_pi_sub] at this
  refine le_trans ?_ this
  have h3 : 1 / 2 * (1 / 10 ^ 16) ≤ 2 / Real.pi * (Real.pi - t) := by
    apply mul_le_mul _ (by linarith) (by positivity) (by positivity)
    rw [div_le_div_iff₀ (by norm_num) pp]
    linarith [Real.pi_lt_four]
  refine le_trans (by norm_num) h3

theorem cos_far (t : ℝ) (h2 : |t| ≤ Real.pi / 2 - 5 / 10 ^ 17) : 25 / 10 ^ 18 ≤ Real.cos t := by
  have pp := Real.pi_pos
  have := Real.mul_le_sin (x := Real.pi / 2 - |t|) (by have : (0 : ℝ) < 5 / 10 ^ 17 := by positivity
                                                       linarith) (by linarith [abs_nonneg t])
  rw [Real.sin_pi_div_two_sub, Real.cos_abs] at this
  refine le_trans ?_ this
  have h3 : 1 / 2 * (5 / 10 ^ 17) ≤ 2 / Real.pi * (Real.pi / 2 - |t|) := by
    apply mul_le_mul _ (by linarith) (by positivity) (by positivity)
    rw [div_le_div_iff₀ (by norm_num) pp]
    linarith [Real.pi_lt_four]
  refine le_trans (by norm_num) h3

/-- The longitude of the point computed from a longitude strictly within half a turn. -/
theorem lon_back (lam c s r x y : ℝ) (l1 : |lam| ≤ Real.pi - 1 / 10 ^ 16) (hc : |c - Real.cos lam| ≤ |Real.cos lam| / 2 ^ 51 + 1 / 10 ^ 60)
    (hs : |s - Real.sin lam| ≤ |Real.sin lam| / 2 ^ 51 + 1 / 10 ^ 60) (r0 : 1 / 10 ^ 10 ≤ r)
    (ex : |x - r * c| ≤ 1111 / 10 ^ 19 * |r * c| + 1 / 10 ^ 50) (ey : |y - r * s| ≤ 1111 / 10 ^ 19 * |r * s| + 1 / 10 ^ 50) :
    (y ≠ 0 ∨ 0 < x) ∧ 1 / 10 ^ 21 ≤ x ^ 2 + y ^ 2 ∧ |Complex.arg ⟨x, y⟩ - lam| ≤ 1 / 10 ^ 14 := by
  have pp := Real.pi_pos
  have p3 := Real.pi_gt_three
  have rp : 0 < r := lt_of_lt_of_le (by positivity) r0
  have aux : ∀ t z a : ℝ, |t - a| ≤ |a| / 2 ^ 51 + 1 / 10 ^ 60 → |a| ≤ 1 → |z - r * t| ≤ 1111 / 10 ^ 19 * |r * t| + 1 / 10 ^ 50 →
      |z - r * a| ≤ 1 / 10 ^ 15 * r := fun t z a h1 h2 h3 => by
    have e1 : |t - a| ≤ 4442 / 10 ^ 19 := h1.trans (by norm_num; linarith)
    have e2 : |t| ≤ 2 := by
      have : t = a + (t - a) := by ring
      rw [this]
      refine (abs_add_le _ _).trans ((add_le_add h2 e1).trans (by norm_num))
    have e3 : |r * t| ≤ r * 2 := by
      rw [abs_mul, abs_of_pos rp]
      exact mul_le_mul_of_nonneg_left e2 rp.le
    have e4 : |r * (t - a)| ≤ r * (4442 / 10 ^ 19) := by
      rw [abs_mul, abs_of_pos rp]
      exact mul_le_mul_of_nonneg_left e1 rp.le
    have e5 : z - r * a = (z - r * t) + r * (t - a) := by ring
    rw [e5]
    refine (abs_add_le _ _).trans ((add_le_add h3 e4).trans ?_)
    norm_num at *
    linarith
  have fx := aux c x _ hc (Real.abs_cos_le_one _) ex
  have fy := aux s y _ hs (Real.abs_sin_le_one _) ey
  have yp : 5 / 10 ^ 17 ≤ Real.sin lam → 0 < y := fun h => by
    rw [abs_of_nonneg ((by positivity : (0 : ℝ) ≤ 5 / 10 ^ 17).trans h)] at hs
    have s1 : 4 / 10 ^ 17 ≤ s := by
      have := (abs_le.mp hs).1
      norm_num at *
      linarith
    have s2 : 1 / 10 ^ 10 * (4 / 10 ^ 17) ≤ r * s := mul_le_mul r0 s1 (by positivity) rp.le
    have := (abs_le.mp ey).1
    rw [abs_of_nonneg ((by positivity : (0 : ℝ) ≤ 1 / 10 ^ 10 * (4 / 10 ^ 17)).trans s2)] at this
    norm_num at *
    linarith
  have yn : Real.sin lam ≤ -(5 / 10 ^ 17) → y < 0 := fun h => by
    have h0 : (0 : ℝ) < 5 / 10 ^ 17 := by positivity
    rw [abs_of_nonpos (by linarith : Real.sin lam ≤ 0)] at hs
    have s1 : s ≤ -(4 / 10 ^ 17) := by
      have := (abs_le.mp hs).2
      norm_num at *
      linarith
    have s2 : 1 / 10 ^ 10 * (4 / 10 ^ 17) ≤ r * (-s) := mul_le_mul r0 (by linarith) (by positivity) rp.le
    have h1 : (0 : ℝ) < 1 / 10 ^ 10 * (4 / 10 ^ 17) := by positivity
    have := (abs_le.mp ey).2
    rw [abs_of_nonpos (by linarith : r * s ≤ 0)] at this
    norm_num at *
    linarith
  obtain ⟨l2, l3⟩ := abs_le.mp l1
  have far1 : Real.pi / 2 ≤ lam → 0 < y := fun h => yp (sin_far lam h l3)
  have far2 : lam ≤ -(Real.pi / 2) → y < 0 := fun h => yn (by
    have := sin_far (-lam) (by linarith) (by linarith)
    rw [Real.sin_neg] at this
    linarith)
  refine ⟨?_, ?_, ?_⟩
  · by_cases hy : y = 0
    · right
      have a1 : lam < Real.pi / 2 := by
        by_contra h
        exact (far1 (not_lt.mp h)).ne' hy
      have a2 : -(Real.pi / 2) < lam := by
        by_contra h
        exact (far2 (not_lt.mp h)).ne hy
      have cp : 0 < Real.cos lam := Real.cos_pos_of_mem_Ioo ⟨a2, a1⟩
      have sb : |Real.sin lam| ≤ 1 / 10 ^ 15 := by
        rw [hy, zero_sub, abs_neg, abs_mul, abs_of_pos rp] at fy
        exact le_of_mul_le_mul_left (by linarith) rp
      have s2 : Real.sin lam ^ 2 ≤ (1 / 10 ^ 15) ^ 2 := sq_le_sq' (abs_le.mp sb).1 (abs_le.mp sb).2
      have c1 : 1 / 2 ≤ Real.cos lam := by
        by_contra h
        have := Real.sin_sq_add_cos_sq lam
        norm_num at s2
        nlinarith
      have h1 := (abs_le.mp fx).1
      have h2 := mul_le_mul_of_nonneg_left c1 rp.le
      norm_num at h1
      linarith
    · exact Or.inl hy
  · have t := Real.sin_sq_add_cos_sq lam
    obtain ⟨g1, -⟩ := rot_small _ _ lam _ fx fy
    have c1 : (x - r * Real.cos lam) * Real.cos lam + (y - r * Real.sin lam) * Real.sin lam =
      x * Real.cos lam + y * Real.sin lam - r := by linear_combination -r * t
    rw [c1] at g1
    have X0 : r / 2 ≤ x * Real.cos lam + y * Real.sin lam := by have := (abs_le.mp g1).1; norm_num at this; linarith
    have X1 : (x * Real.cos lam + y * Real.sin lam) ^ 2 + (y * Real.cos lam - x * Real.sin lam) ^ 2 = x ^ 2 + y ^ 2 := by
      linear_combination (x ^ 2 + y ^ 2) * t
    have X2 := pow_le_pow_left₀ (by positivity) ((by linarith : 1 / 10 ^ 10 / 2 ≤ r / 2).trans X0) 2
    have := sq_nonneg (y * Real.cos lam - x * Real.sin lam)
    rw [← X1]
    norm_num at X2 ⊢
    linarith
  · obtain ⟨n, hn⟩ := arg_near x y r lam _ rp (by norm_num; linarith) fx fy
    have e1 : 3 * (1 / 10 ^ 15 * r) / r = 3 / 10 ^ 15 := by field_simp
    rw [e1] at hn
    have A1 := abs_le.mp (Complex.abs_arg_le_pi ⟨x, y⟩)
    obtain ⟨n1, n2⟩ := abs_le.mp hn
    have nn : n = 0 := by
      by_contra hne
      rcases lt_or_gt_of_ne hne with h | h
      · have : (n : ℝ) ≤ -1 := by exact_mod_cast Int.le_sub_one_of_lt h
        have k := mul_le_mul_of_nonneg_right this (by linarith : 0 ≤ 2 * Real.pi)
        have y1 := far1 (by norm_num at n1 n2 ⊢; linarith [A1.1])
        have := Complex.arg_nonneg_iff (z := ⟨x, y⟩) |>.mpr y1.le
        norm_num at n1 n2 l3
        linarith
      · have : (1 : ℝ) ≤ n := by exact_mod_cast h
        have k := mul_le_mul_of_nonneg_right this (by linarith : 0 ≤ 2 * Real.pi)
        have y1 := far2 (by norm_num at n1 n2 ⊢; linarith [A1.2])
        have := Complex.arg_neg_iff (z := ⟨x, y⟩) |>.mpr y1
        norm_num at n1 n2 l2
        linarith
    rw [nn, Int.cast_zero, zero_mul, add_zero] at hn
    exact hn.trans (by norm_num)

/-! ## The draws -/

theorem pi_is : Is (Arith.pi : F64) (0x1921FB54442D18 / 2 ^ 51) := by
  have : Is (lit (0x1921FB54442D18 / 2 ^ 51) : F64) (0x1921FB54442D18 / 2 ^ 51) := by
    refine Is.lit_exact _ ?_ (small_le_HUGE (by norm_num))
    have := RepQ.dyadic 0x1921FB54442D18 51 (by norm_num) (by norm_num)
    push_cast at this
    exact this
  have e : (Arith.pi : F64) = lit (0x1921FB54442D18 / 2 ^ 51) := by decide +kernel
  rw [e]; exact this

theorem half_pi_is : Is ((lit 90 : F64) *. DEGREE) (0x1921FB54442D18 / 2 ^ 52) := by
  have : Is (lit (0x1921FB54442D18 / 2 ^ 52) : F64) (0x1921FB54442D18 / 2 ^ 52) := by
    refine Is.lit_exact _ ?_ (small_le_HUGE (by norm_num))
    have := RepQ.dyadic 0x1921FB54442D18 52 (by norm_num) (by norm_num)
    push_cast at this
    exact this
  have e : (lit 90 : F64) *. DEGREE = lit (0x1921FB54442D18 / 2 ^ 52) := by decide +kernel
  rw [e]; exact this

theorem degree_is : ∃ d : ℚ, Is (DEGREE : F64) d ∧ 0 ≤ d ∧ d ≤ 1 := by
  obtain ⟨p, w, a, m, d, -, -, -, -, hd, -, -, -, -, -, -, h⟩ := C61_constants_f64
  have p3 := Real.pi_gt_three
  have p4 := Real.pi_lt_four
  obtain ⟨h1, h2⟩ := abs_lt.mp h
  refine ⟨d, hd, ?_, ?_⟩
  · have : (0 : ℝ) ≤ d := by norm_num at h1; linarith
    exact_mod_cast this
  · have : (d : ℝ) ≤ 1 := by norm_num at h2; linarith
    exact_mod_cast this

/-- An angle drawn between `-a` and `b - a` degrees. -/
theorem draw_angle {u fa fb : F64} {a b t : ℚ} (hu : isFin u = true) (bu : 0 ≤ v u ∧ v u < 1) (ha : Is fa a) (hb : Is fb b)
    (a0 : 0 ≤ a) (a1 : a ≤ 180) (b0 : 0 ≤ b) (b1 : b ≤ 2 * a) (ht : Is (fa *. DEGREE) t) :
    ∃ q : ℚ, Is ((Arith.neg fa +. fb *. u) *. DEGREE) q ∧ |q| ≤ t := by
  obtain ⟨d, hd, d0, d1⟩ := degree_is
  have m0 : 0 ≤ b * v u := mul_nonneg b0 bu.1
  have m1 : b * v u ≤ b := mul_le_of_le_one_right b0 bu.2.le
  have s1 : Is (fb *. u) (RN (b * v u)) := hb.mul (Is.self hu) (small_le_HUGE (by rw [abs_of_nonneg m0]; linarith))
  have r0 : 0 ≤ RN (b * v u) := by
    have := RN_mono m0
    rwa [RN_exact (⟨0, by decide, by simp⟩ : RepQ 0)] at this
  have r1 : RN (b * v u) ≤ b := by
    have := RN_mono m1
    rwa [RN_exact hb.rep] at this
  have s2 := ha.neg.add s1 (small_le_HUGE (by rw [abs_le]; constructor <;> linarith))
  have q1 : -a ≤ RN (-a + RN (b * v u)) := by
    have := RN_mono (show -a ≤ -a + RN (b * v u) by linarith)
    rwa [RN_exact ha.rep.neg] at this
  have q2 : RN (-a + RN (b * v u)) ≤ a := by
    have := RN_mono (show -a + RN (b * v u) ≤ a by linarith)
    rwa [RN_exact ha.rep] at this
  have q3 : |RN (-a + RN (b * v u)) * d| ≤ a * d := by
    rw [abs_mul, abs_of_nonneg d0]
    exact mul_le_mul_of_nonneg_right (abs_le.mpr ⟨q1, q2⟩) d0
  have q4 : a * d ≤ 180 := by nlinarith
  refine ⟨_, s2.mul hd (small_le_HUGE (by linarith)), ?_⟩
  have e : t = RN (a * d) := ht.unique (ha.mul hd (small_le_HUGE (by rw [abs_of_nonneg (mul_nonneg a0 d0)]; linarith)))
  rw [e, ← RN_abs]
  exact RN_mono q3

/-- The magnitude of a computed difference. -/
theorem abs_sub_le {x y : F64} {a b : ℚ} (hx : Is x a) (hy : Is y b) (t : ℝ) (h : |(a : ℝ) - b| ≤ t) (t1 : t ≤ 1) :
    ∃ q : ℚ, Is (Arith.abs (x -. y)) q ∧ (q : ℝ) ≤ t * (1 + 1 / 2 ^ 53) + 1 / 10 ^ 50 ∧ 0 ≤ q := by
  obtain ⟨σ, hσ, -, σ2⟩ := exists_ok
  have hh : |a - b| ≤ 1 := by
    have := h.trans t1
    exact_mod_cast this
  refine ⟨_, (hx.sub hy (small_le_HUGE (hh.trans (by norm_num)))).abs, ?_, abs_nonneg _⟩
  have e := RN_err_tiny (a - b) hσ
  push_cast at e ⊢
  have e1 : ((RN (a - b) : ℚ) : ℝ) = (((RN (a - b) : ℚ) : ℝ) - (a - b)) + (a - b) := by ring
  rw [e1]
  refine (abs_add_le _ _).trans ((add_le_add (e.trans (add_le_add le_rfl σ2)) h).trans ?_)
  have : |(a : ℝ) - b| / 2 ^ 53 ≤ t / 2 ^ 53 := by gcongr
  linarith

theorem add_pos_le {x y : F64} {a b : ℚ} (hx : Is x a) (hy : Is y b) (a0 : 0 ≤ a) (b0 : 0 ≤ b) (t : ℝ) (h : (a : ℝ) + b ≤ t) (t1 : t ≤ 1) :
    ∃ q : ℚ, Is (x +. y) q ∧ (q : ℝ) ≤ t * (1 + 1 / 2 ^ 53) + 1 / 10 ^ 50 ∧ 0 ≤ q := by
  obtain ⟨σ, hσ, -, σ2⟩ := exists_ok
  have hh : a + b ≤ 1 := by
    have := h.trans t1
    exact_mod_cast this
  have s0 : 0 ≤ a + b := add_nonneg a0 b0
  refine ⟨_, hx.add hy (small_le_HUGE (by rw [abs_of_nonneg s0]; linarith)), ?_, ?_⟩
  · have e := RN_err_tiny (a + b) hσ
    have e0 : (0 : ℝ) ≤ ((a + b : ℚ) : ℝ) := by exact_mod_cast s0
    rw [abs_of_nonneg e0] at e
    push_cast at e
    have := (abs_le.mp e).2
    have h3 : ((a : ℝ) + b) / 2 ^ 53 ≤ t / 2 ^ 53 := by gcongr
    linarith
  · have := RN_mono s0
    rwa [RN_exact (⟨0, by decide, by simp⟩ : RepQ 0)] at this

/-- The squared distance from the axis is found positive. -/
theorem p2_pos {fx fy : F64} {x y : ℚ} (hx : Is fx x) (hy : Is fy y) (x1 : |(x : ℝ)| ≤ 10 ^ 10) (y1 : |(y : ℝ)| ≤ 10 ^ 10)
    (h : 1 / 10 ^ 21 ≤ (x : ℝ) ^ 2 + (y : ℝ) ^ 2) : ((lit 0 : F64) <. (sq fx +. sq fy)) = true := by
  obtain ⟨σ, hσ, -, σ2⟩ := exists_ok
  have i0 : Is (lit 0 : F64) 0 := by have := Is.lit_int 0 (by norm_num); norm_num at this; exact this
  have key : ∀ {f : F64} {q : ℚ}, Is f q → |(q : ℝ)| ≤ 10 ^ 10 → Near (sq f) ((q : ℝ) ^ 2) (1111 / 10 ^ 19 * (q : ℝ) ^ 2 + 1 / 10 ^ 50) := by
    intro f q hf hq
    have hs : |(q : ℝ) * q| ≤ 10 ^ 10 * 10 ^ 10 := by rw [abs_mul]; exact mul_le_mul hq hq (abs_nonneg _) (by norm_num)
    have := Near.mul_rel (κ := 0) (τ := 0) (κ' := 1111 / 10 ^ 19) (τ' := 1 / 10 ^ 50) ((Near.of_is hf).mono (by simp)) hf hq le_rfl
      (by norm_num) (by norm_num) (by norm_num at hs ⊢; linarith)
    rw [← pow_two, abs_of_nonneg (sq_nonneg _)] at this
    exact this
  have X2 : (x : ℝ) ^ 2 ≤ (10 ^ 10) ^ 2 := sq_le_sq' (by linarith [(abs_le.mp x1).1]) (abs_le.mp x1).2
  have Y2 : (y : ℝ) ^ 2 ≤ (10 ^ 10) ^ 2 := sq_le_sq' (by linarith [(abs_le.mp y1).1]) (abs_le.mp y1).2
  have n := Near.add_s hσ (key hx x1) (key hy y1) (D := 1112 / 10 ^ 19 * ((x : ℝ) ^ 2 + (y : ℝ) ^ 2)) (m := (x : ℝ) ^ 2 + (y : ℝ) ^ 2) (by
    norm_num at h ⊢
    linarith) (by rw [abs_of_nonneg (by positivity)]) (by norm_num at X2 Y2 ⊢; linarith)
  obtain ⟨q, hq, eq⟩ := n
  rw [i0.lt hq]
  have : (0 : ℝ) < q := by
    have := (abs_le.mp eq).1
    norm_num at σ2 h this
    linarith
  simpa using this

set_option maxHeartbeats 1000000 in
/-- **C82**, `test_ellipsoid`: whatever the draws, the body of the loop does not panic, for every library whose sine
and cosine have a relative error of at most `2^-51`, whose `atan2` and `atan` are within `2^-50` and whose `atan2` is on
the right side of the cut.  The tolerance of the test, `2^-26 = 1.49e-8`, is only 3 % above the bound proved on the error. -/
theorem C82_test_ellipsoid_iter [Libm F64] (hL : LibmAcc) (hR : LibmRel)
    (hat : ∀ (x : F64) (a : ℚ), Is x a → Near (Libm.atan x) (Real.arctan a) (1 / 2 ^ 50))
    (w : EllipsoidConverter F64) (hw : EllipsoidConverter.new WGS84 = .ok w) (u0 u1 u2 : F64) (f0 : isFin u0 = true)
    (f1 : isFin u1 = true) (f2 : isFin u2 = true) (b0 : 0 ≤ v u0 ∧ v u0 < 1) (b1 : 0 ≤ v u1 ∧ v u1 < 1)
    (b2 : 0 ≤ v u2 ∧ v u2 < 1) : Tests.ellipsoidIter w u0 u1 u2 = .ok () := by
  have pi34 := abs_le.mp pi_close34
  have i180 : Is (lit 180 : F64) 180 := by have := Is.lit_int 180 (by norm_num); norm_num at this; exact this
  have i360 : Is (lit 360 : F64) 360 := by have := Is.lit_int 360 (by norm_num); norm_num at this; exact this
  have i90 : Is (lit 90 : F64) 90 := by have := Is.lit_int 90 (by norm_num); norm_num at this; exact this
  have i1e4 : Is (lit 10000 : F64) 10000 := by have := Is.lit_int 10000 (by norm_num); norm_num at this; exact this
  have i0 : Is (lit 0 : F64) 0 := by have := Is.lit_int 0 (by norm_num); norm_num at this; exact this
  have e180 : (lit 180 : F64) *. DEGREE = Arith.pi := by decide +kernel
  obtain ⟨l, hl, l1⟩ := draw_angle f0 b0 i180 i360 (by norm_num) (by norm_num) (by norm_num) (by norm_num) (by rw [e180]; exact pi_is)
  obtain ⟨p, hp, p1⟩ := draw_angle f1 b1 i90 i90 (by norm_num) (by norm_num) (by norm_num) (by norm_num) half_pi_is
  have l1r : |(l : ℝ)| ≤ Real.pi - 1 / 10 ^ 16 := by
    have : |(l : ℝ)| ≤ ((0x1921FB54442D18 / 2 ^ 51 : ℚ) : ℝ) := by exact_mod_cast l1
    refine this.trans ?_
    norm_num at pi34 ⊢
    linarith [pi34.1]
  have p1r : |(p : ℝ)| ≤ Real.pi / 2 - 5 / 10 ^ 17 := by
    have : |(p : ℝ)| ≤ ((0x1921FB54442D18 / 2 ^ 52 : ℚ) : ℝ) := by exact_mod_cast p1
    refine this.trans ?_
    norm_num at pi34 ⊢
    linarith [pi34.1]
  have hm : 0 ≤ 10000 * v u2 ∧ 10000 * v u2 ≤ 10000 := ⟨by linarith [b2.1], by linarith [b2.2]⟩
  have hh : Is (lit 10000 *. u2) (RN (10000 * v u2)) := i1e4.mul (Is.self f2) (small_le_HUGE (by rw [abs_of_nonneg hm.1]; linarith [hm.2]))
  have h0 : 0 ≤ RN (10000 * v u2) := by
    have := RN_mono hm.1
    rwa [RN_exact (⟨0, by decide, by simp⟩ : RepQ 0)] at this
  have h1 : RN (10000 * v u2) ≤ 10000 := by
    have := RN_mono hm.2
    rwa [RN_exact i1e4.rep] at this
  generalize RN (10000 * v u2) = h at hh h0 h1
  have h0r : (0 : ℝ) ≤ h := by exact_mod_cast h0
  have h1r : (h : ℝ) ≤ 10000 := by exact_mod_cast h1
  unfold Tests.ellipsoidIter
  simp only
  generalize (Arith.neg (lit 180) +. lit 360 *. u0) *. DEGREE = fl at hl ⊢
  generalize (Arith.neg (lit 90) +. lit 90 *. u1) *. DEGREE = fp at hp ⊢
  generalize lit 10000 *. u2 = fh at hh ⊢
  have l30 : |l| ≤ 2 ^ 30 := l1.trans (by norm_num)
  have p30 : |p| ≤ 2 ^ 30 := p1.trans (by norm_num)
  obtain ⟨C, hC, eC⟩ := hR.cos _ _ hp p30
  obtain ⟨S, hS, eS⟩ := hR.sin _ _ hp p30
  obtain ⟨c, hc, ec⟩ := hR.cos _ _ hl l30
  obtain ⟨s, hs, es⟩ := hR.sin _ _ hl l30
  have m1 := unit_len_rel _ _ _ eC eS
  have n1 := unit_len_rel _ _ _ ec es
  obtain ⟨vv, hv, x, y, r, A, hx, hy, A1, A2, er, ex, ey, φ', h', i1, i2, e2, e3⟩ := round_trip_core hL hat w hw ⟨fl, fp, fh⟩ C S c s h hC hS hc
    hs hh (by linarith) (by norm_num; linarith) _ _ (4441 / 10 ^ 19) rfl rfl m1 n1 (by norm_num)
  -- the pole is not reached
  have cφ := cos_far _ p1r
  have C0 : 24 / 10 ^ 18 ≤ (C : ℝ) := by
    rw [abs_of_nonneg ((by positivity : (0 : ℝ) ≤ 25 / 10 ^ 18).trans cφ)] at eC
    have := (abs_le.mp eC).1
    norm_num at cφ this ⊢
    linarith
  have Cp : (0 : ℝ) < C := lt_of_lt_of_le (by positivity) C0
  have r0 : 1 / 10 ^ 10 ≤ (r : ℝ) := by
    have g := mul_le_mul A1 C0 (by positivity) (by linarith)
    rw [abs_of_nonneg (mul_nonneg (by linarith) Cp.le)] at er
    have := (abs_le.mp er).1
    norm_num at g this ⊢
    linarith
  obtain ⟨w1, w2, w3⟩ := lon_back _ c s r x y l1r ec es r0 ex ey
  -- the longitude
  have r1 : (r : ℝ) ≤ 10 ^ 8 := by
    have C2 : (C : ℝ) ≤ 2 := by
      have h3 := (abs_le.mp eC).2
      have h4 := Real.cos_le_one (p : ℝ)
      have h5 := Real.abs_cos_le_one (p : ℝ)
      norm_num at h3
      linarith
    have g := mul_le_mul A2 C2 Cp.le (by positivity)
    rw [abs_of_nonneg (mul_nonneg (by linarith) Cp.le)] at er
    have := (abs_le.mp er).2
    norm_num at g this ⊢
    linarith
  have small : ∀ t a z : ℝ, |t - a| ≤ |a| / 2 ^ 51 + 1 / 10 ^ 60 → |a| ≤ 1 → |z - r * t| ≤ 1111 / 10 ^ 19 * |r * t| + 1 / 10 ^ 50 →
      |z| ≤ 10 ^ 10 := fun t a z k1 k2 k3 => by
    have g1 : |t| ≤ 2 := by
      have : t = a + (t - a) := by ring
      rw [this]
      refine (abs_add_le _ _).trans ((add_le_add k2 k1).trans ?_)
      norm_num
      linarith
    have rp : (0 : ℝ) ≤ r := le_trans (by positivity) r0
    have g2 : |r * t| ≤ 10 ^ 8 * 2 := by
      rw [abs_mul, abs_of_nonneg rp]
      exact mul_le_mul r1 g1 (abs_nonneg _) (by norm_num)
    have : z = r * t + (z - r * t) := by ring
    rw [this]
    refine (abs_add_le _ _).trans ((add_le_add g2 k3).trans ?_)
    norm_num at g2 ⊢
    linarith
  have p2 := p2_pos hx hy (small _ _ _ ec (Real.abs_cos_le_one _) ex) (small _ _ _ es (Real.abs_sin_le_one _) ey) w2
  obtain ⟨l', hl', el'⟩ := hR.atan2 vv.y vv.x y x hy hx (by
    rcases w1 with k | k
    · exact Or.inl (by exact_mod_cast k)
    · exact Or.inr (by exact_mod_cast k))
  have jl : Is (w.geocentricToGeodetic vv).elong l' := by
    unfold EllipsoidConverter.geocentricToGeodetic
    simp only
    rw [if_pos p2]
    exact hl'
  have dl : |(l : ℝ) - l'| ≤ 2 / 10 ^ 14 := by
    have : (l : ℝ) - l' = -((l' - Complex.arg ⟨x, y⟩) + (Complex.arg ⟨x, y⟩ - l)) := by ring
    rw [this, abs_neg]
    refine (abs_add_le _ _).trans ((add_le_add el' w3).trans (by norm_num))
  -- the latitude
  have dφ : |(p : ℝ) - φ'| ≤ 1 / 10 ^ 12 := by
    have aC : |(C : ℝ) - Real.cos p| ≤ 1 / 2 ^ 50 := eC.trans (by have := Real.abs_cos_le_one (p : ℝ); norm_num; linarith)
    have aS : |(S : ℝ) - Real.sin p| ≤ 1 / 2 ^ 50 := eS.trans (by have := Real.abs_sin_le_one (p : ℝ); norm_num; linarith)
    have p1h : |(p : ℝ)| ≤ Real.pi / 2 := p1r.trans (by have : (0 : ℝ) < 5 / 10 ^ 17 := by positivity
                                                        linarith)
    have k1 := arcsin_near C S p _ rfl (m1.trans (by norm_num)) Cp aC aS p1h
    obtain ⟨m2, m3⟩ := abs_le.mp m1
    generalize √((C : ℝ) ^ 2 + (S : ℝ) ^ 2) = m at *
    have M0 : 0 ≤ (h : ℝ) * m := mul_nonneg h0r (by norm_num at m2; linarith)
    have M1 : (h : ℝ) * m ≤ 20000 := (mul_le_mul h1r (by norm_num at m3; linarith : m ≤ 2) (by norm_num at m2; linarith) (by norm_num)).trans (by norm_num)
    generalize (h : ℝ) * m = H at *
    rw [abs_of_nonneg M0] at e3
    have q1 : H / (6378137 * (1 - 1 / 298.257223563) + H) ≤ 1 / 100 := by
      rw [div_le_iff₀ (by norm_num; linarith)]
      norm_num
      linarith
    have q2 : (H / (6378137 * (1 - 1 / 298.257223563) + H)) ^ 3 ≤ (1 / 100) ^ 3 := pow_le_pow_left₀ (div_nonneg M0 (by norm_num; linarith)) q1 3
    have q3 : H / (6378137 * (1 - 1 / 298.257223563)) ≤ 1 / 100 := by
      rw [div_le_iff₀ (by norm_num)]
      norm_num
      linarith
    have k2 : |(φ' : ℝ) - Real.arcsin (S / m)| ≤ 9 / 10 ^ 13 := by
      have t1 : |(φ' : ℝ) - Real.arcsin (S / m)| * 6000000 ≤ |(φ' : ℝ) - Real.arcsin (S / m)| * (0.98 * 6378137 + 0.99 * H) :=
        mul_le_mul_of_nonneg_left (by norm_num; linarith) (abs_nonneg _)
      have t2 := t1.trans e3
      generalize (H / (6378137 * (1 - 1 / 298.257223563) + H)) ^ 3 = Q1 at *
      generalize H / (6378137 * (1 - 1 / 298.257223563)) = Q2 at *
      generalize |(φ' : ℝ) - Real.arcsin (S / m)| = Q3 at *
      clear * - t2 q2 q3
      norm_num at *
      linarith
    have : (p : ℝ) - φ' = -((φ' - Real.arcsin (S / m)) + (Real.arcsin (S / m) - p)) := by ring
    rw [this, abs_neg]
    refine (abs_add_le _ _).trans ((add_le_add k2 k1).trans (by norm_num))
  -- the height
  have dh : |(h : ℝ) - h'| ≤ 1.451e-8 := by
    rw [abs_sub_comm]
    refine e2.trans ?_
    rw [abs_of_nonneg h0r]
    norm_num
    linarith
  obtain ⟨a1, j1, k1, g1⟩ := abs_sub_le hl jl _ dl (by norm_num)
  obtain ⟨a2, j2, k2, g2⟩ := abs_sub_le hp i1 _ dφ (by norm_num)
  obtain ⟨a3, j3, k3, g3⟩ := abs_sub_le hh i2 _ dh (by norm_num)
  obtain ⟨a4, j4, k4, g4⟩ := add_pos_le j1 j2 g1 g2 (2 / 10 ^ 12) (by norm_num at k1 k2 ⊢; linarith) (by norm_num)
  obtain ⟨a5, j5, k5, g5⟩ := add_pos_le j4 j3 g4 g3 1.46e-8 (by norm_num at k3 k4 ⊢; linarith) (by norm_num)
  rw [hv]
  simp only
  refine if_neg ?_
  rw [sqrt_eps_is.lt j5]
  have : a5 ≤ 1 / 2 ^ 26 := by
    have : (a5 : ℝ) ≤ ((1 / 2 ^ 26 : ℚ) : ℝ) := by
      push_cast
      norm_num at k5 ⊢
      linarith
    exact_mod_cast this
  simpa using this

/-- **C82**, `test_ellipsoid`: the whole test does not panic. -/
theorem C82_test_ellipsoid [Libm F64] (hL : LibmAcc) (hR : LibmRel)
    (hat : ∀ (x : F64) (a : ℚ), Is x a → Near (Libm.atan x) (Real.arctan a) (1 / 2 ^ 50)) (u : ℕ → F64 × F64 × F64)
    (hu : ∀ n, (isFin (u n).1 = true ∧ 0 ≤ v (u n).1 ∧ v (u n).1 < 1) ∧ (isFin (u n).2.1 = true ∧ 0 ≤ v (u n).2.1 ∧ v (u n).2.1 < 1) ∧
      isFin (u n).2.2 = true ∧ 0 ≤ v (u n).2.2 ∧ v (u n).2.2 < 1) : Tests.testEllipsoid u = .ok () := by
  obtain ⟨w, hw⟩ := wgs84_f64
  unfold Tests.testEllipsoid
  rw [hw]
  simp only
  have it : ∀ n, Tests.ellipsoidIter w (u n).1 (u n).2.1 (u n).2.2 = .ok () := fun n =>
    C82_test_ellipsoid_iter hL hR hat w hw _ _ _ (hu n).1.1 (hu n).2.1.1 (hu n).2.2.1 (hu n).1.2 (hu n).2.1.2 (hu n).2.2.2
  generalize List.range 1000 = L
  induction L with
  | nil => rfl
  | cons n L ih =>
    show (Tests.ellipsoidIter w (u n).1 (u n).2.1 (u n).2.2 >>= fun _ => L.forM _) = _
    rw [it n]
    exact ih

/-- The hypotheses hold for a library that exists and draws of zero (the South Pole, at longitude -180 degrees). -/
example : ∃ L : Libm F64, @LibmAcc L ∧ @LibmRel L ∧ (∀ (x : F64) (a : ℚ), Is x a → Near (L.atan x) (Real.arctan a) (1 / 2 ^ 50)) ∧
    ∃ u : F64, isFin u = true ∧ 0 ≤ v u ∧ v u < 1 := by
  have i0 : Is (lit 0 : F64) 0 := by have := Is.lit_int 0 (by norm_num); norm_num at this; exact this
  exact ⟨relLibm, relLibm_acc, relLibm_rel, goodLibm_atan, lit 0, i0.1, i0.2.ge, by rw [i0.2]; norm_num⟩

end Verif
