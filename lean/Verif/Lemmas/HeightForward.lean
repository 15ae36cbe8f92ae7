import Verif.Lemmas.HeightCore

/-!
# Relative error of `geodetic_to_geocentric`
-/

namespace Verif
open Arith F64

theorem exists_ok : ∃ σ : ℝ, Ok σ ∧ 0 ≤ σ / 2 ^ 100 ∧ σ / 2 ^ 100 ≤ 1 / 10 ^ 50 := by
  refine ⟨1 / 2 ^ 230, ⟨le_rfl, by norm_num⟩, by positivity, ?_⟩
  rw [div_div, one_div_le_one_div (by positivity) (by positivity), ← pow_add]
  calc (10 : ℝ) ^ 50 ≤ 16 ^ 50 := by gcongr; norm_num
    _ = 2 ^ 200 := by rw [show (16 : ℝ) = 2 ^ 4 by norm_num, ← pow_mul]
    _ ≤ 2 ^ (230 + 100) := pow_le_pow_right₀ (by norm_num) (by norm_num)

namespace Near
variable {x y : F64} {a : ℝ} {κ κ' τ τ' B : ℝ} {b : ℚ}

/-- Product with an exact factor. -/
theorem mul_rel (hx : Near x a (κ * |a| + τ)) (hy : Is y b) (hb : |(b : ℝ)| ≤ B) (τ0 : 0 ≤ τ) (κ1 : κ + (1 + κ) / 2 ^ 53 ≤ κ')
    (τ1 : τ * B * (1 + 1 / 2 ^ 53) + 1 / 10 ^ 50 ≤ τ') (hs : |a * b| * (1 + κ) + τ * B ≤ 2 ^ 250) :
    Near (x *. y) (a * b) (κ' * |a * b| + τ') := by
  obtain ⟨σ, hσ, -, σ2⟩ := exists_ok
  have h := mul_s hσ hx (Near.of_is hy) (D := κ * |a * b| + τ * B) (m := |a * b|) (by
    rw [mul_zero, mul_zero, zero_add, add_zero, mul_add, abs_mul]
    have := mul_le_mul_of_nonneg_left hb τ0
    linarith) le_rfl (by linarith)
  refine h.mono ?_
  have := mul_le_mul_of_nonneg_right κ1 (abs_nonneg (a * b))
  have e : κ * |a * b| + τ * B + (|a * b| + (κ * |a * b| + τ * B)) / 2 ^ 53 =
    (κ + (1 + κ) / 2 ^ 53) * |a * b| + τ * B * (1 + 1 / 2 ^ 53) := by ring
  rw [e]
  linarith

/-- Product with an exact factor on the left. -/
theorem mul_rel' (hx : Near x a (κ * |a| + τ)) (hy : Is y b) (hb : |(b : ℝ)| ≤ B) (τ0 : 0 ≤ τ) (κ1 : κ + (1 + κ) / 2 ^ 53 ≤ κ')
    (τ1 : τ * B * (1 + 1 / 2 ^ 53) + 1 / 10 ^ 50 ≤ τ') (hs : |b * a| * (1 + κ) + τ * B ≤ 2 ^ 250) :
    Near (y *. x) (b * a) (κ' * |b * a| + τ') := by
  obtain ⟨σ, hσ, -, σ2⟩ := exists_ok
  have h := mul_s hσ (Near.of_is hy) hx (D := κ * |b * a| + τ * B) (m := |b * a|) (by
    rw [mul_zero, zero_mul, add_zero, add_zero, mul_add, abs_mul]
    have := mul_le_mul_of_nonneg_left hb τ0
    linarith) le_rfl (by linarith)
  refine h.mono ?_
  have := mul_le_mul_of_nonneg_right κ1 (abs_nonneg (b * a))
  have e : κ * |b * a| + τ * B + (|b * a| + (κ * |b * a| + τ * B)) / 2 ^ 53 =
    (κ + (1 + κ) / 2 ^ 53) * |b * a| + τ * B * (1 + 1 / 2 ^ 53) := by ring
  rw [e]
  linarith

end Near

/-- The prime vertical radius in binary64. -/
theorem prime_near {fa fW fC fS : F64} {W C S : ℚ} (ha : Is fa 6378137) (hW : Is fW W) (hC : Is fC C) (hS : Is fS S)
    (W1 : (0.99 : ℝ) ≤ W) (W2 : (W : ℝ) ≤ 1) (m1 : (0.99 : ℝ) ≤ (C : ℝ) ^ 2 + (S : ℝ) ^ 2) (m2 : (C : ℝ) ^ 2 + (S : ℝ) ^ 2 ≤ 1.01)
    (N : ℝ) (hN : N = 6378137 / √((C : ℝ) ^ 2 + W * (S : ℝ) ^ 2)) :
    6300000 ≤ N ∧ N ≤ 6510000 ∧ (∃ d : ℚ, Is (fC *. fC +. (fW *. fS) *. fS) d ∧ 0 < d) ∧
    Near (fa /. Arith.sqrt (fC *. fC +. (fW *. fS) *. fS)) N (3892 / 10 ^ 19 * N) := by
  obtain ⟨σ, hσ, σ1, σ2⟩ := exists_ok
  have C1 : |(C : ℝ)| ≤ 2 := abs_le_of_sq_le_sq (by nlinarith [sq_nonneg (S : ℝ)]) (by norm_num)
  have S1 : |(S : ℝ)| ≤ 2 := abs_le_of_sq_le_sq (by nlinarith [sq_nonneg (C : ℝ)]) (by norm_num)
  have Wa : |(W : ℝ)| ≤ 1 := by rw [abs_of_nonneg (by linarith)]; exact W2
  have n1 := (Near.mul_rel (κ := 0) (τ := 0) (κ' := 1111 / 10 ^ 19) (τ' := 1 / 10 ^ 50) ((Near.of_is hC).mono (by simp)) hC C1 le_rfl
    (by norm_num) (by norm_num) (by rw [abs_mul]; nlinarith [abs_nonneg (C : ℝ)]))
  have n2 := (Near.mul_rel (κ := 0) (τ := 0) (κ' := 1111 / 10 ^ 19) (τ' := 1 / 10 ^ 50) ((Near.of_is hW).mono (by simp)) hS S1 le_rfl
    (by norm_num) (by norm_num) (by rw [abs_mul]; nlinarith [abs_nonneg (S : ℝ), abs_nonneg (W : ℝ)]))
  have b2 : |(W : ℝ) * S| ≤ 2 := by rw [abs_mul]; nlinarith [abs_nonneg (S : ℝ), abs_nonneg (W : ℝ)]
  have n3 := (Near.mul_rel (κ' := 2223 / 10 ^ 19) (τ' := 4 / 10 ^ 50) n2 hS S1 (by norm_num)
    (by norm_num) (by norm_num) (by rw [abs_mul]; nlinarith [abs_nonneg (S : ℝ), abs_nonneg ((W : ℝ) * S)]))
  obtain ⟨D, hD⟩ : ∃ D, D = (C : ℝ) ^ 2 + W * (S : ℝ) ^ 2 := ⟨_, rfl⟩
  have D1 : 0.98 ≤ D := by rw [hD]; nlinarith [sq_nonneg (C : ℝ), sq_nonneg (S : ℝ)]
  have D2 : D ≤ 1.01 := by rw [hD]; nlinarith [sq_nonneg (C : ℝ), sq_nonneg (S : ℝ)]
  have eD : (C : ℝ) * C + W * S * S = D := by rw [hD]; ring
  have a1 : |(C : ℝ) * C| = C * C := abs_of_nonneg (mul_self_nonneg _)
  have a2 : |(W : ℝ) * S * S| = W * S * S := abs_of_nonneg (by nlinarith [mul_self_nonneg (S : ℝ)])
  rw [a1] at n1
  rw [a2] at n3
  have n4 := Near.add_s hσ n1 n3 (D := 2224 / 10 ^ 19 * D) (m := D) (by
    have : 0 ≤ (C : ℝ) * C := mul_self_nonneg _
    have : 0 ≤ (W : ℝ) * S * S := by rw [← a2]; exact abs_nonneg _
    rw [← eD] at D1 ⊢
    norm_num at D1 ⊢
    linarith) (by rw [eD, abs_of_nonneg (by linarith)]) (by linarith)
  rw [eD] at n4
  have n4' : Near (fC *. fC +. (fW *. fS) *. fS) D (3335 / 10 ^ 19 * D) := n4.mono (by
    norm_num at σ2 D1 ⊢
    linarith)
  have n5 := (Near.sqrt_s (by linarith) n4' (by norm_num)).mono (e' := 2779 / 10 ^ 19 * √D)
    (mul_le_mul_of_nonneg_right (by norm_num) (Real.sqrt_nonneg _))
  have s1 : 0.98 ≤ √D := Real.le_sqrt_of_sq_le (by norm_num at D1 ⊢; linarith)
  have s2 : √D ≤ 1.01 := Real.sqrt_le_iff.mpr ⟨by norm_num, by norm_num at D2 ⊢; linarith⟩
  rw [← hD] at hN
  have N1 : 6300000 ≤ N := by rw [hN, le_div_iff₀ (by linarith)]; linarith
  have N2 : N ≤ 6510000 := by rw [hN, div_le_iff₀ (by linarith)]; linarith
  have i6 : Near fa 6378137 0 := (Near.of_is ha).congr (by norm_num)
  have n6 := Near.div_s hσ i6 (by linarith) n5 (by norm_num) (D := 2780 / 10 ^ 19 * N) (m := N) (by
    rw [zero_div, zero_mul, zero_add, ← hN, abs_of_nonneg (by linarith)]
    norm_num
    linarith) (by rw [← hN, abs_of_nonneg (by linarith)]) (by linarith)
  rw [← hN] at n6
  refine ⟨N1, N2, ?_, n6.mono (by norm_num at σ2 ⊢; linarith)⟩
  obtain ⟨d, hd, ed⟩ := n4'
  refine ⟨d, hd, ?_⟩
  have := (abs_le.mp ed).1
  have : (0 : ℝ) < d := by linarith
  exact_mod_cast this

/-- The two rectangular coordinates in the meridian plane, in binary64. -/
theorem meridian_near {fa fW fC fS fh : F64} {W C S h : ℚ} (ha : Is fa 6378137) (hW : Is fW W) (hC : Is fC C) (hS : Is fS S)
    (hh : Is fh h) (W1 : (0.99 : ℝ) ≤ W) (W2 : (W : ℝ) ≤ 1) (m1 : (0.99 : ℝ) ≤ (C : ℝ) ^ 2 + (S : ℝ) ^ 2)
    (m2 : (C : ℝ) ^ 2 + (S : ℝ) ^ 2 ≤ 1.01) (h0 : (-50000 : ℝ) ≤ h) (h1 : (h : ℝ) ≤ 2 * 10 ^ 7)
    (N : ℝ) (hN : N = 6378137 / √((C : ℝ) ^ 2 + W * (S : ℝ) ^ 2)) (ac : F64)
    (hac : ac = fa /. Arith.sqrt (fC *. fC +. (fW *. fS) *. fS)) :
    Near ((ac +. fh) *. fC) ((N + h) * C) (615 / 10 ^ 18 * |(N + h) * C| + 3 / 10 ^ 50) ∧
    ∃ z : ℚ, Is ((fW *. ac +. fh) *. fS) z ∧ |(z : ℝ) - (W * N + h) * S| ≤ 728 / 10 ^ 18 * |(W * N + h) * S| + 1 / 10 ^ 49 ∧
      (0 ≤ z → 0 ≤ S) ∧ (z < 0 → S ≤ 0) := by
  obtain ⟨σ, hσ, σ1, σ2⟩ := exists_ok
  obtain ⟨N1, N2, -, n1⟩ := prime_near ha hW hC hS W1 W2 m1 m2 N hN
  rw [← hac] at n1
  have C1 : |(C : ℝ)| ≤ 2 := abs_le_of_sq_le_sq (by nlinarith [sq_nonneg (S : ℝ)]) (by norm_num)
  have S1 : |(S : ℝ)| ≤ 2 := abs_le_of_sq_le_sq (by nlinarith [sq_nonneg (C : ℝ)]) (by norm_num)
  have Wa : |(W : ℝ)| ≤ 1 := by rw [abs_of_nonneg (by linarith)]; exact W2
  have A0 : 0 < N + h := by linarith
  have A1 : N + h ≤ 10 ^ 8 := by linarith
  have n2 := (Near.add_s hσ n1 (Near.of_is hh) (D := 3927 / 10 ^ 19 * (N + h)) (m := N + h) (by linarith)
    (by rw [abs_of_pos A0]) (by linarith)).mono (e' := 5038 / 10 ^ 19 * |N + h| + 0) (by
      rw [abs_of_pos A0]
      norm_num at σ2 ⊢
      linarith)
  have sz : ∀ A T : ℝ, 0 < A → A ≤ 10 ^ 8 → |T| ≤ 2 → |A * T| ≤ 2 * 10 ^ 8 := fun A T p q r => by
    rw [abs_mul, abs_of_pos p]
    exact (mul_le_mul q r (abs_nonneg _) (by norm_num)).trans (by norm_num)
  refine ⟨Near.mul_rel n2 hC C1 le_rfl (by norm_num) (by norm_num) ?_, ?_⟩
  · have := sz _ _ A0 A1 C1
    norm_num at this ⊢
    linarith
  have WN1 : 6237000 ≤ W * N := by nlinarith
  have WN2 : W * N ≤ N := by nlinarith
  have n3 := Near.mul_rel' (κ := 3892 / 10 ^ 19) (τ := 0) (κ' := 5003 / 10 ^ 19) (τ' := 1 / 10 ^ 50)
    (n1.mono (by rw [abs_of_pos (by linarith : 0 < N), add_zero])) hW Wa le_rfl (by norm_num) (by norm_num) (by
      rw [abs_of_pos (by linarith)]
      norm_num
      linarith)
  rw [abs_of_pos (by linarith)] at n3
  have B0 : 0 < W * N + h := by linarith
  have B1 : W * N + h ≤ 10 ^ 8 := by linarith
  have n4 := (Near.add_s hσ n3 (Near.of_is hh) (D := 5046 / 10 ^ 19 * (W * N + h)) (m := W * N + h) (by norm_num; linarith)
    (by rw [abs_of_pos B0]) (by linarith)).mono (e' := 6157 / 10 ^ 19 * |W * N + h| + 0) (by
      rw [abs_of_pos B0]
      norm_num at σ2 ⊢
      linarith)
  have n5 := Near.mul_rel (κ' := 728 / 10 ^ 18) (τ' := 1 / 10 ^ 49) n4 hS S1 le_rfl (by norm_num) (by norm_num) (by
    have := sz _ _ B0 B1 S1
    norm_num at this ⊢
    linarith)
  obtain ⟨z, hz, ez⟩ := n5
  obtain ⟨q, hq, eq⟩ := n4
  rw [abs_of_pos B0] at eq
  have q1 : (1 : ℝ) ≤ q := by have := (abs_le.mp eq).1; norm_num at this; linarith
  have q1' : (1 : ℚ) ≤ q := by exact_mod_cast q1
  have q2 : (q : ℝ) ≤ 2 * 10 ^ 8 := by have := (abs_le.mp eq).2; norm_num at this B1 ⊢; linarith
  have hz2 : z = RN (q * S) := hz.unique (hq.mul hS (by
    have : |(q : ℝ) * S| ≤ 2 ^ 250 := by
      rw [abs_mul, abs_of_nonneg (by linarith)]
      exact (mul_le_mul q2 S1 (abs_nonneg _) (by norm_num)).trans (by norm_num)
    exact le_HUGE (k := 250) (by exact_mod_cast this) (by norm_num)))
  refine ⟨z, hz, ez, fun z0 => ?_, fun z0 => ?_⟩
  · by_contra hneg
    have s0 : S < 0 := not_le.mp hneg
    have : RN (q * S) ≤ RN S := RN_mono (by nlinarith)
    rw [RN_exact hS.rep, ← hz2] at this
    linarith
  · by_contra hpos
    have s0 : 0 < S := not_le.mp hpos
    have : RN S ≤ RN (q * S) := RN_mono (by nlinarith)
    rw [RN_exact hS.rep, ← hz2] at this
    linarith

/-- A vector of given length in a given direction, in binary64. -/
theorem plane_near {fr fc fs : F64} {r c s : ℚ} (hr : Is fr r) (hc : Is fc c) (hs : Is fs s) (r1 : |(r : ℝ)| ≤ 10 ^ 9)
    (n : ℝ) (hn : n = √((c : ℝ) ^ 2 + (s : ℝ) ^ 2)) (n2 : n ≤ 2) :
    ∃ x y : ℚ, Is (fr *. fc) x ∧ Is (fr *. fs) y ∧ |(x : ℝ) - r * c| ≤ 1111 / 10 ^ 19 * |(r : ℝ) * c| + 1 / 10 ^ 50 ∧
      |(y : ℝ) - r * s| ≤ 1111 / 10 ^ 19 * |(r : ℝ) * s| + 1 / 10 ^ 50 ∧
      |√((x : ℝ) ^ 2 + (y : ℝ) ^ 2) - (|(r : ℝ)|) * n| ≤ 1111 / 10 ^ 19 * (|(r : ℝ)| * n) + 2 / 10 ^ 50 := by
  have pc : 0 ≤ (c : ℝ) ^ 2 + (s : ℝ) ^ 2 := by positivity
  have hn2 : n ^ 2 = (c : ℝ) ^ 2 + (s : ℝ) ^ 2 := by rw [hn, Real.sq_sqrt pc]
  have n0 : 0 ≤ n := by rw [hn]; exact Real.sqrt_nonneg _
  have c2 : |(c : ℝ)| ≤ 2 := (abs_le_of_sq_le_sq (by nlinarith [sq_nonneg (s : ℝ)]) n0).trans n2
  have s2 : |(s : ℝ)| ≤ 2 := (abs_le_of_sq_le_sq (by nlinarith [sq_nonneg (c : ℝ)]) n0).trans n2
  have sz : ∀ T : ℝ, |T| ≤ 2 → |(r : ℝ) * T| * (1 + 0) + 0 * 2 ≤ 2 ^ 250 := fun T hT => by
    have : |(r : ℝ) * T| ≤ 10 ^ 9 * 2 := by rw [abs_mul]; exact mul_le_mul r1 hT (abs_nonneg _) (by norm_num)
    norm_num at this ⊢
    linarith
  obtain ⟨x, hx, ex⟩ := Near.mul_rel (κ := 0) (τ := 0) (κ' := 1111 / 10 ^ 19) (τ' := 1 / 10 ^ 50) ((Near.of_is hr).mono (by simp)) hc c2 le_rfl
    (by norm_num) (by norm_num) (sz _ c2)
  obtain ⟨y, hy, ey⟩ := Near.mul_rel (κ := 0) (τ := 0) (κ' := 1111 / 10 ^ 19) (τ' := 1 / 10 ^ 50) ((Near.of_is hr).mono (by simp)) hs s2 le_rfl
    (by norm_num) (by norm_num) (sz _ s2)
  refine ⟨x, y, hx, hy, ex, ey, ?_⟩
  have e1 : √(((r : ℝ) * c) ^ 2 + ((r : ℝ) * s) ^ 2 + 0 ^ 2) = |(r : ℝ)| * n := by
    have : ((r : ℝ) * c) ^ 2 + ((r : ℝ) * s) ^ 2 + 0 ^ 2 = (|(r : ℝ)| * n) ^ 2 := by rw [mul_pow |(r : ℝ)|, sq_abs, hn2]; ring
    rw [this, Real.sqrt_sq (mul_nonneg (abs_nonneg _) n0)]
  have e2 : √(((x : ℝ) - r * c) ^ 2 + ((y : ℝ) - r * s) ^ 2 + 0 ^ 2) ≤ 1111 / 10 ^ 19 * (|(r : ℝ)| * n) + 2 / 10 ^ 50 := by
    have h1 := tri3 (1111 / 10 ^ 19 * |(r : ℝ) * c|) (1 / 10 ^ 50) (1111 / 10 ^ 19 * |(r : ℝ) * s|) (1 / 10 ^ 50) 0 0
    have h2 : √((1111 / 10 ^ 19 * |(r : ℝ) * c|) ^ 2 + (1111 / 10 ^ 19 * |(r : ℝ) * s|) ^ 2 + 0 ^ 2) = 1111 / 10 ^ 19 * (|(r : ℝ)| * n) := by
      have : (1111 / 10 ^ 19 * |(r : ℝ) * c|) ^ 2 + (1111 / 10 ^ 19 * |(r : ℝ) * s|) ^ 2 + 0 ^ 2 = (1111 / 10 ^ 19 * (|(r : ℝ)| * n)) ^ 2 := by
        simp only [mul_pow, sq_abs, hn2]; ring
      rw [this, Real.sqrt_sq (by positivity)]
    have h3 := norm3_le (1 / 10 ^ 50) (1 / 10 ^ 50) 0
    rw [abs_of_pos (by positivity), abs_zero] at h3
    have h4 : √(((x : ℝ) - r * c) ^ 2 + ((y : ℝ) - r * s) ^ 2 + 0 ^ 2) ≤
        √((1111 / 10 ^ 19 * |(r : ℝ) * c| + 1 / 10 ^ 50) ^ 2 + (1111 / 10 ^ 19 * |(r : ℝ) * s| + 1 / 10 ^ 50) ^ 2 + (0 + 0) ^ 2) := by
      apply Real.sqrt_le_sqrt
      have t1 := sq_le_sq' (abs_le.mp ex).1 (abs_le.mp ex).2
      have t2 := sq_le_sq' (abs_le.mp ey).1 (abs_le.mp ey).2
      rw [add_zero]
      linarith
    refine h4.trans (h1.trans ?_)
    rw [h2]
    linarith
  have e3 := tri3 ((r : ℝ) * c) ((x : ℝ) - r * c) ((r : ℝ) * s) ((y : ℝ) - r * s) 0 0
  have e4 := tri3 (x : ℝ) (-((x : ℝ) - r * c)) (y : ℝ) (-((y : ℝ) - r * s)) 0 0
  have e5 : (x : ℝ) + -((x : ℝ) - r * c) = r * c := by ring
  have e6 : (y : ℝ) + -((y : ℝ) - r * s) = r * s := by ring
  rw [add_sub_cancel, add_sub_cancel, e1, add_zero] at e3
  rw [e5, e6, add_zero, e1, neg_sq, neg_sq] at e4
  have e7 : (x : ℝ) ^ 2 + (y : ℝ) ^ 2 + 0 ^ 2 = (x : ℝ) ^ 2 + (y : ℝ) ^ 2 := by ring
  rw [e7] at e3 e4
  clear ex ey sz hn2 hn r1
  generalize √(((x : ℝ) - r * c) ^ 2 + ((y : ℝ) - r * s) ^ 2 + 0 ^ 2) = X at *
  generalize √((x : ℝ) ^ 2 + (y : ℝ) ^ 2) = Y at *
  generalize |(r : ℝ)| * n = Z at *
  exact abs_le.mpr ⟨by linarith, by linarith⟩

/-- The geocentric point computed in binary64 is, to within some units in the last place, the point of the exact
ellipsoid whose latitude has the computed sine and cosine, scaled to a unit vector. -/
theorem forward_near [Libm F64] (w : EllipsoidConverter F64) (hw : EllipsoidConverter.new WGS84 = .ok w) (g : Geodetic F64)
    (W C S c s h : ℚ) (hW : Is ((lit 1 -. (WGS84 : Ellipsoid F64).f) *. (lit 1 -. (WGS84 : Ellipsoid F64).f)) W)
    (hC : Is (Libm.cos g.phi) C) (hS : Is (Libm.sin g.phi) S) (hc : Is (Libm.cos g.elong) c) (hs : Is (Libm.sin g.elong) s)
    (hh : Is g.height h) (W1 : (0.99 : ℝ) ≤ W) (W2 : (W : ℝ) ≤ 1) (h0 : (-50000 : ℝ) ≤ h) (h1 : (h : ℝ) ≤ 2 * 10 ^ 7) (m n μ : ℝ)
    (hm : m = √((C : ℝ) ^ 2 + (S : ℝ) ^ 2)) (hn : n = √((c : ℝ) ^ 2 + (s : ℝ) ^ 2)) (m1 : |m - 1| ≤ 1 / 10 ^ 14) (n1 : |n - 1| ≤ μ)
    (μ1 : μ ≤ 1 / 10 ^ 14) (N : ℝ) (hN : N = 6378137 / √((C : ℝ) ^ 2 + W * (S : ℝ) ^ 2)) :
    0 < N + h ∧ 0 < W * N + h ∧
    ∃ v, w.geodeticToGeocentric g = .ok v ∧ ∃ x y z r : ℚ, Is v.x x ∧ Is v.y y ∧ Is v.z z ∧
      |(r : ℝ) - (N + h) * C| ≤ 615 / 10 ^ 18 * |(N + h) * C| + 3 / 10 ^ 50 ∧
      |(x : ℝ) - r * c| ≤ 1111 / 10 ^ 19 * |(r : ℝ) * c| + 1 / 10 ^ 50 ∧
      |(y : ℝ) - r * s| ≤ 1111 / 10 ^ 19 * |(r : ℝ) * s| + 1 / 10 ^ 50 ∧
      |√((x : ℝ) ^ 2 + (y : ℝ) ^ 2) - (N + h) * (|(C : ℝ)|)| ≤ (728 / 10 ^ 18 + μ) * ((N + h) * |(C : ℝ)|) + 1 / 10 ^ 20 ∧
      |(z : ℝ) - (W * N + h) * S| ≤ (728 / 10 ^ 18 + μ) * ((W * N + h) * |(S : ℝ)|) + 1 / 10 ^ 20 ∧
      (0 ≤ z → 0 ≤ S) ∧ (z < 0 → S ≤ 0) := by
  have μ0 := (abs_nonneg _).trans n1
  obtain ⟨ma, mb⟩ := abs_le.mp m1
  have hm2 : m ^ 2 = (C : ℝ) ^ 2 + (S : ℝ) ^ 2 := by rw [hm, Real.sq_sqrt (by positivity)]
  have q1 : (0.99 : ℝ) ≤ (C : ℝ) ^ 2 + (S : ℝ) ^ 2 := by rw [← hm2]; norm_num at ma ⊢; nlinarith
  have q2 : (C : ℝ) ^ 2 + (S : ℝ) ^ 2 ≤ 1.01 := by rw [← hm2]; norm_num at ma mb ⊢; nlinarith
  have hel := new_el hw
  have ia : Is (WGS84 : Ellipsoid F64).a 6378137 := by have := Is.lit_int 6378137 (by norm_num); norm_num at this; exact this
  have i0 : Is (lit 0 : F64) 0 := by have := Is.lit_int 0 (by norm_num); norm_num at this; exact this
  obtain ⟨N1, N2, ⟨d, hd, d0⟩, -⟩ := prime_near ia hW hC hS W1 W2 q1 q2 N hN
  have A0 : 0 < N + h := by linarith
  have B0 : 0 < W * N + h := by nlinarith
  obtain ⟨⟨r, hr, er⟩, z, hz, ez, z1, z2⟩ := meridian_near ia hW hC hS hh W1 W2 q1 q2 h0 h1 N hN _ rfl
  have C1 : |(C : ℝ)| ≤ 2 := abs_le_of_sq_le_sq (by nlinarith [sq_nonneg (S : ℝ)]) (by norm_num)
  have a1 : |(N + h) * (C : ℝ)| = (N + h) * |(C : ℝ)| := by rw [abs_mul, abs_of_pos A0]
  have a2 : |(W * N + h) * (S : ℝ)| = (W * N + h) * |(S : ℝ)| := by rw [abs_mul, abs_of_pos B0]
  have er' := er
  rw [a1] at er'
  obtain ⟨A, hA⟩ : ∃ A, A = (N + h) * |(C : ℝ)| := ⟨_, rfl⟩
  have Ap : 0 ≤ A := by rw [hA]; exact mul_nonneg A0.le (abs_nonneg _)
  have A2 : A ≤ 6 * 10 ^ 7 := by
    rw [hA]
    exact (mul_le_mul (by linarith : N + h ≤ 3 * 10 ^ 7) C1 (abs_nonneg _) (by norm_num)).trans (by norm_num)
  have er2 : |(|(r : ℝ)|) - A| ≤ 615 / 10 ^ 18 * A + 3 / 10 ^ 50 := by
    have := abs_abs_sub_abs_le (r : ℝ) ((N + h) * C)
    rw [a1, ← hA] at this
    rw [← hA] at er'
    exact this.trans er'
  obtain ⟨er3, er4⟩ := abs_le.mp er2
  have r1 : |(r : ℝ)| ≤ 10 ^ 9 := by norm_num at er4 A2 ⊢; linarith
  have n2 : n ≤ 2 := by have := (abs_le.mp n1).2; norm_num at μ1; linarith
  obtain ⟨x, y, hx, hy, ex, ey, ep⟩ := plane_near hr hc hs r1 n hn n2
  refine ⟨A0, B0, ⟨_, _, _⟩, ?_, x, y, z, r, hx, hy, hz, er, ex, ey, ?_, ?_, z1, z2⟩
  · unfold EllipsoidConverter.geodeticToGeocentric
    rw [hel]
    exact if_pos (by rw [i0.lt hd]; simpa using d0)
  · rw [← hA]
    have e1 : √((x : ℝ) ^ 2 + (y : ℝ) ^ 2) - A = (√((x : ℝ) ^ 2 + (y : ℝ) ^ 2) - |(r : ℝ)| * n) + |(r : ℝ)| * (n - 1) + (|(r : ℝ)| - A) := by ring
    rw [e1]
    have e2 : |(|(r : ℝ)|) * (n - 1)| ≤ |(r : ℝ)| * μ := by
      rw [abs_mul, abs_abs]
      exact mul_le_mul_of_nonneg_left n1 (abs_nonneg _)
    have e3 : |(r : ℝ)| * n ≤ |(r : ℝ)| + |(r : ℝ)| * μ := by
      have := (abs_le.mp e2).2
      linarith
    have e4 : |(r : ℝ)| * μ ≤ A * μ + (615 / 10 ^ 18 * A + 3 / 10 ^ 50) * (1 / 10 ^ 14) := by
      have h1 : |(r : ℝ)| * μ ≤ (A + (615 / 10 ^ 18 * A + 3 / 10 ^ 50)) * μ := mul_le_mul_of_nonneg_right (by linarith) μ0
      have h2 : (615 / 10 ^ 18 * A + 3 / 10 ^ 50) * μ ≤ (615 / 10 ^ 18 * A + 3 / 10 ^ 50) * (1 / 10 ^ 14) :=
        mul_le_mul_of_nonneg_left μ1 (by positivity)
      linarith
    have e5 : A * μ ≤ A * (1 / 10 ^ 14) := mul_le_mul_of_nonneg_left μ1 Ap
    refine (abs_add_le _ _).trans ((add_le_add ((abs_add_le _ _).trans (add_le_add ep e2)) er2).trans ?_)
    generalize |(r : ℝ)| * n = P at *
    generalize |(r : ℝ)| * μ = Q at *
    generalize |(r : ℝ)| = R at *
    rw [add_mul, mul_comm μ A]
    generalize A * μ = V at *
    norm_num at *
    linarith
  · refine ez.trans ?_
    rw [a2]
    have : 0 ≤ μ * ((W * N + h) * |(S : ℝ)|) := mul_nonneg μ0 (mul_nonneg B0.le (abs_nonneg _))
    rw [add_mul]
    norm_num at *
    linarith

end Verif
