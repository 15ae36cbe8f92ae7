import Verif.Float.NearOps
import Verif.Props.GeodeticRoundTrip

/-!
# The height is better than the latitude

The height computed by `geocentric_to_geodetic` is the distance of the point from the ellipsoid in the computed direction.
An error of that direction enters only with its square.
-/

namespace Verif
open Arith F64

/-- Scales used below are harmless. -/
theorem ok_mul {a b : ℝ} (ha : 1 / 2 ^ 115 ≤ a) (ha' : a ≤ 2 ^ 115) (hb : 1 / 2 ^ 115 ≤ b) (hb' : b ≤ 2 ^ 115) : Ok (a * b) := by
  have a0 : 0 < a := lt_of_lt_of_le (by positivity) ha
  have b0 : 0 < b := lt_of_lt_of_le (by positivity) hb
  constructor
  · refine le_trans ?_ (mul_le_mul ha hb (by positivity) a0.le)
    norm_num
  · refine (mul_le_mul ha' hb' b0.le (by positivity)).trans ?_
    norm_num

/-- Rounding errors of the height formula, for given `s1` and `cc`. -/
theorem height_round {fp fz fa fe fr fk : F64} {z a e r k : ℚ} {p : ℝ} (hp : Near fp p (23 / 10 ^ 17 * p)) (hz : Is fz z) (ha : Is fa a)
    (he : Is fe e) (hr : Is fr r) (hk : Is fk k) (M ρ : ℝ) (p0 : 0 ≤ p) (z0 : 0 ≤ (z : ℝ)) (hM : M ^ 2 = p ^ 2 + (z : ℝ) ^ 2)
    (M1 : 1 ≤ M) (M2 : M ≤ 2 ^ 50) (hρ : ρ ^ 2 = (r : ℝ) ^ 2 + (k : ℝ) ^ 2) (ρ1 : 1 / 2 ^ 60 ≤ ρ) (ρ2 : ρ ≤ 2 ^ 114)
    (k0 : 0 < (k : ℝ)) (a1 : 1 ≤ (a : ℝ)) (a2 : (a : ℝ) ≤ 2 ^ 50) (e1 : 0.99 ≤ (e : ℝ)) (e2 : (e : ℝ) ≤ 1) (G : ℝ)
    (hG : G = ((p * k + z * r) - a * √(e * (r : ℝ) ^ 2 + (k : ℝ) ^ 2)) / ρ) :
    Near (((fp *. fk +. fz *. fr) -. fa *. Arith.sqrt (fe *. (fr *. fr) +. fk *. fk)) /. Arith.sqrt (fr *. fr +. fk *. fk)) G
      (455 / 10 ^ 18 * M + 396 / 10 ^ 18 * a + 456 / 10 ^ 18 * |G|) := by
  have ρ0 : 0 < ρ := lt_of_lt_of_le (by positivity) ρ1
  have Mp : 0 < M := by linarith
  have ap : 0 < (a : ℝ) := by linarith
  have okT : Ok (M * ρ) := ok_mul (le_trans (by norm_num) M1) (M2.trans (by norm_num)) (le_trans (by norm_num) ρ1) (ρ2.trans (by norm_num))
  have okA : Ok (a * ρ) := ok_mul (le_trans (by norm_num) a1) (a2.trans (by norm_num)) (le_trans (by norm_num) ρ1) (ρ2.trans (by norm_num))
  have okQ : Ok (ρ * ρ) := ok_mul (le_trans (by norm_num) ρ1) (ρ2.trans (by norm_num)) (le_trans (by norm_num) ρ1) (ρ2.trans (by norm_num))
  have okM : Ok M := ⟨le_trans (by norm_num) M1, M2.trans (by norm_num)⟩
  -- Cauchy
  have ra := abs_nonneg (r : ℝ)
  have cs : p * k + z * |(r : ℝ)| ≤ M * ρ := by
    refine abs_le_of_sq_le_sq' (?_ : _ ≤ (M * ρ) ^ 2) (by positivity) |>.2
    rw [mul_pow, hM, hρ, ← sq_abs (r : ℝ)]
    nlinarith [sq_nonneg (p * |(r : ℝ)| - z * k)]
  have pk0 : 0 ≤ p * k := by positivity
  have zr0 : 0 ≤ z * |(r : ℝ)| := by positivity
  have Tb : M * ρ ≤ 2 ^ 200 := (mul_le_mul M2 ρ2 ρ0.le (by positivity)).trans (by norm_num)
  have Ab : a * ρ ≤ 2 ^ 200 := (mul_le_mul a2 ρ2 ρ0.le (by positivity)).trans (by norm_num)
  have Qb : ρ * ρ ≤ 2 ^ 230 := okQ.2
  have T0 := okT.pos
  have A0 := okA.pos
  have Q0 := okQ.pos
  -- first sum
  have n1 := (hp.mul_s okT (Near.of_is hk) (D := 23 / 10 ^ 17 * (p * k)) (m := p * k) (by
    rw [abs_of_pos k0]; linarith) (by rw [abs_of_nonneg pk0]) (by linarith)).mono (e' := 3413 / 10 ^ 19 * (p * k) + M * ρ / 2 ^ 99) (by
      generalize p * k = A at *
      generalize M * ρ = T at *
      norm_num
      linarith)
  have n2 := ((Near.of_is hz).mul_s okT (Near.of_is hr) (D := 0) (m := z * |(r : ℝ)|) (by simp) (by
    rw [abs_mul, abs_of_nonneg z0]) (by linarith)).mono (e' := 1111 / 10 ^ 19 * (z * |(r : ℝ)|) + M * ρ / 2 ^ 99) (by
      generalize z * |(r : ℝ)| = A at *
      generalize M * ρ = T at *
      norm_num
      linarith)
  have zr1 : |(z : ℝ) * r| ≤ z * |(r : ℝ)| := by rw [abs_mul, abs_of_nonneg z0]
  have n3 := (n1.add_s okT n2 (D := 3414 / 10 ^ 19 * (M * ρ)) (m := M * ρ) (by
      generalize z * |(r : ℝ)| = B at *
      generalize p * k = A at *
      generalize M * ρ = T at *
      norm_num
      linarith) (by
      refine (abs_add_le _ _).trans ?_
      rw [abs_of_nonneg pk0]
      linarith) (by
      generalize M * ρ = T at *
      norm_num at Tb ⊢
      linarith)).mono (e' := 4526 / 10 ^ 19 * (M * ρ)) (by
      generalize M * ρ = T at *
      norm_num
      linarith)
  -- squares
  have r2 : (r : ℝ) * r = (r : ℝ) ^ 2 := by ring
  have k2 : (k : ℝ) * k = (k : ℝ) ^ 2 := by ring
  have hQ : ρ * ρ = (r : ℝ) ^ 2 + (k : ℝ) ^ 2 := by rw [← hρ]; ring
  have s0 := sq_nonneg (r : ℝ)
  have c0 := sq_nonneg (k : ℝ)
  have m1 := ((Near.of_is hr).mul_s okQ (Near.of_is hr) (D := 0) (m := (r : ℝ) ^ 2) (by simp) (by
    rw [r2, abs_of_nonneg s0]) (by norm_num at Qb ⊢; linarith)).congr r2
  have m2 := ((Near.of_is hk).mul_s okQ (Near.of_is hk) (D := 0) (m := (k : ℝ) ^ 2) (by simp) (by
    rw [k2, abs_of_nonneg c0]) (by norm_num at Qb ⊢; linarith)).congr k2
  have e0 : (0 : ℝ) < e := by linarith
  have er0 : 0 ≤ (e : ℝ) * (r : ℝ) ^ 2 := by positivity
  have er1 : (e : ℝ) * (r : ℝ) ^ 2 ≤ (r : ℝ) ^ 2 := by nlinarith
  have er2 : 0.99 * (r : ℝ) ^ 2 ≤ (e : ℝ) * (r : ℝ) ^ 2 := mul_le_mul_of_nonneg_right e1 s0
  have m3 := ((Near.of_is he).mul_s okQ m1 (D := e * ((r : ℝ) ^ 2) / 2 ^ 53 + ρ * ρ / 2 ^ 100) (m := e * (r : ℝ) ^ 2) (by
    rw [abs_of_pos e0]
    have : (e : ℝ) * (ρ * ρ / 2 ^ 100) ≤ ρ * ρ / 2 ^ 100 := mul_le_of_le_one_left (by positivity) e2
    calc (e : ℝ) * (0 + ((r : ℝ) ^ 2 + 0) / 2 ^ 53 + ρ * ρ / 2 ^ 100) + |(r : ℝ) ^ 2| * 0 + 0 * (0 + ((r : ℝ) ^ 2 + 0) / 2 ^ 53 + ρ * ρ / 2 ^ 100)
        = e * ((r : ℝ) ^ 2) / 2 ^ 53 + e * (ρ * ρ / 2 ^ 100) := by ring
      _ ≤ _ := by linarith) (by rw [abs_of_nonneg er0]) (by
      generalize ρ * ρ = Q at *
      generalize (e : ℝ) * (r : ℝ) ^ 2 = A at *
      norm_num at Qb ⊢
      linarith)).mono (e' := 2221 / 10 ^ 19 * (e * (r : ℝ) ^ 2) + ρ * ρ / 2 ^ 98) (by
      generalize ρ * ρ = Q at *
      generalize (e : ℝ) * (r : ℝ) ^ 2 = A at *
      norm_num
      linarith)
  have Q1 : 0.99 * (ρ * ρ) ≤ e * (r : ℝ) ^ 2 + (k : ℝ) ^ 2 := by rw [hQ]; linarith
  have Q2 : e * (r : ℝ) ^ 2 + (k : ℝ) ^ 2 ≤ ρ * ρ := by rw [hQ]; linarith
  have Qp : 0 < e * (r : ℝ) ^ 2 + (k : ℝ) ^ 2 := by linarith
  have m4 := (m3.add_s okQ m2 (D := 2222 / 10 ^ 19 * (e * (r : ℝ) ^ 2 + (k : ℝ) ^ 2)) (m := e * (r : ℝ) ^ 2 + (k : ℝ) ^ 2) (by
      generalize ρ * ρ = Q at *
      generalize (e : ℝ) * (r : ℝ) ^ 2 = A at *
      generalize (k : ℝ) ^ 2 = B at *
      norm_num at Q1 ⊢
      linarith) (by rw [abs_of_pos Qp]) (by
      generalize ρ * ρ = Q at *
      generalize (e : ℝ) * (r : ℝ) ^ 2 + (k : ℝ) ^ 2 = A at *
      norm_num at Qb ⊢
      linarith)).mono (e' := 3333 / 10 ^ 19 * (e * (r : ℝ) ^ 2 + (k : ℝ) ^ 2)) (by
      generalize ρ * ρ = Q at *
      generalize (e : ℝ) * (r : ℝ) ^ 2 + (k : ℝ) ^ 2 = A at *
      norm_num at Q1 ⊢
      linarith)
  have m5 := m4.sqrt_s Qp (by norm_num)
  have sq1 := Real.sqrt_nonneg (e * (r : ℝ) ^ 2 + (k : ℝ) ^ 2)
  have sq2 : √(e * (r : ℝ) ^ 2 + (k : ℝ) ^ 2) ≤ ρ := by
    apply Real.sqrt_le_iff.mpr
    exact ⟨ρ0.le, by rw [pow_two ρ]; exact Q2⟩
  set q := √(e * (r : ℝ) ^ 2 + (k : ℝ) ^ 2) with hq
  have m6 := m5.mono (e' := 2778 / 10 ^ 19 * q) (by
    apply mul_le_mul_of_nonneg_right _ sq1
    norm_num)
  have aq0 : 0 ≤ a * q := by positivity
  have aq1 : a * q ≤ a * ρ := by gcongr
  have m7 := ((Near.of_is ha).mul_s okA m6 (D := 2778 / 10 ^ 19 * (a * q)) (m := a * q) (by
      rw [abs_of_pos ap]; linarith) (by rw [abs_of_nonneg aq0]) (by
      generalize a * ρ = A at *
      generalize a * q = B at *
      norm_num at Ab ⊢
      linarith)).mono (e' := 389 / 10 ^ 18 * (a * ρ)) (by
      generalize a * ρ = A at *
      generalize a * q = B at *
      norm_num
      linarith)
  -- denominator
  have d1 := (m1.add_s okQ m2 (D := 1111 / 10 ^ 19 * (ρ * ρ)) (m := ρ * ρ) (by
      rw [hQ]
      generalize (r : ℝ) ^ 2 = A at *
      generalize (k : ℝ) ^ 2 = B at *
      norm_num
      linarith) (by rw [← hQ, abs_of_pos Q0]) (by
      generalize ρ * ρ = Q at *
      norm_num at Qb ⊢
      linarith)).congr (b := ρ * ρ) hQ.symm |>.mono (e' := 2222 / 10 ^ 19 * (ρ * ρ)) (by
      generalize ρ * ρ = Q at *
      norm_num
      linarith)
  have d2 := d1.sqrt_s Q0 (by norm_num)
  rw [Real.sqrt_mul_self ρ0.le] at d2
  have d3 := d2.mono (e' := 2222 / 10 ^ 19 * ρ) (by
    apply mul_le_mul_of_nonneg_right _ ρ0.le
    norm_num)
  -- numerator and quotient
  have hX : p * k + z * r - a * q = G * ρ := by rw [hG]; field_simp
  have n4 := n3.sub_s okT m7 (D := 4526 / 10 ^ 19 * (M * ρ) + 389 / 10 ^ 18 * (a * ρ)) (m := |G| * ρ) le_rfl (by
    rw [hX, abs_mul, abs_of_pos ρ0]) (by
      have : |G| * ρ ≤ M * ρ + a * ρ := by
        rw [← abs_of_pos ρ0, ← abs_mul, ← hX, abs_of_pos ρ0]
        refine (abs_sub _ _).trans ?_
        rw [abs_of_nonneg aq0]
        have : |p * k + z * r| ≤ M * ρ := by
          refine (abs_add_le _ _).trans ?_
          rw [abs_of_nonneg pk0]
          linarith
        linarith
      generalize a * ρ = A at *
      generalize M * ρ = T at *
      generalize |G| * ρ = g at *
      norm_num at Ab Tb ⊢
      linarith)
  have g0 := abs_nonneg G
  have g1 : |G| ≤ M + a := by
    have : |G| * ρ ≤ (M + a) * ρ := by
      rw [← abs_of_pos ρ0, ← abs_mul, ← hX, abs_of_pos ρ0]
      refine (abs_sub _ _).trans ?_
      rw [abs_of_nonneg aq0]
      have : |p * k + z * r| ≤ M * ρ := by
        refine (abs_add_le _ _).trans ?_
        rw [abs_of_nonneg pk0]
        linarith
      linarith
    exact le_of_mul_le_mul_right this ρ0
  have q1 : (p * k + z * r - a * q) / ρ = G := by rw [hX]; field_simp
  have n5 := n4.div_s okM ρ0 d3 (κ := 2222 / 10 ^ 19) (by norm_num) (D := 4536 / 10 ^ 19 * M + 3891 / 10 ^ 19 * a + 3343 / 10 ^ 19 * |G|)
    (m := |G|) (by
      rw [q1]
      have : (4526 / 10 ^ 19 * (M * ρ) + 389 / 10 ^ 18 * (a * ρ) +
          (|G| * ρ + (4526 / 10 ^ 19 * (M * ρ) + 389 / 10 ^ 18 * (a * ρ))) / 2 ^ 53 + M * ρ / 2 ^ 100) / ρ =
          4526 / 10 ^ 19 * M + 389 / 10 ^ 18 * a + (|G| + (4526 / 10 ^ 19 * M + 389 / 10 ^ 18 * a)) / 2 ^ 53 + M / 2 ^ 100 := by
        field_simp
      rw [this]
      norm_num
      linarith) (by rw [q1]) (by
      norm_num at M2 a2 ⊢
      linarith)
  rw [q1] at n5
  refine n5.mono ?_
  norm_num
  linarith

theorem sq_drop (A r t : ℝ) (A0 : 0 ≤ A) (t0 : 0 ≤ t) (h : A ≤ |r| + t) : A ^ 2 - 2 * t * A ≤ r ^ 2 := by
  rcases le_total t A with h' | h'
  · have := pow_le_pow_left₀ (sub_nonneg.mpr h') (show A - t ≤ |r| by linarith) 2
    rw [sq_abs] at this
    nlinarith [sq_nonneg t]
  · nlinarith [sq_nonneg r]

open Halley in
/-- The computed direction `(s1, cc)`. -/
theorem dir_sb {w : EllipsoidConverter F64} {ε : ℝ} (C : WgsConst w ε) (ε1 : 0.996645 ≤ ε) (ε2 : ε ≤ 0.9967)
    (L P u s : ℝ) (hP : P = L * u) (u0 : 0 < u) (s0 : 0 ≤ s) (us : u ^ 2 + s ^ 2 = 1) (D : Dom L P) (p2 absz : F64)
    (hp : SB p2 ((6378137 * P) ^ 2) (47 / 10 ^ 17) 1 (6378137 * (L ^ 0 * P ^ 1) * (6378137 * (L ^ 0 * P ^ 1))))
    (z : ℚ) (hz : Is absz z) (hz' : (z : ℝ) = 6378137 * ε * L * s) :
    ∃ r k : ℚ, Is (s1cc w (Arith.sqrt p2 /. w.el.a) (absz /. w.el.a)).1 r ∧
      Is (s1cc w (Arith.sqrt p2 /. w.el.a) (absz /. w.el.a)).2 k ∧ 0.9 * (L ^ 6 * P ^ 2) ≤ (k : ℝ) ∧ (k : ℝ) ≤ L ^ 7 * P ^ 1 ∧
      |(r : ℝ)| ≤ L ^ 7 * P ^ 1 ∧ (0.9 * (L ^ 7 * P ^ 1)) ^ 2 ≤ (r : ℝ) ^ 2 + (k : ℝ) ^ 2 := by
  have Lp := D.Lp
  have Pp := D.Pp
  have hL1 := D.L1
  have ep : 0 < ε := by linarith
  have s1 : s ≤ 1 := by nlinarith
  have u1 : u ≤ 1 := by nlinarith
  have oka : Ok 6378137 := ⟨by norm_num, by norm_num⟩
  have sa : SB w.el.a 6378137 0 1 6378137 := by have := SB.of_is C.a (σ := 6378137) (M := 1) oka (by norm_num); norm_num at this; exact this
  have o01 := D.okA 0 1 (by norm_num)
  have o10 := D.okA 1 0 (by norm_num)
  have np := hp.sqrt o01 (β := 0.9999) (C := 1) (E := 35 / 10 ^ 17) (M := 1) (by norm_num) (by
    have : 0 ≤ P ^ 2 := by positivity
    rw [pow_zero, pow_one, one_mul]
    norm_num
    nlinarith) (by norm_num) (by norm_num) (by norm_num)
  rw [Real.sqrt_sq (by positivity)] at np
  have hpn := (np.div sa (by rw [mul_div_cancel_left₀ _ (by norm_num)]; exact D.ok 0 1 (by norm_num)) (β := 1) (E := 48 / 10 ^ 17) (M := 1)
    (by norm_num) (by norm_num) (by norm_num)).scale (mul_div_cancel_left₀ _ (by norm_num)) |>.congr
      (mul_div_cancel_left₀ _ (by norm_num))
  have nz := (SB.of_is hz o10 (M := 0.9967) (by
    rw [hz', abs_of_nonneg (by positivity), pow_one, pow_zero, mul_one]
    calc 6378137 * ε * L * s ≤ 6378137 * 0.9967 * L * 1 := by gcongr
      _ = _ := by ring)).congr hz'
  have hsn := (nz.div sa (by rw [mul_div_cancel_left₀ _ (by norm_num)]; exact D.ok 1 0 (by norm_num)) (β := 1) (E := 12 / 10 ^ 17) (M := 0.9967)
    (by norm_num) (by norm_num) (by norm_num)).scale (mul_div_cancel_left₀ _ (by norm_num)) |>.congr (b := ε * L * s)
      (by field_simp)
  obtain ⟨h1, h2, b1, b2, b3, b4⟩ := s1cc_sb C ε1 ε2 L P u s hP u0 s0 us D _ _ hpn hsn
  set r := s1cc w (Arith.sqrt p2 /. w.el.a) (absz /. w.el.a)
  clear_value r
  have x0 : 0 < X (1 - ε ^ 2) L u s := lt_of_lt_of_le (by positivity) b1
  have y0 : 0 ≤ Y (1 - ε ^ 2) L u s := le_trans (by positivity) b3
  generalize X (1 - ε ^ 2) L u s = x at *
  generalize Y (1 - ε ^ 2) L u s = y at *
  set k := (ε * L) ^ 6 * u with hk
  have kp : 0 < k := by positivity
  have kσ : k * L ^ 2 = ε ^ 6 * (L ^ 7 * P ^ 1) := by rw [hk, hP]; ring
  have kτ : k * L ^ 2 * u = ε ^ 6 * (L ^ 6 * P ^ 2) := by rw [hk, hP]; ring
  clear_value k
  have σp := (D.ok 7 1 (by norm_num)).pos
  have ρp := (D.ok 6 2 (by norm_num)).pos
  have ρσ := D.le 6 2 7 1 (by norm_num)
  obtain ⟨rr, hr, er⟩ := h1.near
  obtain ⟨kk, hk', ek⟩ := h2.near
  have mr := h1.mag
  have mk := h2.mag
  -- exact values
  have ky : 0 ≤ k * y := by positivity
  have kx : 0 ≤ k * (ε * x) := by positivity
  have kx1 : 0.95 * (L ^ 6 * P ^ 2) ≤ k * (ε * x) := by
    calc 0.95 * (L ^ 6 * P ^ 2) ≤ 0.9799 * 0.996645 ^ 7 * (L ^ 6 * P ^ 2) := by gcongr; norm_num
      _ ≤ 0.9799 * ε ^ 7 * (L ^ 6 * P ^ 2) := by gcongr
      _ = 0.9799 * ε * (k * L ^ 2 * u) := by rw [kτ]; ring
      _ = k * (ε * (0.9799 * (u * L ^ 2))) := by ring
      _ ≤ _ := by gcongr
  have ε6 : 0.97 ≤ ε ^ 6 := le_trans (by norm_num) (pow_le_pow_left₀ (by norm_num) ε1 6)
  have sum : (0.94 * (L ^ 7 * P ^ 1)) ^ 2 ≤ (k * y) ^ 2 + (k * (ε * x)) ^ 2 := by
    have a1 : (0.9766 * (k * L ^ 2) * s) ^ 2 ≤ (k * y) ^ 2 := by
      apply pow_le_pow_left₀ (by positivity)
      calc 0.9766 * (k * L ^ 2) * s = k * (0.9766 * (s * L ^ 2)) := by ring
        _ ≤ k * (0.9799 * (s * L ^ 2)) := by gcongr; norm_num
        _ ≤ _ := by gcongr
    have a2 : (0.9766 * (k * L ^ 2) * u) ^ 2 ≤ (k * (ε * x)) ^ 2 := by
      apply pow_le_pow_left₀ (by positivity)
      calc 0.9766 * (k * L ^ 2) * u = k * (0.9766 * (u * L ^ 2)) := by ring
        _ ≤ k * (0.996645 * (0.9799 * (u * L ^ 2))) := by
          apply mul_le_mul_of_nonneg_left _ kp.le
          have : 0 ≤ u * L ^ 2 := by positivity
          linarith
        _ ≤ _ := by gcongr
    have a3 : (0.94 * (L ^ 7 * P ^ 1)) ^ 2 ≤ (0.9766 * (k * L ^ 2)) ^ 2 := by
      apply pow_le_pow_left₀ (by positivity)
      rw [kσ]
      nlinarith
    have a4 : (0.9766 * (k * L ^ 2)) ^ 2 = (0.9766 * (k * L ^ 2) * s) ^ 2 + (0.9766 * (k * L ^ 2) * u) ^ 2 := by
      linear_combination -(0.9766 * (k * L ^ 2)) ^ 2 * us
    linarith
  rw [abs_of_nonneg ky] at mr
  rw [abs_of_nonneg kx] at mk
  generalize k * y = A at *
  generalize k * (ε * x) = B at *
  generalize L ^ 7 * P ^ 1 = σ at *
  generalize L ^ 6 * P ^ 2 = τ at *
  refine ⟨rr, kk, hr, hk', ?_, ?_, ?_, ?_⟩
  · have := (abs_le.mp ek).1
    norm_num at this ⊢
    linarith
  · have := (abs_le.mp ek).2
    norm_num at this
    linarith
  · have := abs_le.mp er
    rw [abs_le]
    norm_num at this
    constructor <;> linarith
  · have e1 : A ≤ |(rr : ℝ)| + σ / 10 ^ 4 := by
      have := (abs_le.mp er).1
      have := le_abs_self (rr : ℝ)
      norm_num at *
      linarith
    have e2 : B ≤ |(kk : ℝ)| + σ / 10 ^ 4 := by
      have := (abs_le.mp ek).1
      have := le_abs_self (kk : ℝ)
      norm_num at *
      linarith
    have f1 := sq_drop A rr _ ky (by positivity) e1
    have f2 := sq_drop B kk _ kx (by positivity) e2
    have g1 := mul_le_mul_of_nonneg_right mr σp.le
    have g2 := mul_le_mul_of_nonneg_right (show B ≤ 0.9775 * σ by linarith) σp.le
    have g3 := mul_pos σp σp
    have e3 : (0.94 * σ) ^ 2 = 0.8836 * (σ * σ) := by ring
    have e4 : (0.9 * σ) ^ 2 = 0.81 * (σ * σ) := by ring
    have e5 : 2 * (σ / 10 ^ 4) * A = 2 / 10 ^ 4 * (A * σ) := by ring
    have e6 : 2 * (σ / 10 ^ 4) * B = 2 / 10 ^ 4 * (B * σ) := by ring
    rw [e3] at sum
    rw [e5] at f1
    rw [e6] at f2
    rw [e4]
    linarith

end Verif
