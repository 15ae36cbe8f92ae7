import Verif.Lemmas.HeightAcc

/-!
# The height in the computed direction
-/

namespace Verif
open Arith F64

/-- The distance from the axis. -/
theorem p_near {x y : F64} {X Y : ℚ} (hx : Is x X) (hy : Is y Y) (p : ℝ) (hp : p ^ 2 = (X : ℝ) ^ 2 + (Y : ℝ) ^ 2)
    (p1 : 1 / 10 ^ 10 ≤ p) (p2 : p ≤ 2 ^ 40) : Near (Arith.sqrt (sq x +. sq y)) p (23 / 10 ^ 17 * p) := by
  have p0 : 0 < p := lt_of_lt_of_le (by positivity) p1
  have o2 : Ok (p * p) := by
    constructor
    · refine le_trans ?_ (mul_le_mul p1 p1 (by positivity) p0.le)
      norm_num
    · refine (mul_le_mul p2 p2 p0.le (by positivity)).trans ?_
      norm_num
  have Qb : p * p ≤ 2 ^ 80 := (mul_le_mul p2 p2 p0.le (by positivity)).trans (by norm_num)
  have Q0 := o2.pos
  have hQ : p * p = (X : ℝ) ^ 2 + (Y : ℝ) ^ 2 := by rw [← hp]; ring
  have s0 := sq_nonneg (X : ℝ)
  have c0 := sq_nonneg (Y : ℝ)
  have x2 : (X : ℝ) * X = (X : ℝ) ^ 2 := by ring
  have y2 : (Y : ℝ) * Y = (Y : ℝ) ^ 2 := by ring
  have m1 := ((Near.of_is hx).mul_s o2 (Near.of_is hx) (D := 0) (m := (X : ℝ) ^ 2) (by simp) (by
    rw [x2, abs_of_nonneg s0]) (by norm_num at Qb ⊢; linarith)).congr x2
  have m2 := ((Near.of_is hy).mul_s o2 (Near.of_is hy) (D := 0) (m := (Y : ℝ) ^ 2) (by simp) (by
    rw [y2, abs_of_nonneg c0]) (by norm_num at Qb ⊢; linarith)).congr y2
  have d1 := (m1.add_s o2 m2 (D := 1111 / 10 ^ 19 * (p * p)) (m := p * p) (by
      rw [hQ]
      generalize (X : ℝ) ^ 2 = A at *
      generalize (Y : ℝ) ^ 2 = B at *
      norm_num
      linarith) (by rw [← hQ, abs_of_pos Q0]) (by
      generalize p * p = Q at *
      norm_num at Qb ⊢
      linarith)).congr (b := p * p) hQ.symm |>.mono (e' := 2222 / 10 ^ 19 * (p * p)) (by
      generalize p * p = Q at *
      norm_num
      linarith)
  have d2 := d1.sqrt_s Q0 (by norm_num)
  rw [Real.sqrt_mul_self p0.le] at d2
  exact d2.mono (by
    apply mul_le_mul_of_nonneg_right _ p0.le
    norm_num)

/-- Cosine and sine of the direction of a vector. -/
theorem arctan_dir (r k ρ : ℝ) (k0 : 0 < k) (ρ0 : 0 < ρ) (hρ : ρ ^ 2 = r ^ 2 + k ^ 2) :
    Real.cos (Real.arctan (r / k)) = k / ρ ∧ Real.sin (Real.arctan (r / k)) = r / ρ := by
  have h : √(1 + (r / k) ^ 2) = ρ / k := by
    rw [show 1 + (r / k) ^ 2 = (ρ / k) ^ 2 by rw [div_pow, div_pow, hρ]; field_simp; ring, Real.sqrt_sq (by positivity)]
  rw [Real.cos_arctan, Real.sin_arctan, h]
  constructor <;> field_simp

section
variable [Libm F64] (hat : ∀ (x : F64) (a : ℚ), Is x a → Near (Libm.atan x) (Real.arctan a) (1 / 2 ^ 50))
include hat

set_option maxHeartbeats 2000000 in
/-- The height found is the distance from the ellipsoid in a direction `ψ`, which the latitude found gives to `11e-16`. -/
theorem height_dir {w : EllipsoidConverter F64} {f : ℝ} (C : WgsConst w (1 - f)) (hec : w.ec = Arith.sqrt w.ec2)
    (hwb : w.b = w.el.a *. w.ec) (E : ℚ) (hE : Is w.ec2 E)
    (ε1 : 0.996645 ≤ 1 - f) (ε2 : 1 - f ≤ 0.9967) (vx vy vz : F64) (x y z : ℚ) (hx : Is vx x) (hy : Is vy y) (hz : Is vz z) (L : ℝ)
    (hL : L ^ 2 = ((x : ℝ) ^ 2 + (y : ℝ) ^ 2) / 6378137 ^ 2 + (z : ℝ) ^ 2 / (6378137 * (1 - f)) ^ 2) (L1 : 0.99 ≤ L) (L2 : L ≤ 10 ^ 4)
    (p M : ℝ) (hp : p = √((x : ℝ) ^ 2 + (y : ℝ) ^ 2)) (hM : M = √((x : ℝ) ^ 2 + (y : ℝ) ^ 2 + (z : ℝ) ^ 2)) :
    ∃ φ h : ℚ, ∃ ψ G : ℝ, Is (latHeightOf w (sq vx +. sq vy) (Arith.abs vz)).1 φ ∧
      Is (latHeightOf w (sq vx +. sq vy) (Arith.abs vz)).2 h ∧ |ψ| ≤ Real.pi / 2 ∧ |(φ : ℝ) - ψ| ≤ 11 / 10 ^ 16 ∧
      G = p * Real.cos ψ + |(z : ℝ)| * Real.sin ψ - 6378137 * √(Real.cos ψ ^ 2 + E * Real.sin ψ ^ 2) ∧
      |(h : ℝ) - G| ≤ 455 / 10 ^ 18 * M + 396 / 10 ^ 18 * 6378137 + 456 / 10 ^ 18 * |G| := by
  have Lp : 0 < L := by linarith
  have ep : 0 < 1 - f := by linarith
  have pn : 0 ≤ (x : ℝ) ^ 2 + (y : ℝ) ^ 2 := by positivity
  have zn : 0 ≤ (z : ℝ) ^ 2 / (6378137 * (1 - f)) ^ 2 := by positivity
  have pL : (x : ℝ) ^ 2 + (y : ℝ) ^ 2 ≤ (6378137 * L) ^ 2 := by
    have : ((x : ℝ) ^ 2 + (y : ℝ) ^ 2) / 6378137 ^ 2 ≤ L ^ 2 := by linarith
    rw [div_le_iff₀ (by norm_num)] at this
    linarith
  have p0 : 0 ≤ p := by rw [hp]; exact Real.sqrt_nonneg _
  have p2 : p ^ 2 = (x : ℝ) ^ 2 + (y : ℝ) ^ 2 := by rw [hp]; exact Real.sq_sqrt pn
  have M0 : 0 ≤ M := by rw [hM]; exact Real.sqrt_nonneg _
  have M2 : M ^ 2 = (x : ℝ) ^ 2 + (y : ℝ) ^ 2 + (z : ℝ) ^ 2 := by rw [hM]; exact Real.sq_sqrt (by positivity)
  have M2' : M ^ 2 = p ^ 2 + |(z : ℝ)| ^ 2 := by rw [M2, p2, sq_abs]
  have e21 : (1 - f) ^ 2 ≤ 1 := pow_le_one₀ ep.le (by linarith)
  have ML : M ≤ 6378137 * L := by
    refine abs_le_of_sq_le_sq' (?_ : M ^ 2 ≤ (6378137 * L) ^ 2) (by positivity) |>.2
    rw [M2, mul_pow, hL, mul_add, mul_div_cancel₀ _ (by norm_num)]
    have : (z : ℝ) ^ 2 ≤ 6378137 ^ 2 * ((z : ℝ) ^ 2 / (6378137 * (1 - f)) ^ 2) := by
      rw [mul_pow, ← mul_div_assoc, mul_div_mul_left _ _ (by norm_num), le_div_iff₀ (by positivity)]
      exact mul_le_of_le_one_right (sq_nonneg _) e21
    linarith
  have M1 : 6000000 ≤ M := by
    refine abs_le_of_sq_le_sq' (?_ : _ ≤ M ^ 2) M0 |>.2
    have h2 : (0.99 : ℝ) ^ 2 ≤ L ^ 2 := pow_le_pow_left₀ (by norm_num) L1 2
    have h3 : L ^ 2 ≤ M ^ 2 / (6378137 * (1 - f)) ^ 2 := by
      have h5 : (6378137 * (1 - f)) ^ 2 ≤ 6378137 ^ 2 := by
        rw [mul_pow]
        exact mul_le_of_le_one_right (by norm_num) e21
      have h6 := div_le_div_of_nonneg_left pn (by positivity) h5
      rw [hL, M2, add_div _ ((z : ℝ) ^ 2)]
      exact add_le_add h6 le_rfl
    have h4 := h2.trans h3
    rw [le_div_iff₀ (by positivity)] at h4
    refine le_trans ?_ h4
    have : (6378137 * 0.996645 : ℝ) ^ 2 ≤ (6378137 * (1 - f)) ^ 2 := by gcongr
    norm_num at this ⊢
    linarith
  have Mb : M ≤ 2 ^ 50 := ML.trans ((mul_le_mul_of_nonneg_left L2 (by norm_num)).trans (by norm_num))
  have big : (6378137 * L) ^ 2 ≤ 2 ^ 80 := (pow_le_pow_left₀ (by positivity) (mul_le_mul_of_nonneg_left L2 (by norm_num)) 2).trans (by norm_num)
  have iz : Is (Arith.abs vz) |z| := hz.abs
  have hzc : ((|z| : ℚ) : ℝ) = |(z : ℝ)| := by push_cast; rfl
  -- ec2
  obtain ⟨E1, E2⟩ : 0.99 ≤ (E : ℝ) ∧ (E : ℝ) ≤ 1 := by
    obtain ⟨r, hr, er⟩ := C.ec2.near
    have : r = E := hr.unique hE
    subst this
    have := abs_le.mp er
    have e3 : (0.996645 : ℝ) ^ 2 ≤ (1 - f) ^ 2 := pow_le_pow_left₀ (by norm_num) ε1 2
    have e4 : (1 - f) ^ 2 ≤ 0.9967 ^ 2 := pow_le_pow_left₀ ep.le ε2 2
    norm_num at *
    constructor <;> linarith
  obtain ⟨b, hb, hb1, hb2⟩ := cut_iff C hx hy (pL.trans big)
  unfold latHeightOf
  rw [hb]
  have sL : √(((x : ℝ) ^ 2 + (y : ℝ) ^ 2) / 6378137 ^ 2 + (z : ℝ) ^ 2 / (6378137 * (1 - f)) ^ 2) = L := by
    rw [← hL, Real.sqrt_sq Lp.le]
  cases b with
  | true =>
    have pge := hb1 rfl
    have pp : 0 < (x : ℝ) ^ 2 + (y : ℝ) ^ 2 := lt_of_lt_of_le (by norm_num) pge
    obtain ⟨u, s, u0, s0, us, -, ex, ez⟩ := scaled_coords 6378137 f (by norm_num) (by linarith) (x : ℝ) y z pp
    rw [sL] at ex ez
    have u1 : u ≤ 1 := by clear * - u0 us s0; nlinarith
    have pl : (63 / 10 ^ 11 : ℝ) ≤ √((x : ℝ) ^ 2 + (y : ℝ) ^ 2) := Real.le_sqrt_of_sq_le (le_trans (by norm_num) pge)
    have pu : √((x : ℝ) ^ 2 + (y : ℝ) ^ 2) ≤ 2 ^ 40 := (Real.sqrt_le_sqrt (pL.trans big)).trans (by
      rw [show (2 : ℝ) ^ 80 = (2 ^ 40) ^ 2 by norm_num, Real.sqrt_sq (by positivity)])
    have D : Dom L (L * u) := by
      refine ⟨L1, L2.trans (by norm_num), ?_, mul_le_of_le_one_right Lp.le u1⟩
      rw [ex] at pl
      norm_num at pl ⊢
      linarith
    have sb := p2_sb hx hy (√((x : ℝ) ^ 2 + (y : ℝ) ^ 2)) (Real.sq_sqrt pn) (le_trans (by norm_num) pl) pu
    have es : √((x : ℝ) ^ 2 + (y : ℝ) ^ 2) = 6378137 * (L ^ 0 * (L * u) ^ 1) := by rw [ex]; ring
    have es' : √((x : ℝ) ^ 2 + (y : ℝ) ^ 2) = 6378137 * (L * u) := by rw [ex]; ring
    obtain ⟨r, k, ir, ik, k1, k2, r1, rk⟩ := dir_sb C ε1 ε2 L (L * u) u s rfl u0 s0 us D _ _
      ((sb.congr (by rw [es'])).scale (by rw [es])) |z| iz (by rw [← ez]; push_cast; rfl)
    have np := p_near hx hy p p2 (by rw [hp]; exact le_trans (by norm_num) pl) (by rw [hp]; exact pu)
    have σp := (D.ok 7 1 (by norm_num)).pos
    have τp := (D.ok 6 2 (by norm_num)).pos
    have σ1 : 1 / 2 ^ 56 ≤ L ^ 7 * (L * u) ^ 1 := by
      have h1 : (0.99 : ℝ) ^ 7 ≤ L ^ 7 := pow_le_pow_left₀ (by norm_num) L1 7
      have h2 := D.P1
      rw [pow_one]
      refine le_trans ?_ (mul_le_mul h1 h2 (by positivity) (by positivity))
      norm_num
    have σ2 : L ^ 7 * (L * u) ^ 1 ≤ 2 ^ 112 := (D.upper 7 1 8 (by norm_num)).trans (by norm_num)
    have kτ : 1 / 2 ^ 110 ≤ (k : ℝ) := by
      refine le_trans ?_ k1
      have h1 : (0.99 : ℝ) ^ 6 ≤ L ^ 6 := pow_le_pow_left₀ (by norm_num) L1 6
      have h2 : (1 / 2 ^ 54 : ℝ) ^ 2 ≤ (L * u) ^ 2 := pow_le_pow_left₀ (by positivity) D.P1 2
      have h3 := mul_le_mul h1 h2 (by positivity) (by positivity)
      norm_num at h3 ⊢
      linarith
    have k0 : 0 < (k : ℝ) := lt_of_lt_of_le (by positivity) kτ
    set σ := L ^ 7 * (L * u) ^ 1
    set ρ := √((r : ℝ) ^ 2 + (k : ℝ) ^ 2) with hρ
    have ρ2 : ρ ^ 2 = (r : ℝ) ^ 2 + (k : ℝ) ^ 2 := Real.sq_sqrt (by positivity)
    have ρl : 0.9 * σ ≤ ρ := Real.le_sqrt_of_sq_le rk
    have ρu : ρ ≤ 2 * σ := by
      apply Real.sqrt_le_iff.mpr
      refine ⟨by positivity, ?_⟩
      have h1 := pow_le_pow_left₀ (abs_nonneg _) r1 2
      have h2 := pow_le_pow_left₀ k0.le k2 2
      rw [sq_abs] at h1
      nlinarith [sq_nonneg σ]
    have ρ0 : 0 < ρ := lt_of_lt_of_le (by positivity) ρl
    obtain ⟨cψ, sψ⟩ := arctan_dir r k ρ k0 ρ0 ρ2
    have eG : p * Real.cos (Real.arctan (r / k)) + |(z : ℝ)| * Real.sin (Real.arctan (r / k)) -
        6378137 * √(Real.cos (Real.arctan (r / k)) ^ 2 + E * Real.sin (Real.arctan (r / k)) ^ 2) =
        ((p * k + ((|z| : ℚ) : ℝ) * r) - ((6378137 : ℚ) : ℝ) * √(E * (r : ℝ) ^ 2 + (k : ℝ) ^ 2)) / ρ := by
      rw [cψ, sψ, hzc]
      have : √((k / ρ) ^ 2 + E * (r / ρ) ^ 2) = √(E * (r : ℝ) ^ 2 + (k : ℝ) ^ 2) / ρ := by
        rw [← Real.sqrt_sq ρ0.le, ← Real.sqrt_div (by positivity), Real.sqrt_sq ρ0.le]
        congr 1
        field_simp
        ring
      rw [this]
      push_cast
      field_simp
    have hh := height_round np iz C.a hE ir ik M ρ p0 (by rw [hzc]; exact abs_nonneg _) (by rw [hzc]; exact M2') (by linarith) Mb ρ2
      (by norm_num at σ1 ⊢; linarith) (by norm_num at σ2 ⊢; linarith) k0 (by norm_num) (by norm_num) E1 E2 _ rfl
    rw [← eG] at hh
    obtain ⟨h, ih, dh⟩ := hh
    -- latitude
    have rkb : |r / k| ≤ 2 ^ 250 := by
      have : |(r : ℝ) / k| ≤ 2 ^ 250 := by
        rw [abs_div, abs_of_pos k0, div_le_iff₀ k0]
        refine r1.trans (σ2.trans ?_)
        refine le_trans ?_ (mul_le_mul_of_nonneg_left kτ (by positivity))
        norm_num
      exact_mod_cast this
    have iq := ir.div ik (by have : (k : ℝ) ≠ 0 := k0.ne'; exact_mod_cast this) (le_HUGE (k := 250) rkb (by norm_num))
    obtain ⟨φ, iφ, dφ⟩ := hat _ _ iq
    have ar := arctan_round (r / k)
    rw [if_pos rfl, latHeight_s1cc]
    refine ⟨φ, h, Real.arctan (r / k), _, iφ, ih, ?_, ?_, rfl, ?_⟩
    · rw [abs_le]
      exact ⟨(Real.neg_pi_div_two_lt_arctan _).le, (Real.arctan_lt_pi_div_two _).le⟩
    · push_cast at ar
      have e : (φ : ℝ) - Real.arctan (r / k) = (φ - Real.arctan ((RN (r / k) : ℚ) : ℝ)) + (Real.arctan ((RN (r / k) : ℚ) : ℝ) - Real.arctan (r / k)) := by
        ring
      rw [e]
      exact (abs_add_le _ _).trans ((add_le_add dφ ar).trans (by norm_num))
    · push_cast at dh
      exact dh
  | false =>
    obtain ⟨pr, -, -, -, -, ip, -, -, -, -, -, -, pe, -⟩ := C61_constants_f64
    have i2 : Is (lit 2 : F64) 2 := by have := Is.lit_int 2 (by norm_num); norm_num at this; exact this
    have npi : NB (Arith.pi : F64) Real.pi (1 / 2 ^ 52) 4 := ⟨⟨pr, ip, pe.le⟩, by
      rw [abs_of_pos Real.pi_pos]; exact Real.pi_lt_four.le⟩
    have nph := npi.div (NB.of_is' i2 (a := 2) (M := 2) (by norm_num) (by norm_num)) (β := 2) (E := 5 / 10 ^ 16) (M := 2) (by norm_num)
      (by norm_num) (by norm_num)
    obtain ⟨φ, iφ, dφ, -⟩ := nph.exists_is
    have ok1 : Ok 6378137 := ⟨by norm_num, by norm_num⟩
    have Ep : 0 < (E : ℝ) := by linarith
    have n1 := ((Near.of_is hE).mono (e' := 0 * (E : ℝ)) (by rw [zero_mul])).sqrt_s Ep (by norm_num)
    rw [← hec] at n1
    have q1 : √(E : ℝ) ≤ 1 := Real.sqrt_le_one.mpr E2
    have q0 : 0 ≤ √(E : ℝ) := Real.sqrt_nonneg _
    have n2 := (Near.of_is C.a).mul_s ok1 n1 (D := 1111 / 10 ^ 19 * 6378137) (m := 6378137) (by
      norm_num
      linarith) (by
      rw [abs_of_nonneg (by positivity)]
      push_cast
      linarith) (by norm_num)
    rw [← hwb] at n2
    have zM : |(z : ℝ)| ≤ M := by
      refine abs_le_of_sq_le_sq' (?_ : _ ≤ M ^ 2) M0 |>.2
      rw [M2', ]
      nlinarith [sq_nonneg p]
    have n3 := (Near.of_is iz).sub_s ok1 n2 (D := 2222 / 10 ^ 19 * 6378137) (m := |(|(z : ℝ)| - 6378137 * √(E : ℝ))|) (by
      norm_num) (by rw [hzc]; push_cast; exact le_rfl) (by
      have : |(|(z : ℝ)| - 6378137 * √(E : ℝ))| ≤ M + 6378137 := by
        rw [abs_le]
        constructor <;> linarith [abs_nonneg (z : ℝ)]
      norm_num at Mb ⊢
      linarith)
    obtain ⟨h, ih, dh⟩ := n3
    rw [hzc] at dh
    push_cast at dh
    have g0 := abs_nonneg (|(z : ℝ)| - 6378137 * √(E : ℝ))
    rw [if_neg (by simp)]
    refine ⟨φ, h, Real.pi / 2, |(z : ℝ)| - 6378137 * √(E : ℝ), iφ, ih, ?_, dφ.trans (by norm_num), ?_, ?_⟩
    · rw [abs_of_pos (by positivity)]
    · rw [Real.cos_pi_div_two, Real.sin_pi_div_two]
      norm_num
    · refine dh.trans ?_
      norm_num
      linarith

end
end Verif
