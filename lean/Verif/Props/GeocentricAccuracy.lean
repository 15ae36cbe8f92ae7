import Verif.Float.SB
import Verif.Props.GeodeticAccuracy
import Verif.Props.EllipsoidAccuracy
import Verif.Lemmas.C2iAcc

/-!
# Accuracy of `geocentric_to_geodetic` in binary64

Scaled coordinates as in `EllipsoidAccuracy`: a point at distance `p` from the axis and height `|z|` over the equator is
`p = a L u`, `|z| = a ε L s` with `u² + s² = 1` and `ε = 1 - f`.  `P = L u`.  Every intermediate result of the code is
bounded relative to a scale `L^i P^j`.
-/

namespace Verif
open Arith F64

/-! ## Scales `L^i P^j` -/

/-- The range of `L` and `P`. -/
structure Dom (L P : ℝ) : Prop where
  L1 : 0.99 ≤ L
  L2 : L ≤ 2 ^ 14
  P1 : 1 / 2 ^ 54 ≤ P
  P2 : P ≤ L

namespace Dom
variable {L P : ℝ} (D : Dom L P)
include D

theorem Lp : 0 < L := by have := D.L1; linarith
theorem Pp : 0 < P := lt_of_lt_of_le (by positivity) D.P1

theorem lower (i j : ℕ) (hj : j ≤ 4 ∧ i ≤ 16) : 1 / 2 ^ 217 ≤ L ^ i * P ^ j := by
  have h1 : (0.99 : ℝ) ^ 16 ≤ L ^ i :=
    (pow_le_pow_of_le_one (by norm_num) (by norm_num) hj.2).trans (pow_le_pow_left₀ (by norm_num) D.L1 i)
  have h2 : (1 / 2 ^ 54 : ℝ) ^ j ≤ P ^ j := pow_le_pow_left₀ (by positivity) D.P1 j
  have h3 : (1 / 2 ^ 54 : ℝ) ^ 4 ≤ (1 / 2 ^ 54) ^ j := pow_le_pow_of_le_one (by positivity) (by norm_num) hj.1
  have h4 : (1 / 2 ^ 217 : ℝ) ≤ 0.99 ^ 16 * (1 / 2 ^ 54) ^ 4 := by norm_num
  exact h4.trans (mul_le_mul h1 (h3.trans h2) (by positivity) (pow_nonneg D.Lp.le i))

theorem upper (i j n : ℕ) (h : i + j ≤ n) : L ^ i * P ^ j ≤ 2 ^ (14 * n) := by
  have h1 : P ^ j ≤ L ^ j := pow_le_pow_left₀ D.Pp.le D.P2 j
  have h2 : 0 ≤ L ^ i := pow_nonneg D.Lp.le i
  calc L ^ i * P ^ j ≤ L ^ i * L ^ j := by gcongr
    _ = L ^ (i + j) := (pow_add _ _ _).symm
    _ ≤ (2 ^ 14) ^ (i + j) := pow_le_pow_left₀ D.Lp.le D.L2 _
    _ ≤ (2 ^ 14) ^ n := pow_le_pow_right₀ (by norm_num) h
    _ = 2 ^ (14 * n) := (pow_mul _ _ _).symm

theorem ok (i j : ℕ) (h : j ≤ 4 ∧ i + j ≤ 16) : Ok (L ^ i * P ^ j) := by
  refine ⟨le_trans (by norm_num) (D.lower i j ⟨h.1, by omega⟩), (D.upper i j 16 h.2).trans (by norm_num)⟩

theorem okA (i j : ℕ) (h : j ≤ 4 ∧ i + j ≤ 12) : Ok (6378137 * (L ^ i * P ^ j)) := by
  have h1 := D.lower i j ⟨h.1, by omega⟩
  have h2 := D.upper i j 12 h.2
  have h3 : (1 / 2 ^ 230 : ℝ) ≤ 1 / 2 ^ 217 := by norm_num
  have h4 : (0 : ℝ) < 1 / 2 ^ 217 := by positivity
  refine ⟨by linarith, ?_⟩
  have : (6378137 : ℝ) * 2 ^ (14 * 12) ≤ 2 ^ 230 := by norm_num
  linarith

theorem le (i j i' j' : ℕ) (h : j' ≤ j ∧ i + j = i' + j') : L ^ i * P ^ j ≤ 1 * (L ^ i' * P ^ j') := by
  rw [one_mul]
  obtain ⟨k, rfl⟩ := Nat.exists_eq_add_of_le h.1
  have h1 : P ^ k ≤ L ^ k := pow_le_pow_left₀ D.Pp.le D.P2 k
  have h2 : 0 ≤ L ^ i := pow_nonneg D.Lp.le i
  have h3 : 0 ≤ P ^ j' := pow_nonneg D.Pp.le j'
  obtain rfl : i' = i + k := by omega
  calc L ^ i * P ^ (j' + k) = L ^ i * P ^ k * P ^ j' := by rw [pow_add]; ring
    _ ≤ L ^ i * L ^ k * P ^ j' := by gcongr
    _ = L ^ (i + k) * P ^ j' := by rw [pow_add]

theorem le1 (i j i' j' : ℕ) (h : j' ≤ j ∧ i + j + 1 = i' + j') : L ^ i * P ^ j ≤ 1.0102 * (L ^ i' * P ^ j') := by
  have h1 := D.le (i + 1) j i' j' ⟨h.1, by omega⟩
  have h2 : 0 ≤ L ^ i * P ^ j := mul_nonneg (pow_nonneg D.Lp.le i) (pow_nonneg D.Pp.le j)
  have h3 : 0.99 * (L ^ i * P ^ j) ≤ L ^ (i + 1) * P ^ j := by
    rw [pow_succ', mul_assoc]
    exact mul_le_mul_of_nonneg_right D.L1 h2
  rw [one_mul] at h1
  linarith

end Dom

namespace SB
variable {x y : F64} {a b e e' E A B M σ L P : ℝ} {i j i' j' : ℕ}

/-- A constant factor. -/
theorem cmul (hx : NB x a e A) (hy : SB y b e' B σ)
    (h : A * e' + B * e + e * e' + (A * B + (A * e' + B * e + e * e')) / 2 ^ 53 + 1 / 2 ^ 100 ≤ E ∧ A * B ≤ M ∧
      A * B + (A * e' + B * e + e * e') ≤ 2 ^ 200) :
    SB (x *. y) (a * b) E M σ :=
  ((of_nb hx).mul hy (by rw [one_mul]; exact hy.ok) h).scale (one_mul _)

theorem pmul (D : Dom L P) (hx : SB x a e A (L ^ i * P ^ j)) (hy : SB y b e' B (L ^ i' * P ^ j'))
    (hij : j + j' ≤ 4 ∧ i + i' + (j + j') ≤ 16)
    (h : A * e' + B * e + e * e' + (A * B + (A * e' + B * e + e * e')) / 2 ^ 53 + 1 / 2 ^ 100 ≤ E ∧ A * B ≤ M ∧
      A * B + (A * e' + B * e + e * e') ≤ 2 ^ 200) :
    SB (x *. y) (a * b) E M (L ^ (i + i') * P ^ (j + j')) := by
  have hs : L ^ i * P ^ j * (L ^ i' * P ^ j') = L ^ (i + i') * P ^ (j + j') := by rw [pow_add, pow_add]; ring
  exact (hx.mul hy (by rw [hs]; exact D.ok _ _ hij) h).scale hs

/-- A larger scale of the family. -/
theorem up (D : Dom L P) (hx : SB x a e A (L ^ i * P ^ j)) (i' j' : ℕ) (h : j' ≤ j ∧ i + j = i' + j')
    (h' : j' ≤ 4 ∧ i' + j' ≤ 16) : SB x a e A (L ^ i' * P ^ j') :=
  hx.rescale (D.ok _ _ h') (D.le _ _ _ _ h) ⟨by rw [mul_one], by rw [mul_one]⟩

theorem up1 (D : Dom L P) (hx : SB x a e A (L ^ i * P ^ j)) (i' j' : ℕ) (h : j' ≤ j ∧ i + j + 1 = i' + j')
    (h' : j' ≤ 4 ∧ i' + j' ≤ 16) (hE : e * 1.0102 ≤ E ∧ A * 1.0102 ≤ M) : SB x a E M (L ^ i' * P ^ j') :=
  hx.rescale (D.ok _ _ h') (D.le1 _ _ _ _ h) hE

end SB

/-! ## The constants of the WGS84 converter -/

section
variable {α : Type} [Arith α]

theorem ellipsoid_fields {el : Ellipsoid α} {w : EllipsoidConverter α} (h : EllipsoidConverter.new el = .ok w) :
    w.aeps2 = (el.a *. el.a) *. lit 1e-32 ∧ w.e2 = (lit 2 -. el.f) *. el.f ∧
    w.e4t = (((lit 2 -. el.f) *. el.f) *. ((lit 2 -. el.f) *. el.f)) *. lit 1.5 ∧
    w.ec2 = lit 1 -. (lit 2 -. el.f) *. el.f ∧ w.ec = Arith.sqrt (lit 1 -. (lit 2 -. el.f) *. el.f) ∧
    w.b = el.a *. Arith.sqrt (lit 1 -. (lit 2 -. el.f) *. el.f) := by
  unfold EllipsoidConverter.new at h
  simp only at h
  split at h
  · cases h
  · split at h
    · cases h
    · split at h
      · cases h
      · obtain rfl := Except.ok.inj h; exact ⟨rfl, rfl, rfl, rfl, rfl, rfl⟩
end

/-- The constants of the WGS84 converter in binary64; `ε = 1 - f`. -/
structure WgsConst (w : EllipsoidConverter F64) (ε : ℝ) : Prop where
  a : Is w.el.a 6378137
  aeps2 : ∃ r : ℚ, Is w.aeps2 r ∧ 4.068e-19 ≤ r ∧ r ≤ 4.069e-19
  e2 : NB w.e2 (1 - ε ^ 2) (4 / 10 ^ 18) 0.0067
  e4t : NB w.e4t ((1 - ε ^ 2) ^ 2 * 1.5) (1 / 10 ^ 19) 0.000068
  ec2 : NB w.ec2 (ε ^ 2) (12 / 10 ^ 17) 0.9934
  ec : NB w.ec ε (19 / 10 ^ 17) 0.9967
  b : NB w.b (6378137 * ε) (25 / 10 ^ 10) 6357100

theorem wgsConst {w : EllipsoidConverter F64} (hw : EllipsoidConverter.new WGS84 = .ok w) :
    WgsConst w (1 - 1 / 298.257223563) := by
  have hel := new_el hw
  obtain ⟨h1, h2, h3, h4, h5, h6⟩ := ellipsoid_fields hw
  have i1 : Is (lit 1 : F64) 1 := by have := Is.lit_int 1 (by norm_num); norm_num at this; exact this
  have i2 : Is (lit 2 : F64) 2 := by have := Is.lit_int 2 (by norm_num); norm_num at this; exact this
  have ia : Is (lit 6378137 : F64) 6378137 := by have := Is.lit_int 6378137 (by norm_num); norm_num at this; exact this
  have n1 : NB (lit 1 : F64) 1 0 1 := NB.of_is' i1 (by norm_num) (by norm_num)
  have n2 : NB (lit 2 : F64) 2 0 2 := NB.of_is' i2 (by norm_num) (by norm_num)
  have na : NB (lit 6378137 : F64) 6378137 0 6378137 := NB.of_is' ia (by norm_num) (by norm_num)
  have nf : NB (WGS84 : Ellipsoid F64).f (1 / 298.257223563) (1 / 10 ^ 18) 0.0034 :=
    n1.div (NB.lit' 298.257223563 (a := 298.257223563) (E := 4 / 10 ^ 14) (M := 299) (by norm_num) (by norm_num))
      (β := 298) (by norm_num) (by norm_num) (by norm_num)
  have k2 : NB ((lit 2 -. (WGS84 : Ellipsoid F64).f) *. (WGS84 : Ellipsoid F64).f) (1 - (1 - 1 / 298.257223563) ^ 2)
      (4 / 10 ^ 18) 0.0067 :=
    (((n2.sub nf (E := 23 / 10 ^ 17) (M := 2.1) (by norm_num)).remag (M := 2) (by norm_num [abs_le])).mul nf (E := 4 / 10 ^ 18) (M := 0.0068)
      (by norm_num)).congr (b := 1 - (1 - 1 / 298.257223563) ^ 2) (by norm_num) |>.remag (by norm_num [abs_le])
  have k4 := (((k2.mul k2 (E := 6 / 10 ^ 20) (M := 0.000045) (by norm_num)).mul
    (NB.of_is' (x := (lit 1.5 : F64)) (a := 1.5) (M := 1.5) (q := 1.5)
      (by have := Is.lit_exact (q := 1.5) (by have := RepQ.dyadic 3 1 (by norm_num) (by norm_num); norm_num at this ⊢; exact this)
          exact this (small_le_HUGE (by norm_num))) (by norm_num) (by norm_num))
    (E := 1 / 10 ^ 19) (M := 0.000068) (by norm_num)).congr
      (b := (1 - (1 - 1 / 298.257223563) ^ 2) ^ 2 * 1.5) (by ring))
  have k5 : NB (lit 1 -. (lit 2 -. (WGS84 : Ellipsoid F64).f) *. (WGS84 : Ellipsoid F64).f) ((1 - 1 / 298.257223563) ^ 2)
      (12 / 10 ^ 17) 0.9934 :=
    ((n1.sub k2 (E := 12 / 10 ^ 17) (M := 1.1) (by norm_num)).congr (b := (1 - 1 / 298.257223563) ^ 2) (by norm_num)).remag
      (by norm_num [abs_le])
  have k6 : NB (Arith.sqrt (lit 1 -. (lit 2 -. (WGS84 : Ellipsoid F64).f) *. (WGS84 : Ellipsoid F64).f))
      (1 - 1 / 298.257223563) (19 / 10 ^ 17) 0.9967 := by
    have := ((SB.of_nb k5).scale (mul_one 1).symm).sqrt (β := 0.99) (C := 1) (E := 19 / 10 ^ 17) (M := 1)
      (SB.of_nb k5).ok (by norm_num) (by norm_num) (by norm_num) (by norm_num) (by norm_num)
    rw [Real.sqrt_sq (by norm_num)] at this
    exact ⟨by have := this.near; rwa [mul_one] at this, by norm_num [abs_le]⟩
  refine ⟨?_, ?_, ?_, ?_, ?_, ?_, ?_⟩
  · rw [hel]; exact ia
  · rw [h1]
    have h := SB.cmul (na.mul na (E := 1 / 10 ^ 2) (M := 6378137 ^ 2) (by norm_num))
      (SB.lit (1e-32 : ℚ) (σ := 1e-32) (M := 1) (E := 2 / 10 ^ 16) ⟨by norm_num, by norm_num⟩ (by norm_num [abs_le]) (by norm_num))
      (E := 1) (M := 6378137 ^ 2) (by norm_num)
    obtain ⟨r, hr, hr'⟩ := h.near
    rw [abs_le] at hr'
    norm_num at hr'
    refine ⟨r, hr, ?_, ?_⟩ <;> rw [← Rat.cast_le (K := ℝ)] <;> push_cast <;> norm_num <;> linarith
  · rw [h2]; exact k2
  · rw [h3]; exact k4
  · rw [h4]; exact k5
  · rw [h5]; exact k6
  · rw [h6]; exact na.mul k6 (by norm_num)

/-! ## The exact values -/

open Halley in
/-- `s1` and `cc` of the code in scaled coordinates (`k = (ε L)^6 u`). -/
theorem halley_exact (e L u s : ℝ) (us : u ^ 2 + s ^ 2 = 1) :
    (e * (e * L * s) * ((e * L) ^ 2 * (e * L)) + (1 - e ^ 2) * (e * L * s * (e * L * s) * (e * L * s))) *
        (L * u * ((e * L) ^ 2 * (e * L)) - (1 - e ^ 2) * (e * (L * u) * (e * (L * u)) * (e * (L * u)))) -
      (1 - e ^ 2) ^ 2 * 1.5 * (e * L * s * (e * L * s)) * (e * (L * u) * (e * (L * u))) * (L * u) *
        (e * L - e) * (e * L * s) = (e * L) ^ 6 * u * Y (1 - e ^ 2) L u s ∧
    e * ((L * u * ((e * L) ^ 2 * (e * L)) - (1 - e ^ 2) * (e * (L * u) * (e * (L * u)) * (e * (L * u)))) *
        (L * u * ((e * L) ^ 2 * (e * L)) - (1 - e ^ 2) * (e * (L * u) * (e * (L * u)) * (e * (L * u)))) -
      (1 - e ^ 2) ^ 2 * 1.5 * (e * L * s * (e * L * s)) * (e * (L * u) * (e * (L * u))) * (L * u) *
        (e * L - e) * (e * (L * u))) = (e * L) ^ 6 * u * (e * X (1 - e ^ 2) L u s) := by
  have hs : s ^ 2 = 1 - u ^ 2 := by linarith
  constructor
  · unfold Y W y J
    rw [hs]
    linear_combination (e ^ 6 * L ^ 6 * u * s * (1 - e ^ 2) * ((L - (1 - e ^ 2) * u ^ 2))) * hs
      - (1.5 * (1 - e ^ 2) ^ 2 * e ^ 6 * L ^ 6 * u ^ 3 * (L - 1) * s) * hs
  · unfold X W J
    ring

open Halley in
/-- Bounds for the scaled values. -/
theorem halley_bounds (q L u s : ℝ) (q0 : 0 ≤ q) (q1 : q ≤ 0.0067) (hL : 0.99 ≤ L) (u0 : 0 ≤ u) (s0 : 0 ≤ s)
    (us : u ^ 2 + s ^ 2 = 1) :
    0.9799 * (u * L ^ 2) ≤ X q L u s ∧ X q L u s ≤ u * L ^ 2 ∧ 0.9799 * (s * L ^ 2) ≤ Y q L u s ∧ Y q L u s ≤ 1.00007 * (s * L ^ 2) := by
  have u2 : u ^ 2 ≤ 1 := by have := sq_nonneg s; linarith
  have s2 : s ^ 2 ≤ 1 := by have := sq_nonneg u; linarith
  have un := sq_nonneg u
  have sn := sq_nonneg s
  have j1 : J q L u ≤ L := by unfold J; nlinarith
  have j2 : 0.9932 * L ≤ J q L u := by unfold J; nlinarith
  have W1 : W q L u s ≤ L ^ 2 := by
    unfold W
    have h1 : J q L u ^ 2 = L ^ 2 - q * u ^ 2 * (2 * L - q * u ^ 2) := by unfold J; ring
    have h3 : q * s ^ 2 ≤ 0.0067 * 1 := mul_le_mul q1 s2 sn (by norm_num)
    have h4 : q * u ^ 2 ≤ 0.0067 * 1 := mul_le_mul q1 u2 un (by norm_num)
    have h2 : 0 ≤ q * u ^ 2 * (2 * L - q * u ^ 2 + 1.5 * (q * s ^ 2) * (L - 1)) := by
      refine mul_nonneg (mul_nonneg q0 un) ?_
      have h5 : 0 ≤ q * s ^ 2 := mul_nonneg q0 sn
      have h6 : q * s ^ 2 * (-0.01) ≤ q * s ^ 2 * (L - 1) := mul_le_mul_of_nonneg_left (by linarith) h5
      linarith
    linarith
  have W2 : 0.98644 * L ^ 2 - 0.00001684 * L ^ 2 ≤ W q L u s := by
    unfold W
    have h1 : (0.9932 * L) ^ 2 ≤ J q L u ^ 2 := pow_le_pow_left₀ (by linarith) j2 2
    have h3 : s ^ 2 * u ^ 2 ≤ 1 / 4 := by nlinarith [sq_nonneg (u ^ 2 - s ^ 2)]
    have h4 : q ^ 2 ≤ 0.0067 ^ 2 := pow_le_pow_left₀ q0 q1 2
    have h2 : 1.5 * q ^ 2 * s ^ 2 * u ^ 2 * (L - 1) ≤ 1.5 * 0.0067 ^ 2 * (1 / 4) * L ^ 2 := by
      calc 1.5 * q ^ 2 * s ^ 2 * u ^ 2 * (L - 1) ≤ 1.5 * q ^ 2 * s ^ 2 * u ^ 2 * L ^ 2 := by gcongr; nlinarith
        _ = (1.5 * q ^ 2) * (s ^ 2 * u ^ 2) * L ^ 2 := by ring
        _ ≤ (1.5 * 0.0067 ^ 2) * (1 / 4) * L ^ 2 := by
          apply mul_le_mul _ le_rfl (by positivity) (by norm_num)
          apply mul_le_mul (by linarith) h3 (by positivity) (by norm_num)
    rw [mul_pow] at h1
    have := sq_nonneg L
    linarith
  have jp : 0 ≤ J q L u := by linarith
  have y0 : -(0.00007 * L ^ 2) ≤ y q L u := by
    unfold y
    have k0 : q * J q L u ≤ 0.0067 * L := mul_le_mul q1 j1 jp (by norm_num)
    have k1 : q * J q L u * (-0.01) ≤ q * J q L u * (L - 1) := mul_le_mul_of_nonneg_left (by linarith) (mul_nonneg q0 jp)
    have k2 : L ≤ 1.0102 * L ^ 2 := by nlinarith
    have k3 : q * (L - 1) * J q L u = q * J q L u * (L - 1) := by ring
    rw [k3]
    linarith
  have y1 : y q L u ≤ 0.0067 * L ^ 2 := by
    unfold y
    have k1 : q * J q L u ≤ 0.0067 * L := mul_le_mul q1 j1 jp (by norm_num)
    calc q * (L - 1) * J q L u = (q * J q L u) * (L - 1) := by ring
      _ ≤ (q * J q L u) * L := mul_le_mul_of_nonneg_left (by linarith) (mul_nonneg q0 jp)
      _ ≤ 0.0067 * L * L := mul_le_mul_of_nonneg_right k1 (by linarith)
      _ = _ := by ring
  have L2 : 0 ≤ L ^ 2 := by positivity
  unfold X Y
  refine ⟨?_, ?_, ?_, ?_⟩
  · have := mul_le_mul_of_nonneg_left (show 0.9799 * L ^ 2 ≤ W q L u s by linarith) u0
    linarith
  · exact mul_le_mul_of_nonneg_left W1 u0
  · have h : 0.9799 * L ^ 2 ≤ W q L u s - y q L u := by
      rcases le_or_gt L 1 with h1 | h1
      · have : y q L u ≤ 0 := by
          unfold y
          have := mul_nonneg (mul_nonneg q0 (show 0 ≤ 1 - L by linarith)) jp
          linarith
        linarith
      · have k2 : L ≤ L ^ 2 := by nlinarith
        have k3 : y q L u ≤ 0.0067 * (L ^ 2 - L) := by
          unfold y
          calc q * (L - 1) * J q L u = q * J q L u * (L - 1) := by ring
            _ ≤ 0.0067 * L * (L - 1) :=
              mul_le_mul_of_nonneg_right (mul_le_mul q1 j1 jp (by norm_num)) (by linarith)
            _ = _ := by ring
        have k4 : W q L u s = L ^ 2 - q * u ^ 2 * (2 * L - q * u ^ 2) - 1.5 * q ^ 2 * s ^ 2 * u ^ 2 * (L - 1) := by
          unfold W J; ring
        have k5 : q * u ^ 2 * (2 * L - q * u ^ 2) ≤ 0.0067 * (2 * L) := by
          have h4 : q * u ^ 2 ≤ 0.0067 * 1 := mul_le_mul q1 u2 un (by norm_num)
          have h5 : 0 ≤ q * u ^ 2 := mul_nonneg q0 un
          rw [mul_one] at h4
          exact mul_le_mul h4 (by linarith) (by linarith) (by norm_num)
        have k6 : 1.5 * q ^ 2 * s ^ 2 * u ^ 2 * (L - 1) ≤ 0.0001 * (L - 1) := by
          have a1 : q ^ 2 ≤ 0.0067 ^ 2 := pow_le_pow_left₀ q0 q1 2
          have a2 : s ^ 2 * u ^ 2 ≤ 1 * 1 := mul_le_mul s2 u2 un (by norm_num)
          have a3 : q ^ 2 * (s ^ 2 * u ^ 2) ≤ 0.0067 ^ 2 * (1 * 1) := mul_le_mul a1 a2 (by positivity) (by norm_num)
          refine mul_le_mul_of_nonneg_right ?_ (by linarith)
          calc 1.5 * q ^ 2 * s ^ 2 * u ^ 2 = 1.5 * (q ^ 2 * (s ^ 2 * u ^ 2)) := by ring
            _ ≤ _ := by linarith
        rw [k4]
        linarith
    have := mul_le_mul_of_nonneg_left h s0
    linarith
  · have := mul_le_mul_of_nonneg_left (show W q L u s - y q L u ≤ 1.00007 * L ^ 2 by linarith) s0
    linarith

/-! ## Latitude -/

/-- Change of an angle with its tangent `s / c`. -/
theorem arctan_frac (s c s' c' d D : ℝ) (hc : 0 < c) (hc' : 0 < c') (hD : 0 < D) (h1 : D ≤ c * c' + s * s')
    (h2 : |s' * c - s * c'| ≤ d) : |Real.arctan (s' / c') - Real.arctan (s / c)| ≤ d / D := by
  have hp : 0 < c * c' := mul_pos hc hc'
  have hpos : 0 < c * c' + s * s' := lt_of_lt_of_le hD h1
  have k : s' / c' * (-(s / c)) < 1 := by
    have : s' / c' * (-(s / c)) = -(s * s') / (c * c') := by field_simp
    rw [this, div_lt_one hp]
    linarith
  rw [sub_eq_add_neg, ← Real.arctan_neg, Real.arctan_add k]
  have e : (s' / c' + -(s / c)) / (1 - s' / c' * -(s / c)) = (s' * c - s * c') / (c * c' + s * s') := by
    have : 1 - s' / c' * -(s / c) = (c * c' + s * s') / (c * c') := by field_simp; ring
    rw [this]
    have : s' / c' + -(s / c) = (s' * c - s * c') / (c * c') := by field_simp; ring
    rw [this]
    field_simp
  rw [e]
  refine (show |Real.arctan _| ≤ |_| by simpa using arctan_lip _ 0).trans ?_
  rw [abs_div, abs_of_pos hpos]
  exact div_le_div₀ ((abs_nonneg _).trans h2) h2 hD h1

theorem arctan_round (r : ℚ) : |Real.arctan ((RN r : ℚ) : ℝ) - Real.arctan (r : ℝ)| ≤ 12 / 10 ^ 17 := by
  have h := RN_err_real (x := r) (M := |(r : ℝ)|) le_rfl
  generalize ((RN r : ℚ) : ℝ) = t at h ⊢
  generalize (r : ℝ) = x at h ⊢
  have e1 : |x| ≤ (1 + x ^ 2) / 2 := by nlinarith [sq_nonneg (|x| - 1), sq_abs x]
  have x2 := sq_nonneg x
  have d1 : |t - x| ≤ (1 + x ^ 2) / 2 * (1 / 2 ^ 53 + 1 / 2 ^ 99) := by
    refine h.trans ?_
    have := mul_le_mul_of_nonneg_right e1 (show (0 : ℝ) ≤ 1 / 2 ^ 53 by positivity)
    norm_num at this ⊢
    linarith
  have d2 : (1 + x ^ 2) / 2 ≤ 1 + x * t := by
    have k : |x * (t - x)| ≤ (1 + x ^ 2) * (1 / 4) := by
      rw [abs_mul]
      have h5 : |x| * |t - x| ≤ |x| * (|x| / 2 ^ 53 + 1 / 2 ^ 100) := mul_le_mul_of_nonneg_left h (abs_nonneg _)
      have h6 : |x| * |x| = x ^ 2 := by rw [← pow_two, sq_abs]
      have h7 : |x| * (|x| / 2 ^ 53 + 1 / 2 ^ 100) = x ^ 2 / 2 ^ 53 + |x| / 2 ^ 100 := by rw [← h6]; ring
      rw [h7] at h5
      norm_num at h5 ⊢
      linarith
    have := (abs_le.mp k).1
    have e2 : x * t = x ^ 2 + x * (t - x) := by ring
    rw [e2]
    linarith
  have := arctan_frac x 1 t 1 ((1 + x ^ 2) / 2 * (1 / 2 ^ 53 + 1 / 2 ^ 99)) ((1 + x ^ 2) / 2) one_pos one_pos (by positivity)
    (by linarith) (by rw [mul_one, mul_one]; exact d1)
  rw [div_one, div_one, mul_div_cancel_left₀ _ (by positivity)] at this
  exact this.trans (by norm_num)

/-! ## The chain -/

/-- The intermediate results `s1` and `cc` of the code. -/
def s1cc {α : Type} [Arith α] (c : EllipsoidConverter α) (pn s0 : α) : α × α :=
  let zc := c.ec *. s0
  let c0 := c.ec *. pn
  let c02 := c0 *. c0
  let c03 := c02 *. c0
  let s02 := s0 *. s0
  let s03 := s02 *. s0
  let a02 := c02 +. s02
  let a0 := Arith.sqrt a02
  let a03 := a02 *. a0
  let d0 := zc *. a03 +. c.e2 *. s03
  let f0 := pn *. a03 -. c.e2 *. c03
  let b0 := (((c.e4t *. s02) *. c02) *. pn) *. (a0 -. c.ec)
  (d0 *. f0 -. b0 *. s0, c.ec *. (f0 *. f0 -. b0 *. c0))

theorem latHeight_s1cc {α : Type} [Arith α] [Libm α] (c : EllipsoidConverter α) (p2 absz : α) :
    c.latHeight p2 absz =
      (let p := Arith.sqrt p2
       let r := s1cc c (p /. c.el.a) (absz /. c.el.a)
       (Libm.atan (r.1 /. r.2),
        ((p *. r.2 +. absz *. r.1) -. c.el.a *. Arith.sqrt (c.ec2 *. (r.1 *. r.1) +. r.2 *. r.2)) /.
          Arith.sqrt (r.1 *. r.1 +. r.2 *. r.2))) := rfl

open Halley in
theorem s1cc_sb {w : EllipsoidConverter F64} {ε : ℝ} (C : WgsConst w ε) (ε1 : 0.996645 ≤ ε) (ε2 : ε ≤ 0.9967)
    (L P u s : ℝ) (hP : P = L * u) (u0 : 0 < u) (s0 : 0 ≤ s) (us : u ^ 2 + s ^ 2 = 1) (D : Dom L P) (pn sn : F64)
    (hp : SB pn P (48 / 10 ^ 17) 1 (L ^ 0 * P ^ 1)) (hs : SB sn (ε * L * s) (12 / 10 ^ 17) 0.9967 (L ^ 1 * P ^ 0)) :
    SB (s1cc w pn sn).1 ((ε * L) ^ 6 * u * Y (1 - ε ^ 2) L u s) (95 / 10 ^ 16) 0.9805 (L ^ 7 * P ^ 1) ∧
    SB (s1cc w pn sn).2 ((ε * L) ^ 6 * u * (ε * X (1 - ε ^ 2) L u s)) (98 / 10 ^ 16) 0.9775 (L ^ 6 * P ^ 2) ∧
    0.9799 * (u * L ^ 2) ≤ X (1 - ε ^ 2) L u s ∧ X (1 - ε ^ 2) L u s ≤ u * L ^ 2 ∧
    0.9799 * (s * L ^ 2) ≤ Y (1 - ε ^ 2) L u s ∧ Y (1 - ε ^ 2) L u s ≤ 1.00007 * (s * L ^ 2) := by
  have Lp := D.Lp
  have Pp := D.Pp
  have hL1 := D.L1
  have ep : 0 < ε := by linarith
  have ec := C.ec
  have zc := SB.cmul ec hs (E := 42 / 10 ^ 17) (M := 0.9935) (by norm_num)
  have c0 := SB.cmul ec hp (E := 79 / 10 ^ 17) (M := 0.9967) (by norm_num)
  have c02 : SB _ _ (17 / 10 ^ 16) 0.9935 (L ^ 0 * P ^ 2) := c0.pmul D c0 (by norm_num) (by norm_num)
  have c03 : SB _ _ (26 / 10 ^ 16) 0.9903 (L ^ 0 * P ^ 3) := c02.pmul D c0 (by norm_num) (by norm_num)
  have s02 : SB _ _ (36 / 10 ^ 17) 0.9935 (L ^ 2 * P ^ 0) := hs.pmul D hs (by norm_num) (by norm_num)
  have s03 : SB _ _ (60 / 10 ^ 17) 0.9903 (L ^ 3 * P ^ 0) := s02.pmul D hs (by norm_num) (by norm_num)
  have a02 := ((c02.up D 2 0 (by norm_num) (by norm_num)).add s02 (E := 23 / 10 ^ 16) (M := 2) (by norm_num)).congr
    (b := (ε * L) ^ 2) (by rw [hP]; linear_combination (ε * L) ^ 2 * us) |>.remag (M := 0.9935) (by
      rw [abs_of_nonneg (by positivity), mul_pow]
      have : ε ^ 2 ≤ 0.9967 ^ 2 := pow_le_pow_left₀ ep.le ε2 2
      have h2 : 0 ≤ L ^ 2 := by positivity
      norm_num at this ⊢
      nlinarith)
  have a0 := (a02.scale (τ := L ^ 1 * P ^ 0 * (L ^ 1 * P ^ 0)) (by ring)).sqrt (D.ok 1 0 (by norm_num)) (β := 0.9965) (C := 0.9968)
      (E := 13 / 10 ^ 16) (M := 0.9968) (by norm_num)
      (by
        have : (0.996645 : ℝ) ^ 2 ≤ ε ^ 2 := pow_le_pow_left₀ (by norm_num) ε1 2
        have h2 : 0 ≤ L ^ 2 := by positivity
        rw [mul_pow]
        norm_num at this ⊢
        nlinarith) (by norm_num) (by norm_num) (by norm_num)
  rw [Real.sqrt_sq (by positivity)] at a0
  have a03 : SB _ _ (37 / 10 ^ 16) 0.9904 (L ^ 3 * P ^ 0) := a02.pmul D a0 (by norm_num) (by norm_num)
  have d0a : SB _ _ (43 / 10 ^ 16) 0.984 (L ^ 4 * P ^ 0) := zc.pmul D a03 (by norm_num) (by norm_num)
  have d0b := (SB.cmul C.e2 s03 (E := 2 / 10 ^ 17) (M := 0.0067) (by norm_num)).up1 D (E := 21 / 10 ^ 18) (M := 0.0068) 4 0 (by norm_num) (by norm_num) (by norm_num)
  have d0 := d0a.add d0b (E := 45 / 10 ^ 16) (M := 0.9908) (by norm_num)
  have f0a : SB _ _ (44 / 10 ^ 16) 0.9904 (L ^ 3 * P ^ 1) := hp.pmul D a03 (by norm_num) (by norm_num)
  have f0b := (SB.cmul C.e2 c03 (E := 3 / 10 ^ 17) (M := 0.0067) (by norm_num)).up1 D (E := 31 / 10 ^ 18) (M := 0.0068) 3 1 (by norm_num) (by norm_num) (by norm_num)
  have f0 := (f0a.sub f0b (E := 46 / 10 ^ 16) (M := 1) (by norm_num)).remag (M := 0.9904) (by
    have h1 := f0a.mag
    have h2 : 0 ≤ (1 - ε ^ 2) * (ε * P * (ε * P) * (ε * P)) := mul_nonneg (by nlinarith) (by positivity)
    have h3 : (1 - ε ^ 2) * (ε * P * (ε * P) * (ε * P)) ≤ P * ((ε * L) ^ 2 * (ε * L)) := by
      have h4 : P * (ε * P) ^ 2 ≤ P * (ε * L) ^ 2 := by
        have := D.P2
        gcongr
      calc (1 - ε ^ 2) * (ε * P * (ε * P) * (ε * P)) ≤ 0.9 * (ε * P * (ε * P) * (ε * P)) := by
            apply mul_le_mul_of_nonneg_right (by nlinarith) (by positivity)
        _ = 0.9 * ε * (P * (ε * P) ^ 2) := by ring
        _ ≤ 0.9 * ε * (P * (ε * L) ^ 2) := by gcongr
        _ ≤ ε * L * (P * (ε * L) ^ 2) := by
            apply mul_le_mul_of_nonneg_right (by nlinarith) (by positivity)
        _ = _ := by ring
    rw [abs_of_nonneg (by positivity)] at h1
    rw [abs_of_nonneg (by linarith)]
    linarith)
  have b0a := SB.cmul C.e4t s02 (E := 3 / 10 ^ 19) (M := 0.000068) (by norm_num)
  have b0b : SB _ _ (8 / 10 ^ 19) 0.000068 (L ^ 2 * P ^ 2) := b0a.pmul D c02 (by norm_num) (by norm_num)
  have b0c : SB _ _ (9 / 10 ^ 19) 0.000068 (L ^ 2 * P ^ 3) := b0b.pmul D hp (by norm_num) (by norm_num)
  have b0d := (a0.sub ((SB.of_nb ec).rescale (k := 1.0102) (E := 20 / 10 ^ 17) (M := 1.007) (D.ok 1 0 (by norm_num)) (by
      rw [pow_one, pow_zero, mul_one]; linarith) (by norm_num)) (E := 18 / 10 ^ 16) (M := 2.1) (by norm_num)).remag (M := 0.9967) (by
      rw [abs_le, pow_one, pow_zero, mul_one]
      constructor <;> nlinarith)
  have b0 : SB _ _ (11 / 10 ^ 19) 0.000068 (L ^ 3 * P ^ 3) := b0c.pmul D b0d (by norm_num) (by norm_num)
  have q1a : SB _ _ (92 / 10 ^ 16) 0.9813 (L ^ 7 * P ^ 1) := d0.pmul D f0 (by norm_num) (by norm_num)
  have q1b : SB _ _ (12 / 10 ^ 19) 0.000068 (L ^ 4 * P ^ 3) := b0.pmul D hs (by norm_num) (by norm_num)
  have q1 := q1a.sub (q1b.up1 D (E := 13 / 10 ^ 19) (M := 0.000069) 7 1 (by norm_num) (by norm_num) (by norm_num)) (E := 95 / 10 ^ 16) (M := 1) (by norm_num)
  have q2a : SB _ _ (93 / 10 ^ 16) 0.981 (L ^ 6 * P ^ 2) := f0.pmul D f0 (by norm_num) (by norm_num)
  have q2b : SB _ _ (2 / 10 ^ 18) 0.000068 (L ^ 3 * P ^ 4) := b0.pmul D c0 (by norm_num) (by norm_num)
  have q2 := SB.cmul ec (q2a.sub (q2b.up1 D (E := 21 / 10 ^ 19) (M := 0.000069) 6 2 (by norm_num) (by norm_num) (by norm_num)) (E := 95 / 10 ^ 16) (M := 0.982) (by norm_num))
    (E := 98 / 10 ^ 16) (M := 1) (by norm_num)
  obtain ⟨x1, x2⟩ := halley_exact ε L u s us
  rw [← hP] at x1 x2
  have q0 : 0 ≤ 1 - ε ^ 2 := by nlinarith
  obtain ⟨b1, b2, b3, b4⟩ := halley_bounds (1 - ε ^ 2) L u s q0 (by nlinarith) hL1 u0.le s0 us
  have s1 : s ≤ 1 := by nlinarith
  refine ⟨(q1.congr x1).remag ?_, (q2.congr x2).remag ?_, b1, b2, b3, b4⟩
  · have h0 : 0 ≤ Y (1 - ε ^ 2) L u s := le_trans (by positivity) b3
    rw [abs_of_nonneg (by positivity)]
    calc (ε * L) ^ 6 * u * Y (1 - ε ^ 2) L u s ≤ (ε * L) ^ 6 * u * (1.00007 * (1 * L ^ 2)) := by
          gcongr
          exact b4.trans (by gcongr)
      _ = ε ^ 6 * 1.00007 * (L ^ 7 * (L * u)) := by ring
      _ ≤ 0.9967 ^ 6 * 1.00007 * (L ^ 7 * (L * u)) := by gcongr
      _ ≤ 0.9805 * (L ^ 7 * (L * u)) := by gcongr; norm_num
      _ = _ := by rw [hP]; ring
  · have h0 : 0 ≤ X (1 - ε ^ 2) L u s := le_trans (by positivity) b1
    rw [abs_of_nonneg (by positivity)]
    calc (ε * L) ^ 6 * u * (ε * X (1 - ε ^ 2) L u s) ≤ (ε * L) ^ 6 * u * (ε * (u * L ^ 2)) := by
          gcongr
      _ = ε ^ 7 * (L ^ 6 * (L * u) ^ 2) := by ring
      _ ≤ 0.9967 ^ 7 * (L ^ 6 * (L * u) ^ 2) := by gcongr
      _ ≤ 0.9775 * (L ^ 6 * (L * u) ^ 2) := by gcongr; norm_num
      _ = _ := by rw [hP]

open Halley in
/-- The latitude from `s1` and `cc`. -/
theorem lat_near [Libm F64] (hat : ∀ (x : F64) (a : ℚ), Is x a → Near (Libm.atan x) (Real.arctan a) (1 / 2 ^ 50))
    (L P s c : ℝ) (D : Dom L P) (x y : F64)
    (hx : SB x s (95 / 10 ^ 16) 0.9805 (L ^ 7 * P ^ 1)) (hy : SB y c (98 / 10 ^ 16) 0.9775 (L ^ 6 * P ^ 2))
    (hc : 0.95 * (L ^ 6 * P ^ 2) ≤ c) (h2 : 0.9158 * (L ^ 7 * P ^ 1) ^ 2 ≤ s ^ 2 + c ^ 2) :
    Near (Libm.atan (x /. y)) (Real.arctan (s / c)) (22 / 10 ^ 15) := by
  have t1 := (D.ok 7 1 (by norm_num)).pos
  have t2 := (D.ok 6 2 (by norm_num)).pos
  have t3 := D.le 6 2 7 1 (by norm_num)
  have t4 := D.lower 6 2 (by norm_num)
  have t5 := D.upper 7 1 8 (by norm_num)
  rw [one_mul] at t3
  have m1 := hx.mag
  have m2 := hy.mag
  obtain ⟨r, hr, er⟩ := hx.near
  obtain ⟨k, hk, ek⟩ := hy.near
  generalize L ^ 7 * P ^ 1 = σ at *
  generalize L ^ 6 * P ^ 2 = τ at *
  have c0 : 0 < c := by linarith
  have k1 : 0.9 * τ ≤ k := by have := (abs_le.mp ek).1; norm_num at this ⊢; linarith
  have k0 : (0 : ℝ) < k := by linarith
  have k0' : (k : ℚ) ≠ 0 := by
    have : (0 : ℚ) < k := by exact_mod_cast k0
    exact this.ne'
  have hq : |r / k| ≤ HUGE := by
    refine le_HUGE (k := 400) ?_ (by norm_num)
    have : |((r / k : ℚ) : ℝ)| ≤ 2 ^ 200 * 2 ^ 200 := by
      push_cast
      rw [abs_div, abs_of_pos k0, div_le_iff₀ k0]
      have h5 : |(r : ℝ)| ≤ σ := by
        have : (r : ℝ) = s + (r - s) := by ring
        rw [this]
        refine (abs_add_le _ _).trans ((add_le_add m1 er).trans ?_)
        norm_num
        linarith
      have h6 : (2 : ℝ) ^ (14 * 8) ≤ 2 ^ 200 * 2 ^ 200 * (0.9 * (1 / 2 ^ 217)) := by norm_num
      have h7 : (2 : ℝ) ^ 200 * 2 ^ 200 * (0.9 * (1 / 2 ^ 217)) ≤ 2 ^ 200 * 2 ^ 200 * k := by
        apply mul_le_mul_of_nonneg_left _ (by positivity)
        linarith
      exact h5.trans (t5.trans (h6.trans h7))
    have h8 : |r / k| ≤ 2 ^ 200 * 2 ^ 200 := by exact_mod_cast this
    rwa [← pow_add] at h8
  have hd := hr.div hk k0' hq
  have e1 := arctan_round (r / k)
  have e2 : |Real.arctan ((r : ℝ) / k) - Real.arctan (s / c)| ≤ (1892 / 10 ^ 17 * σ ^ 2) / (0.915 * σ ^ 2) := by
    have a1 : |(r - s) * c| ≤ 95 / 10 ^ 16 * σ * (0.9775 * σ) := by
      rw [abs_mul]
      exact mul_le_mul er (m2.trans (by gcongr)) (abs_nonneg _) (by positivity)
    have a2 : |s * ((k : ℝ) - c)| ≤ 0.9805 * σ * (98 / 10 ^ 16 * σ) := by
      rw [abs_mul]
      exact mul_le_mul m1 (ek.trans (by gcongr)) (abs_nonneg _) (by positivity)
    have a3 : |c * ((k : ℝ) - c)| ≤ 0.9775 * σ * (98 / 10 ^ 16 * σ) := by
      rw [abs_mul]
      exact mul_le_mul (m2.trans (by gcongr)) (ek.trans (by gcongr)) (abs_nonneg _) (by positivity)
    have a4 : |s * ((r : ℝ) - s)| ≤ 0.9805 * σ * (95 / 10 ^ 16 * σ) := by
      rw [abs_mul]
      exact mul_le_mul m1 er (abs_nonneg _) (by positivity)
    have s2 : 0 < σ ^ 2 := by positivity
    refine arctan_frac s c r k _ _ c0 k0 (by positivity) ?_ ?_
    · have e : c * k + s * r = (s ^ 2 + c ^ 2) + c * ((k : ℝ) - c) + s * ((r : ℝ) - s) := by ring
      rw [e]
      have b3 := (abs_le.mp a3).1
      have b4 := (abs_le.mp a4).1
      norm_num at b3 b4 h2 ⊢
      linarith
    · have e : (r : ℝ) * c - s * k = (r - s) * c - s * ((k : ℝ) - c) := by ring
      rw [e]
      refine (abs_sub _ _).trans ((add_le_add a1 a2).trans ?_)
      norm_num
      linarith
  have e3 : (1892 / 10 ^ 17 * σ ^ 2) / (0.915 * σ ^ 2) = 1892 / 10 ^ 17 / 0.915 := by field_simp
  rw [e3] at e2
  refine ((hat _ _ hd).shift (b := Real.arctan (s / c)) (e' := 2097 / 10 ^ 17) ?_).mono (by norm_num)
  have e : Real.arctan ((RN (r / k) : ℚ) : ℝ) - Real.arctan (s / c)
    = (Real.arctan ((RN (r / k) : ℚ) : ℝ) - Real.arctan ((r / k : ℚ) : ℝ)) +
      (Real.arctan ((r : ℝ) / k) - Real.arctan (s / c)) := by push_cast; ring
  rw [e]
  refine (abs_add_le _ _).trans ((add_le_add e1 e2).trans (by norm_num))

set_option maxHeartbeats 2000000 in
open Halley in
/-- Latitude and height from `p²` and `|z|`. -/
theorem latHeight_near [Libm F64] (hat : ∀ (x : F64) (a : ℚ), Is x a → Near (Libm.atan x) (Real.arctan a) (1 / 2 ^ 50))
    {w : EllipsoidConverter F64} {f : ℝ} (C : WgsConst w (1 - f)) (ε1 : 0.996645 ≤ 1 - f) (ε2 : 1 - f ≤ 0.9967)
    (L P u s : ℝ) (hP : P = L * u) (u0 : 0 < u) (s0 : 0 ≤ s) (us : u ^ 2 + s ^ 2 = 1) (D : Dom L P) (p2 absz : F64)
    (hp : SB p2 ((6378137 * P) ^ 2) (47 / 10 ^ 17) 1 (6378137 * (L ^ 0 * P ^ 1) * (6378137 * (L ^ 0 * P ^ 1))))
    (z : ℚ) (hz : Is absz z) (hz' : (z : ℝ) = 6378137 * (1 - f) * L * s) :
    Near (w.latHeight p2 absz).1 ((convR 6378137 f).latHeight ((6378137 * L * u) ^ 2) (6378137 * (1 - f) * L * s)).1
      (22 / 10 ^ 15) ∧
    Near (w.latHeight p2 absz).2 ((convR 6378137 f).latHeight ((6378137 * L * u) ^ 2) (6378137 * (1 - f) * L * s)).2
      (66 / 10 ^ 15 * (6378137 * L)) ∧
    |((convR 6378137 f).latHeight ((6378137 * L * u) ^ 2) (6378137 * (1 - f) * L * s)).2| ≤ 1.04 * (6378137 * L) ∧
    -0.031 * 6378137 ≤ ((convR 6378137 f).latHeight ((6378137 * L * u) ^ 2) (6378137 * (1 - f) * L * s)).2 := by
  have Lp := D.Lp
  have Pp := D.Pp
  have hL1 := D.L1
  rw [latHeight_scaled 6378137 f L u s (by norm_num) (by linarith) Lp u0 us, latHeight_s1cc]
  simp only
  set ε := 1 - f with hε
  clear_value ε
  have ep : 0 < ε := by linarith
  have s1 : s ≤ 1 := by nlinarith
  have u1 : u ≤ 1 := by nlinarith
  have oka : Ok 6378137 := ⟨by norm_num, by norm_num⟩
  have sa : SB w.el.a 6378137 0 1 6378137 := by have := SB.of_is C.a (σ := 6378137) (M := 1) oka (by norm_num); norm_num at this; exact this
  have o01 := D.okA 0 1 (by norm_num)
  have o10 := D.okA 1 0 (by norm_num)
  -- p
  have np := hp.sqrt o01 (β := 0.9999) (C := 1) (E := 35 / 10 ^ 17) (M := 1) (by norm_num) (by
    have : 0 ≤ P ^ 2 := by positivity
    rw [pow_zero, pow_one, one_mul]
    norm_num
    nlinarith) (by norm_num) (by norm_num) (by norm_num)
  rw [Real.sqrt_sq (by positivity)] at np
  have hpn := (np.div sa (by rw [mul_div_cancel_left₀ _ (by norm_num)]; exact D.ok 0 1 (by norm_num)) (β := 1) (E := 48 / 10 ^ 17) (M := 1)
    (by norm_num) (by norm_num) (by norm_num)).scale (mul_div_cancel_left₀ _ (by norm_num)) |>.congr
      (mul_div_cancel_left₀ _ (by norm_num))
  -- |z|
  have nz := (SB.of_is hz o10 (M := 0.9967) (by
    rw [hz', abs_of_nonneg (by positivity), pow_one, pow_zero, mul_one]
    calc 6378137 * ε * L * s ≤ 6378137 * 0.9967 * L * 1 := by gcongr
      _ = _ := by ring)).congr hz'
  have hsn := (nz.div sa (by rw [mul_div_cancel_left₀ _ (by norm_num)]; exact D.ok 1 0 (by norm_num)) (β := 1) (E := 12 / 10 ^ 17) (M := 0.9967)
    (by norm_num) (by norm_num) (by norm_num)).scale (mul_div_cancel_left₀ _ (by norm_num)) |>.congr (b := ε * L * s)
      (by field_simp)
  obtain ⟨h1, h2, b1, b2, b3, b4⟩ := s1cc_sb C ε1 ε2 L P u s hP u0 s0 us D _ _ hpn hsn
  set r := s1cc w (Arith.sqrt p2 /. w.el.a) (absz /. w.el.a)
  clear_value r
  have x0 : 0 < X (1 - ε ^ 2) L u s := lt_of_lt_of_le (by positivity) b1
  have y0 : 0 ≤ Y (1 - ε ^ 2) L u s := le_trans (by positivity) b3
  generalize X (1 - ε ^ 2) L u s = x at *
  generalize Y (1 - ε ^ 2) L u s = y at *
  set k := (ε * L) ^ 6 * u with hk
  have kp : 0 < k := by positivity
  have kσ : k * L ^ 2 = ε ^ 6 * (L ^ 7 * P ^ 1) := by rw [hk, hP]; ring
  have kτ : k * L ^ 2 * u = ε ^ 6 * (L ^ 6 * P ^ 2) := by rw [hk, hP]; ring
  clear_value k
  have σp := (D.ok 7 1 (by norm_num)).pos
  -- squares
  have x2 : x ^ 2 ≤ u ^ 2 * L ^ 4 := (pow_le_pow_left₀ x0.le b2 2).trans (le_of_eq (by ring))
  have y2 : y ^ 2 ≤ 1.000141 * (s ^ 2 * L ^ 4) := (pow_le_pow_left₀ y0 b4 2).trans (by
    have : 0 ≤ s ^ 2 * L ^ 4 := by positivity
    have e : (1.00007 * (s * L ^ 2)) ^ 2 = 1.00007 ^ 2 * (s ^ 2 * L ^ 4) := by ring
    rw [e]
    gcongr
    norm_num)
  have x3 : 0.96 * (u ^ 2 * L ^ 4) ≤ x ^ 2 := by
    refine le_trans ?_ (pow_le_pow_left₀ (by positivity) b1 2)
    have : 0 ≤ u ^ 2 * L ^ 4 := by positivity
    calc 0.96 * (u ^ 2 * L ^ 4) ≤ 0.9799 ^ 2 * (u ^ 2 * L ^ 4) := by gcongr; norm_num
      _ = _ := by ring
  have y3 : 0.96 * (s ^ 2 * L ^ 4) ≤ y ^ 2 := by
    refine le_trans ?_ (pow_le_pow_left₀ (by positivity) b3 2)
    have : 0 ≤ s ^ 2 * L ^ 4 := by positivity
    calc 0.96 * (s ^ 2 * L ^ 4) ≤ 0.9799 ^ 2 * (s ^ 2 * L ^ 4) := by gcongr; norm_num
      _ = _ := by ring
  have sum1 : u ^ 2 * L ^ 4 + s ^ 2 * L ^ 4 = L ^ 4 := by rw [← add_mul, us, one_mul]
  have xs0 : 0 ≤ u ^ 2 * L ^ 4 := by positivity
  have xy1 : x ^ 2 + y ^ 2 ≤ 1.000141 * L ^ 4 := by linarith
  have xy2 : 0.96 * L ^ 4 ≤ x ^ 2 + y ^ 2 := by linarith
  have e2' : ε ^ 2 ≤ 1 := pow_le_one₀ ep.le (by linarith)
  have yx1 : y ^ 2 + (ε * x) ^ 2 ≤ 1.000141 * L ^ 4 := by rw [mul_pow]; nlinarith [sq_nonneg x]
  have yx2 : ε ^ 2 * (0.96 * L ^ 4) ≤ y ^ 2 + (ε * x) ^ 2 := by
    rw [mul_pow]
    have := mul_le_mul_of_nonneg_left xy2 (sq_nonneg ε)
    nlinarith [sq_nonneg y]
  have k4 : k ^ 2 * L ^ 4 = ε ^ 12 * (L ^ 14 * P ^ 2) := by
    have : k ^ 2 * L ^ 4 = (k * L ^ 2) ^ 2 := by ring
    rw [this, kσ]; ring
  have Qp : 0 < L ^ 14 * P ^ 2 := by positivity
  have ε12 : ε ^ 12 ≤ 0.96112 := (pow_le_pow_left₀ ep.le ε2 12).trans (by norm_num)
  have ε14 : ε ^ 14 ≤ 0.95479 := (pow_le_pow_left₀ ep.le ε2 14).trans (by norm_num)
  have ε14' : 0.954 ≤ ε ^ 14 := le_trans (by norm_num) (pow_le_pow_left₀ (by norm_num) ε1 14)
  have w1 : ε ^ 2 * (k * y * (k * y)) + k * (ε * x) * (k * (ε * x)) = (ε * k) ^ 2 * (x ^ 2 + y ^ 2) := by ring
  have w2 : k * y * (k * y) + k * (ε * x) * (k * (ε * x)) = k ^ 2 * (y ^ 2 + (ε * x) ^ 2) := by ring
  have w1u : (ε * k) ^ 2 * (x ^ 2 + y ^ 2) ≤ 0.955 * (L ^ 14 * P ^ 2) := by
    calc (ε * k) ^ 2 * (x ^ 2 + y ^ 2) ≤ (ε * k) ^ 2 * (1.000141 * L ^ 4) := by gcongr
      _ = 1.000141 * (ε ^ 2 * (k ^ 2 * L ^ 4)) := by ring
      _ = 1.000141 * ε ^ 14 * (L ^ 14 * P ^ 2) := by rw [k4]; ring
      _ ≤ _ := mul_le_mul_of_nonneg_right (by linarith) Qp.le
  have w1l : 0.9158 * (L ^ 14 * P ^ 2) ≤ (ε * k) ^ 2 * (x ^ 2 + y ^ 2) := by
    calc 0.9158 * (L ^ 14 * P ^ 2) ≤ 0.96 * 0.954 * (L ^ 14 * P ^ 2) := by gcongr; norm_num
      _ ≤ 0.96 * ε ^ 14 * (L ^ 14 * P ^ 2) := by gcongr
      _ = 0.96 * (ε ^ 2 * (k ^ 2 * L ^ 4)) := by rw [k4]; ring
      _ = (ε * k) ^ 2 * (0.96 * L ^ 4) := by ring
      _ ≤ _ := by gcongr
  have w2u : k ^ 2 * (y ^ 2 + (ε * x) ^ 2) ≤ 0.9613 * (L ^ 14 * P ^ 2) := by
    calc k ^ 2 * (y ^ 2 + (ε * x) ^ 2) ≤ k ^ 2 * (1.000141 * L ^ 4) := by gcongr
      _ = 1.000141 * (k ^ 2 * L ^ 4) := by ring
      _ = 1.000141 * ε ^ 12 * (L ^ 14 * P ^ 2) := by rw [k4]; ring
      _ ≤ _ := mul_le_mul_of_nonneg_right (by linarith) Qp.le
  have w2l : 0.9158 * (L ^ 14 * P ^ 2) ≤ k ^ 2 * (y ^ 2 + (ε * x) ^ 2) := by
    calc 0.9158 * (L ^ 14 * P ^ 2) ≤ 0.96 * 0.954 * (L ^ 14 * P ^ 2) := by gcongr; norm_num
      _ ≤ 0.96 * ε ^ 14 * (L ^ 14 * P ^ 2) := by gcongr
      _ = 0.96 * (ε ^ 2 * (k ^ 2 * L ^ 4)) := by rw [k4]; ring
      _ = k ^ 2 * (ε ^ 2 * (0.96 * L ^ 4)) := by ring
      _ ≤ _ := by gcongr
  have Q2 : L ^ 14 * P ^ 2 = (L ^ 7 * P ^ 1) ^ 2 := by ring
  refine ⟨?_, ?_⟩
  · have := lat_near hat L P (k * y) (k * (ε * x)) D r.1 r.2 h1 h2 (by
      calc 0.95 * (L ^ 6 * P ^ 2) ≤ 0.9799 * 0.996645 ^ 7 * (L ^ 6 * P ^ 2) := by gcongr; norm_num
        _ ≤ 0.9799 * ε ^ 7 * (L ^ 6 * P ^ 2) := by gcongr
        _ = 0.9799 * ε * (k * L ^ 2 * u) := by rw [kτ]; ring
        _ = k * (ε * (0.9799 * (u * L ^ 2))) := by ring
        _ ≤ _ := by gcongr) (by
      rw [← Q2]
      refine w2l.trans (le_of_eq (by ring)))
    rwa [mul_div_mul_left _ _ kp.ne'] at this
  -- square roots
  have y11 : SB _ _ (19 / 10 ^ 15) 0.9614 (L ^ 14 * P ^ 2) := h1.pmul D h1 (by norm_num) (by norm_num)
  have x11 : SB _ _ (194 / 10 ^ 16) 0.9556 (L ^ 12 * P ^ 4) := h2.pmul D h2 (by norm_num) (by norm_num)
  have x12 := x11.up D 14 2 (by norm_num) (by norm_num)
  have v1 := ((SB.cmul C.ec2 y11 (E := 192 / 10 ^ 16) (M := 0.956) (by norm_num)).add x12 (E := 389 / 10 ^ 16) (M := 2) (by norm_num)).congr
    w1 |>.remag (M := 0.955) (by rw [abs_of_nonneg (by positivity)]; exact w1u)
  have v2 := (y11.add x12 (E := 389 / 10 ^ 16) (M := 2) (by norm_num)).congr
    w2 |>.remag (M := 0.9613) (by rw [abs_of_nonneg (by positivity)]; exact w2u)
  have v1' := (v1.scale (τ := L ^ 7 * P ^ 1 * (L ^ 7 * P ^ 1)) (by ring)).sqrt (D.ok 7 1 (by norm_num)) (β := 0.9568) (C := 0.9775)
    (E := 206 / 10 ^ 16) (M := 0.9775) (by norm_num) (by
      refine le_trans ?_ w1l
      rw [← pow_two, Q2]
      gcongr
      norm_num) (by norm_num) (by norm_num) (by norm_num)
  have v2' := (v2.scale (τ := L ^ 7 * P ^ 1 * (L ^ 7 * P ^ 1)) (by ring)).sqrt (D.ok 7 1 (by norm_num)) (β := 0.9568) (C := 0.9805)
    (E := 206 / 10 ^ 16) (M := 0.9805) (by norm_num) (by
      refine le_trans ?_ w2l
      rw [← pow_two, Q2]
      gcongr
      norm_num) (by norm_num) (by norm_num) (by norm_num)
  rw [Real.sqrt_mul (by positivity), Real.sqrt_sq (by positivity)] at v1'
  rw [Real.sqrt_mul (by positivity), Real.sqrt_sq (by positivity)] at v2'
  have o81 := D.okA 8 1 (by norm_num)
  have av := (sa.mul v1' (D.okA 7 1 (by norm_num)) (E := 208 / 10 ^ 16) (M := 0.9775) (by norm_num)).rescale o81 (k := 1.0102)
    (E := 211 / 10 ^ 16) (M := 0.9875) (by
      have := D.le1 7 1 8 1 (by norm_num)
      linarith) (by norm_num)
  -- numerator
  have sc1 : 6378137 * (L ^ 0 * P ^ 1) * (L ^ 6 * P ^ 2) = 6378137 * (L ^ 6 * P ^ 3) := by ring
  have sc2 : 6378137 * (L ^ 1 * P ^ 0) * (L ^ 7 * P ^ 1) = 6378137 * (L ^ 8 * P ^ 1) := by ring
  have m1 := ((np.mul h2 (by rw [sc1]; exact D.okA 6 3 (by norm_num)) (E := 103 / 10 ^ 16) (M := 0.9775) (by norm_num)).scale sc1).rescale
    o81 (k := 1) (E := 103 / 10 ^ 16) (M := 0.9775) (by
      have := D.le 6 3 8 1 (by norm_num)
      linarith) (by norm_num)
  have m2 := (nz.mul h1 (by rw [sc2]; exact o81) (E := 97 / 10 ^ 16) (M := 0.9773) (by norm_num)).scale sc2
  have q1 : 0 ≤ 6378137 * P * (k * (ε * x)) + 6378137 * ε * L * s * (k * y) := by positivity
  have q2 : 6378137 * P * (k * (ε * x)) + 6378137 * ε * L * s * (k * y) ≤ 0.98 * (6378137 * (L ^ 8 * P ^ 1)) := by
    calc _ ≤ 6378137 * P * (k * (ε * (1.00007 * (u * L ^ 2)))) + 6378137 * ε * L * s * (k * (1.00007 * (s * L ^ 2))) := by
          gcongr
          have : 0 ≤ u * L ^ 2 := by positivity
          linarith
      _ = 1.00007 * (6378137 * ε * L * (k * L ^ 2)) * (u ^ 2 + s ^ 2) := by rw [hP]; ring
      _ = 1.00007 * ε ^ 7 * (6378137 * (L ^ 8 * P ^ 1)) := by rw [us, kσ]; ring
      _ ≤ 1.00007 * 0.9967 ^ 7 * (6378137 * (L ^ 8 * P ^ 1)) := by gcongr
      _ ≤ _ := by gcongr; norm_num
  have m3 := (m1.add m2 (E := 203 / 10 ^ 16) (M := 2) (by norm_num)).remag (M := 0.98) (by rw [abs_of_nonneg q1]; exact q2)
  have q3 : 0 ≤ 6378137 * (ε * k * √(x ^ 2 + y ^ 2)) := by positivity
  have m4 := (m3.sub av (E := 417 / 10 ^ 16) (M := 2) (by norm_num)).remag (M := 0.9875) (by
    have := av.mag
    have o := o81.pos
    rw [abs_of_nonneg q3] at this
    rw [abs_le]
    constructor <;> linarith)
  have sc3 : 6378137 * (L ^ 8 * P ^ 1) / (L ^ 7 * P ^ 1) = 6378137 * (L ^ 1 * P ^ 0) := by field_simp
  have m5 := (m4.div v2' (by rw [sc3]; exact o10) (β := 0.9568) (E := 66 / 10 ^ 15) (M := 1.04) (by
    rw [abs_of_nonneg (by positivity)]
    have h5 : (0.9568 * (L ^ 7 * P ^ 1)) ^ 2 ≤ (k * √(y ^ 2 + (ε * x) ^ 2)) ^ 2 := by
      rw [mul_pow k, Real.sq_sqrt (by positivity)]
      refine le_trans ?_ w2l
      rw [Q2, mul_pow]
      gcongr
      norm_num
    exact abs_le_of_sq_le_sq' h5 (by positivity) |>.2) (by norm_num) (by norm_num)).scale sc3
  have m6 := m5.near
  have m7 := m5.mag
  rw [pow_one, pow_zero, mul_one] at m6 m7
  have fin : (6378137 * P * (k * (ε * x)) + 6378137 * ε * L * s * (k * y) - 6378137 * (ε * k * √(x ^ 2 + y ^ 2))) /
      (k * √(y ^ 2 + (ε * x) ^ 2)) =
      6378137 * (L * u * (ε * x) + ε * L * s * y - ε * √(x ^ 2 + y ^ 2)) / √(y ^ 2 + (ε * x) ^ 2) := by
    rw [← mul_div_mul_left (6378137 * (L * u * (ε * x) + ε * L * s * y - ε * √(x ^ 2 + y ^ 2))) _ kp.ne', hP]
    congr 1
    ring
  rw [fin] at m6 m7
  refine ⟨m6, m7, ?_⟩
  -- not far below the ellipsoid
  have d1 : 0.9797 * ε * L ^ 2 ≤ √(y ^ 2 + (ε * x) ^ 2) := by
    refine Real.le_sqrt_of_sq_le (le_trans ?_ yx2)
    have : 0 ≤ ε ^ 2 * L ^ 4 := by positivity
    calc (0.9797 * ε * L ^ 2) ^ 2 = 0.9797 ^ 2 * (ε ^ 2 * L ^ 4) := by ring
      _ ≤ 0.96 * (ε ^ 2 * L ^ 4) := by gcongr; norm_num
      _ = _ := by ring
  have d2 : √(x ^ 2 + y ^ 2) ≤ 1.0000706 * L ^ 2 := by
    refine Real.sqrt_le_iff.mpr ⟨by positivity, xy1.trans ?_⟩
    have : (1.0000706 * L ^ 2) ^ 2 = 1.0000706 ^ 2 * L ^ 4 := by ring
    rw [this]
    gcongr
    norm_num
  have d3 : 0.9799 * L ^ 2 ≤ u * x + s * y := by
    calc 0.9799 * L ^ 2 = 0.9799 * L ^ 2 * (u ^ 2 + s ^ 2) := by rw [us, mul_one]
      _ = u * (0.9799 * (u * L ^ 2)) + s * (0.9799 * (s * L ^ 2)) := by ring
      _ ≤ _ := by gcongr
  have d4 : 0.99 * (0.9799 * L ^ 2) ≤ L * (u * x + s * y) := mul_le_mul hL1 d3 (by positivity) Lp.le
  have Dp : 0 < √(y ^ 2 + (ε * x) ^ 2) := lt_of_lt_of_le (by positivity) d1
  rw [le_div_iff₀ Dp]
  have e1 : 6378137 * (L * u * (ε * x) + ε * L * s * y - ε * √(x ^ 2 + y ^ 2)) =
      6378137 * (ε * (L * (u * x + s * y) - √(x ^ 2 + y ^ 2))) := by ring
  rw [e1]
  have d5 : ε * (-0.03 * L ^ 2) ≤ ε * (L * (u * x + s * y) - √(x ^ 2 + y ^ 2)) := by
    have := sq_nonneg L
    exact mul_le_mul_of_nonneg_left (by linarith) ep.le
  have : 0 ≤ ε * L ^ 2 := by positivity
  linarith

end Verif
