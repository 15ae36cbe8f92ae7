import Verif.Lemmas.RotAcc
import Verif.Props.FramesAccuracy
import Verif.Props.EarthAngle
import Verif.Props.NonFinite

/-!
# C115: the frame matrices are rotations up to rounding, for every date
-/

namespace Verif
open Arith F64 Matrix Spec

/-- The entries of `m` are finite. The matrix `Q` of their values changes no length by more than the fraction `e`.
Its rows are orthonormal to `3 e` and its determinant is one to `4 e`. -/
def RotationWithin (m : Mat3 F64) (e : ℝ) : Prop :=
  ∃ Q : Matrix (Fin 3) (Fin 3) ℝ, (∀ i j, ∃ q : ℚ, Is (m.get i j) q ∧ (q : ℝ) = Q i j) ∧
    (∀ v : Fin 3 → ℝ, |len (Q *ᵥ v) - len v| ≤ e * len v) ∧
    (∀ i j, |Q i 0 * Q j 0 + Q i 1 * Q j 1 + Q i 2 * Q j 2 - if i = j then 1 else 0| ≤ 3 * e) ∧
    |Q.det - 1| ≤ 4 * e

theorem det_one_add {F : Matrix (Fin 3) (Fin 3) ℝ} {e : ℝ} (h : ∀ i j, |F i j| ≤ e) (he : e ≤ 1 / 100) : |(1 + F).det - 1| ≤ 4 * e := by
  have e0 : 0 ≤ e := (abs_nonneg _).trans (h 0 0)
  have m2 : ∀ i j k l, |F i j * F k l| ≤ e * e := fun i j k l => by
    rw [abs_mul]; exact mul_le_mul (h i j) (h k l) (abs_nonneg _) e0
  have m3 : ∀ i j k l n p, |F i j * F k l * F n p| ≤ e * e * e := fun i j k l n p => by
    rw [abs_mul]; exact mul_le_mul (m2 i j k l) (h n p) (abs_nonneg _) (mul_nonneg e0 e0)
  have key : (1 + F).det - 1 = F 0 0 + F 1 1 + F 2 2 + F 0 0 * F 1 1 + F 0 0 * F 2 2 + F 1 1 * F 2 2 - F 0 1 * F 1 0 - F 0 2 * F 2 0
      - F 1 2 * F 2 1 + F 0 0 * F 1 1 * F 2 2 - F 0 0 * F 1 2 * F 2 1 - F 0 1 * F 1 0 * F 2 2 + F 0 1 * F 1 2 * F 2 0
      + F 0 2 * F 1 0 * F 2 1 - F 0 2 * F 1 1 * F 2 0 := by
    rw [Matrix.det_fin_three]
    simp
    ring
  rw [key]
  have q2 : e * e ≤ 1 / 100 * e := mul_le_mul_of_nonneg_right he e0
  have q3 : e * e * e ≤ 1 / 100 * e := by nlinarith [mul_nonneg e0 e0]
  have a := fun i => abs_le.mp (h i i)
  have b := fun i j k l => abs_le.mp (m2 i j k l)
  have c := fun i j k l n p => abs_le.mp (m3 i j k l n p)
  rw [abs_le]
  constructor <;>
    linarith [(a 0).1, (a 0).2, (a 1).1, (a 1).2, (a 2).1, (a 2).2, (b 0 0 1 1).1, (b 0 0 1 1).2, (b 0 0 2 2).1, (b 0 0 2 2).2, (b 1 1 2 2).1,
      (b 1 1 2 2).2, (b 0 1 1 0).1, (b 0 1 1 0).2, (b 0 2 2 0).1, (b 0 2 2 0).2, (b 1 2 2 1).1, (b 1 2 2 1).2, (c 0 0 1 1 2 2).1,
      (c 0 0 1 1 2 2).2, (c 0 0 1 2 2 1).1, (c 0 0 1 2 2 1).2, (c 0 1 1 0 2 2).1, (c 0 1 1 0 2 2).2, (c 0 1 1 2 2 0).1, (c 0 1 1 2 2 0).2,
      (c 0 2 1 0 2 1).1, (c 0 2 1 0 2 1).2, (c 0 2 1 1 2 0).1, (c 0 2 1 1 2 0).2]

theorem NearRot.within {m : Mat3 F64} {e : ℝ} (h : NearRot m e) (he : e ≤ 1 / 100) : RotationWithin m e := by
  obtain ⟨R, hR, Q, h1, h2⟩ := h
  have e0 := h2.nonneg
  have bR := MB.of_rotation hR
  obtain ⟨o, dt⟩ := (isRotation_iff _).mp hR
  have o' : R.toMatrixᵀ * R.toMatrix = 1 := mul_eq_one_comm.mp o
  have hQ : Q = R.toMatrix + (Q - R.toMatrix) := by abel
  refine ⟨Q, h1, fun v => ?_, fun i j => ?_, ?_⟩
  · have a := h2.vec v
    have l : len (R.toMatrix *ᵥ v) = len v := by
      apply le_antisymm
      · simpa using bR.vec v
      · have := (bR.transpose).vec (R.toMatrix *ᵥ v)
        rw [Matrix.mulVec_mulVec, o', Matrix.one_mulVec, one_mul] at this
        exact this
    rw [Matrix.sub_mulVec] at a
    have b1 := len_add (R.toMatrix *ᵥ v) (Q *ᵥ v - R.toMatrix *ᵥ v)
    have b2 := len_sub (Q *ᵥ v) (Q *ᵥ v - R.toMatrix *ᵥ v)
    rw [add_sub_cancel] at b1
    rw [sub_sub_cancel] at b2
    rw [abs_le]
    constructor <;> linarith
  · have p : Q * Qᵀ - 1 = R.toMatrix * (Q - R.toMatrix)ᵀ + (Q - R.toMatrix) * R.toMatrixᵀ + (Q - R.toMatrix) * (Q - R.toMatrix)ᵀ := by
      rw [Matrix.transpose_sub, mul_sub, sub_mul, mul_sub, sub_mul, sub_mul, o]
      abel
    have b := ((bR.mul h2.transpose).add (h2.mul bR.transpose)).add (h2.mul h2.transpose)
    rw [← p] at b
    have q := b.entry i j
    rw [Matrix.sub_apply, Matrix.mul_apply, Fin.sum_univ_three] at q
    simp only [Matrix.transpose_apply, Matrix.one_apply] at q
    refine q.trans ?_
    nlinarith
  · have f := (bR.transpose).mul h2
    have p : Q = R.toMatrix * (1 + R.toMatrixᵀ * (Q - R.toMatrix)) := by
      rw [mul_add, ← mul_assoc, o, one_mul, mul_one]
      abel
    rw [p, Matrix.det_mul, dt, one_mul]
    exact det_one_add (fun i j => (f.entry i j).trans (by linarith)) he

variable [Libm F64] (hL : LibmAcc)
include hL

/-- **C115.** For every date in two parts of up to `2 ^ 27` days each, some 367 thousand years, the bias matrix, the
precession matrix, their product and the bias-precession-nutation matrix computed in `f64` are rotations to `3e-14`,
`3e-14`, `6e-14` and `9e-14`. The series need not mean anything at such dates, but what comes out still is a rotation. -/
theorem C115_any_date (x y : F64) (a b : ℚ) (hx : Is x a) (hy : Is y b) (ha : |a| ≤ 2 ^ 27) (hb : |b| ≤ 2 ^ 27) :
    RotationWithin (biasAndPrecession (x, y)).1 (3 / 10 ^ 14) ∧ RotationWithin (biasAndPrecession (x, y)).2.1 (3 / 10 ^ 14) ∧
      RotationWithin (biasAndPrecession (x, y)).2.2 (6 / 10 ^ 14) ∧ RotationWithin (precessionNutation (x, y)) (9 / 10 ^ 14) := by
  have h := centuries_bd ⟨a, hx, ha⟩ ⟨b, hy, hb⟩
  obtain ⟨r1, r2, r3⟩ := bp_nearRot hL h
  exact ⟨(r1.mono (by norm_num)).within (by norm_num), (r2.mono (by norm_num)).within (by norm_num),
    (r3.mono (by norm_num)).within (by norm_num), ((bpn_nearRot hL h).mono (by norm_num)).within (by norm_num)⟩

/-- **C115.** The polar motion and nutation matrices are rotations to `3e-14` for all angles of up to `2 ^ 29` radians. -/
theorem C115_any_angles (x y z : F64) (a b c : ℚ) (hx : Is x a) (hy : Is y b) (hz : Is z c) (ha : |a| ≤ 2 ^ 29) (hb : |b| ≤ 2 ^ 29)
    (hc : |c| ≤ 2 ^ 29) :
    RotationWithin (polarMotionMatrix x y z) (3 / 10 ^ 14) ∧ RotationWithin (nutationMatrix x y z) (3 / 10 ^ 14) := by
  have up : ∀ {x : F64} {a : ℚ}, Is x a → |a| ≤ 2 ^ 29 → FBd x (2 ^ 30) := fun h h' => ⟨_, h, h'.trans (by norm_num)⟩
  exact ⟨((polar_nearRot hL (up hx ha) (up hy hb) (up hz hc)).mono (by norm_num)).within (by norm_num),
    ((nutationMatrix_nearRot hL ⟨_, hx, ha⟩ (up hy hb) ⟨_, hz, hc⟩).mono (by norm_num)).within (by norm_num)⟩

/-- **C115.** The matrix made from the pole and the locator is a rotation to `3e-14`, for every pole with
`X^2 + Y^2 <= 1 - 2^-50` and every locator of up to `2 ^ 29` radians. -/
theorem C115_any_pole (x y s : F64) (X Y S : ℚ) (hx : Is x X) (hy : Is y Y) (hs : Is s S) (hw : X ^ 2 + Y ^ 2 ≤ 1 - 1 / 2 ^ 50)
    (hS : |S| ≤ 2 ^ 29) : RotationWithin (celestialToIntermediateFromXys x y s) (3 / 10 ^ 14) :=
  ((xys_nearRot hL hx hy ⟨S, hs, hS⟩ hw).mono (by norm_num)).within (by norm_num)

omit [Libm F64] hL in
theorem sqrt_neg_nan {x : F64} {a : ℚ} (h : Is x a) (ha : a < 0) : Arith.sqrt x = .nan := by
  obtain ⟨hf, hv⟩ := h
  match x, hf with
  | .fin s n hn, _ =>
    have n0 : n ≠ 0 := by
      rintro rfl
      rw [← hv] at ha
      simp [F64.v, sval] at ha
    cases s with
    | true =>
      show F64.sqrt _ = _
      simp [F64.sqrt, n0]
    | false =>
      exfalso
      rw [← hv] at ha
      have : (0 : ℚ) ≤ F64.v (.fin false n hn) := by
        simp only [F64.v]
        exact div_nonneg (Nat.cast_nonneg _) U_pos.le
      linarith

omit hL in
/-- **C115.** For a pole with `X^2 + Y^2 >= 1 + 2^-50`, outside the unit disc, every entry is NaN. -/
theorem C115_outside_disc (hN : NanLibm) (x y s : F64) (X Y : ℚ) (hx : Is x X) (hy : Is y Y) (hw : 1 + 1 / 2 ^ 50 ≤ X ^ 2 + Y ^ 2)
    (hX : |X| ≤ 2 ^ 100) (hY : |Y| ≤ 2 ^ 100) (i j : Fin 3) : (celestialToIntermediateFromXys x y s).get i j = .nan := by
  have sq : ∀ Z : ℚ, |Z| ≤ 2 ^ 100 → |Z * Z| ≤ 2 ^ 200 := fun Z hZ => by
    rw [abs_mul, show (2 : ℚ) ^ 200 = 2 ^ 100 * 2 ^ 100 by rw [← pow_add]]
    exact mul_le_mul hZ hZ (abs_nonneg _) (by positivity)
  have ix := hx.mul hx (le_HUGE (sq X hX) (by norm_num))
  have iy := hy.mul hy (le_HUGE (sq Y hY) (by norm_num))
  have ex := RN_err' (X * X)
  have ey := RN_err' (Y * Y)
  have p0 : 0 ≤ RN (X * X) := RN_nonneg (mul_self_nonneg X)
  have p1 : 0 ≤ RN (Y * Y) := RN_nonneg (mul_self_nonneg Y)
  have u0 : RN (X * X) ≤ 2 ^ 200 := RN_le_of_le (RepQ.two_pow 200) ((le_abs_self _).trans (sq X hX))
  have u1 : RN (Y * Y) ≤ 2 ^ 200 := RN_le_of_le (RepQ.two_pow 200) ((le_abs_self _).trans (sq Y hY))
  have sum : 1 + 1 / 2 ^ 51 ≤ RN (X * X) + RN (Y * Y) := by
    rw [abs_of_nonneg (mul_self_nonneg X)] at ex
    rw [abs_of_nonneg (mul_self_nonneg Y)] at ey
    rw [abs_le] at ex ey
    have : X * X + Y * Y = X ^ 2 + Y ^ 2 := by ring
    norm_num at ex ey hw ⊢
    linarith
  have rep : RepQ (1 + 1 / 2 ^ 51) := RepQ.of_zpow (2 ^ 51 + 1) (-51) (by norm_num) (by norm_num) (by norm_num)
  have up : RN (X * X) + RN (Y * Y) ≤ 2 ^ 201 := by
    have : (2 : ℚ) ^ 201 = 2 * 2 ^ 200 := by norm_num
    linarith
  have ir := ix.add iy (le_HUGE (k := 201) (by rw [abs_of_nonneg (add_nonneg p0 p1)]; exact up) (by norm_num))
  have hr1 : 1 + 1 / 2 ^ 51 ≤ RN (RN (X * X) + RN (Y * Y)) := le_RN_of_le rep sum
  have hr2 : RN (RN (X * X) + RN (Y * Y)) ≤ 2 ^ 201 := RN_le_of_le (RepQ.two_pow 201) up
  have rr : RepQ (RN (RN (X * X) + RN (Y * Y))) := ir.rep
  unfold celestialToIntermediateFromXys
  simp only
  generalize RN (RN (X * X) + RN (Y * Y)) = r at *
  generalize x *. x +. y *. y = r2 at *
  have r1 : 1 < r := lt_of_lt_of_le (by norm_num) hr1
  have i1 := one_is.sub ir (le_HUGE (k := 201) (by rw [abs_le]; constructor <;> linarith [show (0 : ℚ) ≤ 2 ^ 201 by positivity]) (by norm_num))
  have hd1 : RN (1 - r) ≤ -(1 / 2 ^ 51) := RN_le_of_le (RepQ.of_zpow (-1) (-51) (by norm_num) (by norm_num) (by norm_num)) (by linarith)
  have hd2 : -r ≤ RN (1 - r) := le_RN_of_le rr.neg (by linarith)
  have d0 : RN (1 - r) < 0 := lt_of_le_of_lt hd1 (by norm_num)
  have q1 : r / RN (1 - r) ≤ -1 := by
    rw [div_le_iff_of_neg d0]; linarith
  have q2 : |r / RN (1 - r)| ≤ 2 ^ 252 := by
    rw [abs_div, abs_of_pos (by linarith), abs_of_neg d0, div_le_iff₀ (by linarith)]
    calc r ≤ 2 ^ 201 := hr2
      _ = 2 ^ 252 * (1 / 2 ^ 51) := by rw [show (252 : ℕ) = 201 + 51 by norm_num, pow_add, mul_assoc, mul_one_div_cancel (by positivity), mul_one]
      _ ≤ _ := mul_le_mul_of_nonneg_left (by linarith) (by positivity)
  have iq := ir.div i1 d0.ne (le_HUGE q2 (by norm_num))
  have hq : RN (r / RN (1 - r)) ≤ -1 := RN_le_of_le (RepQ.of_zpow (-1) 0 (by norm_num) (by norm_num) (by norm_num)) q1
  rw [sqrt_neg_nan iq (by linarith), hN.atan]
  exact rotate_nan hN _ 1 rfl _ i j

omit [Libm F64] hL in
/-- A pole outside the disc. -/
example : Is (lit 1 : F64) 1 ∧ (1 + 1 / 2 ^ 50 : ℚ) ≤ 1 ^ 2 + 1 ^ 2 ∧ |(1 : ℚ)| ≤ 2 ^ 100 :=
  ⟨one_is, by norm_num, by norm_num⟩

theorem c2i_nearRot {x y : F64} {a b : ℚ} (hx : Is x a) (hy : Is y b) (ha : |a| ≤ 4000000) (h : |a + b - 2451545| ≤ 36525) :
    NearRot (celestialToIntermediate (x, y)) (22 / 10 ^ 15) := by
  have h' : |(a : ℝ) + b - 2451545| ≤ 36525 := by exact_mod_cast h
  have hT := (centuries_near hx hy (by exact_mod_cast ha) h').mono (E := 3 / 10 ^ 14) (M := 1) (by norm_num)
  have hT' : NB (centuries (x, y)) (centuries ((a : ℝ), (b : ℝ))) (3 / 10 ^ 14) 1 := hT.congr (centuries_real ((a : ℝ), (b : ℝ))).symm
  have hm := bpn_acc hL hT'
  obtain ⟨px, py⟩ := pole_small h'
  have nx := hm.entry 2 0
  have ny := hm.entry 2 1
  have hs := cio_acc hL hT ⟨nx, px⟩ ⟨ny, py⟩ (by norm_num)
  obtain ⟨S, is, -, ms⟩ := hs.exists_is
  obtain ⟨X, ix, dx⟩ := nx
  obtain ⟨Y, iy, dy⟩ := ny
  have bx : |X| ≤ 1 / 2 := by
    have : |(X : ℝ)| ≤ ((1 / 2 : ℚ) : ℝ) := by
      rw [show (X : ℝ) = (X - (precessionNutation ((a : ℝ), (b : ℝ))).get 2 0) + (precessionNutation ((a : ℝ), (b : ℝ))).get 2 0 by ring]
      refine (abs_add_le _ _).trans ?_
      norm_num at dx px ⊢; linarith
    exact_mod_cast this
  have bY : |Y| ≤ 1 / 2 := by
    have : |(Y : ℝ)| ≤ ((1 / 2 : ℚ) : ℝ) := by
      rw [show (Y : ℝ) = (Y - (precessionNutation ((a : ℝ), (b : ℝ))).get 2 1) + (precessionNutation ((a : ℝ), (b : ℝ))).get 2 1 by ring]
      refine (abs_add_le _ _).trans ?_
      norm_num at dy py ⊢; linarith
    exact_mod_cast this
  have bS : |S| ≤ 2 ^ 29 := by
    have : |(S : ℝ)| ≤ 2 ^ 29 := ms.trans (by norm_num)
    exact_mod_cast this
  refine xys_nearRot hL ix iy ⟨S, is, bS⟩ ?_
  have q : ∀ z : ℚ, |z| ≤ 1 / 2 → z ^ 2 ≤ 1 / 4 := fun z hz => by
    rw [← sq_abs]; nlinarith [abs_nonneg z]
  norm_num
  linarith [q X bx, q Y bY]

theorem c2t_nearRot {x y u w xp yp : F64} {a b c d p q : ℚ} (hx : Is x a) (hy : Is y b) (hu : Is u c) (hw : Is w d)
    (hxp : Is xp p) (hyp : Is yp q) (ha : |a| ≤ 4000000) (h : |a + b - 2451545| ≤ 36525) (hc : |c| ≤ 2 ^ 1000) (hd : |d| ≤ 2 ^ 1000)
    (hp : |p| ≤ 2 ^ 29) (hq : |q| ≤ 2 ^ 29) : NearRot (celestialToTerrestrial (x, y) (u, w) xp yp) (57 / 10 ^ 15) := by
  have r := c2i_nearRot hL hx hy ha h
  have up : ∀ {x : F64} {a : ℚ}, Is x a → |a| ≤ 2 ^ 29 → FBd x (2 ^ 30) := fun h h' => ⟨_, h, h'.trans (by norm_num)⟩
  obtain ⟨e, t, he, ht, e0, e1⟩ := C33_rotation_angle_finite u w c d hu hw hc hd
  have t1 : t ≤ 2 ^ 3 := by
    rw [ht.unique (Is.lit _ (le_HUGE (k := 3) (by norm_num [abs_of_pos]) (by norm_num)))]
    exact RN_le_of_le (RepQ.two_pow 3) (by norm_num)
  have be : FBd (rotationAngle (u, w)) (2 ^ 30) := ⟨e, he, by rw [abs_of_nonneg e0]; linarith⟩
  have k := (NearRot.rotation hL be 2).compose r (30 / 10 ^ 15) (by norm_num) (by norm_num)
  have pm := polar_nearRot hL (up hxp hp) (up hyp hq) (s := lit 0) ⟨0, zero_is, by norm_num⟩
  exact pm.compose k _ (by norm_num) (by norm_num)

/-- **C115.** Within a century of J2000.0 the celestial-to-intermediate matrix is a rotation to `3e-14`. The
celestial-to-terrestrial matrix is one to `6e-14`, whatever the UT1 date up to `2 ^ 1000` days and the polar motion up to
`2 ^ 29` radians. -/
theorem C115_terrestrial (x y u w xp yp : F64) (a b c d p q : ℚ) (hx : Is x a) (hy : Is y b) (hu : Is u c) (hw : Is w d)
    (hxp : Is xp p) (hyp : Is yp q) (ha : |a| ≤ 4000000) (h : |a + b - 2451545| ≤ 36525) (hc : |c| ≤ 2 ^ 1000) (hd : |d| ≤ 2 ^ 1000)
    (hp : |p| ≤ 2 ^ 29) (hq : |q| ≤ 2 ^ 29) :
    RotationWithin (celestialToIntermediate (x, y)) (3 / 10 ^ 14) ∧
      RotationWithin (celestialToTerrestrial (x, y) (u, w) xp yp) (6 / 10 ^ 14) :=
  ⟨((c2i_nearRot hL hx hy ha h).mono (by norm_num)).within (by norm_num),
    ((c2t_nearRot hL hx hy hu hw hxp hyp ha h hc hd hp hq).mono (by norm_num)).within (by norm_num)⟩

omit hL in
/-- The hypotheses hold for a library that exists, a date 274 thousand years away and a pole far from the axis. -/
example : ∃ L : Libm F64, @LibmAcc L ∧ ∃ x y p : F64, Is x 100000000 ∧ Is y (1 / 4) ∧ Is p (1 / 2) ∧ |(100000000 : ℚ)| ≤ 2 ^ 27 ∧
    |(1 / 4 : ℚ)| ≤ 2 ^ 27 ∧ ((1 / 2) ^ 2 + (1 / 4) ^ 2 : ℚ) ≤ 1 - 1 / 2 ^ 50 := by
  refine ⟨goodLibm, exists_libmAcc, lit 100000000, lit (1 / 4), lit (1 / 2), ?_, Is.lit_exact _ ?_ (small_le_HUGE (by norm_num)),
    Is.lit_exact _ ?_ (small_le_HUGE (by norm_num)), by norm_num [abs_le], by norm_num [abs_le], by norm_num⟩
  · have := Is.lit_int 100000000 (by norm_num)
    push_cast at this
    exact this
  · exact RepQ.of_zpow 1 (-2) (by norm_num) (by norm_num) (by norm_num)
  · exact RepQ.of_zpow 1 (-1) (by norm_num) (by norm_num) (by norm_num)

end Verif
