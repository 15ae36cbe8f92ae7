import Verif.Lemmas.TerAcc

/-!
# Accuracy of the binary64 frame transformations

`Is x q`: the float `x` is finite and its value is the rational `q`.  `Near x r e`: `x` is finite and its value is
within `e` of the real `r`.  `LibmAcc`: the mathematical library returns `sin`, `cos`, `atan`, `acos` and `atan2` to an
absolute error of `2^-50` (four units in the last place at 1; `atan2` up to a whole turn, so that either sign of a zero
is allowed).
-/

namespace Verif
open Arith F64 Spec

/-- **C67.** For every date within a century of J2000.0, held in any two `f64` parts of which the first is at most four
million days, and every mathematical library accurate to `2^-50`: the `f64` nutation angles are within `3e-13` rad of
the published series. -/
theorem C67_nutation_f64 [Libm F64] (hL : LibmAcc) (x y : F64) (a b : ℚ) (hx : Is x a) (hy : Is y b)
    (ha : |a| ≤ 4000000) (h : |a + b - 2451545| ≤ 36525) :
    let t : ℝ := (a + b - 2451545) / 36525
    Near (nutation (x, y)).1 (nut00bPsi t) (3 / 10 ^ 13) ∧ Near (nutation (x, y)).2 (nut00bEps t) (3 / 10 ^ 13) := by
  have hT := (centuries_near hx hy (by exact_mod_cast ha) (by exact_mod_cast h)).mono (E := 3 / 10 ^ 14) (M := 1) (by norm_num)
  exact ⟨(nut_acc hL hT).1.near, (nut_acc hL hT).2.near⟩

/-- **C67.** Under the same hypotheses every entry of the `f64` bias-precession matrix is within `8e-14`, of the
bias-precession-nutation matrix within `2e-12` and of the celestial-to-intermediate matrix within `7e-12` of the same
entry in exact arithmetic. -/
theorem C67_matrices_f64 [Libm F64] (hL : LibmAcc) (x y : F64) (a b : ℚ) (hx : Is x a) (hy : Is y b)
    (ha : |a| ≤ 4000000) (h : |a + b - 2451545| ≤ 36525) (i j : Fin 3) :
    Near ((biasAndPrecession (x, y)).2.2.get i j) ((biasAndPrecession ((a : ℝ), (b : ℝ))).2.2.get i j) (8 / 10 ^ 14) ∧
    Near ((precessionNutation (x, y)).get i j) ((precessionNutation ((a : ℝ), (b : ℝ))).get i j) (2 / 10 ^ 12) ∧
    Near ((celestialToIntermediate (x, y)).get i j) ((celestialToIntermediate ((a : ℝ), (b : ℝ))).get i j)
      (7 / 10 ^ 12) := by
  have h' : |(a : ℝ) + b - 2451545| ≤ 36525 := by exact_mod_cast h
  have hT := (centuries_near hx hy (by exact_mod_cast ha) h').mono (E := 3 / 10 ^ 14) (M := 1) (by norm_num)
  have hT' : NB (centuries (x, y)) (centuries ((a : ℝ), (b : ℝ))) (3 / 10 ^ 14) 1 := hT.congr (centuries_real ((a : ℝ), (b : ℝ))).symm
  exact ⟨(bp_acc hL hT').entry i j, (bpn_acc hL hT').entry i j, (c2i_acc hL h' hT').entry i j⟩

/-- **C67.** With a UT1 date in parts of at most four million days and polar motion angles of at most one radian, every
entry of the `f64` celestial-to-terrestrial matrix is within `2.1e-10` of the same entry in exact arithmetic (the bound
is that of the Earth rotation angle, C57). -/
theorem C67_celestial_to_terrestrial_f64 [Libm F64] (hL : LibmAcc) (x y u w xp yp : F64) (a b c d p q : ℚ)
    (hx : Is x a) (hy : Is y b) (hu : Is u c) (hw : Is w d) (hxp : Is xp p) (hyp : Is yp q)
    (ha : |a| ≤ 4000000) (h : |a + b - 2451545| ≤ 36525) (hc : |c| ≤ 4000000) (hd : |d| ≤ 4000000)
    (hp : |p| ≤ 1) (hq : |q| ≤ 1) (i j : Fin 3) :
    Near ((celestialToTerrestrial (x, y) (u, w) xp yp).get i j)
      ((celestialToTerrestrial ((a : ℝ), (b : ℝ)) ((c : ℝ), (d : ℝ)) p q).get i j) (21 / 10 ^ 11) := by
  have h' : |(a : ℝ) + b - 2451545| ≤ 36525 := by exact_mod_cast h
  have hT := (centuries_near hx hy (by exact_mod_cast ha) h').mono (E := 3 / 10 ^ 14) (M := 1) (by norm_num)
  have hT' : NB (centuries (x, y)) (centuries ((a : ℝ), (b : ℝ))) (3 / 10 ^ 14) 1 := hT.congr (centuries_real ((a : ℝ), (b : ℝ))).symm
  exact (c2t_acc hL h' hT' hu hw hc hd hxp hyp (by exact_mod_cast hp) (by exact_mod_cast hq)).entry i j

/-- The hypotheses hold for a library that exists and for 2007-04-05 12:00 TT in the modified Julian split. -/
example : ∃ L : Libm F64, @LibmAcc L ∧ ∃ x y : F64, Is x 2400000.5 ∧ Is y 54195.5 ∧
    |(2400000.5 : ℚ)| ≤ 4000000 ∧ |(2400000.5 + 54195.5 - 2451545 : ℚ)| ≤ 36525 := by
  refine ⟨goodLibm, exists_libmAcc, lit 2400000.5, lit 54195.5, Is.lit_exact _ ?_ (small_le_HUGE (by norm_num)),
    Is.lit_exact _ ?_ (small_le_HUGE (by norm_num)), by norm_num [abs_le], by norm_num [abs_le]⟩
  · have := RepQ.dyadic 4800001 1 (by norm_num) (by norm_num)
    norm_num at this ⊢
    exact this
  · have := RepQ.dyadic 108391 1 (by norm_num) (by norm_num)
    norm_num at this ⊢
    exact this

end Verif
