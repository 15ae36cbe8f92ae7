import Verif.Lemmas.MatAcc

/-!
# Bias, precession and nutation matrices in binary64
-/

namespace Verif
open Arith F64 Spec

theorem as2r_nb' : NB (AS2R : F64) (AS2R : ℝ) (1 / 10 ^ 21) 4.8482e-6 := by
  have := NB.lit (4.848136811095359935899141e-6) (M := 4.8482e-6) (E := 1 / 10 ^ 21) (by norm_num [abs_le])
  exact this

theorem eps0_nb : NB (EPS0 : F64) (EPS0 : ℝ) (3 / 10 ^ 16) 0.4092 :=
  (NB.lit 84381.448 (M := 84382) (E := 1 / 10 ^ 11) (by norm_num [abs_le])).mul as2r_nb' (by norm_num)

section
variable {T : F64} {t : ℝ}

theorem psia77_nb (h : NB T t (3 / 10 ^ 14) 1) :
    NB ((((lit 5038.7784 : F64) +. (lit (-1.07259) +. lit (-0.001147) *. T) *. T) *. T) *. AS2R)
      ((((lit 5038.7784 : ℝ) +. (lit (-1.07259) +. lit (-0.001147) *. t) *. t) *. t) *. AS2R) (1 / 10 ^ 15) 0.0245 := by
  have a := (NB.lit (-0.001147) (M := 0.01) (E := 1 / 10 ^ 15) (by norm_num [abs_le])).mul h (E := 1 / 10 ^ 13) (M := 0.01) (by norm_num)
  have b := (NB.lit (-1.07259) (M := 1.1) (E := 1 / 10 ^ 15) (by norm_num [abs_le])).add a (E := 2 / 10 ^ 13) (M := 1.11) (by norm_num)
  have c := b.mul h (E := 3 / 10 ^ 13) (M := 1.11) (by norm_num)
  have d := (NB.lit 5038.7784 (M := 5038.8) (E := 1 / 10 ^ 12) (by norm_num [abs_le])).add c (E := 3 / 10 ^ 12) (M := 5039.91) (by norm_num)
  have e := d.mul h (E := 16 / 10 ^ 11) (M := 5039.91) (by norm_num)
  exact e.mul as2r_nb' (by norm_num)

theorem oma77_nb (h : NB T t (3 / 10 ^ 14) 1) :
    NB ((EPS0 : F64) +. ((((lit 0.05127 +. lit (-0.007726) *. T) *. T) *. T) *. AS2R))
      ((EPS0 : ℝ) +. ((((lit 0.05127 +. lit (-0.007726) *. t) *. t) *. t) *. AS2R)) (5 / 10 ^ 16) 0.4093 := by
  have a := (NB.lit (-0.007726) (M := 0.01) (E := 1 / 10 ^ 15) (by norm_num [abs_le])).mul h (E := 1 / 10 ^ 13) (M := 0.01) (by norm_num)
  have b := (NB.lit 0.05127 (M := 0.06) (E := 1 / 10 ^ 15) (by norm_num [abs_le])).add a (E := 2 / 10 ^ 13) (M := 0.07) (by norm_num)
  have c := b.mul h (E := 3 / 10 ^ 13) (M := 0.07) (by norm_num)
  have d := c.mul h (E := 4 / 10 ^ 13) (M := 0.07) (by norm_num)
  have e := d.mul as2r_nb' (E := 1 / 10 ^ 17) (M := 1 / 10 ^ 6) (by norm_num)
  exact eps0_nb.add e (by norm_num)

theorem chia_nb (h : NB T t (3 / 10 ^ 14) 1) :
    NB ((((lit 10.5526 : F64) +. (lit (-2.38064) +. lit (-0.001125) *. T) *. T) *. T) *. AS2R)
      ((((lit 10.5526 : ℝ) +. (lit (-2.38064) +. lit (-0.001125) *. t) *. t) *. t) *. AS2R) (1 / 10 ^ 15) 0.0245 := by
  have a := (NB.lit (-0.001125) (M := 0.01) (E := 1 / 10 ^ 15) (by norm_num [abs_le])).mul h (E := 1 / 10 ^ 13) (M := 0.01) (by norm_num)
  have b := (NB.lit (-2.38064) (M := 2.4) (E := 1 / 10 ^ 15) (by norm_num [abs_le])).add a (E := 2 / 10 ^ 13) (M := 2.41) (by norm_num)
  have c := b.mul h (E := 3 / 10 ^ 13) (M := 2.41) (by norm_num)
  have d := (NB.lit 10.5526 (M := 11) (E := 1 / 10 ^ 12) (by norm_num [abs_le])).add c (E := 3 / 10 ^ 12) (M := 13.41) (by norm_num)
  have e := d.mul h (E := 1 / 10 ^ 11) (M := 13.41) (by norm_num)
  exact e.mul as2r_nb' (by norm_num)

theorem rate_nb {tt : F64 × F64} {dd : ℝ × ℝ} (h : NB (centuries tt) (centuries dd) (3 / 10 ^ 14) 1) :
    NB (precessionRate tt).1 (precessionRate dd).1 (1 / 10 ^ 18) (1 / 10 ^ 5) ∧
    NB (precessionRate tt).2 (precessionRate dd).2 (1 / 10 ^ 18) (1 / 10 ^ 5) := by
  constructor
  · have a := (NB.lit (-0.29965) (M := 0.3) (E := 1 / 10 ^ 15) (by norm_num [abs_le])).mul as2r_nb' (E := 1 / 10 ^ 19) (M := 2 / 10 ^ 6) (by norm_num)
    exact a.mul h (by norm_num)
  · have a := (NB.lit (-0.02524) (M := 0.3) (E := 1 / 10 ^ 15) (by norm_num [abs_le])).mul as2r_nb' (E := 1 / 10 ^ 19) (M := 2 / 10 ^ 6) (by norm_num)
    exact a.mul h (by norm_num)

theorem obliquity_nb {tt : F64 × F64} {dd : ℝ × ℝ} (h : NB (centuries tt) (centuries dd) (3 / 10 ^ 14) 1) :
    NB (meanObliquity tt) (meanObliquity dd) (4 / 10 ^ 16) 0.41 := by
  have a := (NB.lit 0.001813 (M := 0.01) (E := 1 / 10 ^ 15) (by norm_num [abs_le])).mul h (E := 1 / 10 ^ 13) (M := 0.01) (by norm_num)
  have b := (NB.lit (-0.00059) (M := 0.01) (E := 1 / 10 ^ 15) (by norm_num [abs_le])).add a (E := 2 / 10 ^ 13) (M := 0.02) (by norm_num)
  have c := b.mul h (E := 3 / 10 ^ 13) (M := 0.02) (by norm_num)
  have d := (NB.lit (-46.8150) (M := 47) (E := 1 / 10 ^ 14) (by norm_num [abs_le])).add c (E := 4 / 10 ^ 13) (M := 47.02) (by norm_num)
  have e := d.mul h (E := 3 / 10 ^ 12) (M := 47.02) (by norm_num)
  have f := (NB.lit 84381.448 (M := 84382) (E := 1 / 10 ^ 11) (by norm_num [abs_le])).add e (E := 3 / 10 ^ 11) (M := 84430) (by norm_num)
  exact as2r_nb'.mul f (by norm_num)

variable [Libm F64] (hL : LibmAcc)
include hL

theorem bias_acc : MN (((Mat3.identity.compose (Mat3.rotation 0 (Arith.neg (frameBias : F64 × F64 × F64).2.1))).compose
    (Mat3.rotation 1 ((frameBias : F64 × F64 × F64).1 *. Libm.sin EPS0))).compose
      (Mat3.rotation 2 (frameBias : F64 × F64 × F64).2.2))
    (((Mat3.identity.compose (Mat3.rotation 0 (Arith.neg (frameBias : ℝ × ℝ × ℝ).2.1))).compose
    (Mat3.rotation 1 ((frameBias : ℝ × ℝ × ℝ).1 *. Libm.sin EPS0))).compose
      (Mat3.rotation 2 (frameBias : ℝ × ℝ × ℝ).2.2)) (21 / 10 ^ 15) := by
  have f1 : NB (frameBias : F64 × F64 × F64).1 (frameBias : ℝ × ℝ × ℝ).1 (1 / 10 ^ 20) (1 / 10 ^ 6) :=
    (NB.lit (-0.041775) (M := 0.05) (E := 1 / 10 ^ 15) (by norm_num [abs_le])).mul as2r_nb' (by norm_num)
  have f2 : NB (frameBias : F64 × F64 × F64).2.1 (frameBias : ℝ × ℝ × ℝ).2.1 (1 / 10 ^ 20) (1 / 10 ^ 6) :=
    (NB.lit (-0.0068192) (M := 0.05) (E := 1 / 10 ^ 15) (by norm_num [abs_le])).mul as2r_nb' (by norm_num)
  have f3 : NB (frameBias : F64 × F64 × F64).2.2 (frameBias : ℝ × ℝ × ℝ).2.2 (1 / 10 ^ 20) (1 / 10 ^ 6) :=
    (NB.lit (-0.0146) (M := 0.05) (E := 1 / 10 ^ 15) (by norm_num [abs_le])).mul as2r_nb' (by norm_num)
  have s := hL.nbSin eps0_nb (E := 2 / 10 ^ 15) (by norm_num)
  have g2 := f1.mul s (E := 2 / 10 ^ 20) (M := 1 / 10 ^ 6) (by norm_num)
  have r1 := MN.rot hL f2.neg 0 (E := 2.7 / 10 ^ 15) (by norm_num)
  have r2 := MN.rot hL g2 1 (E := 2.7 / 10 ^ 15) (by norm_num)
  have r3 := MN.rot hL f3 2 (E := 2.7 / 10 ^ 15) (by norm_num)
  have k1 := MN.identity.compose r1 .identity (.rotation _ _) (by norm_num) (by norm_num) (E := 7 / 10 ^ 15) (by norm_num)
  have k2 := k1.compose r2 (IsRotation.identity.compose (.rotation _ _)) (.rotation _ _) (by norm_num) (by norm_num)
    (E := 14 / 10 ^ 15) (by norm_num)
  exact k2.compose r3 ((IsRotation.identity.compose (.rotation _ _)).compose (.rotation _ _)) (.rotation _ _) (by norm_num)
    (by norm_num) (by norm_num)

theorem bp_acc {tt : F64 × F64} {dd : ℝ × ℝ} (h : NB (centuries tt) (centuries dd) (3 / 10 ^ 14) 1) :
    MN (biasAndPrecession tt).2.2 (biasAndPrecession dd).2.2 (8 / 10 ^ 14) := by
  obtain ⟨p1, p2⟩ := rate_nb h
  have a1 := (psia77_nb h).add p1 (E := 2 / 10 ^ 15) (M := 0.025) (by norm_num)
  have a2 := (oma77_nb h).add p2 (E := 1 / 10 ^ 15) (M := 0.41) (by norm_num)
  have r1 := MN.rot hL (chia_nb h) 2 (E := 6 / 10 ^ 15) (by norm_num)
  have r2 := MN.rot hL a2.neg 0 (E := 6 / 10 ^ 15) (by norm_num)
  have r3 := MN.rot hL a1.neg 2 (E := 9 / 10 ^ 15) (by norm_num)
  have r4 := MN.rot hL eps0_nb 0 (E := 4 / 10 ^ 15) (by norm_num)
  have R := IsRotation.rotation
  have k1 := MN.identity.compose r1 .identity (R _ _) (by norm_num) (by norm_num) (E := 11 / 10 ^ 15) (by norm_num)
  have q1 := IsRotation.identity.compose (R 2 (((lit 10.5526 +. (lit (-2.38064) +. lit (-0.001125) *. centuries dd) *. centuries dd) *. centuries dd) *. AS2R))
  have k2 := k1.compose r2 q1 (R _ _) (by norm_num) (by norm_num) (E := 22 / 10 ^ 15) (by norm_num)
  have k3 := k2.compose r3 (q1.compose (R _ _)) (R _ _) (by norm_num) (by norm_num) (E := 36 / 10 ^ 15) (by norm_num)
  have k4 := k3.compose r4 ((q1.compose (R _ _)).compose (R _ _)) (R _ _) (by norm_num) (by norm_num) (E := 45 / 10 ^ 15) (by norm_num)
  have hr := C38_bias_and_precession dd
  exact MN.compose (m := (biasAndPrecession tt).2.1) (R := (biasAndPrecession dd).2.1) (n := (biasAndPrecession tt).1)
    (S := (biasAndPrecession dd).1) k4 (bias_acc hL) hr.2.1 hr.1 (by norm_num) (by norm_num) (by norm_num)

/-- The bias-precession-nutation matrix computed in binary64 is within `3 * 10^-12` of the exact one. -/
theorem bpn_acc {tt : F64 × F64} {a b : ℝ} (h : NB (centuries tt) (centuries (a, b)) (3 / 10 ^ 14) 1) :
    MN (precessionNutation tt) (precessionNutation (a, b)) (2 / 10 ^ 12) := by
  obtain ⟨n1, n2⟩ := nut_acc hL h
  have hc := C65_nutation_series a b
  simp only at hc
  have ht : (a + b - 2451545) / 36525 = centuries (a, b) := (centuries_real (a, b)).symm
  have hm : 1 + |centuries (a, b)| ≤ 2 := by linarith [h.mag]
  rw [ht] at hc
  have m1 : NB (nutation tt).1 (nutation (a, b)).1 (301 / 10 ^ 15) (1.1 / 10 ^ 4) := by
    refine n1.shift (d := 1 / 10 ^ 20) ?_ (by norm_num)
    rw [abs_sub_comm]
    refine hc.1.trans ?_
    norm_num
    linarith
  have m2 : NB (nutation tt).2 (nutation (a, b)).2 (301 / 10 ^ 15) (1.1 / 10 ^ 4) := by
    refine n2.shift (d := 1 / 10 ^ 20) ?_ (by norm_num)
    rw [abs_sub_comm]
    refine hc.2.trans ?_
    norm_num
    linarith
  have e1 := (obliquity_nb h).add (rate_nb h).2 (E := 6 / 10 ^ 16) (M := 0.42) (by norm_num)
  have e2 := e1.add m2 (E := 302 / 10 ^ 15) (M := 0.43) (by norm_num)
  have r1 := MN.rot hL e2.neg 0 (E := 909 / 10 ^ 15) (by norm_num)
  have r2 := MN.rot hL m1.neg 2 (E := 906 / 10 ^ 15) (by norm_num)
  have r3 := MN.rot hL e1 0 (E := 5 / 10 ^ 15) (by norm_num)
  have R := IsRotation.rotation
  have k1 := MN.identity.compose r1 .identity (R _ _) (by norm_num) (by norm_num) (E := 914 / 10 ^ 15) (by norm_num)
  have q1 := IsRotation.identity.compose (R 0 (Arith.neg ((meanObliquity (a, b) +. (precessionRate (a, b)).2) +. (nutation (a, b)).2)))
  have k2 := k1.compose r2 q1 (R _ _) (by norm_num) (by norm_num) (E := 1825 / 10 ^ 15) (by norm_num)
  have k3 := k2.compose r3 (q1.compose (R _ _)) (R _ _) (by norm_num) (by norm_num) (E := 1835 / 10 ^ 15) (by norm_num)
  exact MN.compose k3 (bp_acc hL h) (C38_nutation_matrix _ _ _) (C38_bias_and_precession _).2.2 (by norm_num)
    (by norm_num) (by norm_num)

end
end Verif
