import Verif.Model.Frames
import Verif.Lemmas.Mat3
import Verif.Props.EarthAngle
import Mathlib.Analysis.SpecialFunctions.Trigonometric.Arctan
import Mathlib.Analysis.SpecialFunctions.Complex.Arg
import Mathlib.Analysis.SpecialFunctions.Trigonometric.Bounds

/-!
# C38-C44: reference frames
-/

namespace Verif
open Arith Matrix

/-! ## C38 -/

/-- **C38.** The frame bias, precession and combined matrices are proper rotations. -/
theorem C38_bias_and_precession (tt : ℝ × ℝ) : IsRotation (biasAndPrecession tt).1 ∧
    IsRotation (biasAndPrecession tt).2.1 ∧ IsRotation (biasAndPrecession tt).2.2 := by
  unfold biasAndPrecession
  have h1 : IsRotation (biasAndPrecession tt).1 :=
    ((IsRotation.identity.compose (.rotation _ _)).compose (.rotation _ _)).compose (.rotation _ _)
  have h2 : IsRotation (biasAndPrecession tt).2.1 :=
    (((IsRotation.identity.compose (.rotation _ _)).compose (.rotation _ _)).compose
      (.rotation _ _)).compose (.rotation _ _)
  exact ⟨h1, h2, h2.compose h1⟩

/-- **C38.** The nutation matrix is a proper rotation. -/
theorem C38_nutation_matrix (epsa dpsi deps : ℝ) : IsRotation (nutationMatrix epsa dpsi deps) :=
  ((IsRotation.identity.compose (.rotation _ _)).compose (.rotation _ _)).compose (.rotation _ _)

/-- **C38.** All matrices of `PrecessionNutation` are proper rotations, for every date and nutation. -/
theorem C38_precession_nutation (tt : ℝ × ℝ) (dpsi deps : ℝ) :
    let p := PrecessionNutation.fromTTWithNutation tt dpsi deps
    IsRotation p.rb ∧ IsRotation p.rp ∧ IsRotation p.rbp ∧ IsRotation p.rn ∧ IsRotation p.rbpn ∧
      IsRotation (precessionNutation tt) := by
  have h : ∀ dpsi deps, IsRotation (PrecessionNutation.fromTTWithNutation tt dpsi deps).rbpn := fun _ _ =>
    (C38_nutation_matrix _ _ _).compose (C38_bias_and_precession tt).2.2
  exact ⟨(C38_bias_and_precession tt).1, (C38_bias_and_precession tt).2.1, (C38_bias_and_precession tt).2.2,
    C38_nutation_matrix _ _ _, h _ _, h _ _⟩

theorem rotation_xys (x y s : ℝ) : IsRotation (celestialToIntermediateFromXys x y s) :=
  ((IsRotation.identity.compose (.rotation _ _)).compose (.rotation _ _)).compose (.rotation _ _)

/-- **C38.** The celestial-to-intermediate matrix is a proper rotation (for any pole coordinates). -/
theorem C38_celestial_to_intermediate (tt : ℝ × ℝ) (x y s : ℝ) :
    IsRotation (celestialToIntermediateFromXys x y s) ∧ IsRotation (celestialToIntermediate tt) :=
  ⟨rotation_xys x y s, rotation_xys _ _ _⟩

/-- **C38.** The polar motion matrix is a proper rotation. -/
theorem C38_polar_motion (xp yp sp : ℝ) : IsRotation (polarMotionMatrix xp yp sp) :=
  ((IsRotation.identity.compose (.rotation _ _)).compose (.rotation _ _)).compose (.rotation _ _)

/-- **C38.** The celestial-to-terrestrial matrix is a proper rotation. -/
theorem C38_celestial_to_terrestrial (tt ut1 : ℝ × ℝ) (xp yp : ℝ) :
    IsRotation (celestialToTerrestrial tt ut1 xp yp) :=
  (C38_polar_motion _ _ _).compose ((IsRotation.rotation _ _).compose (rotation_xys _ _ _))

/-! ## C39 -/

theorem atan2_polar (x y : ℝ) : Real.sqrt (x ^ 2 + y ^ 2) * Real.cos (Libm.atan2 y x : ℝ) = x ∧
    Real.sqrt (x ^ 2 + y ^ 2) * Real.sin (Libm.atan2 y x : ℝ) = y := by
  rw [atan2_real]
  have e : Real.sqrt (x ^ 2 + y ^ 2) = ‖(⟨x, y⟩ : ℂ)‖ := by
    rw [Complex.norm_def, Complex.normSq_mk]; congr 1; ring
  rw [e, Complex.norm_mul_cos_arg, Complex.norm_mul_sin_arg]
  exact ⟨rfl, rfl⟩

/-- The matrix is a product of three elementary rotations whose angles are the polar coordinates of the pole. -/
theorem xys_angles (x y s : ℝ) (h : x ^ 2 + y ^ 2 < 1) : ∃ e d : ℝ,
    Real.sin d * Real.cos e = x ∧ Real.sin d * Real.sin e = y ∧ Real.cos d = Real.sqrt (1 - (x ^ 2 + y ^ 2)) ∧
    (celestialToIntermediateFromXys x y s).toMatrix
      = (Mat3.rotation 2 (-(e + s)) : Mat3 ℝ).toMatrix * (Mat3.rotation 1 d : Mat3 ℝ).toMatrix
        * (Mat3.rotation 2 e : Mat3 ℝ).toMatrix := by
  obtain ⟨r2, hr2⟩ : ∃ r2, r2 = x ^ 2 + y ^ 2 := ⟨_, rfl⟩
  rw [← hr2] at h ⊢
  have r0 : 0 ≤ r2 := by rw [hr2]; positivity
  have r1 : 0 < 1 - r2 := by linarith
  -- the two angles
  obtain ⟨e, he, hc, hs⟩ : ∃ e : ℝ, (if (lit 0 : ℝ) <. (x *. x +. y *. y) then Libm.atan2 y x else lit 0) = e ∧
      Real.sqrt r2 * Real.cos e = x ∧ Real.sqrt r2 * Real.sin e = y := by
    refine ⟨_, rfl, ?_⟩
    split
    · rw [hr2]; exact atan2_polar x y
    · rename_i hn
      have hn' : ¬ (0 < r2) := by
        intro hp
        apply hn
        rw [lt_real]
        simp only [lit_real, add_real, mul_real, Rat.cast_zero]
        nlinarith
      have hz : r2 = 0 := le_antisymm (not_lt.mp hn') r0
      have hx : x = 0 := by nlinarith [sq_nonneg x, sq_nonneg y]
      have hy : y = 0 := by nlinarith [sq_nonneg x, sq_nonneg y]
      rw [hz, hx, hy]; simp
  have key : 1 + Real.sqrt (r2 / (1 - r2)) ^ 2 = 1 / (1 - r2) := by
    rw [Real.sq_sqrt (by positivity)]
    field_simp
    ring
  have hcd : Real.cos (Real.arctan (Real.sqrt (r2 / (1 - r2)))) = Real.sqrt (1 - r2) := by
    rw [Real.cos_arctan, key, Real.sqrt_div zero_le_one, Real.sqrt_one, one_div_one_div]
  have hsd : Real.sin (Real.arctan (Real.sqrt (r2 / (1 - r2)))) = Real.sqrt r2 := by
    rw [Real.sin_arctan, key, Real.sqrt_div zero_le_one, Real.sqrt_one, Real.sqrt_div r0]
    have : Real.sqrt (1 - r2) ≠ 0 := (Real.sqrt_pos.mpr r1).ne'
    field_simp
  have hd : Libm.atan (Arith.sqrt ((x *. x +. y *. y) /. (lit 1 -. (x *. x +. y *. y))))
      = Real.arctan (Real.sqrt (r2 / (1 - r2))) := by
    simp only [lit_real, add_real, mul_real, sub_real, div_real, sqrt_real, atan_real, hr2]
    push_cast
    congr 2
    ring_nf
  have hM : (celestialToIntermediateFromXys x y s).toMatrix
      = (Mat3.rotation 2 (-(e + s)) : Mat3 ℝ).toMatrix
        * (Mat3.rotation 1 (Real.arctan (Real.sqrt (r2 / (1 - r2)))) : Mat3 ℝ).toMatrix
        * (Mat3.rotation 2 e : Mat3 ℝ).toMatrix := by
    unfold celestialToIntermediateFromXys
    simp only [he, hd]
    rw [Mat3.toMatrix_compose, Mat3.toMatrix_compose, Mat3.toMatrix_compose, Mat3.toMatrix_identity, one_mul]
    simp only [add_real, neg_real]
  refine ⟨e, _, ?_, ?_, hcd, hM⟩
  · rw [hsd]; exact hc
  · rw [hsd]; exact hs

/-- **C39.** For all pole coordinates inside the unit circle and every locator the third row of the
celestial-to-intermediate matrix is the unit vector with those coordinates. -/
theorem C39_third_row (x y s : ℝ) (h : x ^ 2 + y ^ 2 < 1) :
    (celestialToIntermediateFromXys x y s).r2 = ⟨x, y, Real.sqrt (1 - (x ^ 2 + y ^ 2))⟩ := by
  obtain ⟨e, d, hc, hs, hcd, hM⟩ := xys_angles x y s h
  have g : ∀ j, (celestialToIntermediateFromXys x y s).toMatrix 2 j
      = ![x, y, Real.sqrt (1 - (x ^ 2 + y ^ 2))] j := by
    intro j
    rw [hM, Mat3.toMatrix_rotation, Mat3.toMatrix_rotation, Mat3.toMatrix_rotation]
    fin_cases j <;> simp [Matrix.mul_apply, Fin.sum_univ_three, hcd]
    · exact hc
    · exact hs
  have g0 := g 0
  have g1 := g 1
  have g2 := g 2
  rw [Mat3.toMatrix_apply] at g0 g1 g2
  ext
  · exact g0
  · exact g1
  · exact g2

/-- **C39.** Hence the matrix sends the pole direction to `(0, 0, 1)`. -/
theorem C39_pole (x y s : ℝ) (h : x ^ 2 + y ^ 2 < 1) :
    (celestialToIntermediateFromXys x y s).toMatrix *ᵥ ![x, y, Real.sqrt (1 - (x ^ 2 + y ^ 2))]
      = ![0, 0, 1] := by
  have hr := ((isRotation_iff _).mp (rotation_xys x y s)).1
  have row := C39_third_row x y s h
  ext i
  have := congrFun (congrFun hr i) 2
  rw [Matrix.mul_apply, Fin.sum_univ_three] at this
  simp only [Matrix.transpose_apply] at this
  rw [Matrix.mulVec, dotProduct, Fin.sum_univ_three]
  have e0 : (celestialToIntermediateFromXys x y s).toMatrix 2 0 = x := by
    rw [Mat3.toMatrix_apply]; exact congrArg Vec3.x row
  have e1 : (celestialToIntermediateFromXys x y s).toMatrix 2 1 = y := by
    rw [Mat3.toMatrix_apply]; exact congrArg Vec3.y row
  have e2 : (celestialToIntermediateFromXys x y s).toMatrix 2 2 = Real.sqrt (1 - (x ^ 2 + y ^ 2)) := by
    rw [Mat3.toMatrix_apply]; exact congrArg Vec3.z row
  rw [e0, e1, e2] at this
  simp only [Matrix.cons_val_zero, Matrix.cons_val_one, Matrix.cons_val]
  rw [this]
  fin_cases i
  · exact Matrix.one_apply_ne (by decide)
  · exact Matrix.one_apply_ne (by decide)
  · exact Matrix.one_apply_eq _

/-- **C39.** For every date at which the (3,3) element of the bias-precession-nutation matrix is positive,
`celestial_to_intermediate` has the same third row (the same pole) as that matrix. -/
theorem C39_celestial_to_intermediate (tt : ℝ × ℝ) (h : 0 < (precessionNutation tt).r2.z) :
    (celestialToIntermediate tt).r2 = (precessionNutation tt).r2 := by
  have hr := ((isRotation_iff _).mp (C38_precession_nutation tt 0 0).2.2.2.2.2).1
  have h22 := congrFun (congrFun hr 2) 2
  rw [Matrix.mul_apply, Fin.sum_univ_three] at h22
  simp only [Matrix.transpose_apply, Mat3.toMatrix_apply, Matrix.one_apply_eq] at h22
  have e0 : (precessionNutation tt).get 2 0 = (precessionNutation tt).r2.x := rfl
  have e1 : (precessionNutation tt).get 2 1 = (precessionNutation tt).r2.y := rfl
  have e2 : (precessionNutation tt).get 2 2 = (precessionNutation tt).r2.z := rfl
  rw [e0, e1, e2] at h22
  have e : (celestialToIntermediate tt).r2 = _ :=
    C39_third_row (precessionNutation tt).r2.x (precessionNutation tt).r2.y _ (by nlinarith)
  rw [e]
  ext
  · rfl
  · rfl
  · show Real.sqrt _ = _
    rw [show 1 - ((precessionNutation tt).r2.x ^ 2 + (precessionNutation tt).r2.y ^ 2)
      = (precessionNutation tt).r2.z ^ 2 by linarith]
    exact Real.sqrt_sq h.le

example : (celestialToIntermediateFromXys (3 / 13 : ℝ) (4 / 13) 1).r2 = ⟨3 / 13, 4 / 13, 12 / 13⟩ := by
  rw [C39_third_row _ _ _ (by norm_num)]
  rw [show (1 - ((3 / 13 : ℝ) ^ 2 + (4 / 13) ^ 2)) = (12 / 13) ^ 2 by norm_num,
    Real.sqrt_sq (by norm_num)]

/-! ## C40 -/

theorem centuries_real (tt : ℝ × ℝ) : centuries tt = (tt.1 + tt.2 - 2451545) / 36525 := by
  unfold centuries
  simp only [DJ00, DJC, lit_real, add_real, sub_real, div_real]
  push_cast
  ring

theorem rotation_inv (axis : Fin 3) (t : ℝ) :
    (Mat3.rotation axis (-t) : Mat3 ℝ).compose (Mat3.rotation axis t) = Mat3.identity := by
  apply Mat3.toMatrix_injective
  rw [Mat3.toMatrix_compose, Mat3.toMatrix_identity, Mat3.toMatrix_rotation, Mat3.toMatrix_rotation]
  have h := Real.sin_sq_add_cos_sq t
  fin_cases axis <;> ext i j <;> fin_cases i <;> fin_cases j <;>
    simp [Matrix.mul_apply, Fin.sum_univ_three] <;> nlinarith

theorem rotation_zero (axis : Fin 3) : (Mat3.rotation axis 0 : Mat3 ℝ) = Mat3.identity := by
  apply Mat3.toMatrix_injective
  rw [Mat3.toMatrix_identity, Mat3.toMatrix_rotation]
  fin_cases axis <;> ext i j <;> fin_cases i <;> fin_cases j <;> simp

theorem identity_compose (m : Mat3 ℝ) : Mat3.identity.compose m = m := by
  apply Mat3.toMatrix_injective
  rw [Mat3.toMatrix_compose, Mat3.toMatrix_identity, one_mul]

theorem compose_identity (m : Mat3 ℝ) : m.compose Mat3.identity = m := by
  apply Mat3.toMatrix_injective
  rw [Mat3.toMatrix_compose, Mat3.toMatrix_identity, mul_one]

/-- **C40.** Precession is the identity at J2000.0, for every split of that date. -/
theorem C40_precession_at_epoch (a b : ℝ) (h : a + b = 2451545) :
    (biasAndPrecession (a, b)).2.1 = Mat3.identity ∧
    (biasAndPrecession (a, b)).2.2 = (biasAndPrecession (a, b)).1 := by
  have ht : centuries (a, b) = (0 : ℝ) := by rw [centuries_real]; simp [h]
  have h1 : (biasAndPrecession (a, b)).2.1 = Mat3.identity := by
    unfold biasAndPrecession precessionRate
    simp only [ht]
    simp only [lit_real, add_real, mul_real, mul_zero, add_zero, zero_mul, neg_real, neg_zero,
      rotation_zero, identity_compose, compose_identity, rotation_inv]
  refine ⟨h1, ?_⟩
  show (biasAndPrecession (a, b)).2.1.compose (biasAndPrecession (a, b)).1 = _
  rw [h1, identity_compose]

/-- **C40.** With zero nutation angles the nutation matrix is the identity, for every obliquity. -/
theorem C40_zero_nutation (epsa : ℝ) : nutationMatrix epsa 0 0 = Mat3.identity := by
  unfold nutationMatrix
  simp only [add_real, add_zero, neg_real, neg_zero, rotation_zero, identity_compose, compose_identity,
    rotation_inv]

example : (biasAndPrecession ((2400000.5 : ℝ), 51544.5)).2.1 = Mat3.identity :=
  (C40_precession_at_epoch _ _ (by norm_num)).1

/-! ## C41 -/

/-- Sums of the magnitudes of the coefficients of the nutation series. -/
def clsSum : List (Nal × Cls) → ℤ × ℤ
  | [] => (0, 0)
  | p :: L => (|p.2.c0| + |p.2.c1| + |p.2.c2| + (clsSum L).1, |p.2.c3| + |p.2.c4| + |p.2.c5| + (clsSum L).2)

theorem term_le {a b c t s k : ℝ} (ht : |t| ≤ 1) (hs : |s| ≤ 1) (hk : |k| ≤ 1) :
    |(a + b * t) * s + c * k| ≤ |a| + |b| + |c| := by
  refine (abs_add_le _ _).trans ?_
  rw [abs_mul, abs_mul]
  have h1 : |a + b * t| ≤ |a| + |b| := by
    refine (abs_add_le _ _).trans ?_
    rw [abs_mul]
    nlinarith [abs_nonneg b]
  have h2 : |a + b * t| * |s| ≤ |a| + |b| :=
    (mul_le_of_le_one_right (abs_nonneg _) hs).trans h1
  have h3 : |c| * |k| ≤ |c| := mul_le_of_le_one_right (abs_nonneg _) hk
  linarith

/-- One step of the nutation loop, for given arguments. -/
noncomputable def nutStep (arg : Nal → ℝ) (t : ℝ) (acc : ℝ × ℝ) (p : Nal × Cls) : ℝ × ℝ :=
  (acc.1 +. ((flt p.2.c0 +. flt p.2.c1 *. t) *. Libm.sin (arg p.1) +. flt p.2.c2 *. Libm.cos (arg p.1)),
   acc.2 +. ((flt p.2.c3 +. flt p.2.c4 *. t) *. Libm.cos (arg p.1) +. flt p.2.c5 *. Libm.sin (arg p.1)))

theorem nutation_step (tt : ℝ × ℝ) : ∃ arg : Nal → ℝ,
    nutation tt =
      (((NALS.zip CLS).reverse.foldl (nutStep arg (centuries tt)) (lit 0, lit 0)).1 *. U2R +. DPPLAN,
       ((NALS.zip CLS).reverse.foldl (nutStep arg (centuries tt)) (lit 0, lit 0)).2 *. U2R +. DEPLAN) :=
  ⟨_, rfl⟩

theorem nut_fold (arg : Nal → ℝ) (t : ℝ) (ht : |t| ≤ 1) (L : List (Nal × Cls)) (acc : ℝ × ℝ) :
    |(L.foldl (nutStep arg t) acc).1| ≤ |acc.1| + (clsSum L).1 ∧
    |(L.foldl (nutStep arg t) acc).2| ≤ |acc.2| + (clsSum L).2 := by
  induction L generalizing acc with
  | nil => simp [clsSum]
  | cons p L ih =>
    simp only [List.foldl_cons]
    have hs := Real.abs_sin_le_one (arg p.1)
    have hc := Real.abs_cos_le_one (arg p.1)
    obtain ⟨h1, h2⟩ := ih (nutStep arg t acc p)
    refine ⟨h1.trans ?_, h2.trans ?_⟩
    · simp only [nutStep, flt, lit_real, add_real, mul_real, sin_real, cos_real, clsSum]
      push_cast
      have := (abs_add_le acc.1 (((p.2.c0 : ℝ) + p.2.c1 * t) * Real.sin (arg p.1)
        + p.2.c2 * Real.cos (arg p.1)))
      have g := term_le (a := (p.2.c0 : ℝ)) (b := p.2.c1) (c := p.2.c2) ht hs hc
      linarith
    · simp only [nutStep, flt, lit_real, add_real, mul_real, sin_real, cos_real, clsSum]
      push_cast
      have := (abs_add_le acc.2 (((p.2.c3 : ℝ) + p.2.c4 * t) * Real.cos (arg p.1)
        + p.2.c5 * Real.sin (arg p.1)))
      have g := term_le (a := (p.2.c3 : ℝ)) (b := p.2.c4) (c := p.2.c5) ht hc hs
      linarith

theorem cls_sums : clsSum (NALS.zip CLS).reverse = (194737717, 100861010) := by decide +kernel

/-- **C41.** Within one Julian century of J2000.0 the nutation in longitude is below 19.5 arcsec and the
nutation in obliquity below 10.1 arcsec (`AS2R` radians each). -/
theorem C41_nutation_bounded (a b : ℝ) (h : |a + b - 2451545| ≤ 36525) :
    |(nutation (a, b)).1| < 19.5 * AS2R ∧ |(nutation (a, b)).2| < 10.1 * AS2R := by
  have ht : |centuries (a, b)| ≤ 1 := by
    rw [centuries_real, abs_div, abs_of_pos (show (0 : ℝ) < 36525 by norm_num), div_le_one (by norm_num)]
    exact h
  obtain ⟨arg, he⟩ := nutation_step (a, b)
  rw [he]
  obtain ⟨h1, h2⟩ := nut_fold arg (centuries (a, b)) ht (NALS.zip CLS).reverse (lit 0, lit 0)
  generalize (NALS.zip CLS).reverse.foldl (nutStep arg (centuries (a, b))) (lit 0, lit 0) = P at *
  rw [cls_sums] at h1 h2
  simp only [lit_real, Rat.cast_zero, abs_zero, zero_add] at h1 h2
  have hU : (U2R : ℝ) = AS2R / 10000000 := by
    unfold U2R; simp only [lit_real, div_real]; norm_num
  have hP : (DPPLAN : ℝ) = -0.135 * (AS2R / 1000) := by
    unfold DPPLAN MAS2R; simp only [lit_real, div_real, mul_real, neg_real]; norm_num
  have hE : (DEPLAN : ℝ) = 0.388 * (AS2R / 1000) := by
    unfold DEPLAN MAS2R; simp only [lit_real, div_real, mul_real]; norm_num
  have hA : (0 : ℝ) < AS2R := by unfold AS2R; norm_num
  rw [abs_le] at h1 h2
  constructor
  · simp only [add_real, mul_real, hU, hP]
    generalize (AS2R : ℝ) = A at *
    rw [abs_lt]
    constructor <;> norm_num at h1 ⊢ <;> nlinarith [h1.1, h1.2]
  · simp only [add_real, mul_real, hU, hE]
    generalize (AS2R : ℝ) = A at *
    rw [abs_lt]
    constructor <;> norm_num at h2 ⊢ <;> nlinarith [h2.1, h2.2]

/-- 2024-03-20. -/
example : |(2400000.5 + 60389 : ℝ) - 2451545| ≤ 36525 ∧ |(nutation ((2400000.5, 60389) : ℝ × ℝ)).1| < 19.5 * AS2R := by
  have h : |(2400000.5 + 60389 : ℝ) - 2451545| ≤ 36525 := by rw [abs_le]; norm_num
  exact ⟨h, (C41_nutation_bounded _ _ h).1⟩

/-! ## C39: the pole stays near the axis for two centuries -/

/-- The chord between the third axis and its image: `2 - 2 m33` is the squared chord. -/
noncomputable def chord (m : Mat3 ℝ) : ℝ := Real.sqrt (2 - 2 * m.get 2 2)

theorem row_unit {m : Mat3 ℝ} (h : IsRotation m) :
    m.get 2 0 ^ 2 + m.get 2 1 ^ 2 + m.get 2 2 ^ 2 = 1 := by
  have := congrFun (congrFun ((isRotation_iff _).mp h).1 2) 2
  rw [Matrix.mul_apply, Fin.sum_univ_three] at this
  simp only [Matrix.transpose_apply, Mat3.toMatrix_apply, Matrix.one_apply_eq] at this
  linarith

theorem col_unit {m : Mat3 ℝ} (h : IsRotation m) :
    m.get 0 2 ^ 2 + m.get 1 2 ^ 2 + m.get 2 2 ^ 2 = 1 := by
  have := row_unit h.transpose
  simpa only [Mat3.transpose, Mat3.get_ofFn] using this

theorem chord_arg_nonneg {m : Mat3 ℝ} (h : IsRotation m) : 0 ≤ 2 - 2 * m.get 2 2 := by
  have := row_unit h
  nlinarith [sq_nonneg (m.get 2 0), sq_nonneg (m.get 2 1)]

/-- Triangle inequality for chords of unit vectors. -/
theorem chord_compose {a b : Mat3 ℝ} (ha : IsRotation a) (hb : IsRotation b) :
    chord (a.compose b) ≤ chord a + chord b := by
  unfold chord
  have e : (a.compose b).get 2 2 = a.get 2 0 * b.get 0 2 + a.get 2 1 * b.get 1 2 + a.get 2 2 * b.get 2 2 := by
    rw [← Mat3.toMatrix_apply, Mat3.toMatrix_compose, Matrix.mul_apply, Fin.sum_univ_three]
    simp only [Mat3.toMatrix_apply]
  rw [e]
  have ua := row_unit ha
  have ub := col_unit hb
  have na := chord_arg_nonneg ha
  have nb := chord_arg_nonneg hb
  set p := a.get 2 0
  set q := a.get 2 1
  set r := a.get 2 2
  set x := b.get 0 2
  set y := b.get 1 2
  set z := b.get 2 2
  have sa := Real.sq_sqrt na
  have sb := Real.sq_sqrt nb
  have pa := Real.sqrt_nonneg (2 - 2 * r)
  have pb := Real.sqrt_nonneg (2 - 2 * z)
  apply Real.sqrt_le_iff.mpr
  refine ⟨by positivity, ?_⟩
  -- Cauchy-Schwarz for (p, q, r - 1) and (x, y, z - 1)
  have cs : -(p * x + q * y + (r - 1) * (z - 1)) ≤ Real.sqrt (2 - 2 * r) * Real.sqrt (2 - 2 * z) := by
    rw [← Real.sqrt_mul na]
    refine Real.le_sqrt_of_sq_le ?_
    have h1 : 2 - 2 * r = p ^ 2 + q ^ 2 + (r - 1) ^ 2 := by linarith
    have h2 : 2 - 2 * z = x ^ 2 + y ^ 2 + (z - 1) ^ 2 := by linarith
    rw [h1, h2]
    nlinarith [sq_nonneg (p * y - q * x), sq_nonneg (p * (z - 1) - (r - 1) * x),
      sq_nonneg (q * (z - 1) - (r - 1) * y)]
  nlinarith

theorem rotation_33 (axis : Fin 3) (t : ℝ) : (Mat3.rotation axis t).get 2 2 =
    if axis = 2 then 1 else Real.cos t := by
  rw [← Mat3.toMatrix_apply, Mat3.toMatrix_rotation]
  fin_cases axis <;> simp

theorem two_sub_cos (t : ℝ) : 2 - 2 * Real.cos t ≤ t ^ 2 := by
  have := Real.one_sub_sq_div_two_le_cos (x := t)
  linarith

theorem chord_rotation (axis : Fin 3) (t : ℝ) : chord (Mat3.rotation axis t) ≤ |t| := by
  unfold chord
  rw [rotation_33]
  refine Real.sqrt_le_iff.mpr ⟨abs_nonneg _, ?_⟩
  rw [sq_abs]
  split
  · nlinarith [sq_nonneg t]
  · exact two_sub_cos t

theorem chord_rotation_z (t : ℝ) : chord (Mat3.rotation 2 t) = 0 := by
  unfold chord
  rw [rotation_33]; simp

theorem chord_identity : chord Mat3.identity = 0 := by
  unfold chord
  rw [← Mat3.toMatrix_apply, Mat3.toMatrix_identity]; simp

theorem compose_assoc (a b c : Mat3 ℝ) : (a.compose b).compose c = a.compose (b.compose c) := by
  apply Mat3.toMatrix_injective
  simp only [Mat3.toMatrix_compose, Matrix.mul_assoc]

/-- `R1(-w) R3(-p) R1(e)`: a tilt by at most `|p| + |e - w|`. -/
theorem chord_conj (w p e : ℝ) : chord (((Mat3.rotation 0 (-w)).compose (Mat3.rotation 2 (-p))).compose
    (Mat3.rotation 0 e)) ≤ |p| + |e - w| := by
  have hadd : (Mat3.rotation 0 e : Mat3 ℝ) = (Mat3.rotation 0 w).compose (Mat3.rotation 0 (e - w)) := by
    apply Mat3.toMatrix_injective
    rw [Mat3.toMatrix_compose, Mat3.toMatrix_rotation, Mat3.toMatrix_rotation, Mat3.toMatrix_rotation]
    have hc : Real.cos e = Real.cos w * Real.cos (e - w) - Real.sin w * Real.sin (e - w) := by
      rw [← Real.cos_add]; congr 1; ring
    have hs : Real.sin e = Real.sin w * Real.cos (e - w) + Real.cos w * Real.sin (e - w) := by
      rw [← Real.sin_add]; congr 1; ring
    ext i j
    fin_cases i <;> fin_cases j <;>
      simp [Matrix.mul_apply, Fin.sum_univ_three, hc, hs] <;> ring
  rw [hadd, ← compose_assoc]
  have r1 : IsRotation (((Mat3.rotation 0 (-w)).compose (Mat3.rotation 2 (-p))).compose
      (Mat3.rotation 0 w) : Mat3 ℝ) :=
    ((IsRotation.rotation _ _).compose (.rotation _ _)).compose (.rotation _ _)
  refine (chord_compose r1 (.rotation _ _)).trans (add_le_add ?_ (chord_rotation _ _))
  unfold chord
  refine Real.sqrt_le_iff.mpr ⟨abs_nonneg _, ?_⟩
  rw [sq_abs, ← Mat3.toMatrix_apply, Mat3.toMatrix_compose, Mat3.toMatrix_compose, Mat3.toMatrix_rotation,
    Mat3.toMatrix_rotation, Mat3.toMatrix_rotation]
  simp only [Matrix.mul_apply, Fin.sum_univ_three]
  simp
  have h1 := two_sub_cos p
  have h2 := Real.sin_sq_add_cos_sq w
  have h3 := Real.cos_le_one p
  nlinarith [sq_nonneg (Real.sin w), sq_nonneg (Real.cos w)]

theorem EPS0_real : (EPS0 : ℝ) = 84381.448 * AS2R := by
  unfold EPS0; simp only [lit_real, mul_real]; norm_num

theorem horner1 {a b t A B : ℝ} (ht : |t| ≤ 1) (ha : |a| ≤ A) (hb : |b| ≤ B) : |a + b * t| ≤ A + B := by
  refine (abs_add_le _ _).trans (add_le_add ha ?_)
  rw [abs_mul]
  exact (mul_le_of_le_one_right (abs_nonneg _) ht).trans hb

/-- The tilt of the bias-precession-nutation matrix within a century of J2000.0. -/
theorem chord_bpn (a b : ℝ) (h : |a + b - 2451545| ≤ 36525) : chord (precessionNutation (a, b)) ≤ 0.025 := by
  have ht : |centuries (a, b)| ≤ 1 := by
    rw [centuries_real, abs_div, abs_of_pos (show (0 : ℝ) < 36525 by norm_num), div_le_one (by norm_num)]
    exact h
  have hn := C41_nutation_bounded a b h
  have hA : (AS2R : ℝ) = 4.848136811095359935899141e-6 := by unfold AS2R; norm_num
  obtain ⟨rb1, rp1, rbp1⟩ := C38_bias_and_precession (a, b)
  -- bias
  have hb : chord (biasAndPrecession (a, b)).1 ≤ 0.000001 := by
    unfold biasAndPrecession
    simp only [identity_compose]
    refine (chord_compose ((IsRotation.rotation _ _).compose (.rotation _ _)) (.rotation _ _)).trans ?_
    rw [chord_rotation_z, add_zero]
    refine (chord_compose (.rotation _ _) (.rotation _ _)).trans ?_
    refine (add_le_add (chord_rotation _ _) (chord_rotation _ _)).trans ?_
    simp only [frameBias, neg_real, mul_real, lit_real, sin_real, hA]
    rw [abs_neg, abs_mul (_ * _) (Real.sin _)]
    have := Real.abs_sin_le_one (EPS0 : ℝ)
    have h1 : |(((-0.041775 : ℚ) : ℝ) * 4.848136811095359935899141e-6)| ≤ 0.0000003 := by
      norm_num [abs_le]
    have h2 : |(((-0.0068192 : ℚ) : ℝ) * 4.848136811095359935899141e-6)| ≤ 0.0000003 := by
      norm_num [abs_le]
    nlinarith [abs_nonneg (Real.sin (EPS0 : ℝ)),
      abs_nonneg (((-0.041775 : ℚ) : ℝ) * 4.848136811095359935899141e-6)]
  -- precession
  have hp : chord (biasAndPrecession (a, b)).2.1 ≤ 0.0246 := by
    unfold biasAndPrecession precessionRate
    simp only [identity_compose, neg_real]
    rw [compose_assoc, compose_assoc, ← compose_assoc (Mat3.rotation 0 _)]
    refine (chord_compose (.rotation _ _) (((IsRotation.rotation _ _).compose (.rotation _ _)).compose
      (.rotation _ _))).trans ?_
    rw [chord_rotation_z, zero_add]
    refine (chord_conj _ _ _).trans ?_
    generalize centuries (a, b) = t at *
    simp only [mul_real, add_real, lit_real, hA, EPS0_real]
    push_cast
    have p1 := horner1 ht (show |(-1.07259 : ℝ)| ≤ 1.07259 by norm_num [abs_le])
      (show |(-0.001147 : ℝ)| ≤ 0.001147 by norm_num [abs_le])
    have p2 := horner1 ht (show |(5038.7784 : ℝ)| ≤ 5038.7784 by norm_num [abs_le]) p1
    have p3 : |(5038.7784 + (-1.07259 + -0.001147 * t) * t) * t| ≤ 5039.853 := by
      rw [abs_mul]; exact (mul_le_of_le_one_right (abs_nonneg _) ht).trans (p2.trans (by norm_num))
    have q1 := horner1 ht (show |(0.05127 : ℝ)| ≤ 0.05127 by norm_num [abs_le])
      (show |(-0.007726 : ℝ)| ≤ 0.007726 by norm_num [abs_le])
    have q3 : |(0.05127 + -0.007726 * t) * t * t| ≤ 0.06 := by
      rw [abs_mul, abs_mul]
      exact (mul_le_of_le_one_right (by positivity) ht).trans
        ((mul_le_of_le_one_right (abs_nonneg _) ht).trans (q1.trans (by norm_num)))
    rw [abs_le] at p3 q3 ht
    have k1 : |(5038.7784 + (-1.07259 + -0.001147 * t) * t) * t * 4.848136811095359935899141e-6
        + -0.29965 * 4.848136811095359935899141e-6 * t| ≤ 0.024436 := by
      rw [abs_le]; constructor <;> norm_num at p3 ⊢ <;> linarith [p3.1, p3.2, ht.1, ht.2]
    have k2 : |84381.448 * 4.848136811095359935899141e-6 - (84381.448 * 4.848136811095359935899141e-6
        + (0.05127 + -0.007726 * t) * t * t * 4.848136811095359935899141e-6
        + -0.02524 * 4.848136811095359935899141e-6 * t)| ≤ 0.000001 := by
      rw [abs_le]; constructor <;> norm_num at q3 ⊢ <;> linarith [q3.1, q3.2, ht.1, ht.2]
    refine (add_le_add k1 k2).trans (by norm_num)
  -- nutation
  have hnut : ∀ e : ℝ, chord (nutationMatrix e (nutation (a, b)).1 (nutation (a, b)).2) ≤ 0.00015 := by
    intro e
    unfold nutationMatrix
    simp only [identity_compose, neg_real, add_real]
    refine (chord_conj _ _ _).trans ?_
    rw [show e - (e + (nutation (a, b)).2) = -(nutation (a, b)).2 by ring, abs_neg]
    rw [hA] at hn
    refine (add_le_add hn.1.le hn.2.le).trans (by norm_num)
  have e : precessionNutation (a, b) = (nutationMatrix (meanObliquity (a, b) +. (precessionRate (a, b)).2)
      (nutation (a, b)).1 (nutation (a, b)).2).compose
      ((biasAndPrecession (a, b)).2.1.compose (biasAndPrecession (a, b)).1) := rfl
  rw [e]
  refine (chord_compose (C38_nutation_matrix _ _ _) (rp1.compose rb1)).trans ?_
  refine (add_le_add (hnut _) ((chord_compose rp1 rb1).trans (add_le_add hp hb))).trans ?_
  norm_num

/-- **C39.** For every date within a Julian century of J2000.0 the pole of `precession_nutation` is within
0.025 (chord) of the z axis and `celestial_to_intermediate` has exactly that pole as its third row. -/
theorem C39_within_century (a b : ℝ) (h : |a + b - 2451545| ≤ 36525) :
    (celestialToIntermediate (a, b)).r2 = (precessionNutation (a, b)).r2 ∧
    (precessionNutation (a, b)).r2.x ^ 2 + (precessionNutation (a, b)).r2.y ^ 2 ≤ 0.025 ^ 2 := by
  have hr := (C38_precession_nutation (a, b) 0 0).2.2.2.2.2
  have hc := chord_bpn a b h
  unfold chord at hc
  rw [Real.sqrt_le_iff] at hc
  have hz : (precessionNutation (a, b)).get 2 2 = (precessionNutation (a, b)).r2.z := rfl
  have hu := row_unit hr
  rw [hz] at hc hu
  have hx : (precessionNutation (a, b)).get 2 0 = (precessionNutation (a, b)).r2.x := rfl
  have hy : (precessionNutation (a, b)).get 2 1 = (precessionNutation (a, b)).r2.y := rfl
  rw [hx, hy] at hu
  have h33 : 0 < (precessionNutation (a, b)).r2.z := by
    norm_num at hc
    linarith [hc]
  refine ⟨C39_celestial_to_intermediate _ h33, ?_⟩
  nlinarith [hc.2, sq_nonneg ((precessionNutation (a, b)).r2.x), sq_nonneg ((precessionNutation (a, b)).r2.y),
    sq_nonneg ((precessionNutation (a, b)).r2.z - 1)]

/-- 1950-01-01. -/
example : |(2400000.5 + 33282 : ℝ) - 2451545| ≤ 36525 := by rw [abs_le]; norm_num

/-! ## C42 -/

/-- **C42.** Every quantity depends only on the date, not on how it is split into two parts. -/
theorem C42_split_independent (a b a' b' : ℝ) (h : a + b = a' + b') :
    nutation (a, b) = nutation (a', b') ∧
    precessionRate (a, b) = precessionRate (a', b') ∧
    meanObliquity (a, b) = meanObliquity (a', b') ∧
    biasAndPrecession (a, b) = biasAndPrecession (a', b') ∧
    precessionNutation (a, b) = precessionNutation (a', b') ∧
    (∀ x y : ℝ, cio (a, b) x y = cio (a', b') x y) ∧
    celestialToIntermediate (a, b) = celestialToIntermediate (a', b') ∧
    (∀ (u v u' v' xp yp : ℝ), u + v = u' + v' →
      celestialToTerrestrial (a, b) (u, v) xp yp = celestialToTerrestrial (a', b') (u', v') xp yp) := by
  have hc : centuries (a, b) = centuries (a', b') := by
    rw [centuries_real, centuries_real]; simp only [h]
  have hc' : ((a -. DJ00) +. b) /. DJC = ((a' -. DJ00) +. b') /. DJC := hc
  have h1 : nutation (a, b) = nutation (a', b') := by unfold nutation; rw [hc]
  have h2 : precessionRate (a, b) = precessionRate (a', b') := by unfold precessionRate; rw [hc]
  have h3 : meanObliquity (a, b) = meanObliquity (a', b') := by unfold meanObliquity; rw [hc]
  have h4 : biasAndPrecession (a, b) = biasAndPrecession (a', b') := by
    unfold biasAndPrecession; rw [hc, h2]
  have h5 : precessionNutation (a, b) = precessionNutation (a', b') := by
    unfold precessionNutation PrecessionNutation.fromTT PrecessionNutation.fromTTWithNutation
    rw [h1, h2, h3, h4]
  have h6 : ∀ x y : ℝ, cio (a, b) x y = cio (a', b') x y := by
    intro x y; unfold cio; simp only [hc']
  have h7 : celestialToIntermediate (a, b) = celestialToIntermediate (a', b') := by
    unfold celestialToIntermediate celestialToIntermediateBpn celestialToIntermediateXY
    simp only [h5, h6]
  refine ⟨h1, h2, h3, h4, h5, h6, h7, ?_⟩
  intro u v u' v' xp yp huv
  unfold celestialToTerrestrial
  rw [h7, C32_split_independent u v u' v' huv]

example : nutation ((2451545 : ℝ), 0.25) = nutation ((2400000.5 : ℝ), 51544.75) :=
  (C42_split_independent _ _ _ _ (by norm_num)).1

/-! ## C43 -/

/-- **C43.** Celestial to terrestrial: polar motion times Earth rotation times celestial-to-intermediate. -/
theorem C43_product (tt ut1 : ℝ × ℝ) (xp yp : ℝ) :
    (celestialToTerrestrial tt ut1 xp yp).toMatrix =
      (polarMotionMatrix xp yp 0).toMatrix *
        !![Real.cos (rotationAngle ut1), Real.sin (rotationAngle ut1), 0;
           -Real.sin (rotationAngle ut1), Real.cos (rotationAngle ut1), 0; 0, 0, 1] *
        (celestialToIntermediate tt).toMatrix := by
  unfold celestialToTerrestrial celestialToTerrestrialFromCio
  simp only
  rw [Mat3.toMatrix_compose, Mat3.toMatrix_compose, Mat3.toMatrix_rotation, Matrix.mul_assoc]
  simp only [lit_real, Rat.cast_zero]

/-- **C43.** The polar motion matrix written out as a product of elementary rotations about the y and x axes
(`s' = 0`); it is the identity when there is no polar motion. -/
theorem C43_polar_motion (xp yp : ℝ) :
    (polarMotionMatrix xp yp 0).toMatrix =
      !![1, 0, 0; 0, Real.cos yp, -Real.sin yp; 0, Real.sin yp, Real.cos yp] *
      !![Real.cos xp, 0, Real.sin xp; 0, 1, 0; -Real.sin xp, 0, Real.cos xp] ∧
    (polarMotionMatrix 0 0 0 : Mat3 ℝ) = Mat3.identity := by
  constructor
  · unfold polarMotionMatrix
    simp only [neg_real]
    rw [rotation_zero, compose_identity, identity_compose, Mat3.toMatrix_compose, Mat3.toMatrix_rotation,
      Mat3.toMatrix_rotation]
    simp
  · unfold polarMotionMatrix
    simp only [neg_real, neg_zero, rotation_zero, identity_compose]

/-- **C43.** A whole number of Earth rotations later the matrix is the same. -/
theorem C43_period (tt : ℝ × ℝ) (a b xp yp : ℝ) (n : ℤ) :
    celestialToTerrestrial tt (a, b + n / 1.00273781191135448) xp yp
      = celestialToTerrestrial tt (a, b) xp yp := by
  unfold celestialToTerrestrial
  rw [C32_period]

/-! ## C44 -/

/-- Sum of the magnitudes of the coefficients. -/
def ssSum : List (List ℤ × (ℤ × ℤ)) → ℤ
  | [] => 0
  | p :: L => |p.2.1| + |p.2.2| + ssSum L

theorem sCoef_fold (fa : List ℝ) (L : List (List ℤ × (ℤ × ℤ))) (acc : ℝ) :
    |L.foldl (fun s p =>
      let a := argument p.1 fa
      s +. (micro p.2.1 *. Libm.sin a +. micro p.2.2 *. Libm.cos a)) acc| ≤ |acc| + ssSum L / 10 ^ 8 := by
  induction L generalizing acc with
  | nil => simp [ssSum]
  | cons p L ih =>
    simp only [List.foldl_cons]
    refine (ih _).trans ?_
    have hs := Real.abs_sin_le_one (argument p.1 fa)
    have hc := Real.abs_cos_le_one (argument p.1 fa)
    simp only [micro, lit_real, add_real, mul_real, sin_real, cos_real, ssSum]
    push_cast
    have g := (abs_add_le acc ((p.2.1 : ℝ) / 100000000 * Real.sin (argument p.1 fa)
        + p.2.2 / 100000000 * Real.cos (argument p.1 fa)))
    have g2 := (abs_add_le ((p.2.1 : ℝ) / 100000000 * Real.sin (argument p.1 fa))
        (p.2.2 / 100000000 * Real.cos (argument p.1 fa)))
    rw [abs_mul, abs_mul, abs_div, abs_div, abs_of_pos (show (0 : ℝ) < 100000000 by norm_num)] at g2
    have m1 : |(p.2.1 : ℝ)| / 100000000 * |Real.sin (argument p.1 fa)| ≤ |(p.2.1 : ℝ)| / 100000000 :=
      mul_le_of_le_one_right (by positivity) hs
    have m2 : |(p.2.2 : ℝ)| / 100000000 * |Real.cos (argument p.1 fa)| ≤ |(p.2.2 : ℝ)| / 100000000 :=
      mul_le_of_le_one_right (by positivity) hc
    linarith

theorem sCoef_le (fa : List ℝ) (sp : ℤ) (ks : List (List ℤ)) (ss : List (ℤ × ℤ)) (N : ℤ)
    (h : |sp| + ssSum (ks.zip ss).reverse = N) : |sCoef fa sp ks ss| ≤ N / 10 ^ 8 := by
  unfold sCoef
  refine (sCoef_fold fa _ _).trans ?_
  rw [← h]
  simp only [micro, lit_real]
  push_cast
  rw [abs_div, abs_of_pos (show (0 : ℝ) < 100000000 by norm_num)]
  linarith

theorem ss_sums : |(9400 : ℤ)| + ssSum (KS0.zip SS0).reverse = 284055 ∧
    |(380835 : ℤ)| + ssSum (KS1.zip SS1).reverse = 381421 ∧
    |(-11994 : ℤ)| + ssSum (KS2.zip SS2).reverse = 95905 ∧
    |(-7257409 : ℤ)| + ssSum (KS3.zip SS3).reverse = 7259979 ∧
    |(2770 : ℤ)| + ssSum (KS4.zip SS4).reverse = 2797 := by decide +kernel

/-- **C44.** The locator plus `xy/2` does not depend on the pole coordinates, and within a Julian century of
J2000.0 its magnitude is below 0.081 arcsec. -/
theorem C44_cio (a b : ℝ) : ∃ S : ℝ, (∀ x y : ℝ, cio (a, b) x y + x * y / 2 = S) ∧
    (|a + b - 2451545| ≤ 36525 → |S| < 0.081 * AS2R) := by
  refine ⟨cio (a, b) 0 0, ?_, ?_⟩
  · intro x y
    unfold cio
    simp only [sub_real, mul_real, div_real, lit_real]
    push_cast
    ring
  · intro h
    have ht : |((a -. DJ00) +. b) /. DJC| ≤ (1 : ℝ) := by
      have := centuries_real (a, b)
      unfold centuries at this
      rw [this, abs_div, abs_of_pos (show (0 : ℝ) < 36525 by norm_num), div_le_one (by norm_num)]
      exact h
    obtain ⟨n0, n1, n2, n3, n4⟩ := ss_sums
    unfold cio
    simp only
    generalize ((a -. DJ00) +. b) /. DJC = t at *
    have g0 := sCoef_le (fundArgs t) _ _ _ _ n0
    have g1 := sCoef_le (fundArgs t) _ _ _ _ n1
    have g2 := sCoef_le (fundArgs t) _ _ _ _ n2
    have g3 := sCoef_le (fundArgs t) _ _ _ _ n3
    have g4 := sCoef_le (fundArgs t) _ _ _ _ n4
    have g5 : |(micro 1561 : ℝ)| ≤ 1561 / 10 ^ 8 := by
      unfold micro; simp only [lit_real]; norm_num
    have hA : (0 : ℝ) < AS2R := by unfold AS2R; norm_num
    have H := horner1 ht g0 (horner1 ht g1 (horner1 ht g2 (horner1 ht g3 (horner1 ht g4 g5))))
    simp only [sub_real, add_real, mul_real, div_real, mul_zero, zero_div, sub_zero]
    rw [abs_mul, abs_of_pos hA]
    refine mul_lt_mul_of_pos_right (H.trans_lt ?_) hA
    norm_num

example : |(2451545 : ℝ) + 3652.5 - 2451545| ≤ 36525 := by norm_num

end Verif
