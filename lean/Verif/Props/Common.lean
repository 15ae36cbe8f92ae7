import Verif.Lemmas.Mat3
import Verif.Lemmas.SplitF64
import Verif.Float.Near
import Mathlib.Analysis.SpecialFunctions.Trigonometric.Inverse

/-!
# `common.rs`: C26 - C30
-/

namespace Verif
open Arith F64

/-! ## C26: `anp` -/

theorem two_pi_pos : (0 : ℝ) < TWO_PI := by unfold TWO_PI; norm_num

/-- The model's `anp` over the reals. -/
theorem anp_real (a : ℝ) : anp a = if a %. TWO_PI < 0 then a %. TWO_PI + TWO_PI else a %. TWO_PI := by
  unfold anp
  by_cases h : a %. TWO_PI < 0 <;> simp [h]

/-- **C26.** In exact arithmetic `anp(a)` is in `[0, TWO_PI)` and differs from `a` by a whole number of
turns. -/
theorem C26_anp_exact (a : ℝ) :
    0 ≤ anp a ∧ anp a < TWO_PI ∧ ∃ k : ℤ, a = anp a + k * TWO_PI := by
  have hp := two_pi_pos
  obtain ⟨h1, h2, h3⟩ := rem_real_bound a TWO_PI hp
  rw [abs_lt] at h1
  have e : a %. TWO_PI = a - TWO_PI * truncR (a / TWO_PI) := rem_real _ _
  rw [anp_real]
  split
  · rename_i h
    refine ⟨by linarith, by linarith, truncR (a / TWO_PI) - 1, ?_⟩
    rw [e]; push_cast; ring
  · rename_i h
    refine ⟨not_lt.mp h, h1.2, truncR (a / TWO_PI), ?_⟩
    rw [e]; ring

/-- The reduced angle is unique. -/
theorem turn_unique {x y T : ℝ} (h0 : 0 ≤ x) (h1 : x < T) (h2 : 0 ≤ y) (h3 : y < T) (k : ℤ)
    (h : x = y + k * T) : x = y := by
  have hT : 0 < T := h0.trans_lt h1
  have hk : k = 0 := by
    by_contra hk
    rcases lt_or_gt_of_ne hk with hk | hk
    · have : (k : ℝ) ≤ -1 := by exact_mod_cast Int.le_sub_one_of_lt hk
      nlinarith
    · have : (1 : ℝ) ≤ k := by exact_mod_cast hk
      nlinarith
  rw [h, hk]; simp

/-- **C26.** `anp` is the only such value: any `r` in `[0, TWO_PI)` congruent to `a` is `anp a`. -/
theorem C26_anp_unique (a r : ℝ) (h0 : 0 ≤ r) (h1 : r < TWO_PI) (k : ℤ) (h : a = r + k * TWO_PI) :
    anp a = r := by
  obtain ⟨g0, g1, k', e⟩ := C26_anp_exact a
  refine turn_unique g0 g1 h0 h1 (k - k') ?_
  push_cast
  linarith

/-- **C26.** `anp` is idempotent and invariant under adding whole turns. -/
theorem C26_anp_idempotent (a : ℝ) (k : ℤ) : anp (anp a) = anp a ∧ anp (a + k * TWO_PI) = anp a := by
  obtain ⟨g0, g1, k', e⟩ := C26_anp_exact a
  refine ⟨C26_anp_unique _ _ g0 g1 0 (by simp), C26_anp_unique _ _ g0 g1 (k' + k) ?_⟩
  push_cast
  linarith

example : anp (-1 : ℝ) = TWO_PI - 1 := by
  refine C26_anp_unique _ _ ?_ ?_ (-1) ?_
  · unfold TWO_PI; norm_num
  · linarith
  · push_cast; ring

theorem two_pi_is : ∃ t : ℚ, Is (TWO_PI : F64) t ∧ 6 < t ∧ t < 7 := by
  refine ⟨_, Is.lit _ (small_le_HUGE (by norm_num)), ?_, ?_⟩
  · have := RN_err_le (x := 6.283185307179586476925287) (M := 7) (by norm_num)
    rw [abs_le] at this
    have h := this.1
    norm_num at h ⊢
    linarith
  · have := RN_err_le (x := 6.283185307179586476925287) (M := 7) (by norm_num)
    rw [abs_le] at this
    have h := this.2
    norm_num at h ⊢
    linarith

/-- Truncated remainder over the rationals. -/
theorem remQ_bound (a b : ℚ) (hb : 0 < b) : |a - b * truncQ (a / b)| < b ∧
    (0 ≤ a → 0 ≤ a - b * truncQ (a / b)) ∧ (a ≤ 0 → a - b * truncQ (a / b) ≤ 0) := by
  obtain ⟨h1, h2, h3⟩ := truncQ_spec (a / b)
  have e : a - b * truncQ (a / b) = b * (a / b - truncQ (a / b)) := by field_simp
  rw [e]
  refine ⟨?_, fun h => ?_, fun h => ?_⟩
  · rw [abs_mul, abs_of_pos hb]; nlinarith
  · exact mul_nonneg hb.le (h2 (by positivity))
  · exact mul_nonpos_of_nonneg_of_nonpos hb.le (h3 (div_nonpos_of_nonpos_of_nonneg h hb.le))

/-- **C26.** In `f64`, for every finite argument: the result is finite, in the *closed* interval
`[0, TWO_PI]`, and within `2^-50` of a number congruent to the argument modulo the `f64` `TWO_PI`. -/
theorem C26_anp_f64_partial (x : F64) (a : ℚ) (hx : Is x a) :
    ∃ r t : ℚ, Is (anp x) r ∧ Is (TWO_PI : F64) t ∧ 0 ≤ r ∧ r ≤ t ∧
      ∃ k : ℤ, |r - (a - k * t)| ≤ 1 / 2 ^ 50 := by
  obtain ⟨t, ht, t1, t2⟩ := two_pi_is
  have tp : (0 : ℚ) < t := by linarith
  have hr := hx.rem ht tp.ne'
  obtain ⟨b1, b2, b3⟩ := remQ_bound a t tp
  have hz : Is (lit 0 : F64) 0 := by
    have := Is.lit_int 0 (by norm_num); push_cast at this; exact this
  set w := a - t * truncQ (a / t) with hw
  rw [abs_lt] at b1
  unfold anp
  simp only
  by_cases h : w < 0
  · rw [if_pos ((hr.lt hz).trans (by simpa using h))]
    have hs : |w + t| ≤ 7 := by rw [abs_of_nonneg (by linarith)]; linarith
    have hh : |w + t| ≤ HUGE := small_le_HUGE (hs.trans (by norm_num))
    refine ⟨_, t, hr.add ht hh, ht, RN_nonneg (by linarith), RN_le_of_le ht.rep (by linarith),
      truncQ (a / t) - 1, ?_⟩
    have := RN_err_le hs
    have e : a - ((truncQ (a / t) - 1 : ℤ) : ℚ) * t = w + t := by rw [hw]; push_cast; ring
    rw [e]
    exact this.trans (by norm_num)
  · rw [if_neg (by rw [hr.lt hz]; simpa using h)]
    refine ⟨w, t, hr, ht, not_lt.mp h, b1.2.le, truncQ (a / t), ?_⟩
    have e : a - ((truncQ (a / t) : ℤ) : ℚ) * t = w := by rw [hw]; ring
    rw [e]; simp

/-- **C26**, the documented half-open range `[0, 2π[` is false in `f64`: a small negative angle is
mapped to `TWO_PI` itself. -/
theorem C26_anp_half_open_false : anp (lit (-1e-20) : F64) = TWO_PI := by decide +kernel

example : Is (lit (-3) : F64) (-3) := by
  have := Is.lit_int (-3) (by norm_num); push_cast at this; exact this

/-! ## C27: the angle between two vectors -/

section angle

/-- Euclidean length. -/
theorem norm_real (u : Vec3 ℝ) : u.norm = Real.sqrt (u.x ^ 2 + u.y ^ 2 + u.z ^ 2) := by
  unfold Vec3.norm sq; simp [pow_two]

theorem norm_sq_real (u : Vec3 ℝ) : u.norm ^ 2 = u.x ^ 2 + u.y ^ 2 + u.z ^ 2 := by
  rw [norm_real, Real.sq_sqrt (by positivity)]

theorem norm_pos_real {u : Vec3 ℝ} (hu : u ≠ ⟨0, 0, 0⟩) : 0 < u.norm := by
  rw [norm_real]
  apply Real.sqrt_pos.mpr
  by_contra h
  push Not at h
  apply hu
  have h1 := sq_nonneg u.x
  have h2 := sq_nonneg u.y
  have h3 := sq_nonneg u.z
  ext
  · exact pow_eq_zero_iff (two_ne_zero) |>.mp (by linarith)
  · exact pow_eq_zero_iff (two_ne_zero) |>.mp (by linarith)
  · exact pow_eq_zero_iff (two_ne_zero) |>.mp (by linarith)

theorem dot_real (u v : Vec3 ℝ) : u.dot v = u.x * v.x + u.y * v.y + u.z * v.z := by
  unfold Vec3.dot; simp

theorem angle_real (u v : Vec3 ℝ) :
    u.angle v = Real.arccos ((u.x * v.x + u.y * v.y + u.z * v.z) / (u.norm * v.norm)) := by
  unfold Vec3.angle
  rw [dot_real]
  unfold Vec3.normalize Vec3.scale
  simp only [acos_real, lit_real, mul_real, div_real]
  congr 1
  push_cast
  by_cases h1 : u.norm = 0
  · simp [h1]
  · by_cases h2 : v.norm = 0
    · simp [h2]
    · field_simp

theorem dot_abs_le (u v : Vec3 ℝ) : |u.x * v.x + u.y * v.y + u.z * v.z| ≤ u.norm * v.norm := by
  apply abs_le_of_sq_le_sq
  · rw [mul_pow, norm_sq_real, norm_sq_real]
    nlinarith [sq_nonneg (u.x * v.y - u.y * v.x), sq_nonneg (u.x * v.z - u.z * v.x),
      sq_nonneg (u.y * v.z - u.z * v.y)]
  · rw [norm_real, norm_real]; positivity

/-- **C27.** The angle is in `[0, π]` and its cosine times the lengths is the dot product. -/
theorem C27_angle_cos (u v : Vec3 ℝ) (hu : u ≠ ⟨0, 0, 0⟩) (hv : v ≠ ⟨0, 0, 0⟩) :
    0 ≤ u.angle v ∧ u.angle v ≤ Real.pi ∧
      Real.cos (u.angle v) * Real.sqrt (u.x ^ 2 + u.y ^ 2 + u.z ^ 2)
        * Real.sqrt (v.x ^ 2 + v.y ^ 2 + v.z ^ 2) = u.x * v.x + u.y * v.y + u.z * v.z := by
  rw [angle_real]
  refine ⟨Real.arccos_nonneg _, Real.arccos_le_pi _, ?_⟩
  have p1 := norm_pos_real hu
  have p2 := norm_pos_real hv
  have h := abs_le.mp (dot_abs_le u v)
  rw [Real.cos_arccos, ← norm_real, ← norm_real]
  · field_simp
  · rw [le_div_iff₀ (by positivity)]; linarith
  · rw [div_le_iff₀ (by positivity)]; linarith

/-- **C27.** The angle is symmetric. -/
theorem C27_angle_symm (u v : Vec3 ℝ) : u.angle v = v.angle u := by
  rw [angle_real, angle_real, mul_comm u.norm]
  congr 2
  ring

theorem norm_scale (u : Vec3 ℝ) {c : ℝ} (hc : 0 < c) : (u.scale c).norm = c * u.norm := by
  rw [norm_real, norm_real]
  unfold Vec3.scale
  simp only [mul_real]
  rw [show (c * u.x) ^ 2 + (c * u.y) ^ 2 + (c * u.z) ^ 2 = c ^ 2 * (u.x ^ 2 + u.y ^ 2 + u.z ^ 2) by ring,
    Real.sqrt_mul (by positivity), Real.sqrt_sq hc.le]

/-- **C27.** The angle does not change when a vector is multiplied by a positive factor. -/
theorem C27_angle_scale (u v : Vec3 ℝ) (c : ℝ) (hc : 0 < c) :
    Vec3.angle ⟨c * u.x, c * u.y, c * u.z⟩ v = u.angle v ∧
    Vec3.angle u ⟨c * v.x, c * v.y, c * v.z⟩ = u.angle v := by
  have key : ∀ u v : Vec3 ℝ, Vec3.angle ⟨c * u.x, c * u.y, c * u.z⟩ v = u.angle v := by
    intro u v
    have := norm_scale u hc
    unfold Vec3.scale at this
    simp only [mul_real] at this
    rw [angle_real, angle_real, this]
    congr 1
    simp only
    rw [show c * u.x * v.x + c * u.y * v.y + c * u.z * v.z = c * (u.x * v.x + u.y * v.y + u.z * v.z) by
      ring, mul_assoc, mul_div_mul_left _ _ hc.ne']
  exact ⟨key u v, by rw [C27_angle_symm, key, C27_angle_symm]⟩

/-- **C27.** A non-zero vector makes the angle 0 with itself and π with its opposite. -/
theorem C27_angle_self (u : Vec3 ℝ) (hu : u ≠ ⟨0, 0, 0⟩) :
    u.angle u = 0 ∧ u.angle u.neg = Real.pi := by
  have p1 := norm_pos_real hu
  have e : u.neg.norm = u.norm := by
    rw [norm_real, norm_real]; unfold Vec3.neg; simp
  have s := norm_sq_real u
  constructor
  · rw [angle_real, show (u.x * u.x + u.y * u.y + u.z * u.z) = u.norm * u.norm by nlinarith,
      div_self (by positivity), Real.arccos_one]
  · rw [angle_real, e]
    have : u.x * u.neg.x + u.y * u.neg.y + u.z * u.neg.z = -(u.norm * u.norm) := by
      unfold Vec3.neg; simp only [neg_real]; nlinarith
    rw [this, neg_div, div_self (by positivity), Real.arccos_neg_one]

example : (⟨3, 0, 4⟩ : Vec3 ℝ) ≠ ⟨0, 0, 0⟩ := by
  intro h; have := congrArg Vec3.x h; norm_num at this

end angle

/-! ## C28 -/

/-- **C28.** In `f64`, for every `acos` that returns NaN on arguments above 1 (as IEEE 754 requires), the
angle of the vector `[1,1,1]` with itself is NaN: its normalised dot product exceeds 1. -/
theorem C28_angle_self_nan [Libm F64] (h : ∀ x : F64, (lit 1 <. x) = true → Libm.acos x = F64.nan) :
    Vec3.angle (⟨lit 1, lit 1, lit 1⟩ : Vec3 F64) ⟨lit 1, lit 1, lit 1⟩ = F64.nan := by
  unfold Vec3.angle
  apply h
  decide +kernel

/-- An `acos` as required exists. -/
example : ∃ f : F64 → F64, ∀ x : F64, (lit 1 <. x) = true → f x = F64.nan :=
  ⟨fun _ => F64.nan, fun _ _ => rfl⟩

/-! ## C29: elementary rotations -/

open Matrix

/-- **C29.** Every elementary rotation is orthogonal with determinant 1. -/
theorem C29_rotation_orthogonal (axis : Fin 3) (t : ℝ) :
    (Mat3.rotation axis t).toMatrix ∈ Matrix.specialOrthogonalGroup (Fin 3) ℝ :=
  IsRotation.rotation axis t

/-- **C29.** It leaves the axis vector fixed. -/
theorem C29_rotation_fixes_axis (axis : Fin 3) (t : ℝ) :
    (Mat3.rotation axis t).toMatrix *ᵥ (fun i => if i = axis then 1 else 0)
      = fun i => if i = axis then 1 else 0 := by
  rw [Mat3.toMatrix_rotation]
  ext i
  fin_cases axis <;> fin_cases i <;> simp [Matrix.mulVec, dotProduct, Fin.sum_univ_three]

/-- **C29.** The rotation by the opposite angle is the transpose. -/
theorem C29_rotation_neg (axis : Fin 3) (t : ℝ) :
    Mat3.rotation axis (-t) = (Mat3.rotation axis t).transpose := by
  apply Mat3.toMatrix_injective
  rw [Mat3.toMatrix_transpose, Mat3.toMatrix_rotation, Mat3.toMatrix_rotation]
  ext i j
  fin_cases axis <;> fin_cases i <;> fin_cases j <;> simp

/-- **C29.** Rotations about one axis add up. -/
theorem C29_rotation_add (axis : Fin 3) (a b : ℝ) :
    (Mat3.rotation axis a).compose (Mat3.rotation axis b) = Mat3.rotation axis (a + b) := by
  apply Mat3.toMatrix_injective
  rw [Mat3.toMatrix_compose, Mat3.toMatrix_rotation, Mat3.toMatrix_rotation, Mat3.toMatrix_rotation]
  have h1 := Real.sin_add a b
  have h2 := Real.cos_add a b
  ext i j
  fin_cases axis <;> fin_cases i <;> fin_cases j <;>
    simp [Matrix.mul_apply, Fin.sum_univ_three, h1, h2] <;> ring

/-- **C29.** Direction of rotation: a positive angle about axis `k` takes component `k+1` of a vector into
`cos` of itself plus `sin` of component `k+2` (the frame, not the vector, turns counterclockwise). -/
theorem C29_rotation_direction (axis : Fin 3) (t : ℝ) (v : Fin 3 → ℝ) :
    ((Mat3.rotation axis t).toMatrix *ᵥ v) (axis + 1)
      = Real.cos t * v (axis + 1) + Real.sin t * v (axis + 2) ∧
    ((Mat3.rotation axis t).toMatrix *ᵥ v) (axis + 2)
      = -Real.sin t * v (axis + 1) + Real.cos t * v (axis + 2) := by
  rw [Mat3.toMatrix_rotation]
  fin_cases axis <;> simp [Matrix.mulVec, dotProduct, Fin.sum_univ_three]; ring_nf; trivial

/-- **C29.** `rotation` panics exactly for an axis of 3 or more. -/
theorem C29_rotation_axis_panics (axis : ℕ) (t : ℝ) :
    (3 ≤ axis ↔ ∃ e, Mat3.rotationU axis t = .error e) ∧
    ∀ h : axis < 3, Mat3.rotationU axis t = .ok (Mat3.rotation ⟨axis, h⟩ t) := by
  unfold Mat3.rotationU
  by_cases h : axis < 3
  · simp [h]
  · simp [h]; omega

/-! ## C30: matrix algebra -/

/-- **C30.** `compose` is the matrix product and `transpose` the transpose. -/
theorem C30_compose_is_product (m n : Mat3 ℝ) :
    (m.compose n).toMatrix = m.toMatrix * n.toMatrix ∧ m.transpose.toMatrix = m.toMatrixᵀ :=
  ⟨Mat3.toMatrix_compose m n, Mat3.toMatrix_transpose m⟩

/-- **C30.** Ring laws. -/
theorem C30_compose_laws (m n k : Mat3 ℝ) :
    (m.compose n).compose k = m.compose (n.compose k) ∧
    Mat3.identity.compose m = m ∧ m.compose Mat3.identity = m ∧
    (m.compose n).transpose = n.transpose.compose m.transpose ∧ m.transpose.transpose = m := by
  refine ⟨?_, ?_, ?_, ?_, ?_⟩ <;> apply Mat3.toMatrix_injective <;>
    simp only [Mat3.toMatrix_compose, Mat3.toMatrix_transpose, Mat3.toMatrix_identity, Matrix.mul_assoc,
      Matrix.one_mul, Matrix.mul_one, Matrix.transpose_mul, Matrix.transpose_transpose]

/-- **C30.** `apply` multiplies by the transposed matrix; `transpose().apply` by the matrix itself. -/
theorem C30_apply_is_transposed_product (m : Mat3 ℝ) (x : Vec3 ℝ) :
    (m.apply x).toVec = m.toMatrixᵀ *ᵥ x.toVec ∧ (m.transpose.apply x).toVec = m.toMatrix *ᵥ x.toVec := by
  refine ⟨Mat3.toVec_apply m x, ?_⟩
  rw [Mat3.toVec_apply, Mat3.toMatrix_transpose, Matrix.transpose_transpose]

/-- **C30.** Consequently `compose` applies its left factor first. -/
theorem C30_apply_compose (m n : Mat3 ℝ) (x : Vec3 ℝ) :
    (m.compose n).apply x = n.apply (m.apply x) := by
  apply Vec3.toVec_injective
  rw [Mat3.toVec_apply, Mat3.toVec_apply, Mat3.toVec_apply, Mat3.toMatrix_compose, Matrix.transpose_mul,
    Matrix.mulVec_mulVec]

/-- **C30.** Reading `apply` as the product `M x` is wrong. -/
theorem C30_apply_not_product : ¬ ∀ (m : Mat3 ℝ) (x : Vec3 ℝ), (m.apply x).toVec = m.toMatrix *ᵥ x.toVec := by
  intro h
  have := congrFun (h ⟨⟨0, 1, 0⟩, ⟨0, 0, 0⟩, ⟨0, 0, 0⟩⟩ ⟨1, 0, 0⟩) 1
  simp [Mat3.apply, Vec3.toVec, Mat3.toMatrix, Matrix.mulVec, dotProduct, Fin.sum_univ_three] at this

/-- **C30.** For a rotation, `apply` preserves lengths and undoes `transpose().apply`. -/
theorem C30_apply_rotation (m : Mat3 ℝ) (hm : m.toMatrix ∈ Matrix.specialOrthogonalGroup (Fin 3) ℝ)
    (x : Vec3 ℝ) : (m.apply x).norm = x.norm ∧ m.apply (m.transpose.apply x) = x := by
  have h := (isRotation_iff m).mp hm
  have ht : m.toMatrixᵀ * m.toMatrix = 1 := mul_eq_one_comm.mp h.1
  constructor
  · have key : ∀ v : Vec3 ℝ, v.toVec ⬝ᵥ v.toVec = v.x ^ 2 + v.y ^ 2 + v.z ^ 2 := by
      intro v; simp [Vec3.toVec, dotProduct, Fin.sum_univ_three]; ring
    rw [norm_real, norm_real, ← key, ← key, Mat3.toVec_apply, Matrix.dotProduct_mulVec,
      Matrix.vecMul_transpose, Matrix.mulVec_mulVec, h.1, Matrix.one_mulVec]
  · apply Vec3.toVec_injective
    rw [Mat3.toVec_apply, Mat3.toVec_apply, Mat3.toMatrix_transpose, Matrix.transpose_transpose,
      Matrix.mulVec_mulVec, ht, Matrix.one_mulVec]

/-- A turn by one radian about the third axis is such a rotation, and it is not the identity. -/
example : (Mat3.rotation (2 : Fin 3) (1 : ℝ)).toMatrix ∈ Matrix.specialOrthogonalGroup (Fin 3) ℝ ∧
    (Mat3.rotation (2 : Fin 3) (1 : ℝ)).toMatrix ≠ 1 := by
  refine ⟨C29_rotation_orthogonal _ _, fun h => ?_⟩
  have := congrFun (congrFun h 0) 0
  rw [Mat3.toMatrix_rotation] at this
  simp at this
  linarith [Real.cos_one_le]

end Verif
