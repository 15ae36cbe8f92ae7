import Verif.Lemmas.MeanSun
import Mathlib.Geometry.Euclidean.Angle.Unoriented.TriangleInequality

/-!
# Angles between vectors of three-dimensional space
-/

namespace Verif
open Matrix Spec

/-- Angle between two vectors. -/
noncomputable def ang (u v : Fin 3 → ℝ) : ℝ := InnerProductGeometry.angle (WithLp.toLp 2 u) (WithLp.toLp 2 v)

theorem ang_triangle (u v w : Fin 3 → ℝ) : ang u w ≤ ang u v + ang v w := InnerProductGeometry.angle_le_angle_add_angle _ _ _
theorem ang_comm (u v : Fin 3 → ℝ) : ang u v = ang v u := InnerProductGeometry.angle_comm _ _
theorem ang_nonneg (u v : Fin 3 → ℝ) : 0 ≤ ang u v := InnerProductGeometry.angle_nonneg _ _
theorem ang_le_pi (u v : Fin 3 → ℝ) : ang u v ≤ Real.pi := InnerProductGeometry.angle_le_pi _ _

theorem cos_ang (u v : Fin 3 → ℝ) : Real.cos (ang u v) * (len u * len v) = u 0 * v 0 + u 1 * v 1 + u 2 * v 2 := by
  unfold ang
  rw [len_eq, len_eq, InnerProductGeometry.cos_angle_mul_norm_mul_norm, PiLp.inner_apply, Fin.sum_univ_three]
  simp
  ring

theorem eq_ang {u v : Fin 3 → ℝ} (hu : 0 < len u) (hv : 0 < len v) {z : ℝ} (z0 : 0 ≤ z) (z1 : z ≤ Real.pi)
    (h : Real.cos z * (len u * len v) = u 0 * v 0 + u 1 * v 1 + u 2 * v 2) : z = ang u v := by
  apply Real.injOn_cos ⟨z0, z1⟩ ⟨ang_nonneg _ _, ang_le_pi _ _⟩
  exact mul_right_cancel₀ (mul_pos hu hv).ne' (h.trans (cos_ang u v).symm)

/-- Two angles to the same direction differ by at most the angle between the others. -/
theorem ang_diff (u v w : Fin 3 → ℝ) : |ang u v - ang u w| ≤ ang v w := by
  have h1 := ang_triangle u w v
  have h2 := ang_triangle u v w
  rw [ang_comm w v] at h1
  rw [abs_le]; constructor <;> linarith

theorem dot_mulVec {A : M3} (h : Aᵀ * A = 1) (u v : Fin 3 → ℝ) : (A *ᵥ u) ⬝ᵥ (A *ᵥ v) = u ⬝ᵥ v := by
  rw [Matrix.dotProduct_mulVec, Matrix.vecMul_mulVec, h, Matrix.vecMul_one]

theorem len_mulVec {A : M3} (h : Aᵀ * A = 1) (u : Fin 3 → ℝ) : len (A *ᵥ u) = len u := by
  have := dot_mulVec h u u
  unfold len
  congr 1
  simp only [dotProduct, Fin.sum_univ_three] at this
  linarith

/-- Rotations keep angles. -/
theorem ang_mulVec {A : M3} (h : Aᵀ * A = 1) {u v : Fin 3 → ℝ} (hu : 0 < len u) (hv : 0 < len v) :
    ang (A *ᵥ u) (A *ᵥ v) = ang u v := by
  refine eq_ang hu hv (ang_nonneg _ _) (ang_le_pi _ _) ?_
  have h1 := cos_ang (A *ᵥ u) (A *ᵥ v)
  have h2 := dot_mulVec h u v
  rw [len_mulVec h, len_mulVec h] at h1
  simp only [dotProduct, Fin.sum_univ_three] at h2
  rw [h1, h2]

/-- A rotation about the third axis moves every direction by at most its angle. -/
theorem ang_R3 (a b : ℝ) {w : Fin 3 → ℝ} (hw : 0 < len w) : ang (R3 a *ᵥ w) (R3 b *ᵥ w) ≤ |a - b| := by
  by_cases hp : Real.pi ≤ |a - b|
  · exact (ang_le_pi _ _).trans hp
  push Not at hp
  have oa : ∀ t, (R3 t)ᵀ * R3 t = 1 := fun t => by
    ext i j
    have := Real.sin_sq_add_cos_sq t
    fin_cases i <;> fin_cases j <;> simp [R3, Matrix.mul_apply, Fin.sum_univ_three] <;> nlinarith
  have h := cos_ang (R3 a *ᵥ w) (R3 b *ᵥ w)
  rw [len_mulVec (oa a), len_mulVec (oa b)] at h
  have e : (R3 a *ᵥ w) 0 * (R3 b *ᵥ w) 0 + (R3 a *ᵥ w) 1 * (R3 b *ᵥ w) 1 + (R3 a *ᵥ w) 2 * (R3 b *ᵥ w) 2 =
      Real.cos (a - b) * (w 0 ^ 2 + w 1 ^ 2) + w 2 ^ 2 := by
    rw [Real.cos_sub]
    simp [R3, Matrix.mulVec, dotProduct, Fin.sum_univ_three]
    ring
  rw [e] at h
  have hl : len w * len w = w 0 ^ 2 + w 1 ^ 2 + w 2 ^ 2 := by rw [← pow_two, len_sq]
  rw [hl] at h
  have l0 : 0 < w 0 ^ 2 + w 1 ^ 2 + w 2 ^ 2 := by rw [← hl]; positivity
  by_contra hlt
  push Not at hlt
  have := Real.cos_lt_cos_of_nonneg_of_le_pi (abs_nonneg _) (ang_le_pi _ _) hlt
  rw [Real.cos_abs] at this
  have c1 := Real.cos_le_one (a - b)
  nlinarith [sq_nonneg (w 2)]

/-- The angle is at most `π/2` times the distance relative to the shorter vector. -/
theorem ang_le_dist {u v : Fin 3 → ℝ} {m d : ℝ} (hm : 0 < m) (hu : m ≤ len u) (hv : m ≤ len v) (hd : len (u - v) ≤ d) :
    ang u v ≤ Real.pi / 2 * (d / m) := by
  have h := cos_ang u v
  have e : len (u - v) ^ 2 = len u ^ 2 + len v ^ 2 - 2 * (Real.cos (ang u v) * (len u * len v)) := by
    rw [h, len_sq, len_sq, len_sq]
    simp only [Pi.sub_apply]
    ring
  set α := ang u v with hα
  have a0 : 0 ≤ α := ang_nonneg _ _
  have a1 : α ≤ Real.pi := ang_le_pi _ _
  clear_value α
  have hs : α / Real.pi ≤ Real.sin (α / 2) := by
    have := Real.mul_le_sin (x := α / 2) (by linarith) (by linarith)
    refine le_trans (le_of_eq ?_) this
    field_simp
  have hc : Real.cos α = 1 - 2 * Real.sin (α / 2) ^ 2 := by
    have h1 := Real.cos_sq' (α / 2)
    have h2 := Real.cos_two_mul (α / 2)
    rw [show 2 * (α / 2) = α by ring] at h2
    linarith
  have s0 : 0 ≤ α / Real.pi := div_nonneg a0 Real.pi_pos.le
  have key : (m * (2 * (α / Real.pi))) ^ 2 ≤ d ^ 2 := by
    have k1 : m * m ≤ len u * len v := mul_le_mul hu hv hm.le (hm.le.trans hu)
    have k2 : (2 * (α / Real.pi)) ^ 2 ≤ 2 - 2 * Real.cos α := by
      rw [hc]; nlinarith
    have k3 : (len u * len v) * (2 - 2 * Real.cos α) ≤ len (u - v) ^ 2 := by
      rw [e]; nlinarith [sq_nonneg (len u - len v)]
    have k4 : len (u - v) ^ 2 ≤ d ^ 2 := pow_le_pow_left₀ (len_nonneg _) hd 2
    calc _ = (m * m) * (2 * (α / Real.pi)) ^ 2 := by ring
      _ ≤ (len u * len v) * (2 - 2 * Real.cos α) := mul_le_mul k1 k2 (sq_nonneg _) ((mul_pos hm hm).le.trans k1)
      _ ≤ _ := k3.trans k4
  have d0 : 0 ≤ d := (len_nonneg _).trans hd
  have := abs_le_of_sq_le_sq' key d0
  have h2 : α / Real.pi * 2 * m ≤ d := by linarith [this.2]
  rw [← mul_div_assoc, le_div_iff₀ hm]
  have : α * m = Real.pi / 2 * (α / Real.pi * 2 * m) := by
    field_simp
  rw [this]
  exact mul_le_mul_of_nonneg_left h2 (by positivity)

end Verif
