import Verif.Model.Common
import Mathlib.LinearAlgebra.UnitaryGroup
import Mathlib.LinearAlgebra.Matrix.Determinant.Basic
import Mathlib.Analysis.SpecialFunctions.Trigonometric.Basic

/-!
# The model's 3x3 matrices as Mathlib matrices
-/

namespace Verif
open Arith Matrix

/-- A vector as a Mathlib vector. -/
def Vec3.toVec (v : Vec3 ℝ) : Fin 3 → ℝ := ![v.x, v.y, v.z]

/-- A matrix as a Mathlib matrix (same rows and columns). -/
def Mat3.toMatrix (m : Mat3 ℝ) : Matrix (Fin 3) (Fin 3) ℝ :=
  !![m.r0.x, m.r0.y, m.r0.z; m.r1.x, m.r1.y, m.r1.z; m.r2.x, m.r2.y, m.r2.z]

theorem Vec3.toVec_injective : Function.Injective Vec3.toVec := by
  intro a b h
  have h0 := congrFun h 0
  have h1 := congrFun h 1
  have h2 := congrFun h 2
  simp [Vec3.toVec] at h0 h1 h2
  ext <;> assumption

theorem Mat3.toMatrix_apply (m : Mat3 ℝ) (i j : Fin 3) : m.toMatrix i j = m.get i j := by
  fin_cases i <;> fin_cases j <;> rfl

theorem Mat3.ext_get {m n : Mat3 ℝ} (h : ∀ i j, m.get i j = n.get i j) : m = n := by
  have h00 := h 0 0
  have h01 := h 0 1
  have h02 := h 0 2
  have h10 := h 1 0
  have h11 := h 1 1
  have h12 := h 1 2
  have h20 := h 2 0
  have h21 := h 2 1
  have h22 := h 2 2
  simp only [Mat3.get] at *
  ext <;> assumption

theorem Mat3.toMatrix_injective : Function.Injective Mat3.toMatrix := by
  intro m n h
  apply Mat3.ext_get
  intro i j
  rw [← toMatrix_apply, ← toMatrix_apply, h]

theorem Mat3.get_ofFn (f : Fin 3 → Fin 3 → ℝ) (i j : Fin 3) : (Mat3.ofFn f).get i j = f i j := by
  fin_cases i <;> fin_cases j <;> rfl

theorem Mat3.toMatrix_compose (m n : Mat3 ℝ) :
    (m.compose n).toMatrix = m.toMatrix * n.toMatrix := by
  ext i j
  rw [Matrix.mul_apply, Fin.sum_univ_three, toMatrix_apply]
  unfold Mat3.compose
  rw [get_ofFn]
  simp [toMatrix_apply]

theorem Mat3.toMatrix_transpose (m : Mat3 ℝ) : m.transpose.toMatrix = m.toMatrixᵀ := by
  ext i j
  rw [Matrix.transpose_apply, toMatrix_apply, toMatrix_apply]
  exact get_ofFn _ _ _

theorem Mat3.toMatrix_identity : (Mat3.identity : Mat3 ℝ).toMatrix = 1 := by
  ext i j
  rw [toMatrix_apply, Mat3.identity, get_ofFn]
  rw [Matrix.one_apply]
  split <;> simp

theorem Mat3.toVec_apply (m : Mat3 ℝ) (x : Vec3 ℝ) :
    (m.apply x).toVec = m.toMatrixᵀ *ᵥ x.toVec := by
  ext i
  fin_cases i <;>
    simp [Mat3.apply, Vec3.toVec, Mat3.toMatrix, Matrix.mulVec, dotProduct, Fin.sum_univ_three]

/-- Proper rotation: orthogonal with determinant 1. -/
def IsRotation (m : Mat3 ℝ) : Prop := m.toMatrix ∈ Matrix.specialOrthogonalGroup (Fin 3) ℝ

theorem isRotation_iff (m : Mat3 ℝ) :
    IsRotation m ↔ m.toMatrix * m.toMatrixᵀ = 1 ∧ m.toMatrix.det = 1 := by
  unfold IsRotation
  rw [Matrix.mem_specialOrthogonalGroup_iff, Matrix.mem_orthogonalGroup_iff]

theorem IsRotation.compose {m n : Mat3 ℝ} (hm : IsRotation m) (hn : IsRotation n) :
    IsRotation (m.compose n) := by
  unfold IsRotation at *
  rw [Mat3.toMatrix_compose]
  exact mul_mem hm hn

theorem IsRotation.identity : IsRotation Mat3.identity := by
  unfold IsRotation
  rw [Mat3.toMatrix_identity]
  exact one_mem _

theorem IsRotation.transpose {m : Mat3 ℝ} (hm : IsRotation m) : IsRotation m.transpose := by
  rw [isRotation_iff] at hm ⊢
  rw [Mat3.toMatrix_transpose, Matrix.transpose_transpose, Matrix.det_transpose]
  exact ⟨mul_eq_one_comm.mp hm.1, hm.2⟩

/-- The three elementary rotations, written out. -/
theorem Mat3.toMatrix_rotation (axis : Fin 3) (t : ℝ) : (Mat3.rotation axis t).toMatrix =
    match axis with
    | 0 => !![1, 0, 0; 0, Real.cos t, Real.sin t; 0, -Real.sin t, Real.cos t]
    | 1 => !![Real.cos t, 0, -Real.sin t; 0, 1, 0; Real.sin t, 0, Real.cos t]
    | 2 => !![Real.cos t, Real.sin t, 0; -Real.sin t, Real.cos t, 0; 0, 0, 1] := by
  ext i j
  rw [toMatrix_apply]
  fin_cases axis <;> fin_cases i <;> fin_cases j <;>
    simp [Mat3.rotation, Mat3.set, get_ofFn, Mat3.zero]

theorem IsRotation.rotation (axis : Fin 3) (t : ℝ) : IsRotation (Mat3.rotation axis t) := by
  rw [isRotation_iff, Mat3.toMatrix_rotation]
  have h := Real.sin_sq_add_cos_sq t
  fin_cases axis
  all_goals
    constructor
    · ext i j
      fin_cases i <;> fin_cases j <;>
        simp [Matrix.mul_apply, Fin.sum_univ_three] <;> nlinarith
    · simp [Matrix.det_fin_three]; nlinarith

end Verif
