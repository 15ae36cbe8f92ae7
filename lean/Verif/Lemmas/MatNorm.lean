import Verif.Lemmas.Mat3
import Mathlib.Analysis.CStarAlgebra.Matrix

/-!
# Euclidean operator norm of 3x3 matrices

`MB E e`: the matrix `E` maps every vector to one at most `e` times as long.
-/

namespace Verif
open Matrix
open scoped Matrix.Norms.L2Operator

abbrev M3 := Matrix (Fin 3) (Fin 3) ℝ

/-- Euclidean length. -/
noncomputable def len (v : Fin 3 → ℝ) : ℝ := Real.sqrt (v 0 ^ 2 + v 1 ^ 2 + v 2 ^ 2)

/-- Operator norm at most `e`. -/
def MB (E : M3) (e : ℝ) : Prop := ‖E‖ ≤ e

theorem len_eq (v : Fin 3 → ℝ) : len v = ‖WithLp.toLp 2 v‖ := by
  rw [EuclideanSpace.norm_eq, Fin.sum_univ_three]
  simp [len]

theorem len_nonneg (v : Fin 3 → ℝ) : 0 ≤ len v := Real.sqrt_nonneg _

theorem len_add (v w : Fin 3 → ℝ) : len (v + w) ≤ len v + len w := by
  rw [len_eq, len_eq, len_eq, WithLp.toLp_add]; exact norm_add_le _ _

theorem len_sub (v w : Fin 3 → ℝ) : len (v - w) ≤ len v + len w := by
  rw [len_eq, len_eq, len_eq, WithLp.toLp_sub]; exact norm_sub_le _ _

theorem len_sq (v : Fin 3 → ℝ) : len v ^ 2 = v 0 ^ 2 + v 1 ^ 2 + v 2 ^ 2 := Real.sq_sqrt (by positivity)

theorem abs_le_len (v : Fin 3 → ℝ) (i : Fin 3) : |v i| ≤ len v := by
  apply Real.abs_le_sqrt
  fin_cases i <;> simp <;> nlinarith [sq_nonneg (v 0), sq_nonneg (v 1), sq_nonneg (v 2)]

theorem len_le_of {v : Fin 3 → ℝ} {e c : ℝ} (h : ∀ i, |v i| ≤ e) (hc : 3 * e ^ 2 ≤ c ^ 2) (c0 : 0 ≤ c) : len v ≤ c := by
  apply Real.sqrt_le_iff.mpr ⟨c0, _⟩
  have g : ∀ i, v i ^ 2 ≤ e ^ 2 := fun i => sq_le_sq' (by linarith [(abs_le.mp (h i)).1]) (abs_le.mp (h i)).2
  linarith [g 0, g 1, g 2]

theorem dot_le (v w : Fin 3 → ℝ) : |v 0 * w 0 + v 1 * w 1 + v 2 * w 2| ≤ len v * len w := by
  have h1 := len_sq v
  have h2 := len_sq w
  apply abs_le_of_sq_le_sq _ (mul_nonneg (len_nonneg _) (len_nonneg _))
  rw [mul_pow, h1, h2]
  nlinarith [sq_nonneg (v 0 * w 1 - v 1 * w 0), sq_nonneg (v 0 * w 2 - v 2 * w 0), sq_nonneg (v 1 * w 2 - v 2 * w 1)]

namespace MB
variable {A B : M3} {e e' : ℝ}

theorem nonneg (h : MB A e) : 0 ≤ e := (norm_nonneg _).trans h
theorem mono (h : MB A e) (he : e ≤ e') : MB A e' := le_trans h he
theorem add (h : MB A e) (h' : MB B e') : MB (A + B) (e + e') := (norm_add_le _ _).trans (add_le_add h h')
theorem sub (h : MB A e) (h' : MB B e') : MB (A - B) (e + e') := (norm_sub_le _ _).trans (add_le_add h h')
theorem neg (h : MB A e) : MB (-A) e := by unfold MB; rw [norm_neg]; exact h
theorem mul (h : MB A e) (h' : MB B e') : MB (A * B) (e * e') :=
  (norm_mul_le _ _).trans (mul_le_mul h h' (norm_nonneg _) h.nonneg)
theorem zero : MB 0 0 := by unfold MB; rw [norm_zero]

theorem transpose (h : MB A e) : MB Aᵀ e := by
  unfold MB
  have := l2_opNorm_conjTranspose A
  rw [conjTranspose_eq_transpose_of_trivial] at this
  rw [this]; exact h

theorem vec (h : MB A e) (v : Fin 3 → ℝ) : len (A *ᵥ v) ≤ e * len v := by
  have h1 := l2_opNorm_mulVec A (WithLp.toLp 2 v)
  rw [len_eq, len_eq]
  exact h1.trans (mul_le_mul_of_nonneg_right h (norm_nonneg _))

theorem entry (h : MB A e) (i j : Fin 3) : |A i j| ≤ e := by
  have h1 := h.vec (Pi.single j 1)
  have h2 := abs_le_len (A *ᵥ Pi.single j 1) i
  rw [Matrix.mulVec_single_one, Matrix.col_apply] at h2
  have h3 : len (Pi.single j (1 : ℝ)) = 1 := by
    unfold len
    fin_cases j <;> simp
  rw [h3, mul_one] at h1
  rw [Matrix.mulVec_single_one] at h1
  exact h2.trans h1

theorem of_vec (he : 0 ≤ e) (h : ∀ v, len (A *ᵥ v) ≤ e * len v) : MB A e := by
  unfold MB
  rw [cstar_norm_def]
  refine ContinuousLinearMap.opNorm_le_bound _ he (fun x => ?_)
  have := h x.ofLp
  rw [len_eq, len_eq] at this
  exact this

theorem of_entries (h : ∀ i j, |A i j| ≤ e) : MB A (3 * e) := by
  have e0 : 0 ≤ e := (abs_nonneg _).trans (h 0 0)
  refine of_vec (by positivity) fun v => ?_
  have hv := len_nonneg v
  have g : ∀ i, |(A *ᵥ v) i| ≤ e * (|v 0| + |v 1| + |v 2|) := fun i => by
    rw [Matrix.mulVec_eq_sum]
    simp only [Fin.sum_univ_three, Pi.add_apply, Pi.smul_apply, MulOpposite.smul_eq_mul_unop, MulOpposite.unop_op,
      Matrix.transpose_apply]
    refine (abs_add_le _ _).trans ?_
    refine (add_le_add_left (abs_add_le _ _) _).trans ?_
    rw [abs_mul, abs_mul, abs_mul]
    have h0 := mul_le_mul_of_nonneg_right (h i 0) (abs_nonneg (v 0))
    have h1 := mul_le_mul_of_nonneg_right (h i 1) (abs_nonneg (v 1))
    have h2 := mul_le_mul_of_nonneg_right (h i 2) (abs_nonneg (v 2))
    linarith
  refine len_le_of g ?_ (by positivity)
  have hs : (|v 0| + |v 1| + |v 2|) ^ 2 ≤ 3 * len v ^ 2 := by
    rw [len_sq, ← sq_abs (v 0), ← sq_abs (v 1), ← sq_abs (v 2)]
    nlinarith [sq_nonneg (|v 0| - |v 1|), sq_nonneg (|v 0| - |v 2|), sq_nonneg (|v 1| - |v 2|)]
  calc _ = 3 * e ^ 2 * (|v 0| + |v 1| + |v 2|) ^ 2 := by ring
    _ ≤ 3 * e ^ 2 * (3 * len v ^ 2) := by gcongr
    _ = _ := by ring

theorem one_of_orth (h : Aᵀ * A = 1) : MB A 1 := by
  have h1 := l2_opNorm_conjTranspose_mul_self A
  rw [conjTranspose_eq_transpose_of_trivial, h, CStarRing.norm_one] at h1
  unfold MB
  nlinarith [norm_nonneg A]

theorem of_rotation {m : Mat3 ℝ} (h : IsRotation m) : MB m.toMatrix 1 := by
  apply one_of_orth
  rw [isRotation_iff] at h
  have := h.1
  exact mul_eq_one_comm.mp this

end MB

/-- Difference of two products. -/
theorem mul_diff {A B A' B' : M3} {e e' : ℝ} (hA : MB A 1) (hB : MB B 1) (h : MB (A' - A) e) (h' : MB (B' - B) e') :
    MB (A' * B' - A * B) (e + e' + e * e') := by
  have : A' * B' - A * B = (A' - A) * B + A * (B' - B) + (A' - A) * (B' - B) := by noncomm_ring
  rw [this]
  exact (((h.mul hB).add (hA.mul h')).add (h.mul h')).mono (by linarith)

end Verif
