import Verif.Lemmas.NutAcc
import Verif.Lemmas.MatNorm

/-!
# Matrix products in binary64
-/

namespace Verif
open Arith F64 Matrix

/-- All entries of `m` are finite, and their values form a matrix within `e` of `R` in operator norm. -/
def MN (m : Mat3 F64) (R : Mat3 ℝ) (e : ℝ) : Prop :=
  ∃ M : M3, (∀ i j, ∃ q : ℚ, Is (m.get i j) q ∧ (q : ℝ) = M i j) ∧ MB (M - R.toMatrix) e

theorem zero_nb : NB (lit 0 : F64) 0 0 0 := by
  have := NB.of_is (Is.lit_int 0 (by norm_num)) (M := 0) (by norm_num)
  norm_num at this
  exact this

theorem one_is : Is (lit 1 : F64) 1 := by
  have := Is.lit_int 1 (by norm_num)
  norm_num at this
  exact this

theorem zero_is : Is (lit 0 : F64) 0 := by
  have := Is.lit_int 0 (by norm_num)
  norm_num at this
  exact this

theorem Mat3.get_ofFn' {α : Type} (f : Fin 3 → Fin 3 → α) (i j : Fin 3) : (Mat3.ofFn f).get i j = f i j := by
  fin_cases i <;> fin_cases j <;> rfl

/-- A sum of three products. -/
theorem dot3_nb {x0 x1 x2 y0 y1 y2 : F64} {a0 a1 a2 b0 b1 b2 : ℝ} (h0 : NB x0 a0 0 1.001) (h1 : NB x1 a1 0 1.001)
    (h2 : NB x2 a2 0 1.001) (k0 : NB y0 b0 0 1.001) (k1 : NB y1 b1 0 1.001) (k2 : NB y2 b2 0 1.001) :
    NB (((lit 0 +. x0 *. y0) +. x1 *. y1) +. x2 *. y2) (a0 * b0 + a1 * b1 + a2 * b2) (11 / 10 ^ 16) 3.01 := by
  have m0 := h0.mul k0 (E := 1.2 / 10 ^ 16) (M := 1.0021) (by norm_num)
  have m1 := h1.mul k1 (E := 1.2 / 10 ^ 16) (M := 1.0021) (by norm_num)
  have m2 := h2.mul k2 (E := 1.2 / 10 ^ 16) (M := 1.0021) (by norm_num)
  have s0 := zero_nb.add m0 (E := 2.4 / 10 ^ 16) (M := 1.0021) (by norm_num)
  have s1 := s0.add m1 (E := 6 / 10 ^ 16) (M := 2.0042) (by norm_num)
  exact (s1.add m2 (E := 11 / 10 ^ 16) (M := 3.01) (by norm_num)).congr (by ring)

/-- Rotations by nearby angles about the same axis. -/
theorem MB.rotation_diff (axis : Fin 3) (θ φ : ℝ) :
    MB ((Mat3.rotation axis θ).toMatrix - (Mat3.rotation axis φ).toMatrix) |θ - φ| := by
  have key : (Real.cos θ - Real.cos φ) ^ 2 + (Real.sin θ - Real.sin φ) ^ 2 ≤ (θ - φ) ^ 2 := by
    have h1 := Real.cos_sub θ φ
    have h2 := Real.sin_sq_add_cos_sq θ
    have h3 := Real.sin_sq_add_cos_sq φ
    have h4 := Real.one_sub_sq_div_two_le_cos (x := θ - φ)
    nlinarith
  refine MB.of_vec (abs_nonneg _) fun v => ?_
  apply Real.sqrt_le_iff.mpr ⟨mul_nonneg (abs_nonneg _) (len_nonneg _), _⟩
  rw [mul_pow, sq_abs, len_sq]
  have k0 : 0 ≤ (θ - φ) ^ 2 := sq_nonneg _
  fin_cases axis <;>
  · simp [Matrix.mulVec, dotProduct, Fin.sum_univ_three, Mat3.toMatrix, Mat3.rotation, Mat3.get, Mat3.set, Mat3.ofFn]
    nlinarith [mul_le_mul_of_nonneg_right key (add_nonneg (sq_nonneg (v 0)) (sq_nonneg (v 1))), 
      mul_le_mul_of_nonneg_right key (add_nonneg (sq_nonneg (v 0)) (sq_nonneg (v 2))), 
      mul_le_mul_of_nonneg_right key (add_nonneg (sq_nonneg (v 1)) (sq_nonneg (v 2))), 
      mul_nonneg k0 (sq_nonneg (v 0)), mul_nonneg k0 (sq_nonneg (v 1)), mul_nonneg k0 (sq_nonneg (v 2))]

namespace MN
variable {m n : Mat3 F64} {R S : Mat3 ℝ} {e e' E : ℝ}

theorem mono (h : MN m R e) (he : e ≤ E) : MN m R E := by
  obtain ⟨M, h1, h2⟩ := h
  exact ⟨M, h1, h2.mono he⟩

theorem e_nonneg (h : MN m R e) : 0 ≤ e := by
  obtain ⟨M, h1, h2⟩ := h
  exact h2.nonneg

theorem shift (h : MN m R e) (h' : MB (R.toMatrix - S.toMatrix) e') (he : e + e' ≤ E) : MN m S E := by
  obtain ⟨M, h1, h2⟩ := h
  refine ⟨M, h1, ?_⟩
  have : M - S.toMatrix = (M - R.toMatrix) + (R.toMatrix - S.toMatrix) := by abel
  rw [this]
  exact (h2.add h').mono he

theorem entry (h : MN m R e) (i j : Fin 3) : Near (m.get i j) (R.get i j) e := by
  obtain ⟨M, h1, h2⟩ := h
  obtain ⟨q, hq, hq'⟩ := h1 i j
  refine ⟨q, hq, ?_⟩
  have := h2.entry i j
  rw [Matrix.sub_apply, Mat3.toMatrix_apply] at this
  rw [hq']; exact this

theorem of_entries (h : ∀ i j, Near (m.get i j) (R.get i j) e) : MN m R (3 * e) := by
  choose q hq hq' using h
  refine ⟨Matrix.of fun i j => (q i j : ℝ), fun i j => ⟨q i j, hq i j, rfl⟩, MB.of_entries fun i j => ?_⟩
  rw [Matrix.sub_apply, Mat3.toMatrix_apply]
  exact hq' i j

theorem identity : MN Mat3.identity Mat3.identity 0 := by
  have := of_entries (m := Mat3.identity) (R := Mat3.identity) (e := 0) (fun i j => by
    unfold Mat3.identity
    rw [Mat3.get_ofFn', Mat3.get_ofFn']
    split
    · exact (Near.of_is one_is).congr (by simp)
    · exact (Near.of_is zero_is).congr (by simp))
  rw [mul_zero] at this
  exact this

theorem compose (hm : MN m R e) (hn : MN n S e') (hR : IsRotation R) (hS : IsRotation S) (he : e ≤ 1 / 1000)
    (he' : e' ≤ 1 / 1000) (hE : e + e' + e * e' + 4 / 10 ^ 15 ≤ E) : MN (m.compose n) (R.compose S) E := by
  obtain ⟨M, h1, h2⟩ := hm
  obtain ⟨N, k1, k2⟩ := hn
  have bR := MB.of_rotation hR
  have bS := MB.of_rotation hS
  have bM : MB M 1.001 := by
    have := bR.add h2
    rw [add_sub_cancel] at this
    exact this.mono (by norm_num at *; linarith)
  have bN : MB N 1.001 := by
    have := bS.add k2
    rw [add_sub_cancel] at this
    exact this.mono (by norm_num at *; linarith)
  have nM : ∀ i j, NB (m.get i j) (M i j) 0 1.001 := fun i j => by
    obtain ⟨q, hq, hq'⟩ := h1 i j
    exact NB.of_is' hq hq' (bM.entry i j)
  have nN : ∀ i j, NB (n.get i j) (N i j) 0 1.001 := fun i j => by
    obtain ⟨q, hq, hq'⟩ := k1 i j
    exact NB.of_is' hq hq' (bN.entry i j)
  have hP : ∀ i j, Near ((m.compose n).get i j) ((M * N) i j) (11 / 10 ^ 16) := fun i j => by
    unfold Mat3.compose
    rw [Mat3.get_ofFn', Matrix.mul_apply, Fin.sum_univ_three]
    exact (dot3_nb (nM i 0) (nM i 1) (nM i 2) (nN 0 j) (nN 1 j) (nN 2 j)).near
  choose q hq hq' using hP
  refine ⟨Matrix.of fun i j => (q i j : ℝ), fun i j => ⟨q i j, hq i j, rfl⟩, ?_⟩
  have d1 : MB ((Matrix.of fun i j => (q i j : ℝ)) - M * N) (3 * (11 / 10 ^ 16)) := MB.of_entries fun i j => by
    rw [Matrix.sub_apply]; exact hq' i j
  have d2 := mul_diff bR bS h2 k2
  have : (Matrix.of fun i j => (q i j : ℝ)) - (R.compose S).toMatrix =
      ((Matrix.of fun i j => (q i j : ℝ)) - M * N) + (M * N - R.toMatrix * S.toMatrix) := by
    rw [Mat3.toMatrix_compose]; abel
  rw [this]
  refine (d1.add d2).mono ?_
  norm_num at hE ⊢
  linarith

/-- A rotation whose angle is given with some error. -/
theorem rotation [Libm F64] {x : F64} {θ ε : ℝ} (hs : NB (Libm.sin x) (Real.sin θ) ε 1)
    (hc : NB (Libm.cos x) (Real.cos θ) ε 1) (axis : Fin 3) :
    MN (Mat3.rotation axis x) (Mat3.rotation axis θ) (3 * ε) := by
  have e0 := hs.e_nonneg
  have n0 : Near (lit 0 : F64) (lit 0 : ℝ) ε := ((Near.of_is zero_is).congr (by simp)).mono e0
  have n1 : Near (lit 1 : F64) (lit 1 : ℝ) ε := ((Near.of_is one_is).congr (by simp)).mono e0
  have ns : Near (Libm.sin x) (Libm.sin θ : ℝ) ε := hs.near
  have nc : Near (Libm.cos x) (Libm.cos θ : ℝ) ε := hc.near
  have nn : Near (Arith.neg (Libm.sin x)) (Arith.neg (Libm.sin θ : ℝ)) ε := hs.near.neg
  refine of_entries fun i j => ?_
  fin_cases axis <;> fin_cases i <;> fin_cases j <;> first | exact n0 | exact n1 | exact ns | exact nc | exact nn

theorem rotAng [Libm F64] (hL : LibmAcc) {x : F64} {θ ε A : ℝ} (h : Ang x θ ε A) (axis : Fin 3)
    (hE : ε + 3 / 2 ^ 50 ≤ E ∧ A ≤ 2 ^ 30) : MN (Mat3.rotation axis x) (Mat3.rotation axis θ) E := by
  obtain ⟨r, h1, ⟨k, h2⟩, h3⟩ := h
  have n := NB.of_is h1 h3
  have m := rotation (ε := 1 / 2 ^ 50) (hL.nbSin n ⟨by norm_num, by linarith [hE.2]⟩) (hL.nbCos n ⟨by norm_num, by linarith [hE.2]⟩) axis
  have d := MB.rotation_diff axis (r : ℝ) (θ - k * (2 * Real.pi))
  have e : Mat3.rotation axis (θ - k * (2 * Real.pi)) = Mat3.rotation axis θ := by
    unfold Mat3.rotation
    simp only [cos_real, sin_real, Real.cos_sub_int_mul_two_pi, Real.sin_sub_int_mul_two_pi]
  rw [e] at d
  exact m.shift (d.mono h2) (by have := hE.1; norm_num at this ⊢; linarith)

theorem rot [Libm F64] (hL : LibmAcc) {x : F64} {θ ε A : ℝ} (h : NB x θ ε A) (axis : Fin 3)
    (hE : ε + 3 / 2 ^ 50 ≤ E ∧ A + ε ≤ 2 ^ 30) : MN (Mat3.rotation axis x) (Mat3.rotation axis θ) E := by
  obtain ⟨r, h1, h2, h3⟩ := h.exists_is
  exact rotAng hL ⟨r, h1, Cong.of_abs h2, h3⟩ axis hE

theorem transpose (h : MN m R e) : MN m.transpose R.transpose e := by
  obtain ⟨M, h1, h2⟩ := h
  refine ⟨Mᵀ, fun i j => ?_, ?_⟩
  · unfold Mat3.transpose
    rw [Mat3.get_ofFn']
    exact h1 j i
  · rw [Mat3.toMatrix_transpose, ← Matrix.transpose_sub]
    exact h2.transpose

end MN
end Verif
