import Verif.Lemmas.Epv
import Mathlib.Analysis.SpecialFunctions.Trigonometric.Deriv
import Mathlib.Algebra.BigOperators.Group.List.Lemmas
import Mathlib.Algebra.Order.BigOperators.Group.List

/-!
# The ephemeris series over the reals
-/

namespace Verif
open Arith Epv

/-- `∑ a cos(b + c t)`. -/
noncomputable def ser0 (L : List (Dec × Dec × Dec)) (t : ℝ) : ℝ :=
  (L.map fun d => (d.1.q : ℝ) * Real.cos (d.2.1.q + d.2.2.q * t)).sum

/-- `∑ -a c sin(b + c t)`. -/
noncomputable def ser0' (L : List (Dec × Dec × Dec)) (t : ℝ) : ℝ :=
  (L.map fun d => -((d.1.q : ℝ) * d.2.2.q * Real.sin (d.2.1.q + d.2.2.q * t))).sum

theorem hasDerivAt_ser0 (L : List (Dec × Dec × Dec)) (t : ℝ) : HasDerivAt (ser0 L) (ser0' L t) t := by
  induction L with
  | nil => exact hasDerivAt_const t 0
  | cons d L ih =>
    have h1 : HasDerivAt (fun t : ℝ => (d.2.1.q : ℝ) + d.2.2.q * t) d.2.2.q t := by
      simpa using ((hasDerivAt_id t).const_mul (d.2.2.q : ℝ)).const_add (d.2.1.q : ℝ)
    have h2 := (h1.cos.const_mul (d.1.q : ℝ)).add ih
    have e : ser0 (d :: L) = fun t => (d.1.q : ℝ) * Real.cos (d.2.1.q + d.2.2.q * t) + ser0 L t := by
      funext t; simp [ser0]
    have e' : ser0' (d :: L) t = (d.1.q : ℝ) * (-Real.sin (d.2.1.q + d.2.2.q * t) * d.2.2.q) + ser0' L t := by
      simp [ser0']; ring
    rw [e, e']
    exact h2

variable (L : List (Dec × Dec × Dec)) (t : ℝ)

theorem fold0 (acc : ℝ × ℝ) : foldTerms L (term0 t) acc = (acc.1 + ser0 L t, acc.2 + ser0' L t) := by
  induction L generalizing acc with
  | nil => simp [foldTerms, ser0, ser0']
  | cons d L ih =>
    have : foldTerms (d :: L) (term0 t) acc
        = foldTerms L (term0 t) (term0 t acc (lit d.1.q) (lit d.2.1.q) (lit d.2.2.q)) := rfl
    rw [this, ih]
    simp only [term0, lit_real, add_real, sub_real, mul_real, cos_real, sin_real, ser0, ser0',
      List.map_cons, List.sum_cons]
    ext <;> simp <;> ring

theorem fold1 (acc : ℝ × ℝ) : foldTerms L (term1 t) acc
    = (acc.1 + t * ser0 L t, acc.2 + (ser0 L t + t * ser0' L t)) := by
  induction L generalizing acc with
  | nil => simp [foldTerms, ser0, ser0']
  | cons d L ih =>
    have : foldTerms (d :: L) (term1 t) acc
        = foldTerms L (term1 t) (term1 t acc (lit d.1.q) (lit d.2.1.q) (lit d.2.2.q)) := rfl
    rw [this, ih]
    simp only [term1, lit_real, add_real, sub_real, mul_real, cos_real, sin_real, ser0, ser0',
      List.map_cons, List.sum_cons]
    ext <;> simp <;> ring

theorem fold2 (acc : ℝ × ℝ) : foldTerms L (term2 t (t * t)) acc
    = (acc.1 + t ^ 2 * ser0 L t, acc.2 + (2 * t * ser0 L t + t ^ 2 * ser0' L t)) := by
  induction L generalizing acc with
  | nil => simp [foldTerms, ser0, ser0']
  | cons d L ih =>
    have : foldTerms (d :: L) (term2 t (t * t)) acc
        = foldTerms L (term2 t (t * t)) (term2 t (t * t) acc (lit d.1.q) (lit d.2.1.q) (lit d.2.2.q)) := rfl
    rw [this, ih]
    simp only [term2, lit_real, add_real, sub_real, mul_real, cos_real, sin_real, ser0, ser0',
      List.map_cons, List.sum_cons]
    ext <;> simp <;> ring

/-- The published series: heliocentric ecliptic coordinate `k` of the Earth, `t` in Julian years. -/
noncomputable def helioEcl (k : Fin 3) (t : ℝ) : ℝ :=
  ser0 (EpvRef.E0 k) t + t * ser0 (EpvRef.E1 k) t + t ^ 2 * ser0 (EpvRef.E2 k) t

/-- The published series: barycentric ecliptic coordinate `k` of the Sun. -/
noncomputable def sunEcl (k : Fin 3) (t : ℝ) : ℝ :=
  ser0 (EpvRef.S0 k) t + t * ser0 (EpvRef.S1 k) t + t ^ 2 * ser0 (EpvRef.S2 k) t

noncomputable def helioEcl' (k : Fin 3) (t : ℝ) : ℝ :=
  ser0' (EpvRef.E0 k) t + (ser0 (EpvRef.E1 k) t + t * ser0' (EpvRef.E1 k) t)
    + (2 * t * ser0 (EpvRef.E2 k) t + t ^ 2 * ser0' (EpvRef.E2 k) t)

noncomputable def sunEcl' (k : Fin 3) (t : ℝ) : ℝ :=
  ser0' (EpvRef.S0 k) t + (ser0 (EpvRef.S1 k) t + t * ser0' (EpvRef.S1 k) t)
    + (2 * t * ser0 (EpvRef.S2 k) t + t ^ 2 * ser0' (EpvRef.S2 k) t)

theorem hasDerivAt_poly (A B C : List (Dec × Dec × Dec)) : HasDerivAt
    (fun t => ser0 A t + t * ser0 B t + t ^ 2 * ser0 C t)
    (ser0' A t + (ser0 B t + t * ser0' B t) + (2 * t * ser0 C t + t ^ 2 * ser0' C t)) t := by
  have h := ((hasDerivAt_ser0 A t).add ((hasDerivAt_id t).mul (hasDerivAt_ser0 B t))).add
    (((hasDerivAt_id t).pow 2).mul (hasDerivAt_ser0 C t))
  refine HasDerivAt.congr_deriv (f := fun t => ser0 A t + t * ser0 B t + t ^ 2 * ser0 C t) h ?_
  simp only [Pi.pow_apply, id]
  push_cast
  ring

theorem hasDerivAt_helioEcl (k : Fin 3) : HasDerivAt (helioEcl k) (helioEcl' k t) t :=
  hasDerivAt_poly t _ _ _

theorem hasDerivAt_sunEcl (k : Fin 3) : HasDerivAt (sunEcl k) (sunEcl' k t) t :=
  hasDerivAt_poly t _ _ _

theorem helioFold_real (k : Fin 3) : helioFold t (t * t) k = (helioEcl k t, helioEcl' k t) := by
  unfold helioFold
  rw [fold0, fold1, fold2]
  simp only [lit_real, Rat.cast_zero, zero_add, helioEcl, helioEcl']

theorem baryFold_real (k : Fin 3) (acc : ℝ × ℝ) :
    baryFold t (t * t) k acc = (acc.1 + sunEcl k t, acc.2 + sunEcl' k t) := by
  unfold baryFold
  rw [fold0, fold1, fold2]
  simp only [sunEcl, sunEcl']
  ext <;> simp <;> ring

theorem axisPosVel_real (k : Fin 3) : axisPosVel t (t * t) k
    = .ok (helioEcl k t, helioEcl' k t / 365.25, helioEcl k t + sunEcl k t,
      (helioEcl' k t + sunEcl' k t) / 365.25) := by
  rw [axisPosVel_ok]
  unfold axisFold
  rw [helioFold_real]
  simp only [baryFold_real]
  simp only [DJY, div_real, lit_real]
  norm_num

/-! ## Bounds -/

/-- `∑ |a|`. -/
def sumAbs (L : List (Dec × Dec × Dec)) : ℚ := (L.map fun d => |d.1.q|).sum

theorem ser0_le (L : List (Dec × Dec × Dec)) (t : ℝ) : |ser0 L t| ≤ sumAbs L := by
  induction L with
  | nil => simp [ser0, sumAbs]
  | cons d L ih =>
    have e : ser0 (d :: L) t = (d.1.q : ℝ) * Real.cos (d.2.1.q + d.2.2.q * t) + ser0 L t := by simp [ser0]
    have e' : sumAbs (d :: L) = |d.1.q| + sumAbs L := by simp [sumAbs]
    rw [e, e']
    push_cast
    refine (abs_add_le _ _).trans (add_le_add ?_ ih)
    rw [abs_mul]
    have := Real.abs_cos_le_one (d.2.1.q + d.2.2.q * t)
    nlinarith [abs_nonneg (d.1.q : ℝ)]

/-- `10^30 ∑ |a|`, provided no exponent exceeds 30. -/
def sumAbsNat : List (Dec × Dec × Dec) → ℕ
  | [] => 0
  | d :: L => d.1.m.natAbs * 10 ^ (30 - d.1.e) + sumAbsNat L

theorem sumAbs_eq (L : List (Dec × Dec × Dec)) (h : L.all (fun d => d.1.e ≤ 30) = true) :
    sumAbs L = sumAbsNat L / 10 ^ 30 := by
  induction L with
  | nil => simp [sumAbs, sumAbsNat]
  | cons d L ih =>
    simp only [List.all_cons, Bool.and_eq_true, decide_eq_true_eq] at h
    have e' : sumAbs (d :: L) = |d.1.q| + sumAbs L := by simp [sumAbs]
    rw [e', ih h.2, sumAbsNat]
    push_cast
    have hq : |d.1.q| = |(d.1.m : ℚ)| * 10 ^ (30 - d.1.e) / 10 ^ 30 := by
      unfold Dec.q
      rw [abs_div, abs_of_pos (show (0 : ℚ) < 10 ^ d.1.e by positivity),
        div_eq_div_iff (by positivity) (by positivity), mul_assoc, ← pow_add,
        Nat.sub_add_cancel h.1]
    rw [hq, Nat.cast_natAbs]
    push_cast
    ring

theorem sumAbs_le (L : List (Dec × Dec × Dec)) (N : ℕ)
    (h : (L.all (fun d => d.1.e ≤ 30) && decide (sumAbsNat L ≤ N)) = true) (t : ℝ) :
    |ser0 L t| ≤ N / 10 ^ 30 := by
  simp only [Bool.and_eq_true, decide_eq_true_eq] at h
  refine (ser0_le L t).trans ?_
  rw [sumAbs_eq L h.1]
  push_cast
  have : (sumAbsNat L : ℝ) ≤ N := by exact_mod_cast h.2
  gcongr

end Verif
