import Verif.Model.Calendar

/-!
# `from_julian`, floating-point part, in exact arithmetic
-/

namespace Verif

theorem rem_one_real (x : ℝ) : x %. (1 : ℝ) = x - truncR x := by
  rw [rem_real]; simp

theorem lit_one_real : (Arith.lit 1 : ℝ) = 1 := by simp
theorem lit_zero_real : (Arith.lit 0 : ℝ) = 0 := by simp
theorem lit_half_real : (Arith.lit 0.5 : ℝ) = 1 / 2 := by simp; norm_num

theorem truncR_bound (x : ℝ) : |x - truncR x| < 1 := by
  unfold truncR
  split
  · have h1 := Int.floor_le x
    have h2 := Int.lt_floor_add_one x
    rw [abs_lt]; constructor <;> linarith
  · have h1 := Int.le_ceil x
    have h2 := Int.ceil_lt_add_one x
    rw [abs_lt]; constructor <;> linarith

theorem split_real (a b : ℝ) :
    (GregorianDate.split a b).1 = (⌊a + b - 1 / 2⌋ : ℝ) ∧
    (GregorianDate.split a b).2 = Int.fract (a + b - 1 / 2) := by
  have key : ∃ D : ℤ, (GregorianDate.split a b).1 = (D : ℝ) ∧
      0 ≤ (GregorianDate.split a b).2 ∧ (GregorianDate.split a b).2 < 1 ∧
      (D : ℝ) + (GregorianDate.split a b).2 = a + b - 1 / 2 := by
    unfold GregorianDate.split
    simp only [rem_one_real, lit_half_real, sub_real, add_real, round_real, lit_zero_real, lit_one_real]
    have e1 : ∀ x : ℝ, x - (x - (truncR x : ℝ)) = (truncR x : ℝ) := fun x => by ring
    simp only [e1, roundR_int]
    set s := a - (truncR a : ℝ) + (b - 1 / 2 - (truncR (b - 1 / 2) : ℝ)) with hs
    have hb := truncR_bound s
    rw [abs_lt] at hb
    by_cases hneg : s - (truncR s : ℝ) < 0
    · have hbool : (s - (truncR s : ℝ) <. (0 : ℝ)) = true := by simpa using hneg
      simp only [hbool, if_true]
      have e2 : s - (s - (truncR s : ℝ) + 1) = ((truncR s - 1 : ℤ) : ℝ) := by push_cast; ring
      rw [e2, roundR_int]
      refine ⟨truncR a + truncR (b - 1 / 2) + (truncR s - 1), by push_cast; ring, by linarith,
        by linarith, ?_⟩
      push_cast
      rw [hs]
      ring
    · have hbool : (s - (truncR s : ℝ) <. (0 : ℝ)) = false := by simpa using hneg
      simp only [hbool, Bool.false_eq_true, if_false]
      rw [e1, roundR_int]
      refine ⟨truncR a + truncR (b - 1 / 2) + truncR s, by push_cast; ring, by linarith,
        by linarith, ?_⟩
      push_cast
      rw [hs]
      ring
  obtain ⟨D, h1, h2, h3, h4⟩ := key
  have hD : ⌊a + b - 1 / 2⌋ = D := by
    rw [Int.floor_eq_iff]; constructor <;> linarith
  rw [Int.fract, hD, h1]
  exact ⟨rfl, by linarith⟩

/-- The day number computed by the code in exact arithmetic. -/
theorem castSat_floor (z : ℤ) (lo hi : ℤ) (h1 : lo ≤ z) (h2 : z ≤ hi) :
    Arith.castSat lo hi ((z : ℝ)) = z := by
  rw [castSat_real, truncR_int]; omega

end Verif
