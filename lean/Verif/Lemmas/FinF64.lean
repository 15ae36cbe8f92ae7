import Verif.Float.Is

/-!
# When is a binary64 result finite?
-/

namespace Verif
open F64

theorem ofQuot_fin_lt {s : Bool} {p q : ℕ} (hq : 0 < q) (h : isFin (ofQuot s p q) = true) :
    RN ((p : ℚ) / q / U) < OVQ := by
  unfold ofQuot mkFin at h
  split at h
  · rename_i h1
    rw [RN_quot p q hq]
    unfold OVQ
    rw [div_lt_div_iff_of_pos_right U_pos]
    exact_mod_cast h1
  · simp [isFin] at h

/-- A finite sum of finite numbers is the rounded sum. -/
theorem Is.add_of_fin {x y : F64} {a b : ℚ} (hx : Is x a) (hy : Is y b)
    (h : isFin (x +. y) = true) : Is (x +. y) (RN (a + b)) := by
  apply hx.add' hy
  obtain ⟨hx1, rfl⟩ := hx
  obtain ⟨hy1, rfl⟩ := hy
  match x, y, hx1, hy1, h with
  | .fin s a ha, .fin t b hb, _, _, h =>
    have e : v (.fin s a ha) + v (.fin t b hb) = ((sval s a + sval t b : ℤ) : ℚ) / U := by
      simp only [v]; push_cast; ring
    rw [e]
    change isFin (F64.add _ _) = true at h
    simp only [F64.add] at h
    split at h
    · rename_i h0
      rw [h0]
      simpa [RN_zero] using HUGE_pos.trans HUGE_lt_OVQ
    · have := ofQuot_fin_lt one_pos h
      have e2 : (((sval s a + sval t b).natAbs : ℕ) : ℚ) / (1 : ℕ) / U =
          |((sval s a + sval t b : ℤ) : ℚ) / U| := by
        rw [Nat.cast_natAbs, abs_div, abs_of_pos U_pos]; simp
      rw [e2, RN_abs] at this
      exact this

/-- A datum between two finite numbers is finite. -/
theorem fin_of_between {x lo hi : F64} (hlo : isFin lo = true) (hhi : isFin hi = true)
    (h1 : (lo <=. x) = true) (h2 : (x <=. hi) = true) : isFin x = true := by
  match x, lo, hi, hlo, hhi with
  | .nan, .fin _ _ _, _, _, _ => exact absurd h1 (by simp [Arith.le, F64.le])
  | .inf true, .fin _ _ _, _, _, _ => exact absurd h1 (by simp [Arith.le, F64.le])
  | .inf false, _, .fin _ _ _, _, _ => exact absurd h2 (by simp [Arith.le, F64.le])
  | .fin _ _ _, _, _, _, _ => rfl

/-- Two comparisons with finite numbers determine the value range of the rounded sum. -/
theorem add_between {x y lo hi : F64} {a b l h : ℚ} (hx : Is x a) (hy : Is y b) (hl : Is lo l)
    (hh : Is hi h) (h1 : (lo <=. (x +. y)) = true) (h2 : ((x +. y) <=. hi) = true) :
    Is (x +. y) (RN (a + b)) ∧ l ≤ RN (a + b) ∧ RN (a + b) ≤ h := by
  have hf := fin_of_between hl.fin hh.fin h1 h2
  have hs := hx.add_of_fin hy hf
  rw [hl.le hs] at h1
  rw [hs.le hh] at h2
  exact ⟨hs, by simpa using h1, by simpa using h2⟩

theorem fadd_comm (x y : F64) : x +. y = y +. x := by
  change F64.add x y = F64.add y x
  match x, y with
  | .nan, .nan => rfl
  | .nan, .inf _ => rfl
  | .nan, .fin _ _ _ => rfl
  | .inf _, .nan => rfl
  | .fin _ _ _, .nan => rfl
  | .inf s, .inf t => cases s <;> cases t <;> rfl
  | .inf _, .fin _ _ _ => rfl
  | .fin _ _ _, .inf _ => rfl
  | .fin s a _, .fin t b _ => simp only [F64.add, Int.add_comm (sval s a), Bool.and_comm s]

end Verif
