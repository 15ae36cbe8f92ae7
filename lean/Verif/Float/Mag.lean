import Verif.Float.Is

/-!
# Magnitude tracking: no overflow

`Mag x k`: `x` is finite and its magnitude is at most `2 ^ k`.
-/

namespace Verif
open Arith F64

/-- `x` is finite with magnitude at most `2 ^ k`. -/
def Mag (x : F64) (k : ℕ) : Prop := ∃ r : ℚ, Is x r ∧ |r| ≤ 2 ^ k

theorem RepQ.two_pow (k : ℕ) : RepQ ((2 : ℚ) ^ k) :=
  RepQ.of_zpow 1 k (by norm_num) (by omega) (by simp)

theorem RN_abs_le_pow {x : ℚ} {k : ℕ} (h : |x| ≤ 2 ^ k) : |RN x| ≤ 2 ^ k := by
  rw [← RN_abs]; exact RN_le_of_le (RepQ.two_pow k) h

namespace Mag
variable {x y : F64} {i j k : ℕ}

theorem isFin (h : Mag x k) : isFin x = true := by
  obtain ⟨r, h, _⟩ := h; exact h.1

theorem mono (h : Mag x j) (hk : j ≤ k) : Mag x k := by
  obtain ⟨r, h, h'⟩ := h
  exact ⟨r, h, h'.trans (pow_le_pow_right₀ (by norm_num) hk)⟩

theorem lit (q : ℚ) (h : |q| ≤ 2 ^ k) (hk : k ≤ 1023) : Mag (Arith.lit q : F64) k :=
  ⟨_, Is.lit q (le_HUGE h hk), RN_abs_le_pow h⟩

theorem add (hx : Mag x j) (hy : Mag y j) (hk : j + 1 ≤ 1023) : Mag (x +. y) (j + 1) := by
  obtain ⟨a, ha, ha'⟩ := hx
  obtain ⟨b, hb, hb'⟩ := hy
  have h : |a + b| ≤ 2 ^ (j + 1) := by
    rw [pow_succ]; exact (abs_add_le _ _).trans (by linarith)
  exact ⟨_, ha.add hb (le_HUGE h hk), RN_abs_le_pow h⟩

theorem sub (hx : Mag x j) (hy : Mag y j) (hk : j + 1 ≤ 1023) : Mag (x -. y) (j + 1) := by
  obtain ⟨a, ha, ha'⟩ := hx
  obtain ⟨b, hb, hb'⟩ := hy
  have h : |a - b| ≤ 2 ^ (j + 1) := by
    rw [pow_succ]; exact (abs_sub _ _).trans (by linarith)
  exact ⟨_, ha.sub hb (le_HUGE h hk), RN_abs_le_pow h⟩

theorem mul (hx : Mag x i) (hy : Mag y j) (hk : i + j ≤ 1023) : Mag (x *. y) (i + j) := by
  obtain ⟨a, ha, ha'⟩ := hx
  obtain ⟨b, hb, hb'⟩ := hy
  have h : |a * b| ≤ 2 ^ (i + j) := by
    rw [pow_add, abs_mul]; exact mul_le_mul ha' hb' (abs_nonneg _) (by positivity)
  exact ⟨_, ha.mul hb (le_HUGE h hk), RN_abs_le_pow h⟩

end Mag
end Verif
