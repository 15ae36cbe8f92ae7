import Verif.Float.Is

/-!
# `floor` of the binary64 model is exact
-/

namespace Verif
open Arith
namespace F64
theorem rep_ceil {n : ℕ} (h : RepNat n) : RepNat ((n + (UN - 1)) / UN * UN) := by
  have hU := UN_pos
  rcases Nat.lt_or_ge n (2 ^ 53 * UN) with h1 | h1
  · refine rep_mul_UN ?_
    rw [Nat.div_le_iff_le_mul_add_pred hU]
    have e : UN * 2 ^ 53 = 2 ^ 53 * UN := Nat.mul_comm _ _
    omega
  · obtain ⟨k, hk⟩ := UN_dvd_of_large h h1
    have : (n + (UN - 1)) / UN = k := by
      rw [hk, Nat.mul_add_div hU, Nat.div_eq_of_lt (by omega), Nat.add_zero]
    rw [this, Nat.mul_comm, ← hk]
    exact h

theorem ceil_lt {n : ℕ} (h : RepNat n ∧ n < OVN) : (n + (UN - 1)) / UN * UN < OVN := by
  have hU := UN_pos
  rcases Nat.lt_or_ge n (2 ^ 53 * UN) with h1 | h1
  · refine lt_of_le_of_lt (Nat.mul_le_mul_right _ ?_) two_pow_UN_lt_OVN
    rw [Nat.div_le_iff_le_mul_add_pred hU]
    have e : UN * 2 ^ 53 = 2 ^ 53 * UN := Nat.mul_comm _ _
    omega
  · obtain ⟨k, hk⟩ := UN_dvd_of_large h.1 h1
    have : (n + (UN - 1)) / UN = k := by
      rw [hk, Nat.mul_add_div hU, Nat.div_eq_of_lt (by omega), Nat.add_zero]
    rw [this, Nat.mul_comm, ← hk]
    exact h.2

theorem v_mul_UN (s : Bool) (k : ℕ) (h) : v (fin s (k * UN) h) = ((sval s k : ℤ) : ℚ) := by
  simp only [v, sval_cast]
  push_cast
  change _ * (_ * U) / U = _
  have := U_pos
  field_simp

/-- `floor` is exact. -/
theorem floor_spec {x : F64} (hx : isFin x = true) : isFin (floor x) = true ∧ v (floor x) = ⌊v x⌋ := by
  have hU := UN_pos
  have hUq := U_pos
  match x, hx with
  | fin false n h, _ =>
    have hlt : n / UN * UN < OVN := (Nat.div_mul_le_self n UN).trans_lt h.2
    simp only [floor, Bool.false_eq_true, if_false]
    rw [ofQuot_exact false _ (rep_trunc h.1) hlt]
    refine ⟨rfl, ?_⟩
    have e : v (fin false n h) = (n : ℚ) / (UN : ℕ) := by simp [v, sval, U]
    have fl : ⌊v (fin false n h)⌋ = ((n / UN : ℕ) : ℤ) := by
      rw [e, Rat.floor_natCast_div_natCast]; rfl
    rw [fl]
    exact v_mul_UN false (n / UN) _
  | fin true n h, _ =>
    simp only [floor, if_true]
    rw [ofQuot_exact true _ (rep_ceil h.1) (ceil_lt h)]
    refine ⟨rfl, ?_⟩
    have e : v (fin true n h) = -((n : ℚ) / (UN : ℕ)) := by simp [v, sval, U]; ring
    have fl : ⌊v (fin true n h)⌋ = -((((n + (UN - 1)) / UN : ℕ)) : ℤ) := by
      rw [e, Int.floor_neg, neg_inj, Int.ceil_eq_iff]
      have d := Nat.div_add_mod (n + (UN - 1)) UN
      have m := Nat.mod_lt (n + (UN - 1)) hU
      generalize (n + (UN - 1)) / UN = k at *
      generalize (n + (UN - 1)) % UN = r at *
      have hq : (0 : ℚ) < (UN : ℕ) := by exact_mod_cast hU
      have d1 : n ≤ UN * k := by omega
      have d2 : UN * k < n + UN := by omega
      have d1' : (n : ℚ) ≤ (UN : ℕ) * k := by exact_mod_cast d1
      have d2' : ((UN : ℕ) : ℚ) * k < n + (UN : ℕ) := by exact_mod_cast d2
      constructor
      · rw [lt_div_iff₀ hq]; push_cast; linarith
      · rw [div_le_iff₀ hq]; push_cast; linarith
    rw [fl]
    refine (v_mul_UN true _ _).trans ?_
    simp [sval]
end F64
theorem Is.floor {x : F64} {a : ℚ} (hx : Is x a) : Is (Arith.floor x) (⌊a⌋ : ℤ) := by
  obtain ⟨hx1, rfl⟩ := hx
  exact ⟨(F64.floor_spec hx1).1, (F64.floor_spec hx1).2⟩
end Verif
