import Verif.Float.F64
import Mathlib.Algebra.Order.Round

/-!
# Rounding is to nearest
-/

namespace Verif

theorem rhe_nearest (p k m : ℕ) (hk : 0 < k) :
    |((rhe p k * k : ℕ) : ℚ) - p| ≤ |((m * k : ℕ) : ℚ) - p| := by
  have e := rhe_err p k hk
  rcases Nat.lt_or_ge (rhe p k) m with h | h
  · -- m*k ≥ rhe*k + k ≥ p + k/2
    have h1 : (rhe p k + 1) * k ≤ m * k := Nat.mul_le_mul_right _ h
    have h2 : rhe p k * k + k ≤ m * k := by linarith [h1, Nat.add_mul (rhe p k) 1 k]
    have h2' : ((rhe p k * k : ℕ) : ℚ) + k ≤ ((m * k : ℕ) : ℚ) := by exact_mod_cast h2
    have e1 : 2 * ((rhe p k * k : ℕ) : ℚ) ≤ 2 * p + k := by exact_mod_cast e.1
    have e2 : 2 * (p : ℚ) ≤ 2 * ((rhe p k * k : ℕ) : ℚ) + k := by exact_mod_cast e.2
    rw [abs_le]
    have := le_abs_self (((m * k : ℕ) : ℚ) - p)
    constructor <;> linarith
  · rcases Nat.eq_or_lt_of_le h with h | h
    · rw [h]
    · have h1 : (m + 1) * k ≤ rhe p k * k := Nat.mul_le_mul_right _ h
      have h2 : m * k + k ≤ rhe p k * k := by linarith [h1, Nat.add_mul m 1 k]
      have h2' : ((m * k : ℕ) : ℚ) + k ≤ ((rhe p k * k : ℕ) : ℚ) := by exact_mod_cast h2
      have e1 : 2 * ((rhe p k * k : ℕ) : ℚ) ≤ 2 * p + k := by exact_mod_cast e.1
      have e2 : 2 * (p : ℚ) ≤ 2 * ((rhe p k * k : ℕ) : ℚ) + k := by exact_mod_cast e.2
      rw [abs_le]
      have := neg_abs_le (((m * k : ℕ) : ℚ) - p)
      constructor <;> linarith

theorem rndMag_nearest (p q z : ℕ) (hq : 0 < q) (hz : RepNat z) :
    |(rndMag p q : ℚ) - (p : ℚ) / q| ≤ |(z : ℚ) - (p : ℚ) / q| := by
  have hq' : (0 : ℚ) < q := by exact_mod_cast hq
  -- multiples of the ulp
  have key : ∀ m : ℕ, |(rndMag p q : ℚ) - (p : ℚ) / q| ≤
      |((m * 2 ^ ulpExp (p / q) : ℕ) : ℚ) - (p : ℚ) / q| := by
    intro m
    have h := rhe_nearest p (q * 2 ^ ulpExp (p / q)) m (by positivity)
    have e1 : ((rhe p (q * 2 ^ ulpExp (p / q)) * (q * 2 ^ ulpExp (p / q)) : ℕ) : ℚ) - p =
        q * ((rndMag p q : ℚ) - (p : ℚ) / q) := by
      unfold rndMag
      push_cast
      field_simp
    have e2 : ((m * (q * 2 ^ ulpExp (p / q)) : ℕ) : ℚ) - p =
        q * (((m * 2 ^ ulpExp (p / q) : ℕ) : ℚ) - (p : ℚ) / q) := by
      push_cast
      field_simp
    rw [e1, e2, abs_mul, abs_mul, abs_of_pos hq'] at h
    exact le_of_mul_le_mul_left h hq'
  rcases Nat.eq_zero_or_pos (ulpExp (p / q)) with h0 | h0
  · have := key z
    rw [h0] at this
    simpa using this
  · rcases Nat.lt_or_ge z (2 ^ (ulpExp (p / q) + 52)) with h | h
    · have h1 := key (2 ^ 52)
      refine h1.trans ?_
      have h2 := two_pow_ulp_le (p / q) h0
      have h3 := (Nat.le_div_iff_mul_le hq).mp h2
      have h3' : ((2 ^ (ulpExp (p / q) + 52) : ℕ) : ℚ) ≤ (p : ℚ) / q := by
        rw [le_div_iff₀ hq']; exact_mod_cast h3
      have h4 : (z : ℚ) < ((2 ^ (ulpExp (p / q) + 52) : ℕ) : ℚ) := by exact_mod_cast h
      have h5 : (2 : ℕ) ^ 52 * 2 ^ ulpExp (p / q) = 2 ^ (ulpExp (p / q) + 52) := by
        rw [pow_add, Nat.mul_comm]
      rw [h5]
      rw [abs_of_nonpos (by linarith), abs_of_nonpos (by linarith)]
      linarith
    · obtain ⟨j, hj⟩ : ∃ j, ulpExp (p / q) = j + 1 := ⟨ulpExp (p / q) - 1, by omega⟩
      have h1 : ulpExp (p / q) ≤ ulpExp z := by
        rw [hj] at h ⊢
        have : 2 ^ (j + 53) ≤ z := by
          have e : j + 1 + 52 = j + 53 := by ring
          rwa [e] at h
        exact F64.ulpExp_ge_of_ge this
      have h2 : 2 ^ ulpExp (p / q) ∣ z := (pow_dvd_pow 2 h1).trans (F64.repNat_dvd hz)
      obtain ⟨m, hm⟩ := h2
      have := key m
      rwa [Nat.mul_comm, ← hm] at this

/-- Rounding to nearest: no representable number is closer. -/
theorem RN_nearest (x : ℚ) {z : ℚ} (hz : RepQ z) : |RN x - x| ≤ |z - x| := by
  have key : ∀ x z : ℚ, 0 ≤ x → RepQ z → 0 ≤ z → |RN x - x| ≤ |z - x| := by
    intro x z hx ⟨n, hn, e⟩ hz0
    have hU := U_pos
    rw [abs_of_nonneg hz0] at e
    have h := rndMag_nearest (x.num.natAbs * UN) x.den n x.den_pos hn
    have hpq : ((x.num.natAbs * UN : ℕ) : ℚ) / x.den = x * U := by
      have := natAbs_div_den x
      rw [abs_of_nonneg hx] at this
      conv_rhs => rw [← this]
      unfold U
      push_cast
      ring
    rw [hpq, ← e] at h
    rw [RN_of_nonneg hx]
    have e1 : (rndMag (x.num.natAbs * UN) x.den : ℚ) / U - x =
      (rndMag (x.num.natAbs * UN) x.den - x * U) / U := by field_simp
    have e2 : z - x = (z * U - x * U) / U := by field_simp
    rw [e1, e2, abs_div, abs_div]
    exact div_le_div_of_nonneg_right h (abs_nonneg _)
  have hz0 : RepQ (0 : ℚ) := ⟨0, by decide, by simp⟩
  have key2 : ∀ x z : ℚ, 0 ≤ x → RepQ z → |RN x - x| ≤ |z - x| := by
    intro x z hx hz
    rcases le_total 0 z with h | h
    · exact key x z hx hz h
    · refine (key x 0 hx hz0 (le_refl _)).trans ?_
      rw [abs_of_nonpos (by linarith), abs_of_nonpos (by linarith)]
      linarith
  rcases le_total 0 x with hx | hx
  · exact key2 x z hx hz
  · have := key2 (-x) (-z) (by linarith) hz.neg
    rw [RN_neg] at this
    rw [← abs_neg, ← abs_neg (z - x)]
    convert this using 2 <;> ring

/-- A number of magnitude at most `2^(k+53)` is rounded with error at most `2^k/2`. -/
theorem RN_err_grid (x : ℚ) (k : ℤ) (hk : -1074 ≤ k) (hx : |x| ≤ (2 : ℚ) ^ 53 * 2 ^ k) :
    |RN x - x| ≤ (2 : ℚ) ^ k / 2 := by
  have hp : (0 : ℚ) < (2 : ℚ) ^ k := zpow_pos (by norm_num) _
  set m : ℤ := round (x / 2 ^ k) with hm
  have h1 : |x / 2 ^ k - m| ≤ 1 / 2 := by rw [hm]; exact abs_sub_round _
  have hxk : |x / 2 ^ k| ≤ 2 ^ 53 := by
    rw [abs_div, abs_of_pos hp, div_le_iff₀ hp]; exact hx
  have hmb : |m| ≤ 2 ^ 53 := by
    have h2 : |(m : ℚ)| ≤ 2 ^ 53 + 1 / 2 := by
      have : (m : ℚ) = x / 2 ^ k - (x / 2 ^ k - m) := by ring
      rw [this]
      exact (abs_sub _ _).trans (by linarith)
    have h3 : |(m : ℚ)| < 2 ^ 53 + 1 := by linarith
    have h4 : |m| < 2 ^ 53 + 1 := by exact_mod_cast h3
    omega
  have hz : RepQ ((m : ℚ) * 2 ^ k) := RepQ.of_zpow m k hmb hk rfl
  refine (RN_nearest x hz).trans ?_
  have : (m : ℚ) * 2 ^ k - x = -((x / 2 ^ k - m) * 2 ^ k) := by field_simp; ring
  rw [this, abs_neg, abs_mul, abs_of_pos hp]
  calc _ ≤ 1 / 2 * (2 : ℚ) ^ k := mul_le_mul_of_nonneg_right h1 hp.le
    _ = _ := by ring

theorem U_inv_small : 1 / (2 * U) ≤ 1 / 2 ^ 100 := by
  have hU : (2 : ℚ) ^ 100 ≤ U := by
    unfold U
    obtain ⟨k, hk⟩ : ∃ k : ℕ, k = 1074 := ⟨_, rfl⟩
    rw [UN_eq_pow k hk]
    push_cast
    exact pow_le_pow_right₀ (by norm_num) (by omega)
  apply one_div_le_one_div_of_le (by positivity)
  have : (0 : ℚ) < 2 ^ 100 := by positivity
  linarith

/-- Relative error plus a negligible absolute term. -/
theorem RN_err' (x : ℚ) : |RN x - x| ≤ |x| / 2 ^ 53 + 1 / 2 ^ 100 := by
  refine (RN_err x).trans (max_le ?_ ?_)
  · have : (0 : ℚ) < 1 / 2 ^ 100 := by positivity
    linarith
  · refine U_inv_small.trans ?_
    have : 0 ≤ |x| / 2 ^ 53 := by positivity
    linarith

/-- A representable number of magnitude at least `2^(k+53)` is a multiple of `2^(k+1)`; in particular
numbers of magnitude at least `2^52` are integers.  Here: representable with `2^53·2^k ≤ |x|`. -/
theorem RepQ.dvd {x : ℚ} (h : RepQ x) (k : ℤ) (hk : -1074 ≤ k) (hx : (2 : ℚ) ^ 53 * 2 ^ k ≤ |x|) :
    ∃ m : ℤ, x = m * (2 : ℚ) ^ (k + 1) := by
  obtain ⟨n, hn, e⟩ := h
  obtain ⟨j, hj⟩ : ∃ j : ℕ, k + 1074 = j := ⟨(k + 1074).toNat, by omega⟩
  have hU : U = (2 : ℚ) ^ (1074 : ℤ) := by
    unfold U
    obtain ⟨k, hk⟩ : ∃ k : ℕ, k = 1074 := ⟨_, rfl⟩
    have hk' : (1074 : ℤ) = k := by omega
    rw [UN_eq_pow k hk, hk']
    simp
  have hn2 : 2 ^ (j + 53) ≤ n := by
    have : (2 : ℚ) ^ (j + 53) ≤ n := by
      rw [← e, hU]
      calc (2 : ℚ) ^ (j + 53) = (2 : ℚ) ^ 53 * 2 ^ k * (2 : ℚ) ^ (1074 : ℤ) := by
            rw [mul_assoc, ← zpow_add₀ (by norm_num), hj, zpow_natCast, pow_add, mul_comm]
        _ ≤ _ := mul_le_mul_of_nonneg_right hx (zpow_pos (by norm_num) _).le
    exact_mod_cast this
  have h1 := F64.ulpExp_ge_of_ge hn2
  have h2 : 2 ^ (j + 1) ∣ n := (pow_dvd_pow 2 h1).trans (F64.repNat_dvd hn)
  obtain ⟨m, hm⟩ := h2
  have habs : |x| = m * (2 : ℚ) ^ (k + 1) := by
    have hUp := U_pos
    have : |x| * U = m * (2 : ℚ) ^ (k + 1) * U := by
      rw [e, hm, hU, mul_assoc, ← zpow_add₀ (by norm_num)]
      have : k + 1 + 1074 = ((j + 1 : ℕ) : ℤ) := by push_cast; omega
      rw [this, zpow_natCast]
      push_cast
      ring
    exact mul_right_cancel₀ hUp.ne' this
  rcases abs_choice x with h | h
  · exact ⟨m, by rw [← h, habs]; simp⟩
  · refine ⟨-m, ?_⟩
    have : x = -|x| := by rw [h]; ring
    rw [this, habs]
    push_cast
    ring

end Verif
