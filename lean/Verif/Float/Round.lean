import Mathlib.Tactic.Ring
import Mathlib.Tactic.Linarith
import Mathlib.Tactic.NormNum
import Mathlib.Tactic.Positivity
import Mathlib.Tactic.FieldSimp
import Mathlib.Algebra.Order.Field.Rat
import Mathlib.Algebra.Order.Field.Basic
import Mathlib.Data.Nat.Log
import Mathlib.Data.Rat.Floor

/-!
# Rounding to nearest, ties to even, on a 53-bit significand

All finite binary64 magnitudes are whole multiples of `2^-1074`.  A magnitude is therefore modelled by
the natural number `n` of such units; `n` is a binary64 magnitude iff it has at most 53 significant
bits (`RepNat`) and is below `2^2098` (overflow, handled in `Float/F64.lean`).

`rndMag p q` rounds the non-negative rational `p/q` (in units of `2^-1074`) to the nearest such `n`,
ties to the even significand: IEEE-754 `roundTiesToEven`.  Subnormal numbers need no special case:
below `2^53` units the spacing is one unit.
-/

namespace Verif

/-- `p/k` rounded to the nearest integer, ties to even. -/
def rhe (p k : ℕ) : ℕ :=
  if 2 * (p % k) < k then p / k
  else if k < 2 * (p % k) then p / k + 1
  else p / k + (p / k) % 2

/-- Exponent of the unit in the last place of a magnitude whose integer part is `n`. -/
def ulpExp (n : ℕ) : ℕ := n.log2 - 52

/-- `p/q` rounded to 53 significant bits, ties to even (`p/q` in units of `2^-1074`). -/
def rndMag (p q : ℕ) : ℕ :=
  rhe p (q * 2 ^ ulpExp (p / q)) * 2 ^ ulpExp (p / q)

/-- `n` has at most 53 significant bits. -/
def RepNat (n : ℕ) : Prop := n % 2 ^ ulpExp n = 0

instance (n : ℕ) : Decidable (RepNat n) := inferInstanceAs (Decidable (_ = _))

/-! ### `rhe` -/

theorem rhe_exact (m k : ℕ) (hk : 0 < k) : rhe (m * k) k = m := by
  unfold rhe
  simp [Nat.mul_mod_left, Nat.mul_div_cancel _ hk, hk]

theorem rhe_le_of (p k a : ℕ) (hk : 0 < k) (h : p ≤ a * k) : rhe p k ≤ a := by
  unfold rhe
  have hd := Nat.div_add_mod p k
  have hm := Nat.mod_lt p hk
  have h1 : p / k ≤ a := by
    calc p / k ≤ (a * k) / k := Nat.div_le_div_right h
      _ = a := Nat.mul_div_cancel _ hk
  split
  · exact h1
  · rename_i h2
    have hlt : p / k < a := by
      rcases Nat.lt_or_ge (p / k) a with h3 | h3
      · exact h3
      · exfalso
        have : p / k = a := le_antisymm h1 h3
        have : k * (p / k) = a * k := by rw [this, Nat.mul_comm]
        omega
    split
    · omega
    · have := Nat.mod_lt (p / k) (by norm_num : 0 < 2)
      omega

theorem le_rhe_of (p k a : ℕ) (hk : 0 < k) (h : a * k ≤ p) : a ≤ rhe p k := by
  unfold rhe
  have h1 : a ≤ p / k := (Nat.le_div_iff_mul_le hk).mpr h
  split
  · exact h1
  · split <;> omega

/-- `|rhe p k - p/k| ≤ 1/2`, multiplied out. -/
theorem rhe_err (p k : ℕ) (hk : 0 < k) :
    2 * (rhe p k * k) ≤ 2 * p + k ∧ 2 * p ≤ 2 * (rhe p k * k) + k := by
  unfold rhe
  have hd := Nat.div_add_mod p k
  have hm := Nat.mod_lt p hk
  have e1 : k * (p / k) = p / k * k := Nat.mul_comm _ _
  have e2 : (p / k + 1) * k = p / k * k + k := by ring
  split
  · constructor <;> omega
  · split
    · rw [e2]; constructor <;> omega
    · have := Nat.mod_two_eq_zero_or_one (p / k)
      rcases this with h | h <;> rw [h]
      · rw [Nat.add_zero]; constructor <;> omega
      · rw [e2]; constructor <;> omega

theorem rhe_mono (p k p' k' : ℕ) (hk : 0 < k) (hk' : 0 < k') (h : p * k' ≤ p' * k) :
    rhe p k ≤ rhe p' k' := by
  by_contra hlt
  push Not at hlt
  have e1 := rhe_err p k hk
  have e2 := rhe_err p' k' hk'
  set a := rhe p k with ha
  set b := rhe p' k' with hb
  have hab : b + 1 ≤ a := hlt
  -- multiply: 2*a*k ≤ 2p + k, so (2a-1) k k' ≤ 2 p k' ≤ 2 p' k ≤ (2b+1) k k'
  have h1 : (2 * a) * (k * k') ≤ (2 * p) * k' + k * k' := by
    have := Nat.mul_le_mul_right k' e1.1
    nlinarith
  have h2 : (2 * p') * k ≤ (2 * b) * (k * k') + k * k' := by
    have := Nat.mul_le_mul_right k e2.2
    nlinarith
  have hkk : 0 < k * k' := Nat.mul_pos hk hk'
  have h3 : (2 * a) * (k * k') ≤ (2 * b + 2) * (k * k') := by nlinarith
  have h4 : 2 * a ≤ 2 * b + 2 := Nat.le_of_mul_le_mul_right h3 hkk
  have hab' : a = b + 1 := by omega
  -- equality everywhere: p/k = b + 1/2 = p'/k', contradiction with ties-to-even determinism
  have h5 : 2 * p * k' = (2 * b + 1) * (k * k') := by
    rw [hab'] at h1
    apply le_antisymm
    · have : 2 * p * k' ≤ 2 * p' * k := by nlinarith
      nlinarith
    · nlinarith
  have h6 : 2 * p' * k = (2 * b + 1) * (k * k') := by
    apply le_antisymm
    · nlinarith
    · nlinarith
  have h7 : 2 * p = (2 * b + 1) * k := by
    apply Nat.eq_of_mul_eq_mul_right hk'
    rw [h5]; ring
  have h8 : 2 * p' = (2 * b + 1) * k' := by
    apply Nat.eq_of_mul_eq_mul_right hk
    rw [h6]; ring
  have key : ∀ p k : ℕ, 0 < k → 2 * p = (2 * b + 1) * k → rhe p k = b + b % 2 := by
    intro p k hk h
    have hdm := Nat.div_add_mod p k
    have hm := Nat.mod_lt p hk
    have hdiv : p / k = b := by
      apply Nat.div_eq_of_lt_le <;> nlinarith
    have hmod : 2 * (p % k) = k := by
      rw [hdiv] at hdm
      nlinarith
    unfold rhe
    rw [hdiv, hmod]
    simp
  have := key p k hk h7
  have := key p' k' hk' h8
  omega

/-! ### `ulpExp`, representable naturals -/

theorem lt_two_pow_ulp (n : ℕ) : n < 2 ^ (ulpExp n + 53) := by
  unfold ulpExp
  rcases Nat.eq_zero_or_pos n with h | h
  · subst h; positivity
  · have : n < 2 ^ (n.log2 + 1) := Nat.lt_log2_self
    exact lt_of_lt_of_le this (Nat.pow_le_pow_right (by norm_num) (by omega))

theorem two_pow_ulp_le (n : ℕ) (h : 0 < ulpExp n) : 2 ^ (ulpExp n + 52) ≤ n := by
  unfold ulpExp at *
  have hn : n ≠ 0 := by rintro rfl; simp at h
  have h1 : 2 ^ n.log2 ≤ n := Nat.log2_self_le hn
  have h2 : n.log2 - 52 + 52 = n.log2 := by omega
  rwa [h2]

theorem ulpExp_mono {n m : ℕ} (h : n ≤ m) : ulpExp n ≤ ulpExp m := by
  unfold ulpExp
  rcases Nat.eq_zero_or_pos n with hn | hn
  · subst hn; simp
  · have hm : m ≠ 0 := by omega
    have h1 : 2 ^ n.log2 ≤ m := (Nat.log2_self_le (by omega)).trans h
    have := (Nat.le_log2 hm).mpr h1
    omega

theorem ulpExp_le_of_lt {n e : ℕ} (h : n < 2 ^ (e + 53)) : ulpExp n ≤ e := by
  by_contra hc
  push Not at hc
  have := two_pow_ulp_le n (by omega)
  have h2 : 2 ^ (e + 53) ≤ 2 ^ (ulpExp n + 52) := Nat.pow_le_pow_right (by norm_num) (by omega)
  omega

theorem repNat_of (m e : ℕ) (hm : m ≤ 2 ^ 53) : RepNat (m * 2 ^ e) := by
  unfold RepNat
  apply Nat.mod_eq_zero_of_dvd
  rcases Nat.lt_or_ge m (2 ^ 53) with h | h
  · have : ulpExp (m * 2 ^ e) ≤ e := by
      apply ulpExp_le_of_lt
      calc m * 2 ^ e < 2 ^ 53 * 2 ^ e := Nat.mul_lt_mul_of_pos_right h (by positivity)
        _ = 2 ^ (e + 53) := by rw [← pow_add, Nat.add_comm]
    exact (pow_dvd_pow 2 this).trans (dvd_mul_left _ _)
  · have hm' : m = 2 ^ 53 := le_antisymm hm h
    subst hm'
    rw [← pow_add]
    apply pow_dvd_pow
    have : ulpExp (2 ^ (53 + e)) ≤ e + 1 := by
      apply ulpExp_le_of_lt
      exact Nat.pow_lt_pow_right (by norm_num) (by omega)
    omega

theorem RepNat.exists {n : ℕ} (h : RepNat n) : ∃ m, m < 2 ^ 53 ∧ n = m * 2 ^ ulpExp n := by
  refine ⟨n / 2 ^ ulpExp n, ?_, ?_⟩
  · apply Nat.div_lt_of_lt_mul
    have := lt_two_pow_ulp n
    rwa [pow_add] at this
  · have := Nat.div_add_mod n (2 ^ ulpExp n)
    rw [h] at this
    rw [Nat.mul_comm]
    omega

theorem repNat_of_le {n : ℕ} (h : n ≤ 2 ^ 53) : RepNat n := by
  have := repNat_of n 0 h
  simpa using this

/-! ### `rndMag` -/

theorem div_lt_ulp (p q : ℕ) (hq : 0 < q) : p < 2 ^ (ulpExp (p / q) + 53) * q := by
  have h := lt_two_pow_ulp (p / q)
  have := (Nat.div_lt_iff_lt_mul hq).mp h
  exact this

theorem rhe_le_two_pow (p q : ℕ) (hq : 0 < q) : rhe p (q * 2 ^ ulpExp (p / q)) ≤ 2 ^ 53 := by
  apply rhe_le_of
  · positivity
  · have := div_lt_ulp p q hq
    rw [pow_add] at this
    nlinarith

theorem rndMag_rep (p q : ℕ) : RepNat (rndMag p q) := by
  unfold rndMag
  rcases Nat.eq_zero_or_pos q with hq | hq
  · subst hq
    have : ulpExp (p / 0) = 0 := by simp [ulpExp]
    rw [this]
    simp only [pow_zero, Nat.mul_one]
    unfold rhe
    rcases Nat.eq_zero_or_pos p with h | h
    · subst h; simp; decide
    · simp [h]; decide
  · exact repNat_of _ _ (rhe_le_two_pow p q hq)

theorem rndMag_exact (n q : ℕ) (hq : 0 < q) (h : RepNat n) : rndMag (n * q) q = n := by
  unfold rndMag
  rw [Nat.mul_div_cancel _ hq]
  obtain ⟨m, _, hm⟩ := h.exists
  have e : n * q = m * (q * 2 ^ ulpExp n) := by
    calc n * q = (m * 2 ^ ulpExp n) * q := by rw [← hm]
      _ = _ := by ring
  rw [e, rhe_exact _ _ (by positivity)]
  exact hm.symm

theorem rndMag_mono (p q p' q' : ℕ) (hq : 0 < q) (hq' : 0 < q') (h : p * q' ≤ p' * q) :
    rndMag p q ≤ rndMag p' q' := by
  have hF : p / q ≤ p' / q' := by
    rw [Nat.le_div_iff_mul_le hq']
    apply Nat.le_of_mul_le_mul_right (c := q) _ hq
    have := Nat.div_mul_le_self p q
    nlinarith
  have he := ulpExp_mono hF
  unfold rndMag
  rcases Nat.eq_or_lt_of_le he with h1 | h1
  · rw [← h1]
    apply Nat.mul_le_mul_right
    apply rhe_mono _ _ _ _ (by positivity) (by positivity)
    have := Nat.mul_le_mul_right (2 ^ ulpExp (p / q)) h
    nlinarith
  · have a1 := rhe_le_two_pow p q hq
    have a2 := two_pow_ulp_le (p' / q') (by omega)
    have a3 : 2 ^ 52 ≤ rhe p' (q' * 2 ^ ulpExp (p' / q')) := by
      apply le_rhe_of _ _ _ (by positivity)
      have := (Nat.le_div_iff_mul_le hq').mp a2
      rw [pow_add] at this
      nlinarith
    calc rhe p (q * 2 ^ ulpExp (p / q)) * 2 ^ ulpExp (p / q)
        ≤ 2 ^ 53 * 2 ^ ulpExp (p / q) := Nat.mul_le_mul_right _ a1
      _ = 2 ^ 52 * 2 ^ (ulpExp (p / q) + 1) := by rw [pow_succ]; ring
      _ ≤ 2 ^ 52 * 2 ^ ulpExp (p' / q') :=
          Nat.mul_le_mul_left _ (Nat.pow_le_pow_right (by norm_num) h1)
      _ ≤ _ := Nat.mul_le_mul_right _ a3

theorem rndMag_congr (p q p' q' : ℕ) (hq : 0 < q) (hq' : 0 < q') (h : p * q' = p' * q) :
    rndMag p q = rndMag p' q' :=
  le_antisymm (rndMag_mono _ _ _ _ hq hq' h.le) (rndMag_mono _ _ _ _ hq' hq h.ge)

/-- Half-ulp error bound (multiplied out). -/
theorem rndMag_err (p q : ℕ) (hq : 0 < q) :
    2 * (rndMag p q * q) ≤ 2 * p + q * 2 ^ ulpExp (p / q) ∧
    2 * p ≤ 2 * (rndMag p q * q) + q * 2 ^ ulpExp (p / q) := by
  have h := rhe_err p (q * 2 ^ ulpExp (p / q)) (by positivity)
  unfold rndMag
  have e : rhe p (q * 2 ^ ulpExp (p / q)) * (q * 2 ^ ulpExp (p / q)) =
    rhe p (q * 2 ^ ulpExp (p / q)) * 2 ^ ulpExp (p / q) * q := by ring
  rw [e] at h
  exact h

theorem rndMag_zero (q : ℕ) (hq : 0 < q) : rndMag 0 q = 0 := by
  have := rndMag_exact 0 q hq (by decide)
  simpa using this

/-! ### Rounding of rationals -/

/-- The number of units `2^-1074` in one. -/
def UN : ℕ := Nat.pow 2 1074

set_option exponentiation.threshold 3000 in
theorem UN_eq_pow (k : ℕ) (h : k = 1074) : UN = 2 ^ k := by subst h; rfl

set_option exponentiation.threshold 3000 in
theorem UN_pos : 0 < UN := by rw [UN_eq_pow _ rfl]; exact Nat.pow_pos (by norm_num)

attribute [irreducible] UN

/-- The number of units `2^-1074` in one, as a rational. -/
def U : ℚ := UN

theorem U_pos : 0 < U := by unfold U; exact_mod_cast UN_pos

/-- `x` rounded to nearest (ties to even) with 53 significant bits and granularity `2^-1074`;
no overflow threshold. -/
def RN (x : ℚ) : ℚ :=
  (if x < 0 then -1 else 1) * (rndMag (x.num.natAbs * UN) x.den : ℚ) / U

/-- `x` is `±n·2^-1074` with `n` of at most 53 significant bits. -/
def RepQ (x : ℚ) : Prop := ∃ n : ℕ, RepNat n ∧ |x| * U = n

theorem natAbs_div_den (x : ℚ) : (x.num.natAbs : ℚ) / x.den = |x| := by
  rw [Nat.cast_natAbs]
  conv_rhs => rw [← Rat.num_div_den x, abs_div]
  simp

theorem rndMag_eq_of (p q : ℕ) (hq : 0 < q) (x : ℚ) (h : (p : ℚ) / q = |x| * U) :
    rndMag (x.num.natAbs * UN) x.den = rndMag p q := by
  apply rndMag_congr _ _ _ _ x.den_pos hq
  have hx := natAbs_div_den x
  have hd : (x.den : ℚ) ≠ 0 := by exact_mod_cast x.den_pos.ne'
  have hq' : (q : ℚ) ≠ 0 := by exact_mod_cast hq.ne'
  rw [← hx] at h
  unfold U at h
  have h2 : (p : ℚ) * x.den = x.num.natAbs * UN * q := by
    field_simp at h
    linarith
  have : ((x.num.natAbs * UN * q : ℕ) : ℚ) = ((p * x.den : ℕ) : ℚ) := by
    push_cast
    linarith
  exact_mod_cast this

/-- How the rounding of a quotient of naturals relates to `RN`. -/
theorem RN_quot (p q : ℕ) (hq : 0 < q) : RN ((p : ℚ) / q / U) = (rndMag p q : ℚ) / U := by
  have h0 : (0 : ℚ) ≤ (p : ℚ) / q / U := by have := U_pos; positivity
  unfold RN
  rw [if_neg (not_lt.mpr h0), one_mul]
  congr 2
  apply rndMag_eq_of p q hq
  rw [abs_of_nonneg h0]
  have := U_pos
  field_simp

theorem RN_neg (x : ℚ) : RN (-x) = - RN x := by
  unfold RN
  rcases lt_trichotomy x 0 with h | h | h
  · have h2 : ¬ (-x < 0) := by linarith
    simp only [if_pos h, if_neg h2, Rat.num_neg_eq_neg_num, Int.natAbs_neg, Rat.den_neg_eq_den]
    ring
  · subst h
    simp only [neg_zero, lt_irrefl, if_false, Rat.num_zero, Int.natAbs_zero, Nat.zero_mul]
    rw [rndMag_zero _ (by simp)]
    simp
  · have h2 : ¬ (x < 0) := by linarith
    have h3 : -x < 0 := by linarith
    simp only [if_pos h3, if_neg h2, Rat.num_neg_eq_neg_num, Int.natAbs_neg, Rat.den_neg_eq_den]
    ring

theorem RN_zero : RN 0 = 0 := by
  have := RN_neg 0
  simp only [neg_zero] at this
  linarith

theorem RN_of_nonneg {x : ℚ} (h : 0 ≤ x) :
    RN x = (rndMag (x.num.natAbs * UN) x.den : ℚ) / U := by
  unfold RN
  rw [if_neg (not_lt.mpr h), one_mul]

theorem RN_nonneg {x : ℚ} (h : 0 ≤ x) : 0 ≤ RN x := by
  rw [RN_of_nonneg h]
  have := U_pos
  positivity

theorem RN_nonpos {x : ℚ} (h : x ≤ 0) : RN x ≤ 0 := by
  have := RN_nonneg (x := -x) (by linarith)
  rw [RN_neg] at this
  linarith

theorem RN_mono_nonneg {x y : ℚ} (hx : 0 ≤ x) (h : x ≤ y) : RN x ≤ RN y := by
  rw [RN_of_nonneg hx, RN_of_nonneg (hx.trans h)]
  apply div_le_div_of_nonneg_right _ U_pos.le
  have hxa := natAbs_div_den x
  have hya := natAbs_div_den y
  rw [abs_of_nonneg hx] at hxa
  rw [abs_of_nonneg (hx.trans h)] at hya
  have hdx : (0 : ℚ) < x.den := by exact_mod_cast x.den_pos
  have hdy : (0 : ℚ) < y.den := by exact_mod_cast y.den_pos
  have h2 : (x.num.natAbs : ℚ) * y.den ≤ y.num.natAbs * x.den := by
    rw [← hxa, ← hya] at h
    rw [div_le_div_iff₀ hdx hdy] at h
    exact h
  have h3 : x.num.natAbs * y.den ≤ y.num.natAbs * x.den := by exact_mod_cast h2
  have := rndMag_mono (x.num.natAbs * UN) x.den (y.num.natAbs * UN) y.den
    x.den_pos y.den_pos (by
      have := Nat.mul_le_mul_right UN h3
      calc x.num.natAbs * UN * y.den = x.num.natAbs * y.den * UN := by ring
        _ ≤ _ := this
        _ = _ := by ring)
  exact_mod_cast this

/-- Rounding is monotone. -/
theorem RN_mono {x y : ℚ} (h : x ≤ y) : RN x ≤ RN y := by
  rcases le_total 0 x with hx | hx
  · exact RN_mono_nonneg hx h
  · rcases le_total 0 y with hy | hy
    · exact (RN_nonpos hx).trans (RN_nonneg hy)
    · have := RN_mono_nonneg (x := -y) (y := -x) (by linarith) (by linarith)
      rw [RN_neg, RN_neg] at this
      linarith

theorem RepQ.neg {x : ℚ} (h : RepQ x) : RepQ (-x) := by
  obtain ⟨n, hn, e⟩ := h
  exact ⟨n, hn, by rwa [abs_neg]⟩

/-- Rounding does not change representable numbers. -/
theorem RN_exact {x : ℚ} (h : RepQ x) : RN x = x := by
  have key : ∀ x : ℚ, 0 ≤ x → RepQ x → RN x = x := by
    intro x hx ⟨n, hn, e⟩
    have h1 := RN_quot n 1 one_pos
    rw [abs_of_nonneg hx] at e
    have : x = (n : ℚ) / (1 : ℕ) / U := by
      rw [← e]
      have := U_pos
      field_simp
      simp
    rw [this, h1]
    have := rndMag_exact n 1 one_pos hn
    rw [Nat.mul_one] at this
    rw [this]
    simp
  rcases le_total 0 x with hx | hx
  · exact key x hx h
  · have := key (-x) (by linarith) h.neg
    rw [RN_neg] at this
    linarith

/-- The rounded value is representable. -/
theorem RN_rep (x : ℚ) : RepQ (RN x) := by
  refine ⟨_, rndMag_rep (x.num.natAbs * UN) x.den, ?_⟩
  unfold RN
  have := U_pos
  rw [abs_div, abs_mul, abs_of_pos U_pos]
  have h1 : |(if x < 0 then (-1 : ℚ) else 1)| = 1 := by split <;> simp
  rw [h1, one_mul, Nat.abs_cast]
  field_simp

theorem RepQ.of_mul_pow {x : ℚ} (m : ℤ) (e : ℕ) (hm : |m| ≤ 2 ^ 53) (h : x * U = m * 2 ^ e) :
    RepQ x := by
  refine ⟨m.natAbs * 2 ^ e, repNat_of _ _ ?_, ?_⟩
  · have : (m.natAbs : ℤ) ≤ 2 ^ 53 := by rwa [Int.natCast_natAbs]
    exact_mod_cast this
  · have h1 : |x| * U = |x * U| := by rw [abs_mul, abs_of_pos U_pos]
    rw [h1, h, abs_mul, Nat.cast_mul, Nat.cast_natAbs]
    simp

/-- `m·2^e` with `|m| ≤ 2^53`, `e ≥ -1074` is representable. -/
theorem RepQ.of_zpow {x : ℚ} (m e : ℤ) (hm : |m| ≤ 2 ^ 53) (he : -1074 ≤ e)
    (h : x = m * (2 : ℚ) ^ e) : RepQ x := by
  obtain ⟨k, hk⟩ : ∃ k : ℕ, e + 1074 = k := ⟨(e + 1074).toNat, by omega⟩
  apply RepQ.of_mul_pow m k hm
  rw [h, U, mul_assoc]
  congr 1
  have : (UN : ℚ) = (2 : ℚ) ^ (1074 : ℤ) := by
    obtain ⟨k, hk⟩ : ∃ k : ℕ, k = 1074 := ⟨_, rfl⟩
    have hk' : (1074 : ℤ) = k := by omega
    rw [UN_eq_pow k hk, hk']
    simp
  rw [this, ← zpow_add₀ (by norm_num), hk]
  rfl

theorem RepQ.int (m : ℤ) (hm : |m| ≤ 2 ^ 53) : RepQ (m : ℚ) :=
  RepQ.of_zpow m 0 hm (by norm_num) (by simp)

/-- Error of rounding: at most `2^-53` relative, or half the smallest unit. -/
theorem RN_err (x : ℚ) : |RN x - x| ≤ max (|x| / 2 ^ 53) (1 / (2 * U)) := by
  have key : ∀ x : ℚ, 0 ≤ x → |RN x - x| ≤ max (|x| / 2 ^ 53) (1 / (2 * U)) := by
    intro x hx
    have hU := U_pos
    rw [RN_of_nonneg hx]
    set p := x.num.natAbs * UN
    set q := x.den
    have hq : 0 < q := x.den_pos
    have hq' : (0 : ℚ) < q := by exact_mod_cast hq
    have hpq : (p : ℚ) / q = x * U := by
      have := natAbs_div_den x
      rw [abs_of_nonneg hx] at this
      conv_rhs => rw [← this]
      simp only [p, U]
      push_cast
      ring
    obtain ⟨h1, h2⟩ := rndMag_err p q hq
    have h1' : 2 * ((rndMag p q : ℚ) * q) ≤ 2 * p + q * 2 ^ ulpExp (p / q) := by exact_mod_cast h1
    have h2' : 2 * (p : ℚ) ≤ 2 * (rndMag p q * q) + q * 2 ^ ulpExp (p / q) := by exact_mod_cast h2
    have hp : (p : ℚ) = x * U * q := by rw [← hpq]; field_simp
    have b1 : |(rndMag p q : ℚ) - x * U| ≤ 2 ^ ulpExp (p / q) / 2 := by
      rw [abs_le]
      rw [hp] at h1' h2'
      constructor
      · have : q * (x * U) ≤ q * (rndMag p q + 2 ^ ulpExp (p / q) / 2) := by linarith
        have := le_of_mul_le_mul_left this hq'
        linarith
      · have : q * (rndMag p q : ℚ) ≤ q * (x * U + 2 ^ ulpExp (p / q) / 2) := by linarith
        have := le_of_mul_le_mul_left this hq'
        linarith
    have e1 : (rndMag p q : ℚ) / U - x = (rndMag p q - x * U) / U := by field_simp
    rw [e1, abs_div, abs_of_pos hU, abs_of_nonneg hx]
    rcases Nat.eq_zero_or_pos (ulpExp (p / q)) with h0 | h0
    · apply le_max_of_le_right
      rw [h0] at b1
      rw [div_le_div_iff₀ hU (by positivity)]
      nlinarith
    · apply le_max_of_le_left
      have h3 := two_pow_ulp_le (p / q) h0
      have h4 := (Nat.le_div_iff_mul_le hq).mp h3
      have h4' : (2 : ℚ) ^ (ulpExp (p / q) + 52) * q ≤ p := by exact_mod_cast h4
      rw [hp, pow_add] at h4'
      have h5 : (2 : ℚ) ^ ulpExp (p / q) * 2 ^ 52 ≤ x * U := by
        apply le_of_mul_le_mul_right _ hq'
        linarith
      rw [div_le_iff₀ hU]
      have h6 : (2 : ℚ) ^ 53 = 2 * 2 ^ 52 := by norm_num
      rw [h6]
      have h7 : x / (2 * 2 ^ 52) * U = (x * U) / 2 ^ 52 / 2 := by field_simp
      rw [h7]
      have h8 : (2 : ℚ) ^ ulpExp (p / q) ≤ x * U / 2 ^ 52 := by
        rw [le_div_iff₀ (by positivity)]
        exact h5
      linarith
  rcases le_total 0 x with hx | hx
  · exact key x hx
  · have := key (-x) (by linarith)
    rw [RN_neg, abs_neg] at this
    rw [← abs_neg]
    convert this using 2
    ring

/-- Every representable bound is respected. -/
theorem RN_le_of_le {x b : ℚ} (hb : RepQ b) (h : x ≤ b) : RN x ≤ b := by
  have := RN_mono h
  rwa [RN_exact hb] at this

theorem le_RN_of_le {x b : ℚ} (hb : RepQ b) (h : b ≤ x) : b ≤ RN x := by
  have := RN_mono h
  rwa [RN_exact hb] at this

theorem rep_abs {x : ℚ} (h : RepQ x) : RepQ |x| := by
  rcases abs_choice x with e | e <;> rw [e]
  · exact h
  · exact h.neg

end Verif
