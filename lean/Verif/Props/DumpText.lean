import Verif.Props.TestSofa

/-!
# C93 and C95: the text of the fields whose exponent has three digits

The fields that a Rust compiler would not read, in full: blanks, sign, `0.`, the digits, the sign of the exponent and three
digits.
-/

namespace Verif
open F64 Arith Spec

/-- A field of width `w` with `d` digits after `0.` and three digits of exponent without `E`, off by half a unit at most. -/
def ThreeDigitField (w d : ℕ) (t : List Char) (v : ℚ) : Prop :=
  ∃ (b s f k : List Char) (g : Char) (a : ℚ) (e : ℤ), t = b ++ (s ++ '0' :: '.' :: f) ++ g :: k ∧ t.length = w ∧ (∀ c ∈ b, c = ' ') ∧
    s = (if v < 0 then ['-'] else []) ∧ Digits f ∧ f.length = d ∧ (g = '+' ∨ g = '-') ∧ Digits k ∧ k.length = 3 ∧
    readDec (s ++ '0' :: '.' :: f) = some a ∧ readDec (g :: k) = some (e : ℚ) ∧ 1 / 10 ≤ |a| ∧ |a * 10 ^ e - v| ≤ 1 / 2 * 10 ^ (e - d)

theorem three_digit_field {w d : ℕ} (hd : 1 ≤ d) (hd2 : d ≤ 17) (hw : d + 7 ≤ w) {x : F64} {v : ℚ} (hx : Is x v) (hv : v ≠ 0)
    (h : |v| < 1 / 10 ^ 101 ∨ 10 ^ 100 ≤ |v|) : ThreeDigitField w d (fmtE w d x) v := by
  obtain ⟨s, n, hn, rfl, rfl⟩ := is_fin hx
  have hv0 : 0 ≤ (n : ℚ) / U := div_nonneg (by positivity) U_pos.le
  have habs : |(if s then -((n : ℚ) / U) else (n : ℚ) / U)| = n / U := by
    cases s
    · simp only [Bool.false_eq_true, if_false]; exact abs_of_nonneg hv0
    · simp only [if_true, abs_neg]; exact abs_of_nonneg hv0
  rw [habs] at h
  have hn0 : 0 < n := by
    rcases Nat.eq_zero_or_pos n with rfl | h
    · simp at hv
    · exact h
  have hpos : 0 < (n : ℚ) / U := div_pos (by exact_mod_cast hn0) U_pos
  obtain ⟨r1, r2⟩ := value_range hn0 hn
  obtain ⟨m, e, he, m1, m2, a1, a2, a3⟩ := eDigits_spec hd hn0
  have hP : (0 : ℚ) < 10 ^ e := by positivity
  have hsplit : ∀ j : ℤ, (10 : ℚ) ^ (e + j) = 10 ^ j * 10 ^ e := fun j => by rw [zpow_add₀ (by norm_num)]; ring
  -- the number against powers of ten
  have u1 : (n : ℚ) / U < 10 ^ (e + d) := by rw [hsplit, zpow_natCast]; exact a3
  have u2 : (10 : ℚ) ^ (e + (d - 2 : ℤ)) < n / U := by
    refine lt_of_lt_of_le ?_ a2
    rw [hsplit]
    refine mul_lt_mul_of_pos_right ?_ hP
    have : (10 : ℚ) ^ (d - 1) = 10 * 10 ^ (d - 2 : ℤ) := by
      rw [← zpow_natCast, show ((d - 1 : ℕ) : ℤ) = 1 + (d - 2 : ℤ) by omega, zpow_add₀ (by norm_num)]; norm_num
    rw [this]
    have : (10 : ℚ) ^ (-1 : ℤ) ≤ 10 ^ (d - 2 : ℤ) := zpow_le_zpow_right₀ (by norm_num) (by omega)
    norm_num at this
    linarith
  have up : ∀ {a b : ℤ}, (10 : ℚ) ^ a < 10 ^ b → a < b := fun h => (zpow_lt_zpow_iff_right₀ (by norm_num)).mp h
  have v1 : ∀ j : ℤ, (n : ℚ) / U < 10 ^ j → e + d - 2 < j := fun j hj => by
    have := up (u2.trans hj); omega
  have v2 : ∀ j : ℤ, (10 : ℚ) ^ j ≤ n / U → j < e + d := fun j hj => up (lt_of_le_of_lt hj u1)
  have hna : 100 ≤ (e + d).natAbs := by
    rcases h with h | h
    · have := v1 (-101) (by rw [zpow_neg, ← one_div]; exact_mod_cast h)
      omega
    · have := v2 100 (by exact_mod_cast h)
      omega
  have hnb : (e + d).natAbs < 1000 := by
    obtain ⟨i, hi⟩ : ∃ i : ℕ, i = 400 := ⟨_, rfl⟩
    rw [← hi] at r1 r2
    have := v1 i (by rw [zpow_natCast]; exact r2)
    have := v2 (-i) (by rw [zpow_neg, zpow_natCast, ← one_div]; exact r1.le)
    omega
  have hl : (padLeft d (dec m)).length = d := by
    obtain ⟨j, rfl⟩ : ∃ j, d = j + 1 := ⟨d - 1, by omega⟩
    rw [padLeft_dec j m m2, fixedD_length]
  have hl3 : (padLeft 3 (dec (e + d).natAbs)).length = 3 := by rw [padLeft_dec 2 _ (by simpa using hnb), fixedD_length]
  have hbody : eBody d (.fin s n hn) = (fmtSign false s ++ '0' :: '.' :: padLeft d (dec m)) ++
      (if e + d < 0 then '-' else '+') :: padLeft 3 (dec (e + d).natAbs) := by
    simp only [eBody, he, eExp, if_neg (not_lt.mpr hna)]
    simp
  have hs : fmtSign false s = (if (if s then -((n : ℚ) / U) else (n : ℚ) / U) < 0 then ['-'] else []) := by
    cases s
    · simp only [Bool.false_eq_true, if_false, if_neg (not_lt.mpr hv0), fmtSign]
    · simp only [if_true, if_pos (neg_lt_zero.mpr hpos), fmtSign]
  have hlen : (eBody d (.fin s n hn)).length ≤ w := by
    rw [hbody]
    simp only [List.length_append, List.length_cons, hl, hl3]
    have : (fmtSign false s).length ≤ 1 := by cases s <;> simp [fmtSign]
    omega
  have hpt : pointText d m = '0' :: '.' :: padLeft d (dec m) := by
    unfold pointText
    rw [if_neg (by omega), Nat.div_eq_of_lt m2, Nat.mod_eq_of_lt m2]
    have : dec 0 = ['0'] := by decide
    rw [this]; rfl
  refine ⟨List.replicate (w - (eBody d (.fin s n hn)).length) ' ', fmtSign false s, padLeft d (dec m), padLeft 3 (dec (e + d).natAbs),
    if e + d < 0 then '-' else '+', if s then -((m : ℚ) / 10 ^ d) else m / 10 ^ d, e + d, ?_, ?_, ?_, hs, digits_pad _ _, hl, ?_, digits_pad _ _, hl3,
    ?_, readDec_exp 3 _, ?_, ?_⟩
  · unfold fmtE
    simp only [if_pos hlen]
    rw [List.append_assoc, ← hbody]
  · unfold fmtE
    simp only [if_pos hlen, List.length_append, List.length_replicate]
    omega
  · intro c hc; exact List.eq_of_mem_replicate hc
  · split <;> simp
  · rw [← hpt]; exact readDec_point s hd
  · have : (1 : ℚ) / 10 ≤ m / 10 ^ d := by
      rw [div_le_div_iff₀ (by norm_num) (by positivity), one_mul]
      have : (10 : ℚ) ^ d = 10 ^ (d - 1) * 10 := by rw [← pow_succ]; congr 1; omega
      rw [this]
      have : ((10 ^ (d - 1) : ℕ) : ℚ) ≤ m := by exact_mod_cast m1
      push_cast at this
      linarith
    have h0 : (0 : ℚ) ≤ m / 10 ^ d := by positivity
    cases s
    · simp only [Bool.false_eq_true, if_false]; rw [abs_of_nonneg h0]; exact this
    · simp only [if_true, abs_neg]; rw [abs_of_nonneg h0]; exact this
  · have e1 : (m : ℚ) / 10 ^ d * 10 ^ (e + d) = m * 10 ^ e := by rw [hsplit, zpow_natCast]; field_simp
    have e2 : e + (d : ℤ) - d = e := by ring
    rw [e2, abs_sub_comm]
    cases s
    · simp only [Bool.false_eq_true, if_false, e1]; exact a1
    · simp only [if_true, neg_mul, e1]; rw [neg_sub_neg, abs_sub_comm]; exact a1

/-- **C93.** A number whose exponent has three digits, in the tables: the field in full. -/
theorem C93_three_digit_text {x : F64} {v : ℚ} (hx : Is x v) (hv : v ≠ 0) (h : |v| < 1 / 10 ^ 101 ∨ 10 ^ 100 ≤ |v|) :
    ThreeDigitField 23 15 (fmtE 23 15 x) v := three_digit_field (by norm_num) (by norm_num) (by norm_num) hx hv h

/-- **C95.** The same for a matrix entry of the test data. -/
theorem C95_three_digit_text {x : F64} {v : ℚ} (hx : Is x v) (hv : v ≠ 0) (h : |v| < 1 / 10 ^ 101 ∨ 10 ^ 100 ≤ |v|) :
    ThreeDigitField 25 17 (fmtE 25 17 x) v := three_digit_field (by norm_num) (by norm_num) (by norm_num) hx hv h

/-- A number of that kind, `2^-400`. -/
example : ∃ (x : F64) (v : ℚ), Is x v ∧ v ≠ 0 ∧ |v| < 1 / 10 ^ 101 ∧ ThreeDigitField 23 15 (fmtE 23 15 x) v := by
  have hx : Is (lit (1 / 2 ^ 400) : F64) (1 / 2 ^ 400) := Is.lit_exact _ (by simpa using RepQ.dyadic 1 400 (by norm_num) (by norm_num))
    (le_HUGE (k := 0) (by rw [abs_of_pos (by positivity), pow_zero, div_le_one (by positivity)]; exact one_le_pow₀ (by norm_num)) (by norm_num))
  have hv : |(1 : ℚ) / 2 ^ 400| < 1 / 10 ^ 101 := by
    rw [abs_of_pos (by positivity)]
    refine one_div_lt_one_div_of_lt (by positivity) ?_
    rw [show (400 : ℕ) = 4 * 100 by norm_num, pow_mul]
    norm_num
  exact ⟨_, _, hx, by positivity, hv, C93_three_digit_text hx (by positivity) (.inl hv)⟩

end Verif
