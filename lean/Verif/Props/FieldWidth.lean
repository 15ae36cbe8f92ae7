import Verif.Props.DumpText

/-!
# C93 and C95: every field of the Fortran output fits, with a blank before it
-/

namespace Verif
open F64 Arith Spec

theorem body_length {d : ℕ} (hd : 2 ≤ d) (x : F64) : (eBody d x).length ≤ d + 7 ∧ '*' ∉ eBody d x := by
  have star : ∀ w n, '*' ∉ padLeft w (dec n) := fun w n h => by
    have := digits_pad w n '*' h
    revert this
    decide
  rcases x with _ | s | ⟨s, n, hn⟩
  · exact ⟨by simp [eBody], by simp [eBody]⟩
  · cases s <;> exact ⟨by simp [eBody, fmtSign]; omega, by simp [eBody, fmtSign]⟩
  · have hs : (fmtSign false s).length ≤ 1 ∧ '*' ∉ fmtSign false s := by cases s <;> simp [fmtSign]
    obtain ⟨j, rfl⟩ : ∃ j, d = j + 1 := ⟨d - 1, by omega⟩
    have hx : ∀ e : ℤ, e.natAbs < 1000 → (eExp e).length = 4 ∧ '*' ∉ eExp e := by
      intro e he
      have hg : '*' ≠ (if e < 0 then '-' else '+') := by split <;> decide
      unfold eExp
      simp only
      split
      · next h => exact ⟨by simp only [List.length_cons]; rw [padLeft_dec 1 _ (by simpa using h), fixedD_length],
          by simp only [List.mem_cons, not_or]; exact ⟨by decide, hg, star _ _⟩⟩
      · exact ⟨by simp only [List.length_cons]; rw [padLeft_dec 2 _ (by simpa using he), fixedD_length],
          by simp only [List.mem_cons, not_or]; exact ⟨hg, star _ _⟩⟩
    have all : ∀ m : ℕ, ∀ e : ℤ, eDigits (j + 1) n = (m, e) → m < 10 ^ (j + 1) → e.natAbs < 1000 →
        (eBody (j + 1) (.fin s n hn)).length ≤ j + 1 + 7 ∧ '*' ∉ eBody (j + 1) (.fin s n hn) := by
      intro m e he hm h3
      simp only [eBody, he]
      constructor
      · simp only [List.length_append, List.length_cons, padLeft_dec j m hm, fixedD_length, (hx e h3).1]
        omega
      · simp only [List.mem_append, List.mem_cons, not_or]
        exact ⟨hs.2, by decide, by decide, star _ _, (hx e h3).2⟩
    rcases Nat.eq_zero_or_pos n with rfl | hn0
    · exact all 0 0 rfl (by positivity) (by decide)
    · obtain ⟨m, e, he, m1, m2, a1, a2, a3⟩ := eDigits_spec (d := j + 1) (by omega) hn0
      obtain ⟨r1, r2⟩ := value_range hn0 hn
      have up : ∀ {a b : ℤ}, (10 : ℚ) ^ a < 10 ^ b → a < b := fun h => (zpow_lt_zpow_iff_right₀ (by norm_num)).mp h
      obtain ⟨i, hi⟩ : ∃ i : ℕ, i = 400 := ⟨_, rfl⟩
      rw [← hi] at r1 r2
      have hP : (0 : ℚ) < 10 ^ e := by positivity
      have u1 : (10 : ℚ) ^ (-(i : ℤ)) < 10 ^ (e + (j + 1 : ℕ)) := by
        rw [zpow_neg, zpow_natCast, ← one_div, zpow_add₀ (by norm_num), zpow_natCast, mul_comm ((10 : ℚ) ^ e)]
        exact r1.trans a3
      have u2 : (10 : ℚ) ^ (e + ((j - 1 : ℕ) : ℤ)) < 10 ^ (i : ℤ) := by
        rw [zpow_natCast, zpow_add₀ (by norm_num), zpow_natCast, mul_comm]
        refine lt_of_le_of_lt (mul_le_mul_of_nonneg_right ?_ hP.le) (lt_of_le_of_lt a2 r2)
        have h1 : (10 : ℚ) ^ (j + 1 - 1) = 10 ^ (j - 1) * 10 := by rw [← pow_succ]; congr 1; omega
        have h2 : (1 : ℚ) ≤ 10 ^ (j - 1) := one_le_pow₀ (by norm_num)
        rw [h1]
        linarith
      have := up u1
      have := up u2
      exact all m _ he m2 (by push_cast at *; omega)

theorem field_fits {w d : ℕ} (hd : 2 ≤ d) (hw : d + 8 ≤ w) (x : F64) :
    ∃ b, fmtE w d x = ' ' :: b ∧ (fmtE w d x).length = w ∧ '*' ∉ fmtE w d x := by
  obtain ⟨h1, h2⟩ := body_length hd x
  have h3 : fmtE w d x = List.replicate (w - (eBody d x).length) ' ' ++ eBody d x := by
    unfold fmtE
    simp only [if_pos (show (eBody d x).length ≤ w by omega)]
  obtain ⟨k, hk⟩ : ∃ k, w - (eBody d x).length = k + 1 := ⟨w - (eBody d x).length - 1, by omega⟩
  rw [h3]
  refine ⟨List.replicate k ' ' ++ eBody d x, by rw [hk, List.replicate_succ]; rfl, by simp; omega, ?_⟩
  rw [List.mem_append, not_or]
  exact ⟨fun h => absurd (List.eq_of_mem_replicate h) (by decide), h2⟩

/-- **C93.** Whatever the number, also when it is infinite or not a number, its field in the tables has 23 characters, begins with a
blank and is never replaced by stars: two neighbouring fields never run into each other. -/
theorem C93_fields_fit (x : F64) : ∃ b, fmtE 23 15 x = ' ' :: b ∧ (fmtE 23 15 x).length = 23 ∧ '*' ∉ fmtE 23 15 x :=
  field_fits (by norm_num) (by norm_num) x

/-- **C95.** The same for the 25 characters of a matrix entry of the test data. -/
theorem C95_fields_fit (x : F64) : ∃ b, fmtE 25 17 x = ' ' :: b ∧ (fmtE 25 17 x).length = 25 ∧ '*' ∉ fmtE 25 17 x :=
  field_fits (by norm_num) (by norm_num) x

example : fmtE 23 15 (.inf true) = "              -Infinity".toList ∧
    fmtE 23 15 (lit (-3 / 4)) = " -0.750000000000000E+00".toList := by decide +kernel

/-- The width is needed: one column less and the longest field is full, two less and it is stars. -/
theorem C93_field_width_exact : fmtE 22 15 (lit (-3 / 4)) = "-0.750000000000000E+00".toList ∧
    fmtE 21 15 (lit (-3 / 4)) = List.replicate 21 '*' := by decide +kernel

end Verif
