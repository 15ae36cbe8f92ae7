import Verif.Lemmas.Parse
import Verif.Float.Nearest

/-!
# The shortest digits that read back
-/

namespace Verif
open F64 Arith Spec

theorem readsBack_iff (n m : ℕ) (e : ℤ) : ReadsBack n m e ↔ RN (m * (10 : ℚ) ^ e) = n / U := by
  have hU := U_pos.ne'
  have key : ∀ p q : ℕ, 0 < q → (p : ℚ) / q / U = m * (10 : ℚ) ^ e → (rndMag p q = n ↔ RN (m * (10 : ℚ) ^ e) = n / U) := by
    intro p q hq h
    rw [← h, RN_quot p q hq, div_left_inj' hU]
    exact_mod_cast Iff.rfl
  have hUN : (UN : ℚ) = U := rfl
  unfold ReadsBack
  split
  · rename_i h
    refine key _ _ one_pos ?_
    obtain ⟨j, rfl⟩ := Int.eq_ofNat_of_zero_le h
    simp only [Int.toNat_natCast, zpow_natCast]
    push_cast
    rw [hUN]
    field_simp
  · rename_i h
    refine key _ _ (by positivity) ?_
    obtain ⟨j, hj⟩ := Int.eq_ofNat_of_zero_le (a := -e) (by omega)
    have : e = -(j : ℤ) := by omega
    subst this
    simp only [neg_neg, Int.toNat_natCast, zpow_neg, zpow_natCast]
    push_cast
    rw [hUN]
    field_simp

variable {n k : ℕ}

/-- The scaled number lies in the decade of `k` digit numbers. -/
theorem inUnits_mem (hn : 0 < n) (hk : 1 ≤ k) :
    (n : ℚ) / U = inUnits n k * 10 ^ lastExp n k ∧ 10 ^ (k - 1) ≤ ⌊inUnits n k⌋₊ ∧ ⌊inUnits n k⌋₊ + 1 ≤ 10 ^ k ∧
      (⌊inUnits n k⌋₊ : ℚ) ≤ inUnits n k ∧ inUnits n k < ⌊inUnits n k⌋₊ + 1 := by
  have hx : 0 < (n : ℚ) / U := div_pos (by exact_mod_cast hn) U_pos
  have h1 := Int.zpow_log_le_self (b := 10) (by norm_num) hx
  have h2 := Int.lt_zpow_succ_log_self (b := 10) (by norm_num) ((n : ℚ) / U)
  have hp : (0 : ℚ) < 10 ^ lastExp n k := by positivity
  have hu : 0 ≤ inUnits n k := (div_pos hx hp).le
  have e1 : (n : ℚ) / U = inUnits n k * 10 ^ lastExp n k := by unfold inUnits; field_simp
  have l1 : (10 : ℚ) ^ (k - 1) ≤ inUnits n k := by
    unfold inUnits
    rw [le_div_iff₀ hp, ← zpow_natCast, ← zpow_add₀ (by norm_num)]
    have : ((k - 1 : ℕ) : ℤ) + lastExp n k = Int.log 10 ((n : ℚ) / U) := by unfold lastExp; push_cast [hk]; ring
    rw [this]; exact_mod_cast h1
  have l2 : inUnits n k < (10 : ℚ) ^ k := by
    unfold inUnits
    rw [div_lt_iff₀ hp, ← zpow_natCast, ← zpow_add₀ (by norm_num)]
    have : (k : ℤ) + lastExp n k = Int.log 10 ((n : ℚ) / U) + 1 := by unfold lastExp; ring
    rw [this]; exact_mod_cast h2
  refine ⟨e1, Nat.le_floor (by exact_mod_cast l1), ?_, Nat.floor_le hu, Nat.lt_floor_add_one _⟩
  exact (Nat.floor_lt hu).mpr (by exact_mod_cast l2)

/-- No decimal with `k` digits lies strictly between a positive number and its lower neighbour, nor its upper one. -/
theorem decimal_gap (hn : 0 < n) (hk : 1 ≤ k) {m : ℕ} (hm : m < 10 ^ k) (e : ℤ) :
    (m * (10 : ℚ) ^ e ≤ n / U → m * (10 : ℚ) ^ e ≤ ⌊inUnits n k⌋₊ * 10 ^ lastExp n k) ∧
    ((n : ℚ) / U < m * (10 : ℚ) ^ e → (⌊inUnits n k⌋₊ + 1 : ℕ) * (10 : ℚ) ^ lastExp n k ≤ m * (10 : ℚ) ^ e) := by
  obtain ⟨e1, a1, a2, a3, a4⟩ := inUnits_mem hn hk
  have hp : (0 : ℚ) < 10 ^ lastExp n k := by positivity
  have hu : 0 ≤ inUnits n k := le_trans (by positivity) a3
  rw [e1]
  by_cases h : lastExp n k ≤ e
  · obtain ⟨j, hj⟩ := Int.eq_ofNat_of_zero_le (a := e - lastExp n k) (by omega)
    have he : m * (10 : ℚ) ^ e = ((m * 10 ^ j : ℕ) : ℚ) * 10 ^ lastExp n k := by
      have : e = (j : ℤ) + lastExp n k := by omega
      rw [this, zpow_add₀ (by norm_num), zpow_natCast]; push_cast; ring
    rw [he]
    generalize m * 10 ^ j = w
    rw [mul_le_mul_iff_left₀ hp, mul_le_mul_iff_left₀ hp, mul_lt_mul_iff_left₀ hp, mul_le_mul_iff_left₀ hp]
    refine ⟨fun h => by exact_mod_cast Nat.le_floor h, fun h => ?_⟩
    exact_mod_cast (Nat.floor_lt hu).mpr h
  · have hlt : m * (10 : ℚ) ^ e < ⌊inUnits n k⌋₊ * 10 ^ lastExp n k := by
      calc m * (10 : ℚ) ^ e < 10 ^ k * 10 ^ e := by
            have : (m : ℚ) < 10 ^ k := by exact_mod_cast hm
            have : (0 : ℚ) < 10 ^ e := by positivity
            nlinarith
        _ = 10 ^ (k + e) := by rw [zpow_add₀ (by norm_num), zpow_natCast]
        _ ≤ 10 ^ ((k - 1 : ℕ) + lastExp n k) := zpow_le_zpow_right₀ (by norm_num) (by push_cast [hk]; omega)
        _ = 10 ^ (k - 1) * 10 ^ lastExp n k := by rw [zpow_add₀ (by norm_num), zpow_natCast]
        _ ≤ _ := by
            have : (10 : ℚ) ^ (k - 1) ≤ ⌊inUnits n k⌋₊ := by exact_mod_cast a1
            nlinarith
    refine ⟨fun _ => hlt.le, fun h => ?_⟩
    exfalso
    have : (⌊inUnits n k⌋₊ : ℚ) * 10 ^ lastExp n k ≤ inUnits n k * 10 ^ lastExp n k := by nlinarith
    linarith

/-- If a decimal with `k` digits reads back, so does the neighbour on its side. -/
theorem neighbour_reads (hr : RepNat n) (hn : 0 < n) (hk : 1 ≤ k) {m : ℕ} (hm : m < 10 ^ k) {e : ℤ} (h : ReadsBack n m e) :
    (m * (10 : ℚ) ^ e ≤ n / U ∧ ReadsBack n ⌊inUnits n k⌋₊ (lastExp n k)) ∨
    ((n : ℚ) / U < m * (10 : ℚ) ^ e ∧ ReadsBack n (⌊inUnits n k⌋₊ + 1) (lastExp n k)) := by
  obtain ⟨e1, a1, a2, a3, a4⟩ := inUnits_mem hn hk
  have hp : (0 : ℚ) < 10 ^ lastExp n k := by positivity
  obtain ⟨g1, g2⟩ := decimal_gap hn hk hm e
  have hx : RN ((n : ℚ) / U) = n / U := by
    have := RN_quot (n * 1) 1 one_pos
    rw [rndMag_exact n 1 one_pos hr] at this
    simpa using this
  rw [readsBack_iff] at *
  rw [readsBack_iff]
  by_cases hc : m * (10 : ℚ) ^ e ≤ n / U
  · refine .inl ⟨hc, le_antisymm ?_ ?_⟩
    · rw [← hx]; exact RN_mono (by rw [e1]; nlinarith)
    · rw [← h]; exact RN_mono (g1 hc)
  · push Not at hc
    refine .inr ⟨hc, le_antisymm ?_ ?_⟩
    · calc _ ≤ _ := RN_mono (g2 hc)
        _ = _ := h
    · calc _ = _ := hx.symm
        _ ≤ _ := RN_mono (by rw [e1]; push_cast; nlinarith)

/-- The digits printed: they read back, no decimal with fewer digits does, and none with as many is nearer. -/
theorem digitsAt_spec (h : RepNat n) (hn : 0 < n) (j : ℕ) (hj : j = digitCount h) :
    1 ≤ j ∧ 0 < (digitsAt n j).1 ∧ (digitsAt n j).1 < 10 ^ j ∧ ReadsBack n (digitsAt n j).1 (digitsAt n j).2 ∧
    ∀ (m : ℕ) (e : ℤ) (i : ℕ), m < 10 ^ i → ReadsBack n m e → j ≤ i ∧
      (i = j → |(digitsAt n j).1 * (10 : ℚ) ^ (digitsAt n j).2 - n / U| ≤ |m * (10 : ℚ) ^ e - n / U|) := by
  have hs : Enough n j := by rw [hj]; exact Nat.find_spec (enough_exists h)
  have hmin : ∀ i, Enough n i → j ≤ i := fun i hi => by rw [hj]; exact Nat.find_min' (enough_exists h) hi
  obtain ⟨hj1, hor⟩ := hs
  obtain ⟨e1, a1, a2, a3, a4⟩ := inUnits_mem hn hj1
  have hp : (0 : ℚ) < 10 ^ lastExp n j := by positivity
  -- the value before a zero is dropped
  obtain ⟨w, hw, hwr⟩ : ∃ w : ℕ, w = (if ReadsBack n ⌊inUnits n j⌋₊ (lastExp n j) ∧
      (¬ReadsBack n (⌊inUnits n j⌋₊ + 1) (lastExp n j) ∨ inUnits n j - ⌊inUnits n j⌋₊ < 1 / 2)
      then ⌊inUnits n j⌋₊ else ⌊inUnits n j⌋₊ + 1) ∧ ReadsBack n w (lastExp n j) := by
    refine ⟨_, rfl, ?_⟩
    split
    · rename_i hc; exact hc.1
    · rename_i hc
      rcases hor with h1 | h1
      · by_contra h2; exact hc ⟨h1, .inl h2⟩
      · exact h1
  have hd : digitsAt n j = if w % 10 = 0 then (w / 10, lastExp n j + 1) else (w, lastExp n j) := by rw [hw]; rfl
  have hwpos : 0 < w := by
    have : 0 < 10 ^ (j - 1) := by positivity
    rw [hw]; split <;> omega
  have hwle : w ≤ 10 ^ j := by rw [hw]; split <;> omega
  have hval : ((digitsAt n j).1 : ℚ) * 10 ^ (digitsAt n j).2 = w * 10 ^ lastExp n j := by
    rw [hd]
    split
    · rename_i h0
      obtain ⟨c, hc⟩ := Nat.dvd_of_mod_eq_zero h0
      rw [hc, Nat.mul_div_cancel_left _ (by norm_num), zpow_add₀ (by norm_num)]
      push_cast; ring
    · rfl
  refine ⟨hj1, ?_, ?_, ?_, ?_⟩
  · rw [hd]; split
    · show 0 < w / 10; omega
    · exact hwpos
  · rw [hd]; split
    · show w / 10 < _; omega
    · rename_i h0
      show w < _
      refine lt_of_le_of_ne hwle fun he => h0 ?_
      rw [he]
      obtain ⟨i, rfl⟩ : ∃ i, j = i + 1 := ⟨j - 1, by omega⟩
      rw [pow_succ]; omega
  · rw [readsBack_iff, hval, ← readsBack_iff]; exact hwr
  · intro m e i hm hr
    have hi : 1 ≤ i := by
      by_contra h0
      have : i = 0 := by omega
      subst this
      have : m = 0 := by simpa using hm
      subst this
      rw [readsBack_iff] at hr
      simp only [Nat.cast_zero, zero_mul, RN_zero] at hr
      have : 0 < (n : ℚ) / U := div_pos (by exact_mod_cast hn) U_pos
      linarith
    refine ⟨hmin i ⟨hi, (neighbour_reads h hn hi hm hr).imp (·.2) (·.2)⟩, ?_⟩
    rintro rfl
    obtain ⟨g1, g2⟩ := decimal_gap hn hj1 hm e
    rw [hval]
    rcases neighbour_reads h hn hj1 hm hr with ⟨hc, hb⟩ | ⟨hc, hb⟩
    · have h2 := g1 hc
      rw [abs_of_nonpos (a := (m : ℚ) * 10 ^ e - n / U) (by linarith), abs_le, hw]
      rw [e1] at *
      split
      · constructor <;> nlinarith
      · rename_i hno
        have h3 : 1 / 2 ≤ inUnits n i - ⌊inUnits n i⌋₊ := by
          by_contra h4; exact hno ⟨hb, .inr (by linarith)⟩
        push_cast
        constructor <;> nlinarith
    · have h2 := g2 hc
      rw [abs_of_pos (a := (m : ℚ) * 10 ^ e - n / U) (by linarith), abs_le, hw]
      rw [e1] at *
      push_cast at h2
      split
      · rename_i hno
        have h3 : inUnits n i - ⌊inUnits n i⌋₊ < 1 / 2 := hno.2.resolve_left (fun h => h hb)
        constructor <;> nlinarith
      · push_cast
        constructor <;> nlinarith

/-- The text of `m * 10^e` is a numeral of that value, starting with a digit. -/
theorem plainText_read (m : ℕ) (e : ℤ) : readMag (plainText m e) = some (m * (10 : ℚ) ^ e) ∧
    (∃ c r, plainText m e = c :: r ∧ IsDig c) ∧ ∀ c ∈ plainText m e, IsDig c ∨ c = '.' := by
  have hall : ∀ {l : List Char}, (∀ c ∈ l, IsDig c) → l.all isDigit = true :=
    fun h => List.all_eq_true.mpr fun c hc => isDigit_of_IsDig (h c hc)
  have hv : ∀ w n, digitsVal (padLeft w (dec n)) = n := fun w n => ((readNat_iff _ _).mp (readNat_pad w n)).2.2.symm
  have hv0 : ∀ n, digitsVal (dec n) = n := fun n => ((readNat_iff _ _).mp (readNat_dec n)).2.2.symm
  have hhead : ∀ (n : ℕ) (r : List Char), ∃ c t, dec n ++ r = c :: t ∧ IsDig c := by
    intro n r
    have hd := dec_digits n
    have hne := dec_ne_nil n
    cases h : dec n with
    | nil => exact absurd h hne
    | cons c t => exact ⟨c, t ++ r, rfl, hd c (by rw [h]; simp)⟩
  unfold plainText
  split
  · rename_i h
    obtain ⟨j, rfl⟩ := Int.eq_ofNat_of_zero_le h
    refine ⟨?_, by simpa using hhead (m * 10 ^ _) [], fun c hc => .inl (dec_digits _ c hc)⟩
    rw [readMag_allDigits (dec_ne_nil _) (hall (dec_digits _)), hv0]
    simp
  · rename_i h
    obtain ⟨j, hj⟩ := Int.eq_ofNat_of_zero_le (a := -e) (by omega)
    have : e = -(j : ℤ) := by omega
    subst this
    have hj0 : j ≠ 0 := by rintro rfl; simp at h
    simp only [neg_neg, Int.toNat_natCast]
    obtain ⟨i, rfl⟩ : ∃ i, j = i + 1 := ⟨j - 1, by omega⟩
    have hlt : m % 10 ^ (i + 1) < 10 ^ (i + 1) := Nat.mod_lt _ (by positivity)
    have hlen : (padLeft (i + 1) (dec (m % 10 ^ (i + 1)))).length = i + 1 := by
      rw [padLeft_dec _ _ hlt, fixedD_length]
    have hpd := padLeft_digits (i + 1) (dec_digits (m % 10 ^ (i + 1)))
    refine ⟨(readMag_iff _ _).mpr (.inr ⟨_, _, rfl, dec_ne_nil _, hall (dec_digits _), ?_, hall hpd, ?_⟩), hhead _ _, ?_⟩
    · intro h0; rw [h0] at hlen; simp at hlen
    · rw [hlen, hv, hv0, zpow_neg, zpow_natCast]
      have := Nat.div_add_mod m (10 ^ (i + 1))
      generalize m / 10 ^ (i + 1) = A at *
      generalize m % 10 ^ (i + 1) = B at *
      rw [← this]; push_cast; field_simp
    · intro c hc
      rcases List.mem_append.mp hc with h1 | h1
      · exact .inl (dec_digits _ c h1)
      · rcases List.mem_cons.mp h1 with h2 | h2
        · exact .inr h2
        · exact .inl (hpd c h2)

end Verif
