import Verif.Lemmas.Dump
import Verif.Model.TestSofa
import Verif.Spec.RustData

/-!
# Seventeen digits, and the text of the test data
-/

namespace Verif
open F64 Arith Spec

/-! ## Digits -/

/-- Some digits of a positive number: off by half a unit at most. -/
theorem eDigits_spec {d n : ℕ} (hd : 1 ≤ d) (hn : 0 < n) : ∃ (m : ℕ) (e : ℤ), eDigits d n = (m, e + d) ∧ 10 ^ (d - 1) ≤ m ∧ m < 10 ^ d ∧
    |(n : ℚ) / U - m * 10 ^ e| ≤ 1 / 2 * 10 ^ e ∧ (10 ^ (d - 1) - 1 / 20) * (10 : ℚ) ^ e ≤ n / U ∧ (n : ℚ) / U < 10 ^ d * 10 ^ e := by
  obtain ⟨h1, h2, h3, h4, h5⟩ := inUnits_mem (n := n) (k := d) hn hd
  have hp : (0 : ℚ) < 10 ^ lastExp n d := by positivity
  have l1 : (10 : ℚ) ^ (d - 1) ≤ inUnits n d := le_trans (by exact_mod_cast h2) h4
  have l2 : inUnits n d < (10 : ℚ) ^ d := lt_of_lt_of_le h5 (by exact_mod_cast h3)
  have hr := rheQ_err (t := inUnits n d) (le_trans (by positivity) l1)
  have eN : 10 ^ d = 10 * 10 ^ (d - 1) := by rw [← pow_succ']; congr 1; omega
  have eQ : (10 : ℚ) ^ d = 10 * 10 ^ (d - 1) := by exact_mod_cast eN
  have hA : (1 : ℚ) ≤ 10 ^ (d - 1) := one_le_pow₀ (by norm_num)
  have hAN : 1 ≤ 10 ^ (d - 1) := Nat.one_le_pow _ _ (by norm_num)
  unfold eDigits
  rw [if_neg hn.ne']
  simp only
  rw [h1, eN]
  rw [eQ] at l2 ⊢
  clear h1 h3 eN eQ
  have c1 : ((10 ^ (d - 1) : ℕ) : ℚ) = (10 : ℚ) ^ (d - 1) := by push_cast; rfl
  generalize inUnits n d = t at *
  generalize lastExp n d = e at *
  generalize rhe t.num.natAbs t.den = m at *
  generalize 10 ^ (d - 1) = N at *
  generalize (10 : ℚ) ^ (d - 1) = A at *
  rw [abs_le] at hr
  split
  · rename_i hm
    have hm' : (m : ℚ) = 10 * A := by rw [hm]; push_cast; rw [c1]
    rw [hm'] at hr
    have e10 : (10 : ℚ) ^ (e + 1) = 10 * 10 ^ e := by rw [zpow_add₀ (by norm_num)]; ring
    refine ⟨N, e + 1, by ring_nf, le_rfl, by omega, ?_, ?_, ?_⟩
    · rw [e10, c1]
      generalize (10 : ℚ) ^ e = P at *
      have : t * P - A * (10 * P) = (t - 10 * A) * P := by ring
      rw [this, abs_mul, abs_of_pos hp]
      have : |t - 10 * A| ≤ 1 / 2 := by rw [abs_le]; constructor <;> linarith
      nlinarith
    · rw [e10]
      generalize (10 : ℚ) ^ e = P at *
      nlinarith
    · rw [e10]
      generalize (10 : ℚ) ^ e = P at *
      nlinarith
  · rename_i hm
    have m1 : N ≤ m := by
      by_contra hc
      have : m + 1 ≤ N := by omega
      have : (m : ℚ) + 1 ≤ N := by exact_mod_cast this
      linarith
    have m2 : m < 10 * N := by
      by_contra hc
      have : 10 * N + 1 ≤ m := by omega
      have : (10 : ℚ) * N + 1 ≤ m := by exact_mod_cast this
      linarith
    refine ⟨m, e, rfl, m1, m2, ?_, ?_, ?_⟩
    · generalize (10 : ℚ) ^ e = P at *
      have : t * P - m * P = (t - m) * P := by ring
      rw [this, abs_mul, abs_of_pos hp]
      have : |t - m| ≤ 1 / 2 := by rw [abs_le]; constructor <;> linarith
      exact mul_le_mul_of_nonneg_right this hp.le
    · exact mul_le_mul_of_nonneg_right (by linarith) hp.le
    · exact mul_lt_mul_of_pos_right l2 hp

/-! ## Seventeen digits are enough -/

/-- Two representable numbers are further apart than the smaller one over `2^53`. -/
theorem repNat_gap {a b : ℕ} (ha : RepNat a) (hb : RepNat b) (h : a < b) : a < (b - a) * 2 ^ 53 := by
  have hk : ulpExp a ≤ ulpExp b := ulpExp_mono h.le
  have da : 2 ^ ulpExp a ∣ a := Nat.dvd_of_mod_eq_zero ha
  have db : 2 ^ ulpExp a ∣ b := (pow_dvd_pow 2 hk).trans (Nat.dvd_of_mod_eq_zero hb)
  have h1 : 2 ^ ulpExp a ≤ b - a := Nat.le_of_dvd (by omega) (Nat.dvd_sub db da)
  calc a < 2 ^ (ulpExp a + 53) := lt_two_pow_ulp a
    _ = 2 ^ ulpExp a * 2 ^ 53 := pow_add _ _ _
    _ ≤ _ := Nat.mul_le_mul_right _ h1

/-- A number near a representable one is rounded to it. -/
theorem RN_eq_of_near {n : ℕ} (h : RepNat n) {q : ℚ} (hq : 0 ≤ q) (hn : 2 * |q - n / U| * (2 ^ 53 + 1) ≤ n / U) : RN q = n / U := by
  have hU := U_pos
  have hx : RepQ ((n : ℚ) / U) := ⟨n, h, by rw [abs_of_nonneg (by positivity)]; field_simp⟩
  have hne := RN_nearest q hx
  obtain ⟨r, hr, e⟩ := RN_rep q
  rw [abs_of_nonneg (RN_nonneg hq)] at e
  have er : RN q = r / U := by rw [← e]; field_simp
  rw [er] at hne ⊢
  by_contra hc
  have hd : |(r : ℚ) / U - n / U| ≤ 2 * |q - n / U| := by
    rw [abs_sub_comm ((n : ℚ) / U) q] at hne
    calc |(r : ℚ) / U - n / U| = |(r / U - q) + (q - n / U)| := by ring_nf
      _ ≤ |(r : ℚ) / U - q| + |q - n / U| := abs_add_le _ _
      _ ≤ _ := by linarith
  have hd2 : |(r : ℚ) - n| * (2 ^ 53 + 1) ≤ n := by
    have : |(r : ℚ) / U - n / U| = |(r : ℚ) - n| / U := by rw [← sub_div, abs_div, abs_of_pos hU]
    rw [this] at hd
    have : |(r : ℚ) - n| / U * (2 ^ 53 + 1) ≤ n / U := (mul_le_mul_of_nonneg_right hd (by norm_num)).trans hn
    rw [div_mul_eq_mul_div, div_le_div_iff_of_pos_right hU] at this
    exact this
  have hrn : r ≠ n := fun hh => hc (by rw [hh])
  rcases Nat.lt_or_gt_of_ne hrn with hlt | hgt
  · have g := repNat_gap hr h hlt
    have g' : (r : ℚ) < (n - r) * 2 ^ 53 := by
      have : ((n - r : ℕ) : ℚ) = n - r := by push_cast [hlt.le]; ring
      rw [← this]; exact_mod_cast g
    have hlt' : (r : ℚ) < n := by exact_mod_cast hlt
    rw [abs_of_neg (by linarith)] at hd2
    linarith
  · have g := repNat_gap h hr hgt
    have g' : (n : ℚ) < (r - n) * 2 ^ 53 := by
      have : ((r - n : ℕ) : ℚ) = r - n := by push_cast [hgt.le]; ring
      rw [← this]; exact_mod_cast g
    have hlt' : (n : ℚ) < r := by exact_mod_cast hgt
    rw [abs_of_pos (by linarith)] at hd2
    linarith

/-- Seventeen digits determine the number. -/
theorem eDigits_reads {n : ℕ} (h : RepNat n) (hn : 0 < n) : ∃ (m : ℕ) (e : ℤ), eDigits 17 n = (m, e + 17) ∧ 10 ^ 16 ≤ m ∧ m < 10 ^ 17 ∧
    RN (m * (10 : ℚ) ^ e) = n / U ∧ (10 ^ 16 - 1 / 20) * (10 : ℚ) ^ e ≤ n / U ∧ (n : ℚ) / U < 10 ^ 17 * 10 ^ e := by
  obtain ⟨m, e, h1, h2, h3, h4, h5, h6⟩ := eDigits_spec (d := 17) (by norm_num) hn
  refine ⟨m, e, h1, h2, h3, RN_eq_of_near h (by positivity) ?_, h5, h6⟩
  rw [abs_sub_comm]
  have hp : (0 : ℚ) < 10 ^ e := by positivity
  have : 2 * |(n : ℚ) / U - m * 10 ^ e| * (2 ^ 53 + 1) ≤ 10 ^ e * (2 ^ 53 + 1) :=
    mul_le_mul_of_nonneg_right (by linarith) (by norm_num)
  norm_num at h5 this ⊢
  linarith

/-! ## One number -/

theorem readMag_point {m k : ℕ} (hk : 1 ≤ k) : readMag (pointText k m) = some ((m : ℚ) / 10 ^ k) := by
  have hlt : m % 10 ^ k < 10 ^ k := Nat.mod_lt _ (by positivity)
  have hl : (padLeft k (dec (m % 10 ^ k))).length = k := by
    obtain ⟨j, rfl⟩ : ∃ j, k = j + 1 := ⟨k - 1, by omega⟩
    rw [padLeft_dec j _ hlt, fixedD_length]
  obtain ⟨e1, e2, -⟩ := takeWhile_digits (dec_digits (m / 10 ^ k)) (padLeft k (dec (m % 10 ^ k)))
  have h0 : readNat (dec (m / 10 ^ k)) = some (m / 10 ^ k) := by
    have := readNat_pad 0 (m / 10 ^ k)
    rwa [padLeft_zero] at this
  unfold pointText readMag
  rw [if_neg (by omega), e1, e2]
  simp only [h0, readNat_pad, hl, Option.bind_some, Option.map_some]
  have : (m : ℚ) = 10 ^ k * (m / 10 ^ k : ℕ) + (m % 10 ^ k : ℕ) := by exact_mod_cast (Nat.div_add_mod m (10 ^ k)).symm
  congr 1
  have hk0 : (10 : ℚ) ^ k ≠ 0 := by positivity
  field_simp
  linarith

theorem point_head (k m : ℕ) : ∃ c r, dec (m / 10 ^ k) = c :: r ∧ IsDig c := by
  cases h : dec (m / 10 ^ k) with
  | nil => exact absurd h (dec_ne_nil _)
  | cons c r => exact ⟨c, r, rfl, dec_digits _ c (by rw [h]; simp)⟩

theorem digits_dec (n : ℕ) : Digits (dec n) := digits_of_isDig (dec_digits n)

theorem digits_pad (w n : ℕ) : Digits (padLeft w (dec n)) := digits_of_isDig (padLeft_digits w (dec_digits n))

theorem readDec_point (s : Bool) {m k : ℕ} (hk : 1 ≤ k) :
    readDec (fmtSign false s ++ pointText k m) = some (if s then -((m : ℚ) / 10 ^ k) else m / 10 ^ k) := by
  obtain ⟨c, r, e, hc⟩ := point_head k m
  have := readDec_sign 0 false s (c := c) (r := r ++ '.' :: padLeft k (dec (m % 10 ^ k))) hc
  have e2 : pointText k m = c :: (r ++ '.' :: padLeft k (dec (m % 10 ^ k))) := by
    unfold pointText; rw [if_neg (by omega), e]; rfl
  rw [← e2, readMag_point hk] at this
  simpa using this

theorem readDec_dec (s : Bool) (m : ℕ) : readDec (fmtSign false s ++ dec m) = some (if s then -(m : ℚ) else m) := by
  obtain ⟨c, r, e, hc⟩ := point_head 0 m
  rw [pow_zero, Nat.div_one] at e
  have := readDec_sign 0 false s (c := c) (r := r) hc
  rw [← e] at this
  have h := readMag_pad 0 m
  rw [padLeft_zero] at h
  rw [h] at this
  simpa using this

theorem plainLit_point (s : Bool) (k m : ℕ) : PlainLit (fmtSign false s ++ pointText k m) (if s then -((m : ℚ) / 10 ^ k) else m / 10 ^ k) := by
  refine ⟨fmtSign false s, dec (m / 10 ^ k), if k = 0 then [] else padLeft k (dec (m % 10 ^ k)), by simp [pointText],
    by cases s <;> simp [fmtSign], dec_ne_nil _, digits_dec _, ?_, ?_⟩
  · split
    · intro c hc; simp at hc
    · exact digits_pad _ _
  · rcases Nat.eq_zero_or_pos k with rfl | hk
    · simpa using readDec_dec s m
    · rw [if_neg (by omega : ¬k = 0), if_neg (padLeft_ne_nil _ _)]
      have := readDec_point s (m := m) hk
      unfold pointText at this
      rw [if_neg (by omega)] at this
      simpa using this

theorem readDec_exp (w : ℕ) (e : ℤ) : readDec ((if e < 0 then '-' else '+') :: padLeft w (dec e.natAbs)) = some (e : ℚ) := by
  have hr := readMag_pad w e.natAbs
  split
  · rw [(readDec_iff _ (e : ℚ) (by simp))]
    refine ⟨_, by simpa [takeSign] using hr, ?_⟩
    have : (e : ℤ) = -(e.natAbs : ℤ) := by omega
    have : (e : ℚ) = -(e.natAbs : ℚ) := by exact_mod_cast this
    simpa [takeSign] using this
  · rw [(readDec_iff _ (e : ℚ) (by simp))]
    refine ⟨_, by simpa [takeSign] using hr, ?_⟩
    have : (e : ℤ) = (e.natAbs : ℤ) := by omega
    have : (e : ℚ) = (e.natAbs : ℚ) := by rw [← Int.cast_natCast (R := ℚ) e.natAbs, ← this]
    simpa [takeSign] using this

theorem expLit_point (s : Bool) {k : ℕ} (hk : 1 ≤ k) (m w : ℕ) (e : ℤ) :
    ExpLit (fmtSign false s ++ (pointText k m ++ 'E' :: (if e < 0 then '-' else '+') :: padLeft w (dec e.natAbs)))
      (if s then -((m : ℚ) * 10 ^ (e - k)) else m * 10 ^ (e - k)) := by
  have hp : pointText k m = dec (m / 10 ^ k) ++ '.' :: padLeft k (dec (m % 10 ^ k)) := by
    unfold pointText; rw [if_neg (by omega)]
  refine ⟨fmtSign false s, dec (m / 10 ^ k), padLeft k (dec (m % 10 ^ k)), [if e < 0 then '-' else '+'], padLeft w (dec e.natAbs), by
    rw [hp]; simp, by cases s <;> simp [fmtSign], dec_ne_nil _, digits_dec _, padLeft_ne_nil _ _, digits_pad _ _, ?_, padLeft_ne_nil _ _,
    digits_pad _ _, if s then -((m : ℚ) / 10 ^ k) else m / 10 ^ k, e, ?_, by simpa using readDec_exp w e, ?_⟩
  · unfold SignText; split <;> simp
  · have := readDec_point s (m := m) hk
    rw [hp] at this
    simpa using this
  · have : (m : ℚ) * 10 ^ (e - k) = m / 10 ^ k * 10 ^ e := by
      rw [zpow_sub₀ (by norm_num), zpow_natCast]; ring
    rw [this]; split <;> ring

theorem sign_head (s : Bool) {c : Char} (r : List Char) (hc : IsDig c) : (fmtSign false s ++ c :: r).head? = some '-' ↔ s = true := by
  cases s
  · simp only [fmtSign, Bool.false_eq_true, if_false, List.nil_append, List.head?_cons, Option.some.injEq, iff_false]
    rintro rfl
    exact hc.ne.2.2.1 rfl
  · simp [fmtSign]

theorem point_sign (s : Bool) (k m : ℕ) (r : List Char) : decide ((fmtSign false s ++ (pointText k m ++ r)).head? = some '-') = s := by
  obtain ⟨c, u, e, hc⟩ := point_head k m
  unfold pointText
  rw [e]
  cases s
  · simpa using (sign_head false (u ++ '.' :: (if k = 0 then [] else padLeft k (dec (m % 10 ^ k))) ++ r) hc)
  · simp [fmtSign]

theorem is_of_RN {s : Bool} {n : ℕ} {h : RepNat n ∧ n < OVN} {q : ℚ} (hq : RN q = n / U) :
    Is (.fin s n h) (RN (if s then -q else q)) := by
  refine ⟨rfl, ?_⟩
  cases s
  · simp only [Bool.false_eq_true, if_false, hq, F64.v, F64.sval]; simp
  · simp only [if_true, RN_neg, hq, F64.v, F64.sval]; push_cast; ring

/-- The text of a finite number in a list-directed record is, between blanks, a literal of the number. -/
theorem ldReal_text {x : F64} (hx : isFin x = true) :
    ∃ b t c, (∀ d ∈ b, d = ' ') ∧ (∀ d ∈ c, d = ' ') ∧ ldReal x = b ++ t ++ c ∧ NumLit t x := by
  cases x with
  | nan => cases hx
  | inf s => cases hx
  | fin s n h =>
    have hrep : ∀ {k : ℕ}, ∀ d ∈ List.replicate k ' ', d = ' ' := fun d hd => List.eq_of_mem_replicate hd
    have hnil : ∀ d ∈ ([] : List Char), d = ' ' := fun d hd => by simp at hd
    unfold ldReal ldMag rightAlign
    simp only
    rcases Nat.eq_zero_or_pos n with rfl | hn
    · refine ⟨_, fmtSign false s ++ pointText 16 0, _, hrep, hrep, rfl, _,
        .inl (plainLit_point s 16 0), is_of_RN (q := (0 : ℕ) / 10 ^ 16) (by simp [RN_zero]), 0, h, ?_⟩
      have := point_sign s 16 0 []
      rw [List.append_nil] at this
      rw [this]
    · obtain ⟨m, e, he, m1, m2, hRN, -, -⟩ := eDigits_reads h.1 hn
      rw [he, if_neg hn.ne']
      simp only
      split
      · rename_i hr
        refine ⟨_, _, _, hrep, hrep, rfl, _, .inl (plainLit_point s _ m), ?_, n, h, ?_⟩
        · have : (m : ℚ) / 10 ^ (17 - (e + 17).toNat) = m * 10 ^ e := by
            obtain ⟨j, hj⟩ := Int.eq_ofNat_of_zero_le (a := -e) (by omega)
            have : 17 - (e + 17).toNat = j := by omega
            rw [this]
            have : e = -(j : ℤ) := by omega
            rw [this, zpow_neg, zpow_natCast]; rfl
          rw [this]
          exact is_of_RN hRN
        · have := point_sign s (17 - (e + 17).toNat) m []
          rw [List.append_nil] at this
          rw [this]
      · refine ⟨_, _, [], hrep, hnil, (List.append_nil _).symm, _, .inr (expLit_point s (by norm_num) m 3 _), ?_, n, h, ?_⟩
        · have : e + 17 - 1 - (16 : ℕ) = e := by push_cast; ring
          rw [this]
          exact is_of_RN hRN
        · rw [point_sign]

/-- Zero, or an exponent of two digits. -/
def TwoDigitExp (x : F64) : Prop := isFin x = true ∧ (v x = 0 ∨ 1 / 10 ^ 100 ≤ |v x| ∧ |v x| ≤ (10 ^ 17 - 1) * 10 ^ 82)

theorem point17 {m : ℕ} (h : m < 10 ^ 17) : pointText 17 m = '0' :: '.' :: padLeft 17 (dec m) := by
  unfold pointText
  rw [if_neg (by norm_num), Nat.div_eq_of_lt h, Nat.mod_eq_of_lt h]
  have : dec 0 = ['0'] := by decide
  rw [this]; rfl

/-- The text of a matrix entry is a literal of the number after blanks. -/
theorem fmtE17_text {x : F64} (hx : TwoDigitExp x) : ∃ b t, (∀ d ∈ b, d = ' ') ∧ fmtE 25 17 x = b ++ t ∧ NumLit t x := by
  obtain ⟨hx, hb⟩ := hx
  cases x with
  | nan => cases hx
  | inf s => cases hx
  | fin s n h =>
    have key : ∀ {m : ℕ} {e : ℤ}, eDigits 17 n = (m, e + 17) → m < 10 ^ 17 → |e + 17| < 100 → RN (m * (10 : ℚ) ^ e) = n / U →
        ∃ b t, (∀ d ∈ b, d = ' ') ∧ fmtE 25 17 (.fin s n h) = b ++ t ∧ NumLit t (.fin s n h) := by
      intro m e he hm hr hRN
      have hna : (e + 17).natAbs < 100 := by rw [abs_lt] at hr; omega
      have hx : eExp (e + 17) = 'E' :: (if e + 17 < 0 then '-' else '+') :: padLeft 2 (dec (e + 17).natAbs) := by
        unfold eExp; simp only [hna, if_true]
      have hbody : eBody 17 (.fin s n h) =
          fmtSign false s ++ (pointText 17 m ++ 'E' :: (if e + 17 < 0 then '-' else '+') :: padLeft 2 (dec (e + 17).natAbs)) := by
        simp only [eBody, he]
        rw [hx, point17 hm]; rfl
      have hl : (padLeft 17 (dec m)).length = 17 := by rw [padLeft_dec 16 m hm, fixedD_length]
      have hl2 : (padLeft 2 (dec (e + 17).natAbs)).length = 2 := by rw [padLeft_dec 1 _ (by simpa using hna), fixedD_length]
      have hlen : (eBody 17 (.fin s n h)).length ≤ 25 := by
        rw [hbody, point17 hm]
        simp only [List.length_append, List.length_cons, hl, hl2]
        cases s <;> simp [fmtSign]
      refine ⟨List.replicate (25 - (eBody 17 (.fin s n h)).length) ' ', eBody 17 (.fin s n h), fun d hd => List.eq_of_mem_replicate hd, ?_, ?_⟩
      · unfold fmtE; simp only; rw [if_pos hlen]
      · rw [hbody]
        refine ⟨_, .inr (expLit_point s (by norm_num) m 2 _), ?_, n, h, ?_⟩
        · have : e + 17 - (17 : ℕ) = e := by push_cast; ring
          rw [this]
          exact is_of_RN hRN
        · rw [point_sign]
    rcases Nat.eq_zero_or_pos n with rfl | hn
    · refine key (m := 0) (e := -17) (by simp [eDigits]) (by norm_num) (by norm_num) (by simp [RN_zero])
    · obtain ⟨m, e, he, m1, m2, hRN, a2, a3⟩ := eDigits_reads h.1 hn
      have hv : |v (.fin s n h)| = n / U := by
        have h0 : 0 ≤ (n : ℚ) / U := div_nonneg (by positivity) U_pos.le
        cases s
        · simp only [F64.v, F64.sval]; simp [abs_of_nonneg h0]
        · simp only [F64.v, F64.sval]; push_cast; rw [neg_div, abs_neg, abs_of_nonneg h0]
      have hpos : 0 < (n : ℚ) / U := div_pos (by exact_mod_cast hn) U_pos
      rw [← abs_eq_zero, hv] at hb
      rcases hb with hb | ⟨b1, b2⟩
      · exact absurd hb hpos.ne'
      refine key he m2 ?_ hRN
      have he1 : e < 83 := by
        by_contra hc
        have : (10 : ℚ) ^ (83 : ℤ) ≤ 10 ^ e := zpow_le_zpow_right₀ (by norm_num) (by omega)
        have a := le_trans (mul_le_mul_of_nonneg_left this (by norm_num : (0 : ℚ) ≤ 10 ^ 16 - 1 / 20)) (a2.trans b2)
        norm_num at a
      have he2 : -117 < e := by
        by_contra hc
        have : (10 : ℚ) ^ e ≤ 10 ^ (-117 : ℤ) := zpow_le_zpow_right₀ (by norm_num) (by omega)
        have a := lt_of_le_of_lt b1 (a3.trans_le (mul_le_mul_of_nonneg_left this (by norm_num)))
        norm_num at a
      rw [abs_lt]; constructor <;> omega

/-! ## A text is read in one way only -/

theorem Spec.PlainLit.chars {t : List Char} {q : ℚ} (h : PlainLit t q) : ∀ c ∈ t, LitChar c ∧ c ≠ 'E' := by
  obtain ⟨s, i, f, rfl, hs, -, hi, hf, -⟩ := h
  intro c hc
  simp only [List.mem_append, List.mem_cons] at hc
  unfold LitChar
  rcases hc with (hc | hc) | rfl | hc
  · rcases hs with rfl | rfl <;> simp at hc; subst hc; decide
  · exact ⟨.inl (hi c hc), by rintro rfl; exact absurd (hi _ hc) (by decide)⟩
  · decide
  · exact ⟨.inl (hf c hc), by rintro rfl; exact absurd (hf _ hc) (by decide)⟩

theorem Spec.PlainLit.uniq {t : List Char} {q q' : ℚ} (h : PlainLit t q) (h' : PlainLit t q') : q = q' := by
  obtain ⟨s, i, f, rfl, hs, -, hi, hf, h1⟩ := h
  obtain ⟨s', i', f', ht, hs', -, hi', hf', h1'⟩ := h'
  have key : ∀ {s i : List Char}, (s = [] ∨ s = ['-']) → Digits i → ∀ c ∈ s ++ i, c ≠ '.' := by
    intro s i hs hi c hc
    simp only [List.mem_append] at hc
    rcases hc with hc | hc
    · rcases hs with rfl | rfl <;> simp at hc; rw [hc]; decide
    · rintro rfl; exact absurd (hi _ hc) (by decide)
  obtain ⟨e1, e2⟩ := cut_first (key hs hi) (key hs' hi') ⟨_, _, rfl, by simp⟩ ⟨_, _, rfl, by simp⟩ ht
  simp only [List.cons.injEq, true_and] at e2
  rw [e1, e2, h1'] at h1
  exact (Option.some.inj h1).symm

theorem plain_not_exp {t : List Char} {q q' : ℚ} (h : PlainLit t q) (h' : ExpLit t q') : False := by
  obtain ⟨s, i, f, g, e, rfl, -⟩ := h'
  exact (h.chars 'E' (by simp)).2 rfl

theorem Spec.NumLit.uniq {t : List Char} {x x' : F64} (h : NumLit t x) (h' : NumLit t x') : x = x' := by
  obtain ⟨q, h1, h2, n, hn, rfl⟩ := h
  obtain ⟨q', h1', h2', n', hn', rfl⟩ := h'
  obtain rfl : q = q' := by
    rcases h1 with h1 | h1 <;> rcases h1' with h1' | h1'
    · exact h1.uniq h1'
    · exact (plain_not_exp h1 h1').elim
    · exact (plain_not_exp h1' h1).elim
    · exact h1.uniq h1'
  have := h2.val.trans h2'.val.symm
  simp only [F64.v] at this
  have hU := U_pos
  rw [div_left_inj' hU.ne'] at this
  have hnn : n = n' := by
    have : F64.sval (decide (t.head? = some '-')) n = F64.sval (decide (t.head? = some '-')) n' := by exact_mod_cast this
    unfold F64.sval at this
    split at this <;> omega
  subst hnn
  rfl

theorem Spec.NumLit.chars {t : List Char} {x : F64} (h : NumLit t x) : t ≠ [] ∧ ∀ c ∈ t, LitChar c := by
  obtain ⟨q, h1 | h1, -⟩ := h
  · refine ⟨?_, fun c hc => (h1.chars c hc).1⟩
    obtain ⟨s, i, f, rfl, -⟩ := h1
    simp
  · refine ⟨?_, h1.chars⟩
    obtain ⟨s, i, f, g, e, rfl, -⟩ := h1
    simp

theorem delim_not_lit {r : List Char} : Delim r → ∃ c u, r = c :: u ∧ ¬LitChar c := by
  rintro ⟨c, u, rfl, hd⟩
  refine ⟨c, u, rfl, ?_⟩
  unfold LitChar
  rcases hd with rfl | rfl | rfl | rfl | rfl | rfl <;> decide

theorem Spec.NumLit.unamb : Unamb NumLit where
  head := by
    rintro t x h
    refine ⟨fun hd => ?_, h.chars.1⟩
    obtain ⟨c, u, rfl, hc⟩ := delim_not_lit hd
    exact hc (h.chars.2 c (by simp))
  uniq := by
    rintro t t' r r' x x' h h' e hr hr'
    obtain ⟨rfl, -⟩ := cut_first h.chars.2 h'.chars.2 (delim_not_lit hr) (delim_not_lit hr') e
    exact ⟨rfl, h.uniq h'⟩

/-- The first character of a text says what it is. -/
theorem numLit_not {t r z : List Char} {x : F64} {c : Char} (h : NumLit t x) (hc : ¬LitChar c) (e : t ++ r = c :: z) : False := by
  obtain ⟨h1, h2⟩ := h.chars
  cases t with
  | nil => exact h1 rfl
  | cons d u => simp at e; exact hc (e.1 ▸ h2 d (by simp))

theorem valText_unamb : ∀ n, Unamb (ValText n)
  | 0 => {
      head := by
        rintro t v ⟨x, rfl, h⟩
        exact NumLit.unamb.head h
      uniq := by
        rintro t t' r r' v v' ⟨x, rfl, h⟩ ⟨x', rfl, h'⟩ e hr hr'
        obtain ⟨rfl, rfl⟩ := NumLit.unamb.uniq h h' e hr hr'
        exact ⟨rfl, rfl⟩ }
  | n + 1 => {
      head := by
        rintro t v (⟨x, rfl, h⟩ | ⟨r, l, rfl, rfl, -⟩ | ⟨r, l, rfl, -, rfl, -⟩)
        · exact NumLit.unamb.head h
        · refine ⟨?_, by simp⟩
          rintro ⟨c, u, h, hc⟩
          simp at h; obtain ⟨rfl, -⟩ := h; simp at hc
        · refine ⟨?_, by simp⟩
          rintro ⟨c, u, h, hc⟩
          simp at h; obtain ⟨rfl, -⟩ := h; simp at hc
      uniq := by
        have nb : ¬LitChar '[' := by unfold LitChar; decide
        have np : ¬LitChar '(' := by unfold LitChar; decide
        rintro t t' z z' v v' (⟨x, rfl, h⟩ | ⟨r, l, rfl, rfl, h⟩ | ⟨r, l, rfl, -, rfl, h⟩)
          (⟨x', rfl, h'⟩ | ⟨r', l', rfl, rfl, h'⟩ | ⟨r', l', rfl, -, rfl, h'⟩) e hr hr'
        · obtain ⟨rfl, rfl⟩ := NumLit.unamb.uniq h h' e hr hr'
          exact ⟨rfl, rfl⟩
        · exact (numLit_not h nb e).elim
        · exact (numLit_not h np e).elim
        · exact (numLit_not h' nb e.symm).elim
        · simp only [List.cons_append, List.append_assoc, List.nil_append, List.cons.injEq, true_and] at e
          obtain ⟨rfl, rfl⟩ := Items.uniq (valText_unamb n) (.inl rfl) h h' e
          exact ⟨rfl, rfl⟩
        · simp at e
        · exact (numLit_not h' np e.symm).elim
        · simp at e
        · simp only [List.cons_append, List.append_assoc, List.nil_append, List.cons.injEq, true_and] at e
          obtain ⟨rfl, rfl⟩ := Items.uniq (valText_unamb n) (.inr rfl) h h' e
          exact ⟨rfl, rfl⟩ }

/-- A constant has one value only, whatever follows it. -/
theorem Spec.SliceText.uniq {name : List Char} {ty : RTy} {t t' z z' : List Char} {vs vs' : List RVal} (h : SliceText name ty t vs)
    (h' : SliceText name ty t' vs') (e : t ++ z = t' ++ z') : vs = vs' := by
  obtain ⟨⟨b, r, c, hb, hc, rfl, hi⟩, -⟩ := h
  obtain ⟨⟨b', r', c', hb', hc', rfl, hi'⟩, -⟩ := h'
  have hs : ∀ w, Solid ("pub const ".toList ++ w) := fun w => ⟨'p', _, rfl, by decide⟩
  simp only [List.append_assoc] at e
  obtain ⟨rfl, e2⟩ := hb.uniq hb' (hs _) (hs _) e
  simp only [List.append_cancel_left_eq] at e2
  exact (Items.uniq (valText_unamb 4) (.inl rfl) hi hi' e2).2

/-! ## The records -/

theorem valText_num {t : List Char} {x : F64} (n : ℕ) (h : NumLit t x) : ValText n t (.num x) := by
  cases n with
  | zero => exact ⟨x, rfl, h⟩
  | succ n => exact .inl ⟨x, rfl, h⟩

/-- Numbers in a list-directed record with commas between them, up to the next string. -/
def sepNums (x : F64) : List F64 → List Char
  | [] => ' ' :: (ldReal x ++ [' '])
  | y :: l => ' ' :: (ldReal x ++ ' ' :: ',' :: sepNums y l)

theorem ldItems_nums (s : String) (rest : List LdItem) : ∀ (l : List F64) (x : F64) (b : Bool),
    ldItems b (.real x :: (l.flatMap fun y => [.str ",", .real y]) ++ .str s :: rest) = sepNums x l ++ s.toList ++ ldItems false rest
  | [], x, b => by simp [ldItems, sepNums]
  | y :: l, x, b => by
    have ih := ldItems_nums s rest l y false
    have e : ",".toList = [','] := by decide
    simp only [List.flatMap_cons, List.cons_append, List.nil_append] at ih ⊢
    rw [ldItems, ldItems, ih, e]
    simp [sepNums]

theorem items_nums {n : ℕ} : ∀ (l : List F64) (x : F64), (∀ y ∈ x :: l, isFin y = true) → Items (ValText n) (sepNums x l) ((x :: l).map .num)
  | [], x, h => by
    obtain ⟨b, t, c, hb, hc, e, ht⟩ := ldReal_text (h x (by simp))
    have := Items.last (E := ValText n) (b := ' ' :: b) (b' := c ++ [' ']) (blank_spaces _ (by simpa using fun c hc => .inl (hb c hc)))
      (valText_num n ht) (blank_spaces _ (by
        intro d hd; rw [List.mem_append, List.mem_singleton] at hd; exact .inl (hd.elim (hc d) id)))
    unfold sepNums
    rw [e]; simpa using this
  | y :: l, x, h => by
    have ih := items_nums (n := n) l y fun z hz => h z (by simp at hz ⊢; tauto)
    obtain ⟨b, t, c, hb, hc, e, ht⟩ := ldReal_text (h x (by simp))
    have := Items.cons (E := ValText n) (b := ' ' :: b) (b' := c ++ [' ']) (blank_spaces _ (by simpa using fun c hc => .inl (hb c hc)))
      (valText_num n ht) (blank_spaces _ (by
        intro d hd; rw [List.mem_append, List.mem_singleton] at hd; exact .inl (hd.elim (hc d) id))) ih
    unfold sepNums
    rw [e]; simpa using this

theorem items_nums_then {n : ℕ} {r : List Char} {vs : List RVal} (hr : Items (ValText n) r vs) : ∀ (l : List F64) (x : F64),
    (∀ y ∈ x :: l, isFin y = true) → Items (ValText n) (sepNums x l ++ ',' :: r) ((x :: l).map .num ++ vs)
  | [], x, h => by
    obtain ⟨b, t, c, hb, hc, e, ht⟩ := ldReal_text (h x (by simp))
    have := Items.cons (E := ValText n) (b := ' ' :: b) (b' := c ++ [' ']) (blank_spaces _ (by simpa using fun c hc => .inl (hb c hc)))
      (valText_num n ht) (blank_spaces _ (by
        intro d hd; rw [List.mem_append, List.mem_singleton] at hd; exact .inl (hd.elim (hc d) id))) hr
    unfold sepNums
    rw [e]; simpa using this
  | y :: l, x, h => by
    have ih := items_nums_then hr l y fun z hz => h z (by simp at hz ⊢; tauto)
    obtain ⟨b, t, c, hb, hc, e, ht⟩ := ldReal_text (h x (by simp))
    have := Items.cons (E := ValText n) (b := ' ' :: b) (b' := c ++ [' ']) (blank_spaces _ (by simpa using fun c hc => .inl (hb c hc)))
      (valText_num n ht) (blank_spaces _ (by
        intro d hd; rw [List.mem_append, List.mem_singleton] at hd; exact .inl (hd.elim (hc d) id))) ih
    unfold sepNums
    rw [e]; simpa using this

/-- The value of a matrix. -/
def matVal (r c : ℕ) (a : FMat) : RVal := .arr ((List.range r).map fun i => .arr ((List.range c).map fun j => .num (a i j)))

/-- Elements after commas, the first one without. -/
theorem items_pre {α : Type} {E : List Char → α → Prop} (f : ℕ → List Char) (x : ℕ → α) (N : ℕ)
    (h : ∀ k < N, ∃ b t, Blank b ∧ f k = b ++ t ∧ E t (x k)) : ∀ n s, s + (n + 1) = N →
    Items E (f s ++ ((List.range' (s + 1) n).map fun k => (if 0 < k then [','] else []) ++ f k).flatten) ((List.range' s (n + 1)).map x)
  | 0, s, hs => by
    obtain ⟨b, t, hb, hf, ht⟩ := h s (by omega)
    rw [hf]
    simpa using Items.last (E := E) hb ht .nil
  | n + 1, s, hs => by
    have ih := items_pre f x N h n (s + 1) (by omega)
    obtain ⟨b, t, hb, hf, ht⟩ := h s (by omega)
    rw [List.range'_succ (s := s), List.range'_succ (s := s + 1)]
    rw [List.range'_succ (s := s + 1)] at ih
    simp only [List.map_cons, List.flatten_cons] at ih ⊢
    rw [if_pos (by omega), hf]
    have := Items.cons hb ht .nil ih
    simpa using this

theorem matRow_text {n c : ℕ} {a : ℕ → F64} (h : ∀ j < c, TwoDigitExp (a j)) :
    ∃ t, matRow c a = t ++ [','] ∧ ValText (n + 1) t (.arr ((List.range c).map fun j => .num (a j))) := by
  refine ⟨'[' :: (((List.range c).map fun j => (if 0 < j then [','] else []) ++ fmtE 25 17 (a j)).flatten ++ [']']), by simp [matRow],
    .inr (.inl ⟨_, _, rfl, rfl, ?_⟩)⟩
  cases c with
  | zero => exact .nil .nil
  | succ c =>
    have := items_pre (E := ValText n) (fun j => fmtE 25 17 (a j)) (fun j => .num (a j)) (c + 1) (fun k hk => by
      obtain ⟨b, t, hb, hf, ht⟩ := fmtE17_text (h k hk)
      exact ⟨b, t, blank_spaces b fun d hd => .inl (hb d hd), hf, valText_num n ht⟩) c 0 (by omega)
    rw [List.range_eq_range']
    conv => arg 2; rw [List.range'_succ]
    simpa using this

theorem str_one (b : Bool) (s : String) : ldItems b [.str s] = (if b then [' '] else []) ++ s.toList := by simp [ldItems]

theorem writeMat_text {n r c : ℕ} {a : FMat} (h : ∀ i < r, ∀ j < c, TwoDigitExp (a i j)) :
    ∃ t, writeMat r c a = ' ' :: (t ++ ['\n']) ∧ ValText (n + 2) t (matVal r c a) := by
  refine ⟨'[' :: (('\n' :: (((List.range r).map fun i => matRow c (a i)).flatten ++ [' '])) ++ [']']), ?_, .inr (.inl ⟨_, _, rfl, rfl, ?_⟩)⟩
  · unfold writeMat ldWrite
    rw [str_one, str_one]
    have e1 : "[".toList = ['['] := by decide
    have e2 : "]".toList = [']'] := by decide
    rw [e1, e2]
    simp
  · have := Items.prepend (b := ['\n']) (blank_spaces _ (by decide)) (items_term (E := ValText (n + 1)) (fun i => matRow c (a i))
      (fun i => .arr ((List.range c).map fun j => .num (a i j))) r (fun i hi => by
        obtain ⟨t, e, ht⟩ := matRow_text (n := n) (h i hi)
        exact ⟨[], t, [], .nil, .nil, by simpa using e, ht⟩) (z := [' ']) (blank_spaces _ (by decide)) r 0 (by omega))
    rw [← List.range_eq_range'] at this
    simpa using this

end Verif
