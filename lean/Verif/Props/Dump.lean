import Verif.Lemmas.Dump
import Verif.Props.Parse

/-!
# C93: the program that wrote the ephemeris tables

The text that `dump_array` prints is a Rust constant with the sizes of the array, read in one way only.  Numbers with at most
fifteen significant digits, such as those of epv00.for, come through bit for bit; other numbers need not.
-/

namespace Verif
open F64 Arith Spec Epv

/-- A literal is read by `str::parse` as the number it stands for. -/
theorem floatLit_parse {t : List Char} {x : F64} (h : FloatLit t x) (hl : t.length ≤ 60000) : parseF64 t = some x := by
  obtain ⟨q, ⟨s, i, f, g, e, rfl, hs, hi, hid, hf, hfd, hg, he, hed, a, k, ha, hk, rfl⟩, hx, n, hn, hxe⟩ := h
  have hsp : ∀ {i : List Char} {r}, i ≠ [] → Digits i → (i ++ r).head? ≠ some ' ' := by
    intro i r hi hid
    cases i with
    | nil => exact absurd rfl hi
    | cons c u =>
      simp only [List.cons_append, List.head?_cons, ne_eq, Option.some.injEq]
      rintro rfl
      exact absurd (hid ' ' (by simp)) (by decide)
  have h1 : (s ++ i ++ '.' :: f).head? ≠ some ' ' := by
    rcases hs with rfl | rfl
    · rw [List.nil_append]; exact hsp hi hid
    · simp
  have h2 : (g ++ e).head? ≠ some ' ' := by
    rcases hg with rfl | rfl | rfl
    · simpa using hsp (r := []) he hed
    · simp
    · simp
  have h3 : '.' ∉ g ++ e := by
    simp only [List.mem_append, not_or]
    refine ⟨?_, fun hh => absurd (hed _ hh) (by decide)⟩
    rcases hg with rfl | rfl | rfl <;> simp
  obtain ⟨y, hy, y1, -⟩ := C85_parse_f64_exp (s ++ i ++ '.' :: f) (g ++ e) 'E' a k ha h1 (.inr rfl) hk h2 h3
    (.inr (le_trans (by simp) hl))
  obtain ⟨y2, -, n', hn', rfl⟩ := y1 hx.lt_OVQ
  rw [hy, hxe]
  have hh : (s ++ i ++ '.' :: f).head? = (s ++ i ++ '.' :: f ++ 'E' :: (g ++ e)).head? := by
    obtain ⟨c, u, hc⟩ := List.exists_cons_of_ne_nil (show s ++ i ++ '.' :: f ≠ [] by simp)
    rw [hc]; simp
  have hlit : ∀ (y : F64), Is y (RN (a * 10 ^ k)) → (∃ n h, y = .fin (decide ((s ++ i ++ '.' :: f ++ 'E' :: (g ++ e)).head? = some '-')) n h) →
      FloatLit (s ++ i ++ '.' :: f ++ 'E' :: (g ++ e)) y := fun y h1 h2 =>
    ⟨_, ⟨s, i, f, g, e, rfl, hs, hi, hid, hf, hfd, hg, he, hed, a, k, ha, hk, rfl⟩, h1, h2⟩
  rw [← hxe]
  exact congrArg some ((hlit _ y2 ⟨n', hn', by rw [hh]⟩).uniq (hlit x hx ⟨n, hn, hxe⟩))

theorem floatLit_ofRat {t : List Char} {q : ℚ} (h : ExpLit t q) (ho : |RN q| < OVQ) (hs : q < 0 ↔ t.head? = some '-') :
    FloatLit t (ofRat q) := by
  refine ⟨q, h, ⟨(ofRat_spec _ ho).1, (ofRat_spec _ ho).2⟩, ?_⟩
  have hd : decide (q < 0) = decide (t.head? = some '-') := decide_eq_decide.mpr hs
  have hfin := (ofRat_spec _ ho).1
  unfold ofRat ofQuot mkFin at hfin ⊢
  rw [hd] at hfin ⊢
  split at hfin
  · rename_i hlt; exact ⟨_, _, dif_pos hlt⟩
  · cases hfin

/-- Nonzero, with exponents of two digits. -/
theorem body_text {s : Bool} {n : ℕ} {hn : RepNat n ∧ n < OVN} {m : ℕ} {e : ℤ} (h : eDigits 15 n = (m, e + 15)) (hm : m < 10 ^ 15)
    (he : |e + 15| < 100) : ∃ b t, (∀ c ∈ b, c = ' ') ∧ fmtE 23 15 (.fin s n hn) = b ++ t ∧ t.length ≤ 22 ∧
      t.head? = some (if s then '-' else '0') ∧ ExpLit t (if s then -((m : ℚ) * 10 ^ e) else (m : ℚ) * 10 ^ e) := by
  obtain ⟨t1, t2, t3⟩ := expLit_text s hm he
  have hb : eBody 15 (.fin s n hn) = fmtSign false s ++ '0' :: '.' :: (padLeft 15 (dec m) ++ eExp (e + 15)) := by
    simp only [eBody, h]
  rw [← hb] at t1 t2 t3
  refine ⟨_, _, ?_, fmtE_text t2, t2, t3, ?_⟩
  · intro c hc; exact List.eq_of_mem_replicate hc
  · simpa using t1

/-- **C93.** Any number with an exponent of two digits: the field is a Rust literal after spaces, of fifteen digits, off by at
most half a unit of the last one, with the sign of the number. -/
theorem C93_field_half_unit {x : F64} {v : ℚ} (hx : Is x v) (h1 : 1 / 10 ^ 100 ≤ |v|) (h2 : |v| ≤ (10 ^ 15 - 1) * 10 ^ 84) :
    ∃ (b t : List Char) (q : ℚ) (m : ℕ) (e : ℤ), (∀ c ∈ b, c = ' ') ∧ fmtE 23 15 x = b ++ t ∧ ExpLit t q ∧ parseF64 t = some (ofRat q) ∧
      10 ^ 14 ≤ m ∧ m < 10 ^ 15 ∧ |q| = m * 10 ^ e ∧ |q - v| ≤ 1 / 2 * 10 ^ e ∧ (q < 0 ↔ v < 0) := by
  obtain ⟨s, n, hn, rfl, rfl⟩ := is_fin hx
  have hv0 : 0 ≤ (n : ℚ) / U := div_nonneg (by positivity) U_pos.le
  have habs : |(if s then -((n : ℚ) / U) else (n : ℚ) / U)| = n / U := by
    cases s
    · simp only [Bool.false_eq_true, if_false]; exact abs_of_nonneg hv0
    · simp only [if_true, abs_neg]; exact abs_of_nonneg hv0
  rw [habs] at h1 h2
  have hn0 : 0 < n := by
    rcases Nat.eq_zero_or_pos n with rfl | h
    · simp at h1; exact absurd h1 (by norm_num)
    · exact h
  obtain ⟨m, e, he, m1, m2, a1, a2, a3⟩ := eDigits_pos hn0
  have hP : (0 : ℚ) < 10 ^ e := by positivity
  have he1 : e < 85 := by
    by_contra hc
    have : (10 : ℚ) ^ (85 : ℤ) ≤ 10 ^ e := zpow_le_zpow_right₀ (by norm_num) (by omega)
    have a := le_trans (mul_le_mul_of_nonneg_left this (by norm_num : (0 : ℚ) ≤ 10 ^ 14 - 1 / 20)) (a2.trans h2)
    norm_num at a
  have he2 : -115 < e := by
    by_contra hc
    have : (10 : ℚ) ^ e ≤ 10 ^ (-115 : ℤ) := zpow_le_zpow_right₀ (by norm_num) (by omega)
    have a := lt_of_le_of_lt h1 (a3.trans_le (mul_le_mul_of_nonneg_left this (by norm_num)))
    norm_num at a
  obtain ⟨b, t, hb, hf, hlen, hh, hl⟩ := body_text (s := s) (hn := hn) he m2 (by rw [abs_lt]; constructor <;> omega)
  have hmpos : (0 : ℚ) < m * 10 ^ e := mul_pos (by exact_mod_cast (by omega : 0 < m)) hP
  have hq : |(if s then -((m : ℚ) * 10 ^ e) else (m : ℚ) * 10 ^ e)| = m * 10 ^ e := by
    cases s
    · simp only [Bool.false_eq_true, if_false]; exact abs_of_pos hmpos
    · simp only [if_true, abs_neg]; exact abs_of_pos hmpos
  have hvpos : 0 < (n : ℚ) / U := div_pos (by exact_mod_cast hn0) U_pos
  have hneg : ((if s then -((m : ℚ) * 10 ^ e) else (m : ℚ) * 10 ^ e) < 0) ↔ s = true := by
    cases s
    · simp only [Bool.false_eq_true, if_false, iff_false]; exact not_lt.mpr hmpos.le
    · simp only [if_true, iff_true]; linarith
  have hov : |RN (if s then -((m : ℚ) * 10 ^ e) else (m : ℚ) * 10 ^ e)| < OVQ := by
    refine RN_lt_OVQ ?_
    rw [hq]
    have : (10 : ℚ) ^ e ≤ 10 ^ (84 : ℤ) := zpow_le_zpow_right₀ (by norm_num) (by omega)
    have a : (m : ℚ) * 10 ^ e ≤ 10 ^ 15 * 10 ^ (84 : ℤ) :=
      mul_le_mul (by exact_mod_cast m2.le) this hP.le (by norm_num)
    exact a.trans (le_HUGE (k := 10 * 33) (by rw [pow_mul]; norm_num) (by norm_num))
  have hlit : FloatLit t (ofRat (if s then -((m : ℚ) * 10 ^ e) else (m : ℚ) * 10 ^ e)) := by
    refine floatLit_ofRat hl hov ?_
    rw [hneg, hh]
    cases s <;> decide
  refine ⟨b, t, _, m, e, hb, hf, hl, floatLit_parse hlit (by omega), m1, m2, hq, ?_, ?_⟩
  · rw [abs_sub_comm]; exact signed_err a1
  · rw [hneg]
    cases s
    · simp only [Bool.false_eq_true, if_false, false_iff]; exact not_lt.mpr hv0
    · simp only [if_true, true_iff]; linarith

/-- At most fifteen significant digits, and an exponent of two digits. -/
def Fifteen (d : ℚ) : Prop := ∃ (M : ℕ) (k : ℤ), M < 10 ^ 15 ∧ |d| = M * 10 ^ k ∧ (d = 0 ∨ 1 / 10 ^ 100 ≤ |d| ∧ |d| < 10 ^ 99)

theorem normalise {M : ℕ} (h0 : 0 < M) (h : M < 10 ^ 15) : ∃ j, 10 ^ 14 ≤ M * 10 ^ j ∧ M * 10 ^ j < 10 ^ 15 := by
  have key : ∀ i : ℕ, i ≤ 14 → 10 ^ (14 - i) ≤ M → ∃ j, 10 ^ 14 ≤ M * 10 ^ j ∧ M * 10 ^ j < 10 ^ 15 := by
    intro i
    induction i with
    | zero => intro _ h1; exact ⟨0, by simpa using h1, by simpa using h⟩
    | succ i ih =>
      intro hi h1
      by_cases h2 : 10 ^ (14 - i) ≤ M
      · exact ih (by omega) h2
      · have e1 : 10 ^ (14 - (i + 1)) * 10 ^ (i + 1) = 10 ^ 14 := by rw [← pow_add]; congr 1; omega
        have e2 : 10 ^ (14 - i) * 10 ^ (i + 1) = 10 ^ 15 := by rw [← pow_add]; congr 1; omega
        exact ⟨i + 1, e1 ▸ Nat.mul_le_mul_right _ h1, e2 ▸ Nat.mul_lt_mul_of_pos_right (not_le.mp h2) (by positivity)⟩
  exact key 14 le_rfl (by simpa using Nat.succ_le_of_lt h0)

/-- **C93.** Fifteen digits come through: an `f64` within `2^-52` of a decimal number with at most fifteen significant digits is
printed as that number. -/
theorem C93_fifteen_digits {x : F64} {v d : ℚ} (hx : Is x v) (hd : Fifteen d) (hv : |v - d| ≤ |d| / 2 ^ 52) :
    ∃ b t, (∀ c ∈ b, c = ' ') ∧ fmtE 23 15 x = b ++ t ∧ t.length ≤ 22 ∧ ExpLit t d ∧
      (∃ n h, x = .fin (decide (t.head? = some '-')) n h) := by
  obtain ⟨s, n, hn, rfl, rfl⟩ := is_fin hx
  obtain ⟨M, k, hM, hd1, hd2⟩ := hd
  have hv0 : 0 ≤ (n : ℚ) / U := div_nonneg (by positivity) U_pos.le
  have hs' : ∀ {t : List Char}, t.head? = some (if s then '-' else '0') → ∃ n' h, F64.fin s n hn = .fin (decide (t.head? = some '-')) n' h := by
    intro t ht
    refine ⟨n, hn, ?_⟩
    rw [ht]; cases s <;> rfl
  rcases eq_or_ne d 0 with rfl | hd0
  · have hn0 : n = 0 := by
      simp only [sub_zero, abs_zero, zero_div, abs_nonpos_iff] at hv
      have : (n : ℚ) / U = 0 := by
        cases s
        · simpa using hv
        · simpa using hv
      rw [div_eq_zero_iff] at this
      rcases this with h | h
      · exact_mod_cast h
      · exact absurd h U_pos.ne'
    subst hn0
    obtain ⟨b, t, hb, hf, hlen, hh, hl⟩ := body_text (s := s) (n := 0) (hn := hn) (m := 0) (e := -15) (by simp [eDigits]) (by norm_num) (by norm_num)
    refine ⟨b, t, hb, hf, hlen, ?_, hs' hh⟩
    simpa using hl
  · obtain ⟨r1, r2⟩ := hd2.resolve_left hd0
    have hdp : 0 < |d| := abs_pos.mpr hd0
    have hM0 : 0 < M := by
      rcases Nat.eq_zero_or_pos M with rfl | h
      · simp at hd1; exact absurd hd1 hd0
      · exact h
    obtain ⟨j, j1, j2⟩ := normalise hM0 hM
    obtain ⟨N, hN⟩ : ∃ N, N = M * 10 ^ j := ⟨_, rfl⟩
    rw [← hN] at j1 j2
    have hd3 : |d| = N * 10 ^ (k - j) := by
      rw [hd1, hN, zpow_sub₀ (by norm_num), zpow_natCast]
      push_cast
      field_simp
    generalize k - (j : ℤ) = e at hd3
    -- the sign of the number is that of the decimal
    have hsd : d = if s then -(N * (10 : ℚ) ^ e) else N * 10 ^ e := by
      rw [← hd3]
      have h52 : |d| / 2 ^ 52 < |d| := by
        rw [div_lt_iff₀ (by positivity)]
        nlinarith
      have := lt_of_le_of_lt hv h52
      cases s
      · simp only [Bool.false_eq_true, if_false] at this ⊢
        rcases lt_or_gt_of_ne hd0 with h | h
        · rw [abs_of_neg h, abs_lt] at this; linarith
        · rw [abs_of_pos h]
      · simp only [if_true] at this ⊢
        rcases lt_or_gt_of_ne hd0 with h | h
        · rw [abs_of_neg h]; ring
        · rw [abs_of_pos h, abs_lt] at this; linarith
    have hP : (0 : ℚ) < 10 ^ e := by positivity
    have hnear : |(n : ℚ) / U - N * 10 ^ e| ≤ N * 10 ^ e / 2 ^ 52 := by
      rw [← hd3]
      have : ∀ a b : ℚ, |(if s then -a else a) - (if s then -b else b)| = |a - b| := by
        intro a b
        cases s
        · simp
        · simp only [if_true]; rw [← abs_neg]; congr 1; ring
      rw [← this, hd3, ← hsd, ← hd3]
      exact hv
    have hn0 : 0 < n := by
      rcases Nat.eq_zero_or_pos n with rfl | h
      · rw [← hd3] at hnear
        simp only [Nat.cast_zero, zero_div, zero_sub, abs_neg, abs_abs] at hnear
        rw [le_div_iff₀ (by positivity)] at hnear
        nlinarith
      · exact h
    have he1 : e < 85 := by
      by_contra hc
      have h1 : (10 : ℚ) ^ (85 : ℤ) ≤ 10 ^ e := zpow_le_zpow_right₀ (by norm_num) (by omega)
      have h2 : (10 : ℚ) ^ 14 * 10 ^ (85 : ℤ) ≤ N * 10 ^ e := mul_le_mul (by exact_mod_cast j1) h1 (by positivity) (by positivity)
      rw [hd3] at r2
      have := h2.trans_lt r2
      norm_num at this
    have he2 : -115 < e := by
      by_contra hc
      have h1 : (10 : ℚ) ^ e ≤ 10 ^ (-115 : ℤ) := zpow_le_zpow_right₀ (by norm_num) (by omega)
      have h2 : (N : ℚ) * 10 ^ e < 10 ^ 15 * 10 ^ (-115 : ℤ) :=
        mul_lt_mul (by exact_mod_cast j2) h1 hP (by positivity)
      rw [hd3] at r1
      have := r1.trans_lt h2
      norm_num at this
    obtain ⟨b, t, hb, hf, hlen, hh, hl⟩ := body_text (s := s) (hn := hn) (eDigits_exact hn0 j1 j2 hnear) j2 (by rw [abs_lt]; constructor <;> omega)
    rw [← hsd] at hl
    exact ⟨b, t, hb, hf, hlen, hl, hs' hh⟩

/-- Numbers in the range of two digit exponents are rounded with a relative error of `2^-53`. -/
theorem RN_err_rel {d : ℚ} (h : d = 0 ∨ 1 / 10 ^ 100 ≤ |d|) : |RN d - d| ≤ |d| / 2 ^ 53 := by
  rcases h with rfl | h
  · simp [RN_zero]
  · refine (RN_err d).trans (max_le le_rfl ?_)
    have : (1 : ℚ) / (2 * U) ≤ 1 / 10 ^ 100 / 2 ^ 53 := by
      rw [div_div, div_le_div_iff_of_pos_left one_pos (by have := U_pos; positivity) (by positivity)]
      obtain ⟨D, hD⟩ : ∃ D : ℕ, D = 1074 := ⟨_, rfl⟩
      have hU : (U : ℚ) = 2 ^ D := by
        have := UN_eq_pow D hD
        show (UN : ℚ) = _
        rw [this]; push_cast; rfl
      have e : (2 : ℚ) ^ D = 16 ^ 100 * 2 ^ 53 * 2 ^ 621 := by
        rw [show (16 : ℚ) = 2 ^ 4 by norm_num, ← pow_mul, ← pow_add, ← pow_add, show D = 4 * 100 + 53 + 621 by omega]
      rw [hU, e]
      have a1 : (10 : ℚ) ^ 100 ≤ 16 ^ 100 := pow_le_pow_left₀ (by norm_num) (by norm_num) _
      have a3 : (0 : ℚ) ≤ 16 ^ 100 := by positivity
      have a2 : (1 : ℚ) ≤ 2 ^ 621 := one_le_pow₀ (by norm_num)
      generalize (2 : ℚ) ^ 621 = B at *
      generalize (16 : ℚ) ^ 100 = A at *
      generalize (10 : ℚ) ^ 100 = C at *
      have a4 : A ≤ A * B := le_mul_of_one_le_right a3 a2
      have : 2 * (A * 2 ^ 53 * B) = 2 ^ 54 * (A * B) := by ring
      rw [this]
      linarith
    exact this.trans (by gcongr)

/-- **C93.** The nearest `f64` to a decimal number with at most fifteen digits: the field is a Rust literal of that number
after spaces, and a Rust compiler, or `str::parse`, reads the same `f64`, sign bit included. -/
theorem C93_field_exact {x : F64} {d : ℚ} (hd : Fifteen d) (hx : Is x (RN d)) :
    ∃ b t, (∀ c ∈ b, c = ' ') ∧ fmtE 23 15 x = b ++ t ∧ ExpLit t d ∧ FloatLit t x ∧ parseF64 t = some x ∧ ∀ y, FloatLit t y → y = x := by
  obtain ⟨M, k, -, -, hr⟩ := id hd
  have h53 := RN_err_rel (d := d) (hr.imp_right And.left)
  obtain ⟨b, t, hb, hf, hlen, hl, n, h, hxe⟩ := C93_fifteen_digits hx hd
    (h53.trans (by have := abs_nonneg d; rw [div_le_div_iff₀ (by positivity) (by positivity)]; nlinarith))
  have hlit : FloatLit t x := ⟨d, hl, hx, n, h, hxe⟩
  exact ⟨b, t, hb, hf, hl, hlit, floatLit_parse hlit (by omega), fun y hy => hy.uniq hlit⟩

/-- **C93.** The text of `dump_array` for any name, any sizes and any array of such numbers: a constant item with these sizes
and exactly these numbers, and no others. -/
theorem C93_dump_array (name : List Char) (m n o : ℕ) (x : ℕ → ℕ → ℕ → F64)
    (h : ∀ i < m, ∀ j < n, ∀ k < o, ∃ d, Fifteen d ∧ Is (x i j k) (RN d)) :
    ConstText name m n o (dumpArray name m n o x) (values m n o x) ∧
      ∀ y, ConstText name m n o (dumpArray name m n o x) y → y = values m n o x := by
  have := dumpArray_text name m n o x fun i hi j hj k hk => by
    obtain ⟨d, hd, hx⟩ := h i hi j hj k hk
    obtain ⟨b, t, hb, hf, -, hl, -⟩ := C93_field_exact hd hx
    exact ⟨b, t, hb, hf, hl⟩
  exact ⟨this, fun y hy => hy.uniq this⟩

/-! ## The tables -/

/-- A table of the program as an array of numbers (epv00_data.rs). -/
def tableValues (T : Table) : List (List (List F64)) := T.map fun A => A.map fun r => [lit r.x.q, lit r.y.q, lit r.z.q]

/-- At most fifteen digits and no more than a hundred decimals. -/
def Epv.Dec.short (d : Dec) : Bool := decide (d.m.natAbs < 10 ^ 15) && decide (d.e ≤ 100)

theorem Epv.Dec.fifteen {d : Dec} (h : d.short = true) : Fifteen d.q ∧ Is (lit d.q : F64) (RN d.q) := by
  simp only [Dec.short, Bool.and_eq_true, decide_eq_true_eq] at h
  obtain ⟨h1, h2⟩ := h
  have ha : |d.q| = (d.m.natAbs : ℚ) * 10 ^ (-(d.e : ℤ)) := by
    unfold Dec.q
    rw [abs_div, abs_of_pos (by positivity : (0 : ℚ) < 10 ^ d.e), zpow_neg, zpow_natCast, div_eq_mul_inv]
    congr 1
    rw [Nat.cast_natAbs]; push_cast; rfl
  have hle : |d.q| < 10 ^ 15 := by
    rw [ha, zpow_neg, zpow_natCast, ← div_eq_mul_inv, div_lt_iff₀ (by positivity)]
    have h1' : (d.m.natAbs : ℚ) < 10 ^ 15 := by exact_mod_cast h1
    have : (1 : ℚ) ≤ 10 ^ d.e := one_le_pow₀ (by norm_num)
    nlinarith
  refine ⟨⟨d.m.natAbs, -(d.e : ℤ), h1, ha, ?_⟩, ?_⟩
  · rcases Nat.eq_zero_or_pos d.m.natAbs with h0 | h0
    · left; rw [h0] at ha; simpa using ha
    · right
      refine ⟨?_, hle.trans (by norm_num)⟩
      rw [ha, zpow_neg, zpow_natCast, ← div_eq_mul_inv]
      have : (1 : ℚ) ≤ d.m.natAbs := by exact_mod_cast h0
      exact div_le_div₀ (by positivity) this (by positivity) (pow_le_pow_right₀ (by norm_num) h2)
  · exact Is.lit _ (le_HUGE (k := 50) (hle.le.trans (by norm_num)) (by norm_num))

/-- The reference array fills the table, zeros after it. -/
def fills (A B C : List Row) (R : Fin 3 → List (Dec × Dec × Dec)) (N : ℕ) : Bool :=
  decide (A.length = N) && decide (B.length = N) && decide (C.length = N) &&
  decide (∀ k : Fin 3, sameTerms ((column A B C k).take (R k).length) (R k) = true ∧
    ((column A B C k).drop (R k).length).all (fun t => t.1.m == 0 && t.2.1.m == 0 && t.2.2.m == 0) = true ∧
    (R k).all (fun t => t.1.short && t.2.1.short && t.2.2.short) = true)

theorem zero_q {d : Dec} (h : d.m = 0) : d.q = 0 := by unfold Dec.q; rw [h]; simp

theorem fifteen_zero : Fifteen 0 ∧ Is (lit 0 : F64) (RN 0) :=
  ⟨⟨0, 0, by norm_num, by simp, .inl rfl⟩, Is.lit _ (by rw [abs_zero]; exact HUGE_pos.le)⟩

/-- One element of the reference array, and of the table. -/
theorem fills_entry {A B C : List Row} {R : Fin 3 → List (Dec × Dec × Dec)} {N : ℕ} (h : fills A B C R N = true) {j : ℕ} (hj : j < N)
    (k : Fin 3) : ∃ (a : A.length = N) (b : B.length = N) (c : C.length = N),
      (fortranArray R 0 j k = lit (A[j].get k).q ∧ fortranArray R 1 j k = lit (B[j].get k).q ∧ fortranArray R 2 j k = lit (C[j].get k).q) ∧
      ∀ i < 3, ∃ d, Fifteen d ∧ Is (fortranArray R i j k) (RN d) := by
  simp only [fills, Bool.and_eq_true, decide_eq_true_eq] at h
  obtain ⟨⟨⟨a, b⟩, c⟩, h⟩ := h
  obtain ⟨h1, h2, h3⟩ := h k
  refine ⟨a, b, c, ?_⟩
  have hc : (column A B C k)[j]? = some (A[j].get k, B[j].get k, C[j].get k) := by
    unfold column
    simp [a, b, c, hj]
  have hk : (⟨(k : ℕ), k.isLt⟩ : Fin 3) = k := rfl
  unfold fortranArray
  simp only [k.isLt, dite_true, hk, if_true]
  have h1' := sameTerms_q3 h1
  rcases lt_or_ge j (R k).length with hlt | hge
  · have e1 : (((column A B C k).take (R k).length).map q3)[j]? = some (q3 (A[j].get k, B[j].get k, C[j].get k)) := by
      rw [List.getElem?_map, List.getElem?_take_of_lt hlt, hc]; rfl
    rw [h1', List.getElem?_map, List.getElem?_eq_getElem hlt] at e1
    simp only [Option.map_some, Option.some.injEq, q3, Prod.mk.injEq] at e1
    obtain ⟨e1, e2, e3⟩ := e1
    have h3' := List.all_eq_true.mp h3 _ (List.getElem_mem hlt)
    simp only [Bool.and_eq_true] at h3'
    obtain ⟨⟨s1, s2⟩, s3⟩ := h3'
    rw [List.getElem?_eq_getElem hlt]
    simp only [if_false, one_ne_zero, OfNat.ofNat_ne_zero, OfNat.ofNat_ne_one, e1, e2, e3, true_and]
    intro i hi
    split
    · exact ⟨_, e1 ▸ Dec.fifteen s1⟩
    · split
      · exact ⟨_, e2 ▸ Dec.fifteen s2⟩
      · exact ⟨_, e3 ▸ Dec.fifteen s3⟩
  · have hm : (A[j].get k, B[j].get k, C[j].get k) ∈ (column A B C k).drop (R k).length := by
      refine List.mem_of_getElem? (i := j - (R k).length) ?_
      rw [List.getElem?_drop, ← hc]
      congr 1; omega
    have h2' := List.all_eq_true.mp h2 _ hm
    simp only [Bool.and_eq_true, beq_iff_eq] at h2'
    obtain ⟨⟨z1, z2⟩, z3⟩ := h2'
    rw [List.getElem?_eq_none hge, zero_q z1, zero_q z2, zero_q z3]
    exact ⟨⟨rfl, rfl, rfl⟩, fun i _ => ⟨0, fifteen_zero⟩⟩

theorem dump_table (name : List Char) {A B C : List Row} {R : Fin 3 → List (Dec × Dec × Dec)} {N : ℕ} (h : fills A B C R N = true) :
    ConstText name 3 N 3 (dumpArray name 3 N 3 (fortranArray R)) (tableValues [A, B, C]) ∧
      ∀ y, ConstText name 3 N 3 (dumpArray name 3 N 3 (fortranArray R)) y → y = tableValues [A, B, C] := by
  have := C93_dump_array name 3 N 3 (fortranArray R) fun i hi j hj k hk => by
    obtain ⟨-, -, -, -, h⟩ := fills_entry h hj ⟨k, hk⟩
    exact h i hi
  have e : values 3 N 3 (fortranArray R) = tableValues [A, B, C] := by
    have h' := h
    simp only [fills, Bool.and_eq_true, decide_eq_true_eq] at h'
    obtain ⟨⟨⟨a, b⟩, c⟩, -⟩ := h'
    have key : ∀ (L : List Row) (i : ℕ) (hL : L.length = N), (∀ j (hj : j < N) (k : Fin 3), fortranArray R i j k = lit (L[j].get k).q) →
        ((List.range N).map fun j => (List.range 3).map (fortranArray R i j)) = L.map fun r => [lit r.x.q, lit r.y.q, lit r.z.q] := by
      intro L i hL hh
      refine List.ext_getElem (by simp [hL]) fun j hj1 hj2 => ?_
      have hj : j < N := by simpa using hj1
      have h0 := hh j hj 0
      have h1 := hh j hj 1
      have h2 := hh j hj 2
      simp only [List.getElem_map, List.getElem_range]
      show [fortranArray R i j 0, fortranArray R i j 1, fortranArray R i j 2] = _
      exact congrArg₂ List.cons h0 (congrArg₂ List.cons h1 (congrArg (· :: []) h2))
    unfold values tableValues
    have hr : (List.range 3) = [0, 1, 2] := rfl
    conv_lhs => rw [hr]
    simp only [List.map_cons, List.map_nil]
    have k0 := key A 0 a fun j hj k => by obtain ⟨_, _, _, ⟨h1, _, _⟩, _⟩ := fills_entry h hj k; exact h1
    have k1 := key B 1 b fun j hj k => by obtain ⟨_, _, _, ⟨_, h1, _⟩, _⟩ := fills_entry h hj k; exact h1
    have k2 := key C 2 c fun j hj k => by obtain ⟨_, _, _, ⟨_, _, h1⟩, _⟩ := fills_entry h hj k; exact h1
    exact congrArg₂ List.cons k0 (congrArg₂ List.cons k1 (congrArg (· :: []) k2))
  rw [e] at this
  exact this

theorem E0_fills : fills E0_0 E0_1 E0_2 EpvRef.E0 501 = true := by decide +kernel
theorem E1_fills : fills E1_0 E1_1 E1_2 EpvRef.E1 80 = true := by decide +kernel
theorem E2_fills : fills E2_0 E2_1 E2_2 EpvRef.E2 5 = true := by decide +kernel
theorem S0_fills : fills S0_0 S0_1 S0_2 EpvRef.S0 213 = true := by decide +kernel
theorem S1_fills : fills S1_0 S1_1 S1_2 EpvRef.S1 50 = true := by decide +kernel
theorem S2_fills : fills S2_0 S2_1 S2_2 EpvRef.S2 9 = true := by decide +kernel

/-- `t` is a constant item that can only be read as the array `x`. -/
def ReadsAs (name : String) (n : ℕ) (t : List Char) (T : Table) : Prop :=
  ConstText name.toList 3 n 3 t (tableValues T) ∧ ∀ y, ConstText name.toList 3 n 3 t y → y = tableValues T

/-- **C93.** The output of the program is a line and six constants; read by a Rust compiler these are, bit for bit, the six
tables of epv00_data.rs. -/
theorem C93_dump_is_tables : ∃ e0 e1 e2 s0 s1 s2, dumpEpv00 = "use common::*;\n".toList ++ e0 ++ e1 ++ e2 ++ s0 ++ s1 ++ s2 ∧
    ReadsAs "E0" 501 e0 Epv.E0 ∧ ReadsAs "E1" 80 e1 Epv.E1 ∧ ReadsAs "E2" 5 e2 Epv.E2 ∧
    ReadsAs "S0" 213 s0 Epv.S0 ∧ ReadsAs "S1" 50 s1 Epv.S1 ∧ ReadsAs "S2" 9 s2 Epv.S2 :=
  ⟨_, _, _, _, _, _, rfl, dump_table _ E0_fills, dump_table _ E1_fills, dump_table _ E2_fills, dump_table _ S0_fills,
    dump_table _ S1_fills, dump_table _ S2_fills⟩

/-! ## What does not come through -/

theorem isDig_ne_E {c : Char} (h : IsDig c) : c ≠ 'E' := by
  obtain ⟨d, hd, rfl⟩ := h
  have : ∀ d < 10, Nat.digitChar d ≠ 'E' := by decide
  exact this d hd

/-- **C93.** A number whose exponent has three digits is written without `E`, and no part of the field is a Rust literal. -/
theorem C93_three_digit_exponents {x : F64} {v : ℚ} (hx : Is x v) (hv : v ≠ 0) (h : |v| < 1 / 10 ^ 101 ∨ 10 ^ 100 ≤ |v|) (b t b' : List Char)
    (q : ℚ) (hf : fmtE 23 15 x = b ++ t ++ b') : ¬ExpLit t q := by
  intro hl
  have hE : 'E' ∈ fmtE 23 15 x := by
    rw [hf]
    obtain ⟨s, i, f, g, e, rfl, -⟩ := hl
    simp
  obtain ⟨s, n, hn, rfl, rfl⟩ := is_fin hx
  have hv0 : 0 ≤ (n : ℚ) / U := div_nonneg (by positivity) U_pos.le
  have habs : |(if s then -((n : ℚ) / U) else (n : ℚ) / U)| = n / U := by
    cases s
    · simp only [Bool.false_eq_true, if_false]; exact abs_of_nonneg hv0
    · simp only [if_true, abs_neg]; exact abs_of_nonneg hv0
  rw [habs] at h
  have hn0 : 0 < n := by
    rcases Nat.eq_zero_or_pos n with rfl | h
    · simp at hv
    · exact h
  obtain ⟨m, e, he, m1, m2, a1, a2, a3⟩ := eDigits_pos hn0
  have hna : ¬(e + 15).natAbs < 100 := by
    rcases h with h | h
    · have : e ≤ -115 := by
        by_contra hc
        have : (10 : ℚ) ^ (-114 : ℤ) ≤ 10 ^ e := zpow_le_zpow_right₀ (by norm_num) (by omega)
        have a := lt_of_le_of_lt (le_trans (mul_le_mul_of_nonneg_left this (by norm_num : (0 : ℚ) ≤ 10 ^ 14 - 1 / 20)) a2) h
        norm_num at a
      omega
    · have : 85 ≤ e := by
        by_contra hc
        have : (10 : ℚ) ^ e ≤ 10 ^ (84 : ℤ) := zpow_le_zpow_right₀ (by norm_num) (by omega)
        have a := lt_of_le_of_lt h (a3.trans_le (mul_le_mul_of_nonneg_left this (by norm_num)))
        norm_num at a
      omega
  have hbody : 'E' ∉ eBody 15 (.fin s n hn) := by
    simp only [eBody, he, eExp, if_neg hna, List.mem_append, List.mem_cons, not_or]
    refine ⟨?_, by decide, by decide, fun hh => isDig_ne_E (padLeft_digits _ (dec_digits _) _ hh) rfl, ?_,
      fun hh => isDig_ne_E (padLeft_digits _ (dec_digits _) _ hh) rfl⟩
    · cases s <;> simp [fmtSign]
    · split <;> decide
  unfold fmtE at hE
  simp only at hE
  split at hE
  · rw [List.mem_append] at hE
    rcases hE with hE | hE
    · exact absurd (List.eq_of_mem_replicate hE) (by decide)
    · exact hbody hE
  · exact absurd (List.eq_of_mem_replicate hE) (by decide)

/-- **C93.** Fifteen digits are not enough for every number: `0.1 + 0.2` is printed as `0.3` is, and read as `0.3`. -/
theorem C93_not_every_number : ∃ (x : F64) (b t : List Char), Is x (5404319552844596 / 2 ^ 54) ∧ (∀ c ∈ b, c = ' ') ∧
    fmtE 23 15 x = b ++ t ∧ FloatLit t (lit (3 / 10)) ∧ ¬FloatLit t x := by
  have hrep : RepQ (5404319552844596 / 2 ^ 54) := by
    have := RepQ.dyadic 5404319552844596 54 (by norm_num) (by norm_num)
    simpa using this
  have hx : Is (lit (5404319552844596 / 2 ^ 54) : F64) (5404319552844596 / 2 ^ 54) :=
    Is.lit_exact _ hrep (le_HUGE (k := 0) (by norm_num [abs_of_pos]) (by norm_num))
  have h310 : |(3 / 10 : ℚ)| = 3 / 10 := abs_of_pos (by norm_num)
  obtain ⟨b, t, hb, hf, hlen, hl, n, h, hxe⟩ := C93_fifteen_digits (d := 3 / 10) hx
    ⟨3, -1, by norm_num, by rw [h310]; norm_num, .inr (by rw [h310]; constructor <;> norm_num)⟩ (by rw [h310, abs_le]; constructor <;> norm_num)
  refine ⟨_, b, t, hx, hb, hf, ?_, ?_⟩
  · refine floatLit_ofRat hl (RN_lt_OVQ (le_HUGE (k := 0) (by rw [h310]; norm_num) (by norm_num))) ?_
    refine ⟨fun hneg => absurd hneg (by norm_num), fun hneg => ?_⟩
    have hval := hx.val
    rw [hxe, hneg] at hval
    simp only [decide_true, F64.v, F64.sval, if_true] at hval
    have : (((-(n : ℤ) : ℤ) : ℚ)) / U ≤ 0 := div_nonpos_of_nonpos_of_nonneg (by push_cast; linarith [Nat.cast_nonneg (α := ℚ) n]) U_pos.le
    rw [hval] at this
    norm_num at this
  · rintro ⟨q, hq, hq2, -⟩
    obtain rfl := hq.uniq hl
    have e := hq2.unique hx
    have := RN_err_rel (d := 3 / 10) (.inr (by rw [h310]; norm_num))
    rw [e, h310, abs_le] at this
    norm_num at this

/-! ## Cases -/

/-- A number of the tables: the first coefficient of `E0`. -/
example : Fifteen (9998292878132 / 10 ^ 13) ∧ Is (lit (9998292878132 / 10 ^ 13) : F64) (RN (9998292878132 / 10 ^ 13)) :=
  (⟨9998292878132, 13⟩ : Dec).fifteen (by decide)

/-- Its digits, and those of a carry. -/
example : eExp 0 = "E+00".toList ∧ eExp (-12) = "E-12".toList ∧ eExp (-101) = "-101".toList := by decide

/-- A small array: one number. -/
example : ConstText "A".toList 1 1 1 (dumpArray "A".toList 1 1 1 fun _ _ _ => lit (5 / 10 ^ 1)) [[[lit (5 / 10 ^ 1)]]] :=
  (C93_dump_array _ 1 1 1 _ fun _ _ _ _ _ _ => ⟨5 / 10 ^ 1, (⟨5, 1⟩ : Dec).fifteen (by decide)⟩).1

/-- A number with more digits. -/
example : ∃ (x : F64) (v : ℚ), Is x v ∧ 1 / 10 ^ 100 ≤ |v| ∧ |v| ≤ (10 ^ 15 - 1) * 10 ^ 84 :=
  ⟨lit (1 / 2 ^ 60), 1 / 2 ^ 60, Is.lit_exact _ (by simpa using RepQ.dyadic 1 60 (by norm_num) (by norm_num))
    (le_HUGE (k := 0) (by rw [abs_of_pos (by positivity)]; norm_num) (by norm_num)),
    by rw [abs_of_pos (by positivity)]; norm_num, by rw [abs_of_pos (by positivity)]; norm_num⟩

/-- A number below the range. -/
example : ∃ (x : F64) (v : ℚ), Is x v ∧ v ≠ 0 ∧ |v| < 1 / 10 ^ 101 :=
  ⟨lit (1 / 2 ^ 400), 1 / 2 ^ 400, Is.lit_exact _ (by simpa using RepQ.dyadic 1 400 (by norm_num) (by norm_num))
    (le_HUGE (k := 0) (by rw [abs_of_pos (by positivity), pow_zero, div_le_one (by positivity)]; exact one_le_pow₀ (by norm_num)) (by norm_num)),
    by positivity, by
      rw [abs_of_pos (by positivity)]
      refine one_div_lt_one_div_of_lt (by positivity) ?_
      rw [show (400 : ℕ) = 4 * 100 by norm_num, pow_mul]
      norm_num⟩

end Verif
