import Verif.Lemmas.TestSofa
import Verif.Props.Dump

/-!
# C95: the program that wrote the test data

Every finite number that `test_sofa.f90` prints with `write (*,*)` is read back bit for bit, and so is every matrix entry whose
exponent has two digits; the whole text is a sequence of Rust constants of the stated types, read in one way only, with the
values of the run.
-/

namespace Verif
open F64 Arith Spec

theorem is_fin_eq {s : Bool} {n n' : ℕ} {h : RepNat n ∧ n < OVN} {h' : RepNat n' ∧ n' < OVN} {q : ℚ} (h1 : Is (.fin s n h) q)
    (h2 : Is (.fin s n' h') q) : (F64.fin s n h) = .fin s n' h' := by
  have := h1.val.trans h2.val.symm
  simp only [F64.v] at this
  rw [div_left_inj' U_pos.ne'] at this
  have hnn : n = n' := by
    have : F64.sval s n = F64.sval s n' := by exact_mod_cast this
    unfold F64.sval at this
    split at this <;> omega
  subst hnn
  rfl

/-- A literal is read by `str::parse` as the number it stands for. -/
theorem numLit_parse {t : List Char} {x : F64} (h : NumLit t x) (hl : t.length ≤ 60000) : parseF64 t = some x := by
  obtain ⟨q, h1 | h1, hx, n, hn, hxe⟩ := h
  · obtain ⟨s, i, f, rfl, hs, hi, hid, hfd, hr⟩ := h1
    obtain ⟨c, u, rfl⟩ := List.exists_cons_of_ne_nil hi
    have hc : c ≠ ' ' := by rintro rfl; exact absurd (hid ' ' (by simp)) (by decide)
    have hh : ∀ w, (s ++ (c :: u) ++ w).head? = (s ++ (c :: u) ++ '.' :: f).head? := by
      intro w
      rcases hs with rfl | rfl <;> simp
    have hh2 : ∀ w, (s ++ (c :: u) ++ w).head? ≠ some ' ' := by
      intro w
      rcases hs with rfl | rfl <;> simp [hc]
    obtain ⟨y, hy, y1, -⟩ := C85_parse_f64 _ q hr (hh2 _)
    obtain ⟨y2, -, n', hn', rfl⟩ := y1 hx.lt_OVQ
    have hp : parseF64 (s ++ (c :: u) ++ '.' :: f) = parseF64 (s ++ (c :: u) ++ if f = [] then [] else '.' :: f) := by
      split
      · rename_i hf
        have := (C85_parse_f64_forms s (c :: u) ['0'] [] (by unfold SignText; tauto) hid (by simp) (by unfold Digits; decide) (by simp) (.inl rfl)).1
        rw [hf]
        simpa using this
      · rfl
    rw [hp, hy, hxe]
    rw [hh] at y2 ⊢
    rw [hxe] at hx
    exact congrArg some (is_fin_eq y2 hx)
  · exact floatLit_parse ⟨q, h1, hx, n, hn, hxe⟩ hl

/-- The range of nonzero numbers, roughly. -/
theorem value_range {n : ℕ} (hn : 0 < n) (h : RepNat n ∧ n < OVN) : (1 : ℚ) / 10 ^ 400 < n / U ∧ (n : ℚ) / U < 10 ^ 400 := by
  have hU := U_pos
  obtain ⟨k, hk⟩ : ∃ k : ℕ, k = 1074 := ⟨_, rfl⟩
  obtain ⟨j, hj⟩ : ∃ j : ℕ, j = 1024 := ⟨_, rfl⟩
  obtain ⟨i, hi⟩ : ∃ i : ℕ, i = 400 := ⟨_, rfl⟩
  have h8 : ((2 : ℚ) ^ 3) ^ i ≤ 10 ^ i := pow_le_pow_left₀ (by norm_num) (by norm_num) _
  rw [← pow_mul] at h8
  have hUe : U = (2 : ℚ) ^ k := by unfold U; rw [UN_eq_pow k hk]; push_cast; rfl
  have hO : (OVN : ℚ) = 2 ^ j * U := by rw [hj]; exact OVN_eq
  have hn1 : (1 : ℚ) ≤ n := by exact_mod_cast hn
  have hn2 : (n : ℚ) < OVN := by exact_mod_cast h.2
  rw [← hi]
  constructor
  · rw [div_lt_div_iff₀ (by positivity) hU, one_mul, hUe]
    have : (2 : ℚ) ^ k < 2 ^ (3 * i) := pow_lt_pow_right₀ (by norm_num) (by omega)
    have hp : (0 : ℚ) < 10 ^ i := by positivity
    nlinarith
  · rw [div_lt_iff₀ hU]
    refine lt_of_lt_of_le hn2 ?_
    rw [hO]
    refine mul_le_mul_of_nonneg_right ?_ hU.le
    exact le_trans (pow_le_pow_right₀ (by norm_num) (by omega)) h8

theorem ldReal_length (x : F64) : (ldReal x).length = 25 := by
  have key : ∀ (w : ℕ) (l : List Char), l.length ≤ w → (rightAlign w l).length = w := by
    intro w l h; unfold rightAlign; simp; omega
  have hs : ∀ s, (fmtSign false s).length ≤ 1 := by intro s; cases s <;> simp [fmtSign]
  have hpad : ∀ k m, m < 10 ^ k → 1 ≤ k → (padLeft k (dec m)).length = k := by
    intro k m hm hk
    obtain ⟨j, rfl⟩ : ∃ j, k = j + 1 := ⟨k - 1, by omega⟩
    rw [padLeft_dec j _ hm, fixedD_length]
  cases x with
  | nan => decide
  | inf s => cases s <;> decide
  | fin s n h =>
    unfold ldReal ldMag
    simp only
    have hpt : ∀ {k m : ℕ}, k ≤ 17 → m < 10 ^ 17 → (pointText k m).length ≤ 19 ∧ (k ≤ 16 → 10 ^ 16 ≤ m ∨ k = 16 → (pointText k m).length ≤ 18) := by
      intro k m hk hm
      have hd : ∀ j, m / 10 ^ k < 10 ^ (j + 1) → (dec (m / 10 ^ k)).length ≤ j + 1 := by
        intro j hj
        have := congrArg List.length (padLeft_dec j _ hj)
        rw [fixedD_length] at this
        unfold padLeft at this
        simp at this
        omega
      have hlen : (if k = 0 then [] else padLeft k (dec (m % 10 ^ k)) : List Char).length = k := by
        split
        · rename_i hk; simp [hk]
        · exact hpad k _ (Nat.mod_lt _ (by positivity)) (by omega)
      have hm2 : m / 10 ^ k < 10 ^ (17 - k) := by
        rw [Nat.div_lt_iff_lt_mul (by positivity), ← pow_add]
        rwa [show 17 - k + k = 17 by omega]
      unfold pointText
      simp only [List.length_append, List.length_cons, hlen]
      rcases Nat.lt_or_ge k 17 with h17 | h17
      · have := hd (16 - k) (by rwa [show 16 - k + 1 = 17 - k by omega])
        omega
      · have : k = 17 := by omega
        subst this
        have := hd 0 (lt_of_lt_of_le hm2 (by norm_num))
        omega
    rcases Nat.eq_zero_or_pos n with rfl | hn
    · simp only [if_true, Bool.false_eq_true, if_false]
      have := (hpt (k := 16) (m := 0) (by norm_num) (by norm_num)).1
      have h1 := hs s
      rw [List.length_append, key _ _ (by rw [List.length_append]; omega)]
      simp
    · obtain ⟨m, e, he, m1, m2, -, a2, a3⟩ := eDigits_reads h.1 hn
      rw [he, if_neg hn.ne']
      simp only
      have h1 := hs s
      split
      · rename_i hr
        have := (hpt (k := 17 - (e + 17).toNat) (m := m) (by omega) m2).1
        simp only [Bool.false_eq_true, if_false]
        rw [List.length_append, key _ _ (by rw [List.length_append]; omega)]
        simp
      · have hp := (hpt (k := 16) (m := m) (by norm_num) m2).2 le_rfl (.inl m1)
        have hU := U_pos
        have hna : (e + 17 - 1).natAbs < 10 ^ 3 := by
          have hmax := (value_range hn h).2
          have hmin := (value_range hn h).1
          have e1 : e < 400 := by
            by_contra hc
            have : (10 : ℚ) ^ (400 : ℤ) ≤ 10 ^ e := zpow_le_zpow_right₀ (by norm_num) (by omega)
            rw [show (10 : ℚ) ^ (400 : ℤ) = 10 ^ 400 from zpow_natCast _ 400] at this
            have hp : (0 : ℚ) < 10 ^ e := by positivity
            generalize (10 : ℚ) ^ 400 = B at *
            nlinarith
          have e2 : -417 ≤ e := by
            by_contra hc
            have : (10 : ℚ) ^ (e + 17) ≤ 10 ^ (-400 : ℤ) := zpow_le_zpow_right₀ (by norm_num) (by omega)
            rw [show (10 : ℚ) ^ (-400 : ℤ) = 1 / 10 ^ 400 by rw [zpow_neg, one_div]; rfl, zpow_add₀ (by norm_num)] at this
            have h3 : (10 : ℚ) ^ (17 : ℤ) = 10 ^ 17 := zpow_natCast _ 17
            rw [h3] at this
            generalize (1 : ℚ) / 10 ^ 400 = B at *
            linarith
          omega
        simp only [if_true]
        have hx := hpad 3 _ hna (by norm_num)
        refine key _ _ ?_
        simp only [List.length_append, List.length_cons, hx]
        omega

/-- **C95.** Every finite number in a list-directed record takes 25 columns and is, between blanks, a Rust literal of exactly
that number, zeros with their sign. -/
theorem C95_list_directed {x : F64} (hx : isFin x = true) : ∃ b t c, (∀ d ∈ b, d = ' ') ∧ (∀ d ∈ c, d = ' ') ∧ ldReal x = b ++ t ++ c ∧
    (ldReal x).length = 25 ∧ NumLit t x ∧ parseF64 t = some x := by
  obtain ⟨b, t, c, hb, hc, e, ht⟩ := ldReal_text hx
  refine ⟨b, t, c, hb, hc, e, ldReal_length x, ht, numLit_parse ht ?_⟩
  have := ldReal_length x
  rw [e] at this
  simp at this
  omega

example : isFin (lit 0.25 : F64) = true := by decide +kernel

/-- **C95.** A matrix entry with an exponent of two digits likewise. -/
theorem C95_matrix_entry {x : F64} (hx : TwoDigitExp x) : ∃ b t, (∀ d ∈ b, d = ' ') ∧ fmtE 25 17 x = b ++ t ∧
    (fmtE 25 17 x).length = 25 ∧ NumLit t x ∧ parseF64 t = some x := by
  obtain ⟨b, t, hb, e, ht⟩ := fmtE17_text hx
  have hl : (fmtE 25 17 x).length = 25 := by
    unfold fmtE
    simp only
    split
    · simp; omega
    · simp
  refine ⟨b, t, hb, e, hl, ht, numLit_parse ht ?_⟩
  rw [e] at hl
  simp at hl
  omega

/-- **C95.** A matrix entry whose exponent has three digits is written without `E`, and no part of the field is a literal with an
exponent. -/
theorem C95_three_digit_exponents {x : F64} {v : ℚ} (hx : Is x v) (hv : v ≠ 0) (h : |v| < 1 / 10 ^ 101 ∨ 10 ^ 100 ≤ |v|) (b t b' : List Char)
    (q : ℚ) (hf : fmtE 25 17 x = b ++ t ++ b') : ¬ExpLit t q := by
  intro hl
  have hE : 'E' ∈ fmtE 25 17 x := by
    rw [hf]
    obtain ⟨s, i, f, g, e, rfl, -⟩ := hl
    simp
  obtain ⟨s, n, hn, rfl, rfl⟩ := is_fin hx
  have hv0 : 0 ≤ (n : ℚ) / U := div_nonneg (by positivity) U_pos.le
  have habs : |(if s then -((n : ℚ) / U) else (n : ℚ) / U)| = n / U := by
    cases s
    · simp only [Bool.false_eq_true, if_false]; exact abs_of_nonneg hv0
    · simp only [if_true, abs_neg]; exact abs_of_nonneg hv0
  rw [habs] at h
  have hn0 : 0 < n := by
    rcases Nat.eq_zero_or_pos n with rfl | h
    · simp at hv
    · exact h
  obtain ⟨m, e, he, m1, m2, a1, a2, a3⟩ := eDigits_reads hn.1 hn0
  have hna : ¬(e + 17).natAbs < 100 := by
    rcases h with h | h
    · have : e ≤ -117 := by
        by_contra hc
        have : (10 : ℚ) ^ (-116 : ℤ) ≤ 10 ^ e := zpow_le_zpow_right₀ (by norm_num) (by omega)
        have a := lt_of_le_of_lt (le_trans (mul_le_mul_of_nonneg_left this (by norm_num : (0 : ℚ) ≤ 10 ^ 16 - 1 / 20)) a2) h
        norm_num at a
      omega
    · have : 83 ≤ e := by
        by_contra hc
        have : (10 : ℚ) ^ e ≤ 10 ^ (82 : ℤ) := zpow_le_zpow_right₀ (by norm_num) (by omega)
        have a := lt_of_le_of_lt h (a3.trans_le (mul_le_mul_of_nonneg_left this (by norm_num)))
        norm_num at a
      omega
  have hbody : 'E' ∉ eBody 17 (.fin s n hn) := by
    simp only [eBody, he, eExp, if_neg hna, List.mem_append, List.mem_cons, not_or]
    refine ⟨?_, by decide, by decide, fun hh => isDig_ne_E (padLeft_digits _ (dec_digits _) _ hh) rfl, ?_,
      fun hh => isDig_ne_E (padLeft_digits _ (dec_digits _) _ hh) rfl⟩
    · cases s <;> simp [fmtSign]
    · split <;> decide
  unfold fmtE at hE
  simp only at hE
  split at hE
  · rw [List.mem_append] at hE
    rcases hE with hE | hE
    · exact absurd (List.eq_of_mem_replicate hE) (by decide)
    · exact hbody hE
  · exact absurd (List.eq_of_mem_replicate hE) (by decide)

/-! ## Records -/

/-- A record that is one element of the table, with its comma. -/
def RecordText (ty : RTy) (t : List Char) (v : RVal) : Prop := (∃ u, t = ' ' :: (u ++ [',', '\n']) ∧ ValText 4 u v) ∧ v.Of ty

/-- `[[R;3];3]`. -/
def matTy : RTy := .array 3 (.array 3 .real)

/-- Finite entries with exponents of two digits. -/
def MatOk (a : FMat) : Prop := ∀ i < 3, ∀ j < 3, TwoDigitExp (a i j)

theorem mat_of (a : FMat) : (matVal 3 3 a).Of matTy := by
  simp [matVal, matTy, RVal.Of, RVal.AllOf, List.range_succ]

/-- A matrix written after something, as an element. -/
theorem mat_elt {a : FMat} (h : MatOk a) : ∃ t, writeMat 3 3 a = ' ' :: (t ++ ['\n']) ∧ ValText 3 t (matVal 3 3 a) :=
  writeMat_text (n := 1) h

theorem toList_comma : ",".toList = [','] := by decide
theorem toList_open : "(".toList = ['('] := by decide
theorem toList_close : "),".toList = [')', ','] := by decide

theorem nums_of : ∀ (l : List F64), RVal.EachOf (l.map .num) (List.replicate l.length .real)
  | [] => by simp [RVal.EachOf]
  | x :: l => by simpa [RVal.EachOf, RVal.Of, List.replicate_succ] using nums_of l

theorem numsRecord_text {x : F64} {l : List F64} (hl : l ≠ []) (h : ∀ y ∈ x :: l, isFin y = true) :
    RecordText (.tuple (List.replicate (x :: l).length .real)) (numsRecord x l) (.tup ((x :: l).map .num)) := by
  refine ⟨⟨'(' :: (sepNums x l ++ [')']), ?_, .inr (.inr ⟨_, _, rfl, ?_, rfl, items_nums l x h⟩)⟩, nums_of (x :: l)⟩
  · unfold numsRecord ldWrite
    have := ldItems_nums ")," [] l x false
    rw [List.cons_append, ldItems, this, toList_open, toList_close]
    simp [ldItems]
  · cases l with
    | nil => exact absurd rfl hl
    | cons y l => simp

theorem each_append : ∀ (l : List RVal) (ts : List RTy) (l' : List RVal) (ts' : List RTy), RVal.EachOf l ts → RVal.EachOf l' ts' →
    RVal.EachOf (l ++ l') (ts ++ ts')
  | [], [], _, _, _, h => h
  | v :: l, t :: ts, l', ts', h, h' => ⟨h.1, each_append l ts l' ts' h.2 h'⟩
  | [], _ :: _, _, _, h, _ => by simp [RVal.EachOf] at h
  | _ :: _, [], _, _, h, _ => by simp [RVal.EachOf] at h

theorem numsMatRecord_text {x : F64} {l : List F64} {a : FMat} (h : ∀ y ∈ x :: l, isFin y = true) (ha : MatOk a) :
    RecordText (.tuple (List.replicate (x :: l).length .real ++ [matTy])) (numsMatRecord x l a) (.tup ((x :: l).map .num ++ [matVal 3 3 a])) := by
  obtain ⟨t, e, ht⟩ := mat_elt ha
  refine ⟨⟨'(' :: (sepNums x l ++ ',' :: (['\n', ' '] ++ t ++ ['\n', ' ']) ++ [')']), ?_, .inr (.inr ⟨_, _, rfl, by simp, rfl,
    items_nums_then (.last (blank_spaces _ (by decide)) ht (blank_spaces _ (by decide))) l x h⟩)⟩,
    each_append _ _ _ _ (nums_of (x :: l)) ⟨mat_of a, trivial⟩⟩
  unfold numsMatRecord ldWrite
  have := ldItems_nums "," [] l x false
  have h2 : ldItems false (LdItem.str "(" :: LdItem.real x :: List.flatMap (fun y => [LdItem.str ",", LdItem.real y]) l ++ [LdItem.str ","]) =
      '(' :: (sepNums x l ++ [',']) := by
    rw [List.cons_append, ldItems, this, toList_open, toList_comma]
    simp [ldItems]
  rw [h2, str_one, e, toList_close]
  simp

/-- `POM00_DATA`: a matrix written by hand. -/
theorem pomRecord_text {d : F64 × F64 × F64 × FMat} (h : (isFin d.1 && isFin d.2.1 && isFin d.2.2.1) = true)
    (ha : ∀ i < 3, ∀ j < 3, isFin (d.2.2.2 i j) = true) :
    RecordText (.tuple [.real, .real, .real, matTy]) (pomRecord d) (.tup [.num d.1, .num d.2.1, .num d.2.2.1, matVal 3 3 d.2.2.2]) := by
  obtain ⟨x, y, z, a⟩ := d
  simp only [Bool.and_eq_true] at h
  have row : ∀ i < 3, ValText 2 ('[' :: (sepNums (a i 0) [a i 1, a i 2] ++ [']'])) (.arr [.num (a i 0), .num (a i 1), .num (a i 2)]) := by
    intro i hi
    refine .inr (.inl ⟨_, _, rfl, rfl, items_nums (n := 1) [a i 1, a i 2] (a i 0) ?_⟩)
    intro w hw
    simp only [List.mem_cons, List.not_mem_nil, or_false] at hw
    rcases hw with rfl | rfl | rfl
    · exact ha i hi 0 (by norm_num)
    · exact ha i hi 1 (by norm_num)
    · exact ha i hi 2 (by norm_num)
  have mat : ValText 3 ('[' :: (([] ++ ('[' :: (sepNums (a 0 0) [a 0 1, a 0 2] ++ [']'])) ++ [] ++ ',' :: ([] ++ ('[' :: (sepNums (a 1 0) [a 1 1, a 1 2] ++ [']'])) ++ [] ++ ',' ::
      ([] ++ ('[' :: (sepNums (a 2 0) [a 2 1, a 2 2] ++ [']'])) ++ [] ++ ',' :: []))) ++ [']'])) (matVal 3 3 a) := by
    refine .inr (.inl ⟨_, _, rfl, rfl, ?_⟩)
    have := Items.cons (E := ValText 2) .nil (row 0 (by norm_num)) .nil (.cons .nil (row 1 (by norm_num)) .nil
      (.cons .nil (row 2 (by norm_num)) .nil (.nil .nil)))
    exact this
  have all := items_nums_then (n := 3) (.last (b := []) (b' := []) .nil mat .nil) [y, z] x (by
    intro w hw
    simp only [List.mem_cons, List.not_mem_nil, or_false] at hw
    rcases hw with rfl | rfl | rfl
    · exact h.1.1
    · exact h.1.2
    · exact h.2)
  refine ⟨⟨_, ?_, .inr (.inr ⟨_, _, rfl, by simp, rfl, all⟩)⟩, by
    simpa [RVal.Of, RVal.EachOf] using mat_of a⟩
  have s1 : "[".toList = ['['] := by decide
  have s2 : "],".toList = [']', ','] := by decide
  have s3 : "]),".toList = [']', ')', ','] := by decide
  unfold pomRecord ldWrite
  simp [ldItems, sepNums, toList_open, toList_comma, s1, s2, s3]

/-- `C2TCIO_DATA`. -/
theorem cioRecord_text {d : FMat × F64 × FMat × FMat} (h : isFin d.2.1 = true) (h1 : MatOk d.1) (h2 : MatOk d.2.2.1) (h3 : MatOk d.2.2.2) :
    RecordText (.tuple [matTy, .real, matTy, matTy]) (cioRecord d)
      (.tup [matVal 3 3 d.1, .num d.2.1, matVal 3 3 d.2.2.1, matVal 3 3 d.2.2.2]) := by
  obtain ⟨a, x, b, c⟩ := d
  obtain ⟨ta, ea, va⟩ := mat_elt h1
  obtain ⟨tb, eb, vb⟩ := mat_elt h2
  obtain ⟨tc, ec, vc⟩ := mat_elt h3
  have hbl : Blank ['\n', ' '] := blank_spaces _ (by decide)
  have all := Items.cons (E := ValText 3) hbl va hbl (items_nums_then (n := 3) (.cons hbl vb hbl (.last hbl vc hbl)) [] x (by simpa using h))
  refine ⟨⟨_, ?_, .inr (.inr ⟨_, _, rfl, by simp, rfl, all⟩)⟩, by
    simpa [RVal.Of, RVal.EachOf] using ⟨mat_of a, mat_of b, mat_of c⟩⟩
  unfold cioRecord
  rw [ea, eb, ec]
  unfold ldWrite
  simp [ldItems, sepNums, toList_open, toList_comma, toList_close]

/-- `BP00_DATA`. -/
theorem biasRecord_text {d : F64 × F64 × FMat × FMat × FMat} (h : (isFin d.1 && isFin d.2.1) = true) (h1 : MatOk d.2.2.1)
    (h2 : MatOk d.2.2.2.1) (h3 : MatOk d.2.2.2.2) :
    RecordText (.tuple [.real, .real, .array 3 matTy]) (biasRecord d)
      (.tup [.num d.1, .num d.2.1, .arr [matVal 3 3 d.2.2.1, matVal 3 3 d.2.2.2.1, matVal 3 3 d.2.2.2.2]]) := by
  obtain ⟨x, y, a, b, c⟩ := d
  simp only [Bool.and_eq_true] at h
  obtain ⟨ta, ea, va⟩ := writeMat_text (n := 0) h1
  obtain ⟨tb, eb, vb⟩ := writeMat_text (n := 0) h2
  obtain ⟨tc, ec, vc⟩ := writeMat_text (n := 0) h3
  have hbl : Blank ['\n', ' '] := blank_spaces _ (by decide)
  have arr : ValText 3 _ (.arr [matVal 3 3 a, matVal 3 3 b, matVal 3 3 c]) := .inr (.inl ⟨_, _, rfl, rfl,
    Items.cons (E := ValText 2) hbl va hbl (.cons hbl vb hbl (.last hbl vc hbl))⟩)
  have all := items_nums_then (n := 3) (.last (b := []) (b' := []) .nil arr .nil) [y] x (by
    intro w hw
    simp only [List.mem_cons, List.not_mem_nil, or_false] at hw
    rcases hw with rfl | rfl
    · exact h.1
    · exact h.2)
  refine ⟨⟨_, ?_, .inr (.inr ⟨_, _, rfl, by simp, rfl, all⟩)⟩, by
    simpa [RVal.Of, RVal.EachOf, RVal.AllOf] using ⟨mat_of a, mat_of b, mat_of c⟩⟩
  have s1 : ",[".toList = [',', '['] := by decide
  have s3 : "]),".toList = [']', ')', ','] := by decide
  unfold biasRecord
  rw [ea, eb, ec]
  unfold ldWrite
  simp [ldItems, sepNums, toList_open, toList_comma, s1, s3]

/-! ## Tables -/

theorem items_records {β : Type} {ty : RTy} {rec : β → List Char} {val : β → RVal} : ∀ (l : List β),
    (∀ d ∈ l, RecordText ty (rec d) (val d)) → Items (ValText 4) ((l.map rec).flatten ++ [' ']) (l.map val)
  | [], _ => .nil (b := [' ']) (blank_spaces _ (by decide))
  | d :: l, h => by
    obtain ⟨⟨u, e, hu⟩, -⟩ := h d (by simp)
    have ih := items_records l fun d hd => h d (by simp [hd])
    have := Items.cons (b := [' ']) (blank_spaces _ (by decide)) hu .nil (Items.prepend (b := ['\n']) (blank_spaces _ (by decide)) ih)
    simp only [List.map_cons, List.flatten_cons]
    rw [e]
    simpa using this

theorem writeTable_text {β : Type} {name : List Char} {ty : RTy} {head : String} {rec : β → List Char} (val : β → RVal) {l : List β}
    (hh : head.toList = "pub const ".toList ++ name ++ " : &[".toList ++ ty.text ++ "] = &[".toList)
    (h : ∀ d ∈ l, RecordText ty (rec d) (val d)) : SliceText name ty (writeTable head rec l) (l.map val) := by
  refine ⟨⟨[' '], '\n' :: ((l.map rec).flatten ++ [' ']), ['\n'], blank_spaces _ (by decide), blank_spaces _ (by decide), ?_,
    Items.prepend (b := ['\n']) (blank_spaces _ (by decide)) (items_records l h)⟩, ?_⟩
  · unfold writeTable ldWrite
    have s1 : "];".toList = [']', ';'] := by decide
    rw [str_one, str_one, hh, s1]
    simp
  · intro v hv
    rw [List.mem_map] at hv
    obtain ⟨d, hd, rfl⟩ := hv
    exact (h d hd).2

/-- What the constants hold. -/
structure Readings where
  pom : List RVal
  nut : List RVal
  numat : List RVal
  bias : List RVal
  era : List RVal
  pr : List RVal
  pnm : List RVal
  c2i : List RVal
  cio : List RVal
  s00 : List RVal
  c2t : List RVal

/-- The values of a run. -/
def SofaData.values (D : SofaData) : Readings where
  pom := D.pom.map fun d => .tup [.num d.1, .num d.2.1, .num d.2.2.1, matVal 3 3 d.2.2.2]
  nut := D.nut.map fun d => .tup [.num d.1, .num d.2.1, .num d.2.2.1, .num d.2.2.2]
  numat := D.numat.map fun d => .tup [.num d.1, .num d.2.1, .num d.2.2.1, matVal 3 3 d.2.2.2]
  bias := D.bias.map fun d => .tup [.num d.1, .num d.2.1, .arr [matVal 3 3 d.2.2.1, matVal 3 3 d.2.2.2.1, matVal 3 3 d.2.2.2.2]]
  era := D.era.map fun d => .tup [.num d.1, .num d.2.1, .num d.2.2]
  pr := D.pr.map fun d => .tup [.num d.1, .num d.2.1, .num d.2.2.1, .num d.2.2.2]
  pnm := D.pnm.map fun d => .tup [.num d.1, .num d.2.1, matVal 3 3 d.2.2]
  c2i := D.c2i.map fun d => .tup [.num d.1, .num d.2.1, matVal 3 3 d.2.2]
  cio := D.cio.map fun d => .tup [matVal 3 3 d.1, .num d.2.1, matVal 3 3 d.2.2.1, matVal 3 3 d.2.2.2]
  s00 := D.s00.map fun d => .tup [.num d.1, .num d.2.1, .num d.2.2.1, .num d.2.2.2.1, .num d.2.2.2.2]
  c2t := D.c2t.map fun d => .tup [.num d.1.1, .num d.1.2.1, .num d.1.2.2.1, .num d.1.2.2.2.1, .num d.1.2.2.2.2.1, .num d.1.2.2.2.2.2.1,
    .num d.1.2.2.2.2.2.2.1, .num d.1.2.2.2.2.2.2.2, matVal 3 3 d.2]

/-- Numbers printed with `write (*,*)` are finite, matrix entries printed with `E25.17` have exponents of two digits. -/
structure SofaData.Ok (D : SofaData) : Prop where
  pom : ∀ d ∈ D.pom, (isFin d.1 && isFin d.2.1 && isFin d.2.2.1) = true ∧ ∀ i < 3, ∀ j < 3, isFin (d.2.2.2 i j) = true
  nut : ∀ d ∈ D.nut, (isFin d.1 && isFin d.2.1 && isFin d.2.2.1 && isFin d.2.2.2) = true
  numat : ∀ d ∈ D.numat, (isFin d.1 && isFin d.2.1 && isFin d.2.2.1) = true ∧ MatOk d.2.2.2
  bias : ∀ d ∈ D.bias, (isFin d.1 && isFin d.2.1) = true ∧ MatOk d.2.2.1 ∧ MatOk d.2.2.2.1 ∧ MatOk d.2.2.2.2
  era : ∀ d ∈ D.era, (isFin d.1 && isFin d.2.1 && isFin d.2.2) = true
  pr : ∀ d ∈ D.pr, (isFin d.1 && isFin d.2.1 && isFin d.2.2.1 && isFin d.2.2.2) = true
  pnm : ∀ d ∈ D.pnm, (isFin d.1 && isFin d.2.1) = true ∧ MatOk d.2.2
  c2i : ∀ d ∈ D.c2i, (isFin d.1 && isFin d.2.1) = true ∧ MatOk d.2.2
  cio : ∀ d ∈ D.cio, isFin d.2.1 = true ∧ MatOk d.1 ∧ MatOk d.2.2.1 ∧ MatOk d.2.2.2
  s00 : ∀ d ∈ D.s00, (isFin d.1 && isFin d.2.1 && isFin d.2.2.1 && isFin d.2.2.2.1 && isFin d.2.2.2.2) = true
  c2t : ∀ d ∈ D.c2t, (isFin d.1.1 && isFin d.1.2.1 && isFin d.1.2.2.1 && isFin d.1.2.2.2.1 && isFin d.1.2.2.2.2.1 && isFin d.1.2.2.2.2.2.1 &&
    isFin d.1.2.2.2.2.2.2.1 && isFin d.1.2.2.2.2.2.2.2) = true ∧ MatOk d.2

/-- `test_data.rs` as a Rust program: the constants of `test_sofa.f90` in order, with these values. -/
def TestData (t : List Char) (R : Readings) : Prop :=
  ∃ t1 t2 t3 t4 t5 t6 t7 t8 t9 t10 t11, t = " use crate::common::*;\n".toList ++ t1 ++ t2 ++ t3 ++ t4 ++ t5 ++ t6 ++ t7 ++ t8 ++ t9 ++ t10 ++ t11 ∧
    SliceText "POM00_DATA".toList (.tuple [.real, .real, .real, matTy]) t1 R.pom ∧
    SliceText "NUT00B_DATA".toList (.tuple [.real, .real, .real, .real]) t2 R.nut ∧
    SliceText "NUMAT_DATA".toList (.tuple [.real, .real, .real, matTy]) t3 R.numat ∧
    SliceText "BP00_DATA".toList (.tuple [.real, .real, .array 3 matTy]) t4 R.bias ∧
    SliceText "ERA00_DATA".toList (.tuple [.real, .real, .real]) t5 R.era ∧
    SliceText "PR00_DATA".toList (.tuple [.real, .real, .real, .real]) t6 R.pr ∧
    SliceText "PNM00B_DATA".toList (.tuple [.real, .real, matTy]) t7 R.pnm ∧
    SliceText "C2I00B_DATA".toList (.tuple [.real, .real, matTy]) t8 R.c2i ∧
    SliceText "C2TCIO_DATA".toList (.tuple [matTy, .real, matTy, matTy]) t9 R.cio ∧
    SliceText "S00_DATA".toList (.tuple [.real, .real, .real, .real, .real]) t10 R.s00 ∧
    SliceText "C2T00B_DATA".toList (.tuple [.real, .real, .real, .real, .real, .real, .real, .real, matTy]) t11 R.c2t

/-- **C95.** What the program writes is a Rust file with the values of the run, bit for bit. -/
theorem C95_test_data (D : SofaData) (h : D.Ok) : TestData (testSofa D) D.values := by
  refine ⟨_, _, _, _, _, _, _, _, _, _, _, rfl, ?_, ?_, ?_, ?_, ?_, ?_, ?_, ?_, ?_, ?_, ?_⟩
  · exact writeTable_text _ (by decide +kernel) fun d hd => pomRecord_text (h.pom d hd).1 (h.pom d hd).2
  · refine writeTable_text _ (by decide +kernel) fun d hd => numsRecord_text (l := [_, _, _]) (by simp) ?_
    simpa [and_assoc] using h.nut d hd
  · refine writeTable_text _ (by decide +kernel) fun d hd => numsMatRecord_text (l := [_, _]) ?_ (h.numat d hd).2
    simpa [and_assoc] using (h.numat d hd).1
  · exact writeTable_text _ (by decide +kernel) fun d hd => biasRecord_text (h.bias d hd).1 (h.bias d hd).2.1 (h.bias d hd).2.2.1 (h.bias d hd).2.2.2
  · refine writeTable_text _ (by decide +kernel) fun d hd => numsRecord_text (l := [_, _]) (by simp) ?_
    simpa [and_assoc] using h.era d hd
  · refine writeTable_text _ (by decide +kernel) fun d hd => numsRecord_text (l := [_, _, _]) (by simp) ?_
    simpa [and_assoc] using h.pr d hd
  · refine writeTable_text _ (by decide +kernel) fun d hd => numsMatRecord_text (l := [_]) ?_ (h.pnm d hd).2
    simpa [and_assoc] using (h.pnm d hd).1
  · refine writeTable_text _ (by decide +kernel) fun d hd => numsMatRecord_text (l := [_]) ?_ (h.c2i d hd).2
    simpa [and_assoc] using (h.c2i d hd).1
  · exact writeTable_text _ (by decide +kernel) fun d hd => cioRecord_text (h.cio d hd).1 (h.cio d hd).2.1 (h.cio d hd).2.2.1 (h.cio d hd).2.2.2
  · refine writeTable_text _ (by decide +kernel) fun d hd => numsRecord_text (l := [_, _, _, _]) (by simp) ?_
    simpa [and_assoc] using h.s00 d hd
  · refine writeTable_text _ (by decide +kernel) fun d hd => numsMatRecord_text (l := [_, _, _, _, _, _, _]) ?_ (h.c2t d hd).2
    simpa [and_assoc] using (h.c2t d hd).1

/-! ## One reading -/

theorem Spec.SliceText.next {name : List Char} {ty : RTy} {t t' c c' z z' : List Char} {vs vs' : List RVal} (h : SliceText name ty t vs)
    (h' : SliceText name ty t' vs') (hc : Blank c) (hc' : Blank c') (e : c ++ (t ++ z) = c' ++ (t' ++ z')) :
    vs = vs' ∧ ∃ d d', Blank d ∧ Blank d' ∧ d ++ z = d' ++ z' := by
  obtain ⟨⟨b, r, d, hb, hd, rfl, hi⟩, -⟩ := h
  obtain ⟨⟨b', r', d', hb', hd', rfl, hi'⟩, -⟩ := h'
  have hs : ∀ w, Solid ("pub const ".toList ++ w) := fun w => ⟨'p', _, rfl, by decide⟩
  simp only [List.append_assoc] at e
  rw [← List.append_assoc c, ← List.append_assoc c'] at e
  obtain ⟨-, e2⟩ := (hc.append hb).uniq (hc'.append hb') (hs _) (hs _) e
  simp only [List.append_cancel_left_eq] at e2
  obtain ⟨e3, e4⟩ := Items.uniq (valText_unamb 4) (.inl rfl) hi hi' e2
  refine ⟨e4, d, d', hd, hd', ?_⟩
  simpa [e3] using e2

/-- **C95.** A text is read in one way only. -/
theorem C95_one_reading {t : List Char} {R R' : Readings} (h : TestData t R) (h' : TestData t R') : R = R' := by
  obtain ⟨t1, t2, t3, t4, t5, t6, t7, t8, t9, t10, t11, rfl, h1, h2, h3, h4, h5, h6, h7, h8, h9, h10, h11⟩ := h
  obtain ⟨s1, s2, s3, s4, s5, s6, s7, s8, s9, s10, s11, e, k1, k2, k3, k4, k5, k6, k7, k8, k9, k10, k11⟩ := h'
  simp only [List.append_assoc, List.append_cancel_left_eq] at e
  obtain ⟨r1, c, c', b, b', e⟩ := h1.next k1 .nil .nil e
  obtain ⟨r2, c, c', b, b', e⟩ := h2.next k2 b b' e
  obtain ⟨r3, c, c', b, b', e⟩ := h3.next k3 b b' e
  obtain ⟨r4, c, c', b, b', e⟩ := h4.next k4 b b' e
  obtain ⟨r5, c, c', b, b', e⟩ := h5.next k5 b b' e
  obtain ⟨r6, c, c', b, b', e⟩ := h6.next k6 b b' e
  obtain ⟨r7, c, c', b, b', e⟩ := h7.next k7 b b' e
  obtain ⟨r8, c, c', b, b', e⟩ := h8.next k8 b b' e
  obtain ⟨r9, c, c', b, b', e⟩ := h9.next k9 b b' e
  obtain ⟨r10, c, c', b, b', e⟩ := h10.next k10 b b' e
  obtain ⟨r11, -⟩ := h11.next (z := []) (z' := []) k11 b b' (by simpa using e)
  cases R; cases R'
  simp_all

theorem map_inj {β : Type} {f : β → RVal} {P : β → β → Prop} (hf : ∀ d d', f d = f d' → P d d') : ∀ {l l' : List β}, l.map f = l'.map f →
    List.Forall₂ P l l'
  | [], [], _ => .nil
  | d :: l, d' :: l', h => by
    simp only [List.map_cons, List.cons.injEq] at h
    exact .cons (hf _ _ h.1) (map_inj hf h.2)
  | [], _ :: _, h => by simp at h
  | _ :: _, [], h => by simp at h

/-- Two runs whose outputs are equal had the same Earth rotation angles, for one: nothing is lost by printing. -/
theorem C95_nothing_lost {D D' : SofaData} (h : D.Ok) (h' : D'.Ok) (e : testSofa D = testSofa D') : D.values = D'.values ∧ D.era = D'.era := by
  have hv := C95_one_reading (C95_test_data D h) (by
    rw [e]
    exact C95_test_data D' h')
  refine ⟨hv, ?_⟩
  have h5 : D.values.era = D'.values.era := by rw [hv]
  have := map_inj (P := Eq) (fun d d' hd => by
    obtain ⟨x, y, z⟩ := d
    obtain ⟨x', y', z'⟩ := d'
    simpa using hd) h5
  exact List.forall₂_eq_eq_eq ▸ this

/-! ## Cases -/

/-- Zero in a record and in a matrix. -/
example : ldReal (lit 0) = "  0.0000000000000000     ".toList ∧ fmtE 25 17 (lit 0) = "  0.00000000000000000E+00".toList := by
  decide +kernel

/-- A table of one line. -/
example : writeTable "pub const ERA00_DATA : &[(R,R,R)] = &[" (fun d => numsRecord d.1 [d.2.1, d.2.2]) [((lit 0, lit 0, lit 0) : F64 × F64 × F64)] =
    " pub const ERA00_DATA : &[(R,R,R)] = &[\n (   0.0000000000000000      ,   0.0000000000000000      ,   0.0000000000000000      ),\n ];\n".toList := by
  decide +kernel

/-- A run that meets the hypotheses. -/
example : ∃ D : SofaData, D.Ok ∧ D.era ≠ [] ∧ D.pnm ≠ [] := by
  have h1 : TwoDigitExp (lit 1 : F64) := by
    have := Is.lit_int 1 (by norm_num)
    push_cast at this
    refine ⟨this.fin, .inr ?_⟩
    rw [this.val]
    norm_num
  refine ⟨⟨[], [], [], [], [(lit 1, lit 2, lit 3)], [], [(lit 1, lit 2, fun _ _ => lit 1)], [], [], [], []⟩, ?_, by simp, by simp⟩
  constructor <;> simp only [List.mem_cons, List.not_mem_nil, or_false, forall_eq, false_imp_iff, implies_true]
  · decide +kernel
  · exact ⟨by decide +kernel, fun _ _ _ _ => h1⟩

end Verif
