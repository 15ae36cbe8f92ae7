import Verif.Model.Dump
import Verif.Spec.RustConst
import Verif.Lemmas.Shortest

/-!
# The text of the dump program
-/

namespace Verif
open F64 Arith Spec

/-! ## Digits -/

theorem rheQ_err {t : ℚ} (ht : 0 ≤ t) : |(rhe t.num.natAbs t.den : ℚ) - t| ≤ 1 / 2 := by
  obtain ⟨h1, h2⟩ := rhe_err t.num.natAbs t.den t.den_pos
  have hd : (0 : ℚ) < t.den := by exact_mod_cast t.den_pos
  have hn : (t.num.natAbs : ℚ) = t * t.den := by
    rw [Rat.mul_den_eq_num]
    have : ((t.num.natAbs : ℤ) : ℚ) = (t.num : ℚ) := by rw [Int.natAbs_of_nonneg (Rat.num_nonneg.mpr ht)]
    rw [← this, Int.cast_natCast]
  generalize rhe t.num.natAbs t.den = r at *
  have h1' : 2 * ((r : ℚ) * t.den) ≤ 2 * (t.num.natAbs : ℚ) + t.den := by exact_mod_cast h1
  have h2' : 2 * (t.num.natAbs : ℚ) ≤ 2 * ((r : ℚ) * t.den) + t.den := by exact_mod_cast h2
  rw [hn] at h1' h2'
  generalize (t.den : ℚ) = D at *
  have a1 : (2 * ((r : ℚ) - t) - 1) * D ≤ 0 := by linarith
  have a2 : (2 * (t - (r : ℚ)) - 1) * D ≤ 0 := by linarith
  have b1 := nonpos_of_mul_nonpos_left a1 hd
  have b2 := nonpos_of_mul_nonpos_left a2 hd
  rw [abs_le]; constructor <;> linarith

/-- Fifteen digits of a positive number: off by half a unit at most. -/
theorem eDigits_pos {n : ℕ} (hn : 0 < n) : ∃ (m : ℕ) (e : ℤ), eDigits 15 n = (m, e + 15) ∧ 10 ^ 14 ≤ m ∧ m < 10 ^ 15 ∧
    |(n : ℚ) / U - m * 10 ^ e| ≤ 1 / 2 * 10 ^ e ∧ (10 ^ 14 - 1 / 20) * (10 : ℚ) ^ e ≤ n / U ∧ (n : ℚ) / U < 10 ^ 15 * 10 ^ e := by
  obtain ⟨h1, h2, h3, h4, h5⟩ := inUnits_mem (n := n) (k := 15) hn (by norm_num)
  have hp : (0 : ℚ) < 10 ^ lastExp n 15 := by positivity
  have l1 : (10 : ℚ) ^ 14 ≤ inUnits n 15 := le_trans (by exact_mod_cast h2) h4
  have l2 : inUnits n 15 < (10 : ℚ) ^ 15 := lt_of_lt_of_le h5 (by exact_mod_cast h3)
  have hr := rheQ_err (t := inUnits n 15) (le_trans (by positivity) l1)
  unfold eDigits
  rw [if_neg hn.ne']
  simp only
  rw [h1]
  generalize inUnits n 15 = t at *
  generalize lastExp n 15 = e at *
  generalize rhe t.num.natAbs t.den = m at *
  rw [abs_le] at hr
  split
  · rename_i hm
    have hm' : (m : ℚ) = 10 ^ 15 := by rw [hm]; norm_num
    rw [hm'] at hr
    have e10 : (10 : ℚ) ^ (e + 1) = 10 * 10 ^ e := by rw [zpow_add₀ (by norm_num)]; ring
    refine ⟨10 ^ 14, e + 1, by norm_num; ring, le_rfl, by norm_num, ?_, ?_, ?_⟩
    · rw [e10]
      push_cast
      generalize (10 : ℚ) ^ e = P at *
      have : t * P - 100000000000000 * (10 * P) = (t - 10 ^ 15) * P := by ring
      rw [this, abs_mul, abs_of_pos hp]
      have : |t - 10 ^ 15| ≤ 1 / 2 := by rw [abs_le]; constructor <;> linarith
      nlinarith
    · rw [e10]
      generalize (10 : ℚ) ^ e = P at *
      nlinarith
    · rw [e10]
      generalize (10 : ℚ) ^ e = P at *
      nlinarith
  · rename_i hm
    have m1 : 10 ^ 14 ≤ m := by
      by_contra hc
      have : m + 1 ≤ 10 ^ 14 := by omega
      have : (m : ℚ) + 1 ≤ 10 ^ 14 := by exact_mod_cast this
      linarith
    have m2 : m < 10 ^ 15 := by
      by_contra hc
      have : 10 ^ 15 + 1 ≤ m := by omega
      have : (10 : ℚ) ^ 15 + 1 ≤ m := by exact_mod_cast this
      linarith
    refine ⟨m, e, by norm_num, m1, m2, ?_, ?_, ?_⟩
    · generalize (10 : ℚ) ^ e = P at *
      have : t * P - m * P = (t - m) * P := by ring
      rw [this, abs_mul, abs_of_pos hp]
      have : |t - m| ≤ 1 / 2 := by rw [abs_le]; constructor <;> linarith
      exact mul_le_mul_of_nonneg_right this hp.le
    · exact mul_le_mul_of_nonneg_right (by linarith) hp.le
    · exact mul_lt_mul_of_pos_right l2 hp

/-- The digits of an `f64` next to a number with fifteen digits are these fifteen digits. -/
theorem eDigits_exact {n M : ℕ} {k : ℤ} (hn : 0 < n) (h1 : 10 ^ 14 ≤ M) (h2 : M < 10 ^ 15)
    (h : |(n : ℚ) / U - M * 10 ^ k| ≤ M * 10 ^ k / 2 ^ 52) : eDigits 15 n = (M, k + 15) := by
  obtain ⟨m, e, he, m1, m2, a1, a2, a3⟩ := eDigits_pos hn
  have m2' : (m : ℚ) + 1 ≤ 10 ^ 15 := by exact_mod_cast m2
  have h2' : (M : ℚ) + 1 ≤ 10 ^ 15 := by exact_mod_cast h2
  have m1' : (10 : ℚ) ^ 14 ≤ m := by exact_mod_cast m1
  have h1' : (10 : ℚ) ^ 14 ≤ M := by exact_mod_cast h1
  have hP : (0 : ℚ) < 10 ^ k := by positivity
  have hQ : (0 : ℚ) < 10 ^ e := by positivity
  rw [abs_le] at h a1
  obtain ⟨u1, u2⟩ := h
  obtain ⟨v1, v2⟩ := a1
  have hek : e = k := by
    by_contra hne
    rcases lt_or_gt_of_ne hne with hlt | hgt
    · have hh : (10 : ℚ) ^ (e + 1) ≤ 10 ^ k := zpow_le_zpow_right₀ (by norm_num) (by omega)
      rw [zpow_add₀ (by norm_num), zpow_one] at hh
      generalize (10 : ℚ) ^ k = P at *
      generalize (10 : ℚ) ^ e = Q at *
      have w1 : (m : ℚ) * Q ≤ (10 ^ 15 - 1) * Q := mul_le_mul_of_nonneg_right (by linarith) hQ.le
      have w2 : (10 : ℚ) ^ 14 * P ≤ M * P := mul_le_mul_of_nonneg_right h1' hP.le
      norm_num at *
      linarith
    · have hh : (10 : ℚ) ^ (k + 1) ≤ 10 ^ e := zpow_le_zpow_right₀ (by norm_num) (by omega)
      rw [zpow_add₀ (by norm_num), zpow_one] at hh
      generalize (10 : ℚ) ^ k = P at *
      generalize (10 : ℚ) ^ e = Q at *
      have w1 : (M : ℚ) * P ≤ (10 ^ 15 - 1) * P := mul_le_mul_of_nonneg_right (by linarith) hP.le
      norm_num at *
      linarith
  subst hek
  rw [he]
  have : m = M := by
    generalize (10 : ℚ) ^ e = P at *
    have w1 : (M : ℚ) * P ≤ (10 ^ 15 - 1) * P := mul_le_mul_of_nonneg_right (by linarith) hP.le
    have c1 : (((m : ℚ) - M) - 1) * P < 0 := by norm_num at *; linarith
    have c2 : (((M : ℚ) - m) - 1) * P < 0 := by norm_num at *; linarith
    have d1 : (m : ℚ) - M - 1 < 0 := by
      by_contra hc; exact absurd (mul_nonneg (not_lt.mp hc) hP.le) (not_le.mpr c1)
    have d2 : (M : ℚ) - m - 1 < 0 := by
      by_contra hc; exact absurd (mul_nonneg (not_lt.mp hc) hP.le) (not_le.mpr c2)
    have d1' : (m : ℚ) < M + 1 := by linarith
    have d2' : (M : ℚ) < m + 1 := by linarith
    have e1 : m < M + 1 := by exact_mod_cast d1'
    have e2 : M < m + 1 := by exact_mod_cast d2'
    omega
  rw [this]

/-! ## One number -/

theorem digits_of_isDig {l : List Char} (h : ∀ c ∈ l, IsDig c) : Digits l := by
  intro c hc
  obtain ⟨d, hd, rfl⟩ := h c hc
  rw [digit_digitChar d hd]; rfl

theorem padLeft_ne_nil (w n : ℕ) : padLeft w (dec n) ≠ [] := by
  unfold padLeft; simp [dec_ne_nil]

theorem readMag_pad (w n : ℕ) : readMag (padLeft w (dec n)) = some (n : ℚ) := by
  obtain ⟨-, -, i3, i4⟩ := takeWhile_digits (padLeft_digits w (dec_digits n)) []
  unfold readMag
  rw [i3, i4]
  simp [readNat_pad]

theorem readMag_zeroPoint {m : ℕ} (hm : m < 10 ^ 15) : readMag ('0' :: '.' :: padLeft 15 (dec m)) = some ((m : ℚ) / 10 ^ 15) := by
  have hl : (padLeft 15 (dec m)).length = 15 := by rw [padLeft_dec 14 m hm, fixedD_length]
  have e1 : ('0' :: '.' :: padLeft 15 (dec m)).takeWhile (· != '.') = ['0'] := by simp
  have e2 : ('0' :: '.' :: padLeft 15 (dec m)).dropWhile (· != '.') = '.' :: padLeft 15 (dec m) := by simp
  unfold readMag
  rw [e1, e2]
  have : readNat ['0'] = some 0 := by decide
  simp only [this, readNat_pad, hl, Option.bind_some, Option.map_some]
  simp

theorem dig_zero : IsDig '0' := ⟨0, by norm_num, by decide⟩

/-- The text of fifteen digits and a small exponent is a Rust literal of that value. -/
theorem expLit_text (s : Bool) {m : ℕ} (hm : m < 10 ^ 15) {e : ℤ} (he : |e| < 100) :
    ExpLit (fmtSign false s ++ '0' :: '.' :: (padLeft 15 (dec m) ++ eExp e))
      (if s then -(m * 10 ^ (e - 15)) else m * 10 ^ (e - 15)) ∧
    (fmtSign false s ++ '0' :: '.' :: (padLeft 15 (dec m) ++ eExp e)).length ≤ 22 ∧
    (fmtSign false s ++ '0' :: '.' :: (padLeft 15 (dec m) ++ eExp e)).head? = some (if s then '-' else '0') := by
  have hl : (padLeft 15 (dec m)).length = 15 := by rw [padLeft_dec 14 m hm, fixedD_length]
  have hna : e.natAbs < 100 := by rw [abs_lt] at he; omega
  have hl2 : (padLeft 2 (dec e.natAbs)).length = 2 := by rw [padLeft_dec 1 _ (by simpa using hna), fixedD_length]
  have hx : eExp e = 'E' :: (([if e < 0 then '-' else '+'] : List Char) ++ padLeft 2 (dec e.natAbs)) := by
    unfold eExp; simp only [hna, if_true, List.cons_append, List.nil_append]
  refine ⟨⟨fmtSign false s, ['0'], padLeft 15 (dec m), [if e < 0 then '-' else '+'], padLeft 2 (dec e.natAbs), ?_, ?_, by simp,
    digits_of_isDig (by simp [dig_zero]), padLeft_ne_nil _ _, digits_of_isDig (padLeft_digits _ (dec_digits _)), ?_,
    padLeft_ne_nil _ _, digits_of_isDig (padLeft_digits _ (dec_digits _)), if s then -((m : ℚ) / 10 ^ 15) else (m : ℚ) / 10 ^ 15, e, ?_, ?_, ?_⟩, ?_, ?_⟩
  · rw [hx]; simp
  · cases s <;> simp [fmtSign]
  · unfold SignText; split <;> simp
  · have := readDec_sign 0 false s (c := '0') (r := '.' :: padLeft 15 (dec m)) dig_zero
    rw [readMag_zeroPoint hm] at this
    simpa using this
  · have hr := readMag_pad 2 e.natAbs
    split
    · rename_i hneg
      rw [(readDec_iff _ (e : ℚ) (by simp))]
      refine ⟨_, by simpa [takeSign] using hr, ?_⟩
      have : (e : ℤ) = -(e.natAbs : ℤ) := by omega
      have : (e : ℚ) = -(e.natAbs : ℚ) := by exact_mod_cast this
      simpa [takeSign] using this
    · rename_i hneg
      rw [(readDec_iff _ (e : ℚ) (by simp))]
      refine ⟨_, by simpa [takeSign] using hr, ?_⟩
      have : (e : ℤ) = (e.natAbs : ℤ) := by omega
      have : (e : ℚ) = (e.natAbs : ℚ) := by rw [← Int.cast_natCast (R := ℚ) e.natAbs, ← this]
      simpa [takeSign] using this
  · have : (m : ℚ) * 10 ^ (e - 15) = m / 10 ^ 15 * 10 ^ e := by
      rw [zpow_sub₀ (by norm_num)]; norm_num; ring
    rw [this]; split <;> ring
  · rw [hx]; simp only [List.length_append, List.length_cons, List.length_nil, hl, hl2]
    cases s <;> simp [fmtSign]
  · cases s <;> simp [fmtSign]

theorem fmtE_text {x : F64} (h : (eBody 15 x).length ≤ 22) : fmtE 23 15 x = List.replicate (23 - (eBody 15 x).length) ' ' ++ eBody 15 x := by
  unfold fmtE
  simp only
  rw [if_pos (by omega)]

/-! ## Arrays -/

theorem Spec.Blank.append {a b : List Char} (ha : Blank a) (hb : Blank b) : Blank (a ++ b) := by
  induction ha with
  | nil => exact hb
  | space h _ ih => exact .space h ih
  | @comment t l h _ ih =>
    have : '/' :: '/' :: (t ++ '\n' :: l) ++ b = '/' :: '/' :: (t ++ '\n' :: (l ++ b)) := by simp
    rw [this]; exact .comment h ih

theorem blank_spaces (l : List Char) (h : ∀ c ∈ l, c = ' ' ∨ c = '\n') : Blank l := by
  induction l with
  | nil => exact .nil
  | cons c l ih => exact .space (h c (by simp)) (ih fun d hd => h d (by simp [hd]))

theorem blank_comment (t : List Char) (h : '\n' ∉ t) : Blank (' ' :: '/' :: '/' :: (t ++ ['\n'])) :=
  .space (.inl rfl) (.comment h .nil)

theorem Spec.Items.prepend {α : Type} {E : List Char → α → Prop} {b r : List Char} {xs : List α} (hb : Blank b) (h : Items E r xs) :
    Items E (b ++ r) xs := by
  cases h with
  | nil h => exact .nil (Blank.append hb h)
  | @last b1 t b' x h1 h2 h3 =>
    have : b ++ (b1 ++ t ++ b') = (b ++ b1) ++ t ++ b' := by simp
    rw [this]; exact .last (Blank.append hb h1) h2 h3
  | @cons b1 t b' r x xs h1 h2 h3 h4 =>
    have : b ++ (b1 ++ t ++ b' ++ ',' :: r) = (b ++ b1) ++ t ++ b' ++ ',' :: r := by simp
    rw [this]; exact .cons (Blank.append hb h1) h2 h3 h4

/-- Elements followed by commas, the last one without. -/
theorem items_sep {α : Type} {E : List Char → α → Prop} (f : ℕ → List Char) (x : ℕ → α) (N : ℕ)
    (h : ∀ k < N, ∃ b t, Blank b ∧ f k = b ++ t ∧ E t (x k)) : ∀ n s, s + n = N →
    Items E ((List.range' s n).map fun k => f k ++ if k + 1 < N then [','] else []).flatten ((List.range' s n).map x)
  | 0, s, _ => .nil .nil
  | n + 1, s, hs => by
    have ih := items_sep f x N h n (s + 1) (by omega)
    obtain ⟨b, t, hb, hf, ht⟩ := h s (by omega)
    rw [List.range'_succ]
    simp only [List.map_cons, List.flatten_cons]
    rw [hf]
    rcases Nat.eq_zero_or_pos n with rfl | hn
    · rw [if_neg (by omega)]
      have := Items.last (E := E) hb ht .nil
      simpa using this
    · rw [if_pos (by omega)]
      have := Items.cons hb ht .nil ih
      simpa using this

/-- Elements each followed by a comma and blanks. -/
theorem items_term {α : Type} {E : List Char → α → Prop} (f : ℕ → List Char) (x : ℕ → α) (N : ℕ)
    (h : ∀ k < N, ∃ b t c, Blank b ∧ Blank c ∧ f k = b ++ t ++ ',' :: c ∧ E t (x k)) {z : List Char} (hz : Blank z) :
    ∀ n s, s + n = N → Items E (((List.range' s n).map f).flatten ++ z) ((List.range' s n).map x)
  | 0, s, _ => .nil hz
  | n + 1, s, hs => by
    have ih := items_term f x N h hz n (s + 1) (by omega)
    obtain ⟨b, t, c, hb, hc, hf, ht⟩ := h s (by omega)
    rw [List.range'_succ]
    simp only [List.map_cons, List.flatten_cons]
    rw [hf]
    have := Items.cons hb ht .nil (Items.prepend hc ih)
    simpa using this

theorem dec_no_nl (n : ℕ) : '\n' ∉ dec n := fun h => (dec_digits n _ h).ne.2.2.2.2.2.2 rfl

/-- A field that is a literal of its value after spaces. -/
def Readable (x : F64) : Prop := ∃ b t, (∀ c ∈ b, c = ' ') ∧ fmtE 23 15 x = b ++ t ∧ FloatLit t x

theorem dumpRow_text (i j o : ℕ) (x : ℕ → F64) (h : ∀ k < o, Readable (x k)) :
    ∃ b t c, Blank b ∧ Blank c ∧ dumpRow i j o x = b ++ t ++ ',' :: c ∧ ArrayText FloatLit t ((List.range o).map x) := by
  refine ⟨"    ".toList, '[' :: (((List.range o).map fun k => fmtE 23 15 (x k) ++ if k + 1 < o then [','] else []).flatten ++ [']']),
    ' ' :: '/' :: '/' :: (' ' :: (dec (i + 1) ++ ',' :: (dec (j + 1) ++ ',' :: (dec 1 ++ ':' :: dec o))) ++ ['\n']),
    blank_spaces _ (by decide), blank_comment _ ?_, ?_, _, rfl, ?_⟩
  · simp [dec_no_nl]
  · unfold dumpRow
    have e1 : "    [".toList = "    ".toList ++ ['['] := by decide
    have e2 : "], // ".toList = [']', ',', ' ', '/', '/', ' '] := by decide
    rw [e1, e2]
    simp
  · rw [List.range_eq_range']
    refine items_sep _ _ o (fun k hk => ?_) o 0 (by omega)
    obtain ⟨b, t, hb, hf, ht⟩ := h k hk
    exact ⟨b, t, blank_spaces b fun c hc => .inl (hb c hc), hf, ht⟩

theorem dumpBlock_text (i n o : ℕ) (x : ℕ → ℕ → F64) (h : ∀ j < n, ∀ k < o, Readable (x j k)) :
    ∃ b t c, Blank b ∧ Blank c ∧ dumpBlock i n o x = b ++ t ++ ',' :: c ∧
      ArrayText (ArrayText FloatLit) t ((List.range n).map fun j => (List.range o).map (x j)) := by
  refine ⟨"  ".toList, '[' :: ('\n' :: ((List.range n).map fun j => dumpRow i j o (x j)).flatten ++ "  ".toList ++ [']']), ['\n'],
    blank_spaces _ (by decide), blank_spaces _ (by decide), ?_, _, rfl, ?_⟩
  · unfold dumpBlock
    have e1 : "  [\n".toList = "  ".toList ++ ['[', '\n'] := by decide
    have e2 : "  ],\n".toList = "  ".toList ++ [']', ',', '\n'] := by decide
    rw [e1, e2]
    simp
  · have := Items.prepend (b := ['\n']) (blank_spaces _ (by decide)) (items_term (E := ArrayText FloatLit) (fun j => dumpRow i j o (x j))
      (fun j => (List.range o).map (x j)) n (fun j hj => dumpRow_text i j o (x j) (h j hj)) (z := "  ".toList)
      (blank_spaces _ (by decide)) n 0 (by omega))
    rw [← List.range_eq_range'] at this
    simpa using this

/-- The array of values. -/
def values (m n o : ℕ) (x : ℕ → ℕ → ℕ → F64) : List (List (List F64)) :=
  (List.range m).map fun i => (List.range n).map fun j => (List.range o).map (x i j)

theorem dumpArray_text (name : List Char) (m n o : ℕ) (x : ℕ → ℕ → ℕ → F64)
    (h : ∀ i < m, ∀ j < n, ∀ k < o, Readable (x i j k)) : ConstText name m n o (dumpArray name m n o x) (values m n o x) := by
  refine ⟨⟨'[' :: ('\n' :: ((List.range m).map fun i => dumpBlock i n o (x i)).flatten ++ [']']), ?_, _, rfl, ?_⟩, ?_, ?_⟩
  · unfold dumpArray
    have e1 : "] = [\n".toList = "] = ".toList ++ ['[', '\n'] := by decide
    have e2 : "];\n".toList = ']' :: ";\n".toList := by decide
    rw [e1, e2]
    simp
  · have := Items.prepend (b := ['\n']) (blank_spaces _ (by decide)) (items_term (E := ArrayText (ArrayText FloatLit)) (fun i => dumpBlock i n o (x i))
      (fun i => (List.range n).map fun j => (List.range o).map (x i j)) m (fun i hi => dumpBlock_text i n o (x i) (h i hi)) (z := [])
      .nil m 0 (by omega))
    rw [← List.range_eq_range'] at this
    simpa [values] using this
  · simp [values]
  · intro y hy
    simp only [values, List.mem_map, List.mem_range] at hy
    obtain ⟨i, -, rfl⟩ := hy
    refine ⟨by simp, fun z hz => ?_⟩
    simp only [List.mem_map, List.mem_range] at hz
    obtain ⟨j, -, rfl⟩ := hz
    simp

/-! ## A text is read in one way only -/

/-- The character after an element. -/
def Delim (r : List Char) : Prop := ∃ c u, r = c :: u ∧ (c = ' ' ∨ c = '\n' ∨ c = '/' ∨ c = ',' ∨ c = ']' ∨ c = ')')

/-- Elements do not start with a delimiter, and a text starts with one element at most. -/
structure Unamb {α : Type} (E : List Char → α → Prop) : Prop where
  head : ∀ {t x}, E t x → ¬Delim t ∧ t ≠ []
  uniq : ∀ {t t' r r' x x'}, E t x → E t' x' → t ++ r = t' ++ r' → Delim r → Delim r' → t = t' ∧ x = x'

/-- Not a blank. -/
def Solid (r : List Char) : Prop := ∃ c u, r = c :: u ∧ c ≠ ' ' ∧ c ≠ '\n' ∧ c ≠ '/'

theorem cut_nl {t t' l l' : List Char} (h : '\n' ∉ t) (h' : '\n' ∉ t') (e : t ++ '\n' :: l = t' ++ '\n' :: l') : t = t' ∧ l = l' := by
  induction t generalizing t' with
  | nil =>
    cases t' with
    | nil => simpa using e
    | cons c u => simp at e; exact absurd e.1 (by rintro rfl; simp at h')
  | cons c u ih =>
    cases t' with
    | nil => simp at e; exact absurd e.1 (by rintro rfl; simp at h)
    | cons c' u' =>
      simp only [List.cons_append, List.cons.injEq] at e
      obtain ⟨rfl, e⟩ := e
      obtain ⟨rfl, rfl⟩ := ih (by simp at h; exact h.2) (by simp at h'; exact h'.2) e
      exact ⟨rfl, rfl⟩

theorem Spec.Blank.uniq {b b' r r' : List Char} (hb : Blank b) (hb' : Blank b') (hr : Solid r) (hr' : Solid r') (e : b ++ r = b' ++ r') :
    b = b' ∧ r = r' := by
  induction hb generalizing b' with
  | nil =>
    obtain ⟨c, u, rfl, h1, h2, h3⟩ := hr
    cases hb' with
    | nil => exact ⟨rfl, e⟩
    | space h _ =>
      simp at e; obtain ⟨rfl, -⟩ := e; exact absurd h (by simp [h1, h2])
    | comment h _ => simp at e; exact absurd e.1 h3
  | @space c l h _ ih =>
    cases hb' with
    | nil =>
      obtain ⟨c', u, rfl, h1, h2, h3⟩ := hr'
      simp at e; obtain ⟨rfl, -⟩ := e; exact absurd h (by simp [h1, h2])
    | space h' hb' =>
      simp only [List.cons_append, List.cons.injEq] at e
      obtain ⟨rfl, rfl⟩ := ih hb' e.2
      exact ⟨by rw [e.1], rfl⟩
    | comment h' _ => simp at e; obtain ⟨rfl, -⟩ := e; simp at h
  | @comment t l h _ ih =>
    cases hb' with
    | nil =>
      obtain ⟨c', u, rfl, h1, h2, h3⟩ := hr'
      simp at e; exact absurd e.1.symm h3
    | space h' _ => simp at e; obtain ⟨rfl, -⟩ := e; simp at h'
    | @comment t' l' h' hb' =>
      simp only [List.cons_append, List.append_assoc, List.cons.injEq, true_and] at e
      obtain ⟨rfl, e2⟩ := cut_nl h h' e
      replace e := e2; clear e2
      obtain ⟨rfl, rfl⟩ := ih hb' e
      exact ⟨rfl, rfl⟩

theorem Unamb.solid {α : Type} {E : List Char → α → Prop} (hE : Unamb E) {t r : List Char} {x : α} (h : E t x) : Solid (t ++ r) := by
  obtain ⟨h1, h2⟩ := hE.head h
  cases t with
  | nil => exact absurd rfl h2
  | cons c u =>
    refine ⟨c, u ++ r, rfl, ?_, ?_, ?_⟩ <;> rintro rfl <;> exact h1 ⟨_, _, rfl, by simp⟩

theorem delim_blank {b r : List Char} (hb : Blank b) (hr : Delim r) : Delim (b ++ r) := by
  cases hb with
  | nil => exact hr
  | space h _ => exact ⟨_, _, rfl, by tauto⟩
  | comment h _ => exact ⟨_, _, rfl, by tauto⟩

/-- A closing bracket. -/
def Closing (c : Char) : Prop := c = ']' ∨ c = ')'

theorem delim_close {c : Char} (h : Closing c) (r : List Char) : Delim (c :: r) := ⟨_, _, rfl, by unfold Closing at h; tauto⟩
theorem delim_comma (r : List Char) : Delim (',' :: r) := ⟨_, _, rfl, by simp⟩
theorem solid_close {c : Char} (h : Closing c) (r : List Char) : Solid (c :: r) := by
  refine ⟨_, _, rfl, ?_⟩
  rcases h with rfl | rfl <;> decide
theorem solid_comma (r : List Char) : Solid (',' :: r) := ⟨_, _, rfl, by simp⟩

theorem Unamb.not_close {α : Type} {E : List Char → α → Prop} (hE : Unamb E) {t r z : List Char} {x : α} {d : Char} (hd : Closing d) (h : E t x)
    (e : t ++ r = d :: z) :
    False := by
  obtain ⟨h1, h2⟩ := hE.head h
  cases t with
  | nil => exact h2 rfl
  | cons c u => simp at e; exact h1 ⟨c, u, rfl, by rw [e.1]; unfold Closing at hd; tauto⟩

theorem Spec.Items.uniq {α : Type} {E : List Char → α → Prop} (hE : Unamb E) {r r' z z' : List Char} {xs xs' : List α} {d : Char}
    (hd : Closing d) (h : Items E r xs) (h' : Items E r' xs') (e : r ++ d :: z = r' ++ d :: z') : r = r' ∧ xs = xs' := by
  induction h generalizing r' xs' with
  | @nil b hb =>
    cases h' with
    | nil hb' =>
      obtain ⟨rfl, -⟩ := hb.uniq hb' (solid_close hd _) (solid_close hd _) e
      exact ⟨rfl, rfl⟩
    | @last b1 t b2 x h1 h2 h3 =>
      rw [List.append_assoc, List.append_assoc] at e
      obtain ⟨-, e⟩ := hb.uniq h1 (solid_close hd _) (hE.solid h2) e
      exact (hE.not_close hd h2 e.symm).elim
    | @cons b1 t b2 r x xs h1 h2 h3 h4 =>
      rw [List.append_assoc, List.append_assoc, List.append_assoc] at e
      obtain ⟨-, e⟩ := hb.uniq h1 (solid_close hd _) (hE.solid h2) e
      exact (hE.not_close hd h2 e.symm).elim
  | @last b t b' x g1 g2 g3 =>
    rw [List.append_assoc, List.append_assoc] at e
    cases h' with
    | nil hb' =>
      obtain ⟨-, e⟩ := g1.uniq hb' (hE.solid g2) (solid_close hd _) e
      exact (hE.not_close hd g2 e).elim
    | @last b1 t1 b2 x1 h1 h2 h3 =>
      rw [List.append_assoc, List.append_assoc] at e
      obtain ⟨rfl, e2⟩ := g1.uniq h1 (hE.solid g2) (hE.solid h2) e
      replace e := e2; clear e2
      obtain ⟨rfl, rfl⟩ := hE.uniq g2 h2 e (delim_blank g3 (delim_close hd _)) (delim_blank h3 (delim_close hd _))
      obtain ⟨rfl, -⟩ := g3.uniq h3 (solid_close hd _) (solid_close hd _) (List.append_cancel_left e)
      exact ⟨rfl, rfl⟩
    | @cons b1 t1 b2 r x1 xs h1 h2 h3 h4 =>
      rw [List.append_assoc, List.append_assoc, List.append_assoc] at e
      obtain ⟨rfl, e2⟩ := g1.uniq h1 (hE.solid g2) (hE.solid h2) e
      replace e := e2; clear e2
      obtain ⟨rfl, rfl⟩ := hE.uniq g2 h2 e (delim_blank g3 (delim_close hd _)) (delim_blank h3 (delim_comma _))
      obtain ⟨-, e⟩ := g3.uniq h3 (solid_close hd _) (solid_comma _) (List.append_cancel_left e)
      exact absurd (List.cons.inj e).1 (by rcases hd with rfl | rfl <;> decide)
  | @cons b t b' r x xs g1 g2 g3 g4 ih =>
    rw [List.append_assoc, List.append_assoc, List.append_assoc] at e
    cases h' with
    | nil hb' =>
      obtain ⟨-, e⟩ := g1.uniq hb' (hE.solid g2) (solid_close hd _) e
      exact (hE.not_close hd g2 e).elim
    | @last b1 t1 b2 x1 h1 h2 h3 =>
      rw [List.append_assoc, List.append_assoc] at e
      obtain ⟨rfl, e2⟩ := g1.uniq h1 (hE.solid g2) (hE.solid h2) e
      replace e := e2; clear e2
      obtain ⟨rfl, rfl⟩ := hE.uniq g2 h2 e (delim_blank g3 (delim_comma _)) (delim_blank h3 (delim_close hd _))
      obtain ⟨-, e⟩ := g3.uniq h3 (solid_comma _) (solid_close hd _) (List.append_cancel_left e)
      exact absurd (List.cons.inj e).1 (by rcases hd with rfl | rfl <;> decide)
    | @cons b1 t1 b2 r1 x1 xs1 h1 h2 h3 h4 =>
      rw [List.append_assoc, List.append_assoc, List.append_assoc] at e
      obtain ⟨rfl, e2⟩ := g1.uniq h1 (hE.solid g2) (hE.solid h2) e
      replace e := e2; clear e2
      obtain ⟨rfl, rfl⟩ := hE.uniq g2 h2 e (delim_blank g3 (delim_comma _)) (delim_blank h3 (delim_comma _))
      obtain ⟨rfl, e2⟩ := g3.uniq h3 (solid_comma _) (solid_comma _) (List.append_cancel_left e)
      replace e := e2; clear e2
      simp only [List.cons.injEq, true_and] at e
      obtain ⟨rfl, rfl⟩ := ih h4 e
      exact ⟨rfl, rfl⟩

theorem Spec.ArrayText.unamb {α : Type} {E : List Char → α → Prop} (hE : Unamb E) : Unamb (ArrayText E) where
  head := by
    rintro t x ⟨r, rfl, -⟩
    refine ⟨?_, by simp⟩
    rintro ⟨c, u, h, hc⟩
    simp at h
    obtain ⟨rfl, -⟩ := h
    simp at hc
  uniq := by
    rintro t t' z z' x x' ⟨r, rfl, h⟩ ⟨r', rfl, h'⟩ e - -
    simp only [List.cons_append, List.append_assoc, List.nil_append, List.cons.injEq, true_and] at e
    obtain ⟨rfl, rfl⟩ := Items.uniq hE (.inl rfl) h h' e
    exact ⟨rfl, rfl⟩

/-- The characters of a literal. -/
def LitChar (c : Char) : Prop := (digit? c).isSome = true ∨ c = '.' ∨ c = 'E' ∨ c = '+' ∨ c = '-'

theorem cut_first {P : Char → Prop} {t t' r r' : List Char} (h : ∀ c ∈ t, P c) (h' : ∀ c ∈ t', P c)
    (hr : ∃ c u, r = c :: u ∧ ¬P c) (hr' : ∃ c u, r' = c :: u ∧ ¬P c) (e : t ++ r = t' ++ r') : t = t' ∧ r = r' := by
  obtain ⟨d, u, rfl, hd⟩ := hr
  obtain ⟨d', u', rfl, hd'⟩ := hr'
  induction t generalizing t' with
  | nil =>
    cases t' with
    | nil => exact ⟨rfl, e⟩
    | cons c v => simp at e; exact absurd (h' c (by simp)) (by rw [← e.1]; exact hd)
  | cons c v ih =>
    cases t' with
    | nil => simp at e; exact absurd (h c (by simp)) (by rw [e.1]; exact hd')
    | cons c' v' =>
      simp only [List.cons_append, List.cons.injEq] at e
      obtain ⟨rfl, e⟩ := e
      obtain ⟨rfl, e2⟩ := ih (fun c hc => h c (by simp [hc])) (fun c hc => h' c (by simp [hc])) e
      replace e := e2; clear e2
      exact ⟨rfl, e⟩

theorem Spec.ExpLit.chars {t : List Char} {q : ℚ} (h : ExpLit t q) : ∀ c ∈ t, LitChar c := by
  obtain ⟨s, i, f, g, e, rfl, hs, -, hi, -, hf, hg, -, he, -⟩ := h
  intro c hc
  simp only [List.mem_append, List.mem_cons] at hc
  unfold LitChar
  rcases hc with ((hc | hc) | rfl | hc) | rfl | hc | hc
  · rcases hs with rfl | rfl <;> simp at hc; simp [hc]
  · exact .inl (hi c hc)
  · simp
  · exact .inl (hf c hc)
  · simp
  · rcases hg with rfl | rfl | rfl <;> simp at hc <;> simp [hc]
  · exact .inl (he c hc)

theorem Spec.ExpLit.uniq {t : List Char} {q q' : ℚ} (h : ExpLit t q) (h' : ExpLit t q') : q = q' := by
  obtain ⟨s, i, f, g, e, rfl, hs, -, hi, -, hf, hg, -, he, a, k, h1, h2, rfl⟩ := h
  obtain ⟨s', i', f', g', e', ht, hs', -, hi', -, hf', hg', -, he', a', k', h1', h2', rfl⟩ := h'
  have key : ∀ {s i f : List Char}, (s = [] ∨ s = ['-']) → Digits i → Digits f → ∀ c ∈ s ++ i ++ '.' :: f, c ≠ 'E' := by
    intro s i f hs hi hf c hc
    simp only [List.mem_append, List.mem_cons] at hc
    rcases hc with (hc | hc) | rfl | hc
    · rcases hs with rfl | rfl <;> simp at hc; rw [hc]; decide
    · rintro rfl; exact absurd (hi _ hc) (by decide)
    · decide
    · rintro rfl; exact absurd (hf _ hc) (by decide)
  obtain ⟨e1, e2⟩ := cut_first (key hs hi hf) (key hs' hi' hf') ⟨_, _, rfl, by simp⟩ ⟨_, _, rfl, by simp⟩ ht
  simp only [List.cons.injEq, true_and] at e2
  rw [e1, h1'] at h1
  rw [e2, h2'] at h2
  simp only [Option.some.injEq] at h1 h2
  have : k' = k := by exact_mod_cast h2
  rw [h1, this]

theorem Spec.FloatLit.uniq {t : List Char} {x x' : F64} (h : FloatLit t x) (h' : FloatLit t x') : x = x' := by
  obtain ⟨q, h1, h2, n, hn, rfl⟩ := h
  obtain ⟨q', h1', h2', n', hn', rfl⟩ := h'
  obtain rfl := h1.uniq h1'
  have := h2.val.trans h2'.val.symm
  simp only [F64.v] at this
  have hU := U_pos
  rw [div_left_inj' hU.ne'] at this
  have hnn : n = n' := by
    have : F64.sval (decide (t.head? = some '-')) n = F64.sval (decide (t.head? = some '-')) n' := by exact_mod_cast this
    unfold F64.sval at this
    split at this <;> omega
  subst hnn
  rfl

theorem Spec.FloatLit.unamb : Unamb FloatLit where
  head := by
    rintro t x ⟨q, h, -⟩
    have hc := h.chars
    obtain ⟨s, i, f, g, e, rfl, -, -⟩ := h
    refine ⟨?_, by simp⟩
    rintro ⟨c, u, h, hd⟩
    have := hc c (by rw [h]; simp)
    unfold LitChar at this
    rcases hd with rfl | rfl | rfl | rfl | rfl | rfl <;> exact absurd this (by decide)
  uniq := by
    rintro t t' r r' x x' h h' e hr hr'
    have key : ∀ {r}, Delim r → ∃ c u, r = c :: u ∧ ¬LitChar c := by
      rintro r ⟨c, u, rfl, hd⟩
      refine ⟨c, u, rfl, ?_⟩
      unfold LitChar
      rcases hd with rfl | rfl | rfl | rfl | rfl | rfl <;> decide
    obtain ⟨q, hq, -⟩ := id h
    obtain ⟨q', hq', -⟩ := id h'
    obtain ⟨rfl, -⟩ := cut_first hq.chars hq'.chars (key hr) (key hr') e
    exact ⟨rfl, h.uniq h'⟩

theorem Spec.ConstText.uniq {name : List Char} {m n o : ℕ} {t : List Char} {x x' : List (List (List F64))} (h : ConstText name m n o t x)
    (h' : ConstText name m n o t x') : x = x' := by
  obtain ⟨⟨r, rfl, h1⟩, -⟩ := h
  obtain ⟨⟨r', e, h1'⟩, -⟩ := h'
  simp only [List.append_assoc, List.append_cancel_left_eq, List.append_cancel_right_eq] at e
  subst e
  exact ((ArrayText.unamb (ArrayText.unamb (ArrayText.unamb FloatLit.unamb))).uniq h1 h1' rfl (r := [']']) (delim_close (.inl rfl) _) (delim_close (.inl rfl) _)).2

end Verif
