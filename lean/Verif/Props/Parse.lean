import Verif.Lemmas.FloatText
import Verif.Props.Text

/-!
# C85, C86: reading numbers from text and writing an `f64` with `{}`
-/

namespace Verif
open F64 Arith Spec

/-! ## C85: `str::parse` -/

/-- **C85.** Every decimal numeral `l` of value `q` (no leading spaces; `readDec` is the reader of the specification) is
accepted by `f64::from_str`.  The result is the `f64` nearest to `q`, its sign bit that of the numeral, or infinity if that is
`2^1024` or more. -/
theorem C85_parse_f64 (l : List Char) (q : ℚ) (hl : readDec l = some q) (hs : l.head? ≠ some ' ') :
    ∃ x, parseF64 l = some x ∧
      (|RN q| < OVQ → Is x (RN q) ∧ (∀ y, isFin y = true → |v x - q| ≤ |v y - q|) ∧
        ∃ n h, x = fin (decide (l.head? = some '-')) n h) ∧
      (OVQ ≤ |RN q| → x = inf (decide (l.head? = some '-'))) := by
  obtain ⟨t, ht, hq⟩ := (readDec_iff l q hs).mp hl
  obtain ⟨m, k, e, hm⟩ := parseNumber_plain ht
  obtain ⟨s1, s2⟩ := ofDec_spec (takeSign l).1 m (-(k : ℤ)) q (by rw [hq, hm, zpow_neg, zpow_natCast, div_eq_mul_inv])
  rw [← takeSign_neg]
  refine ⟨_, by unfold parseF64; simp only [e], fun h => ⟨s1 h, fun y hy => ?_, ofDec_fin (s1 h).fin⟩, s2⟩
  rw [(s1 h).val]; exact RN_nearest q (v_rep y)

/-- **C85.** The same with an exponent: the numeral `a` of value `q`, `e` or `E`, and an integer numeral `t`.  The exponent is
below 65536, or it is any integer and `a` has at most 60000 characters. -/
theorem C85_parse_f64_exp (a t : List Char) (c : Char) (q : ℚ) (k : ℤ) (ha : readDec a = some q) (hs : a.head? ≠ some ' ')
    (hc : c = 'e' ∨ c = 'E') (ht : readDec t = some (k : ℚ)) (hts : t.head? ≠ some ' ') (hp : '.' ∉ t)
    (hk : |k| < 65536 ∨ a.length ≤ 60000) :
    ∃ x, parseF64 (a ++ c :: t) = some x ∧
      (|RN (q * 10 ^ k)| < OVQ → Is x (RN (q * 10 ^ k)) ∧ (∀ y, isFin y = true → |v x - q * 10 ^ k| ≤ |v y - q * 10 ^ k|) ∧
        ∃ n h, x = fin (decide (a.head? = some '-')) n h) ∧
      (OVQ ≤ |RN (q * 10 ^ k)| → x = inf (decide (a.head? = some '-'))) := by
  obtain ⟨w, hw, hq⟩ := (readDec_iff a q hs).mp ha
  obtain ⟨k', he, hkk⟩ : ∃ k', parseExp t = some k' ∧ (k' = k ∨ SameExp k k' ∧ a.length ≤ 60000) := by
    rcases hk with hk | hk
    · exact ⟨k, parseExp_int t k ht hts hp hk, .inl rfl⟩
    · obtain ⟨k', h1, h2⟩ := parseExp_any t k ht hts hp
      exact ⟨k', h1, .inr ⟨h2, hk⟩⟩
  obtain ⟨m, j, e, hm⟩ := parseNumber_exp hw he hc
  have same : (|RN (q * 10 ^ k)| < OVQ → |RN (q * 10 ^ k')| < OVQ ∧ RN (q * 10 ^ k') = RN (q * 10 ^ k)) ∧
      (OVQ ≤ |RN (q * 10 ^ k)| → OVQ ≤ |RN (q * 10 ^ k')|) := by
    rcases hkk with rfl | ⟨h1, h2⟩
    · exact ⟨fun h => ⟨h, rfl⟩, id⟩
    · have hlen : (takeSign a).2.length ≤ a.length := by unfold takeSign; split <;> simp
      refine sameExp_RN (hlen.trans h2) ?_ h1
      rcases readMag_size hw with h | ⟨h, h'⟩
      · left; rw [hq, h]; simp
      · right
        have : |q| = w := by
          have hw0 : 0 ≤ w := le_trans (by positivity) h
          rw [hq]; split
          · rw [abs_neg, abs_of_nonneg hw0]
          · exact abs_of_nonneg hw0
        rw [this]; exact ⟨h, h'⟩
  have hne : a ≠ [] := by rintro rfl; simp [takeSign, readMag, readNat] at hw
  have hsg : takeSign (a ++ c :: t) = ((takeSign a).1, (takeSign a).2 ++ c :: t) := by
    cases a with
    | nil => exact absurd rfl hne
    | cons b r =>
      by_cases h1 : b = '-'
      · subst h1; rfl
      · by_cases h2 : b = '+'
        · subst h2; rfl
        · rw [List.cons_append, takeSign_of_ne _ h1 h2, takeSign_of_ne _ h1 h2]; rfl
  obtain ⟨s1, s2⟩ := ofDec_spec (takeSign a).1 m (k' - j) (q * 10 ^ k') (by
    rw [hq, hm, zpow_sub₀ (by norm_num), zpow_natCast]
    split <;> ring)
  rw [← takeSign_neg]
  refine ⟨_, by unfold parseF64; simp only [hsg, e], fun h => ?_, fun h => s2 (same.2 h)⟩
  have s3 := s1 (same.1 h).1
  rw [(same.1 h).2] at s3
  refine ⟨s3, fun y hy => ?_, ofDec_fin s3.fin⟩
  rw [s3.val]; exact RN_nearest _ (v_rep y)

-- an exponent far beyond the range of `f64`
example : readDec "-2.5".toList = some (-2.5) ∧ readDec "-100000".toList = some ((-100000 : ℤ) : ℚ) ∧ '.' ∉ "-100000".toList ∧
    "-2.5".toList.length ≤ 60000 := by decide +kernel

/-- **C85.** `f64::from_str` accepts exactly the texts of the documented grammar. -/
theorem C85_parse_f64_accepts (l : List Char) : (parseF64 l).isSome = true ↔ FloatText l := parseF64_isSome l

/-- **C85.** A point without digits after it changes nothing, a point without digits before it stands for `0.`, and the words
mean infinity with the sign and NaN, in any case. -/
theorem C85_parse_f64_forms (s i f e : List Char) (hs : SignText s) (hi : Digits i) (hi0 : i ≠ []) (hf : Digits f) (hf0 : f ≠ [])
    (he : ExpText e) :
    parseF64 (s ++ (i ++ '.' :: e)) = parseF64 (s ++ (i ++ e)) ∧
    parseF64 (s ++ '.' :: (f ++ e)) = parseF64 (s ++ '0' :: '.' :: (f ++ e)) ∧
    ∀ w : List Char, (w.map Char.toLower = "inf".toList ∨ w.map Char.toLower = "infinity".toList →
      parseF64 (s ++ w) = some (inf (decide (s = ['-'])))) ∧ (w.map Char.toLower = "nan".toList → parseF64 (s ++ w) = some nan) := by
  have hid := (digits_iff i).mp hi
  have hfd := (digits_iff f).mp hf
  have hd : ∀ c ∈ e.head?, isDigit c = false ∧ c ≠ '.' := by
    intro c hc
    rcases expText_head he c hc with rfl | rfl <;> decide
  refine ⟨?_, ?_, fun w => ?_⟩
  · refine parseF64_congr hs ⟨i, [], e, hi, by simp [Digits], he, .inr ⟨.inl hi0, by simp⟩⟩
      ⟨i, [], e, hi, by simp [Digits], he, .inl ⟨hi0, rfl⟩⟩ ?_
    have h1 := parseNumber_dot i [] e hid rfl fun c hc => (hd c hc).1
    rw [parseNumber_nodot i e hid hd]
    simpa [hi0] using h1
  · refine parseF64_congr hs ⟨[], f, e, by simp [Digits], hf, he, .inr ⟨.inr hf0, by simp⟩⟩
      ⟨['0'], f, e, (digits_iff _).mpr rfl, hf, he, .inr ⟨.inr hf0, by simp⟩⟩ ?_
    have h1 := parseNumber_dot [] f e rfl hfd fun c hc => (hd c hc).1
    have h2 := parseNumber_dot ['0'] f e rfl hfd fun c hc => (hd c hc).1
    have h3 : digitsVal ('0' :: f) = digitsVal f := by
      have := digitsVal_append ['0'] f
      simpa [show digitsVal ['0'] = 0 from rfl] using this
    simp only [List.nil_append, List.cons_append, hf0, and_false, if_false, h3] at h1 h2
    exact h1.trans h2.symm
  · have key : w.map Char.toLower = "inf".toList ∨ w.map Char.toLower = "infinity".toList ∨ w.map Char.toLower = "nan".toList →
        w.head? ≠ some '-' ∧ w.head? ≠ some '+' ∧ parseNumber w = none := by
      intro h
      have h1 : ∀ c : Char, c.toLower = c → c ≠ 'i' → c ≠ 'n' → w.head? ≠ some c := by
        intro c hc hi hn
        rcases h with h | h | h
        · exact word_head h c hc (by simpa using Ne.symm hi)
        · exact word_head h c hc (by simpa using Ne.symm hi)
        · exact word_head h c hc (by simpa using Ne.symm hn)
      refine ⟨h1 _ (by decide) (by decide) (by decide), h1 _ (by decide) (by decide) (by decide), ?_⟩
      by_contra hne
      rw [← ne_eq, Option.ne_none_iff_isSome, parseNumber_isSome] at hne
      obtain ⟨i, f, e, hi, -, -, hor⟩ := hne
      have : ∃ c, w.head? = some c ∧ (isDigit c = true ∨ c = '.') := by
        rw [digits_iff] at hi
        cases i with
        | nil =>
          rcases hor with ⟨h0, -⟩ | ⟨-, rfl⟩
          · exact absurd rfl h0
          · exact ⟨'.', rfl, .inr rfl⟩
        | cons c t =>
          have hc : isDigit c = true := by
            rw [List.all_cons, Bool.and_eq_true] at hi; exact hi.1
          rcases hor with ⟨-, rfl⟩ | ⟨-, rfl⟩ <;> exact ⟨c, rfl, .inl hc⟩
      obtain ⟨c, hw, hc⟩ := this
      have hlow : c.toLower = c := by
        rcases hc with hc | rfl
        · unfold isDigit at hc
          rw [Bool.and_eq_true, decide_eq_true_iff, decide_eq_true_iff] at hc
          unfold Char.toLower
          rw [dif_neg]
          intro hu
          have := hc.2
          rw [Char.le_def] at this
          have h9 : ('9' : Char).val = 57 := rfl
          have hA : ('A' : Char).val = 65 := rfl
          have h2 := hu.1
          rw [h9] at this
          rw [hA] at h2
          exact absurd (UInt32.le_trans h2 this) (by decide)
        · decide
      refine h1 c hlow ?_ ?_ hw <;> rintro rfl <;> rcases hc with hc | hc <;> exact absurd hc (by decide)
    have hsign : ∀ r : List Char, r.head? ≠ some '-' → (takeSign (s ++ r)).1 = decide (s = ['-']) := by
      intro r hr
      rw [takeSign_neg]
      rcases hs with rfl | rfl | rfl <;> simp [hr]
    constructor
    · intro h
      obtain ⟨k1, k2, k3⟩ := key (by tauto)
      unfold parseF64
      simp only [takeSign_append hs k1 k2, k3, hsign w k1]
      rw [if_pos h]
    · intro h
      obtain ⟨k1, k2, k3⟩ := key (by tauto)
      unfold parseF64
      simp only [takeSign_append hs k1 k2, k3]
      rw [if_neg (by rw [h]; decide), if_pos h]

example : SignText ['-'] ∧ Digits "07".toList ∧ ExpText "e-3".toList ∧ ExpText [] :=
  ⟨.inr (.inr rfl), by unfold Digits; decide, .inr ⟨'e', ['-'], ['3'], rfl, .inl rfl, .inr (.inr rfl), by decide,
    by unfold Digits; decide⟩, .inl rfl⟩

/-- **C85.** `i32::from_str` accepts exactly the integer numerals of an `i32`, and `u8::from_str` exactly those of a `u8`
without a minus sign; the value is the one of the numeral. -/
theorem C85_parse_int (l : List Char) (z : ℤ) :
    (parseI32 l = some z ↔ readDec l = some (z : ℚ) ∧ l.head? ≠ some ' ' ∧ '.' ∉ l ∧ -2 ^ 31 ≤ z ∧ z < 2 ^ 31) ∧
    (parseU8 l = some z ↔ readDec l = some (z : ℚ) ∧ l.head? ≠ some ' ' ∧ l.head? ≠ some '-' ∧ '.' ∉ l ∧ 0 ≤ z ∧ z < 2 ^ 8) := by
  constructor
  · have hu : parseI32 l = if (takeSign l).2 ≠ [] ∧ (takeSign l).2.all isDigit then
        if -2 ^ 31 ≤ (if (takeSign l).1 then -(digitsVal (takeSign l).2 : ℤ) else digitsVal (takeSign l).2) ∧
          (if (takeSign l).1 then -(digitsVal (takeSign l).2 : ℤ) else digitsVal (takeSign l).2) < 2 ^ 31
        then some (if (takeSign l).1 then -(digitsVal (takeSign l).2 : ℤ) else digitsVal (takeSign l).2) else none
        else none := rfl
    rw [hu]
    generalize hz : (if (takeSign l).1 then -(digitsVal (takeSign l).2 : ℤ) else digitsVal (takeSign l).2) = w
    by_cases hc : (takeSign l).2 ≠ [] ∧ (takeSign l).2.all isDigit
    · rw [if_pos hc]
      obtain ⟨c1, c2⟩ := int_chars hc.2 hc.1
      have hd : readDec l = some (w : ℚ) := by
        refine (readDec_iff l w c1).mpr ⟨_, readMag_allDigits hc.1 hc.2, ?_⟩
        rw [← hz]
        cases (takeSign l).1 <;> simp
      rw [hd]
      constructor
      · intro h
        by_cases hr : -2 ^ 31 ≤ w ∧ w < 2 ^ 31
        · rw [if_pos hr] at h
          have e := Option.some.inj h
          subst e
          exact ⟨rfl, c1, c2, hr⟩
        · rw [if_neg hr] at h; cases h
      · rintro ⟨h1, -, -, h4⟩
        have e : w = z := by exact_mod_cast Option.some.inj h1
        subst e
        rw [if_pos h4]
    · rw [if_neg hc]
      constructor
      · intro h; cases h
      · rintro ⟨h1, h2, h3, -⟩
        obtain ⟨w, hw, -⟩ := (readDec_iff l z h2).mp h1
        obtain ⟨g1, g2, -⟩ := readMag_int (fun h => h3 (takeSign_sub l _ h)) hw
        exact absurd ⟨g1, g2⟩ hc
  · by_cases hm : l.head? = some '-'
    · have hneg : parseU8 l = none := by
        cases l with
        | nil => cases hm
        | cons c r =>
          have : c = '-' := by simpa using hm
          subst this
          simp [parseU8, dropPlus, isDigit]
      rw [hneg]; simp [hm]
    have e1 : dropPlus l = (takeSign l).2 ∧ (takeSign l).1 = false := by
      cases l with
      | nil => exact ⟨rfl, rfl⟩
      | cons c r =>
        have h1 : c ≠ '-' := by simpa using hm
        by_cases h2 : c = '+'
        · subst h2; exact ⟨rfl, rfl⟩
        · rw [takeSign_of_ne r h1 h2]
          refine ⟨?_, rfl⟩
          unfold dropPlus
          split
          · rename_i heq; exact absurd (List.cons.inj heq).1 h2
          · rfl
    obtain ⟨e1, e2⟩ := e1
    have hu : parseU8 l = if dropPlus l ≠ [] ∧ (dropPlus l).all isDigit then
      if digitsVal (dropPlus l) < 256 then some ((digitsVal (dropPlus l) : ℕ) : ℤ) else none else none := rfl
    rw [hu, e1]
    by_cases hc : (takeSign l).2 ≠ [] ∧ (takeSign l).2.all isDigit
    · rw [if_pos hc]
      obtain ⟨c1, c2⟩ := int_chars hc.2 hc.1
      have hd : readDec l = some (((digitsVal (takeSign l).2 : ℕ) : ℤ) : ℚ) := by
        refine (readDec_iff l _ c1).mpr ⟨_, readMag_allDigits hc.1 hc.2, ?_⟩
        rw [e2]; simp
      rw [hd]
      generalize digitsVal (takeSign l).2 = w
      constructor
      · intro h
        by_cases hr : w < 256
        · rw [if_pos hr] at h
          have e := Option.some.inj h
          subst e
          exact ⟨rfl, c1, hm, c2, by omega, by omega⟩
        · rw [if_neg hr] at h; cases h
      · rintro ⟨h1, -, -, -, h4, h5⟩
        have e : (w : ℤ) = z := by exact_mod_cast Option.some.inj h1
        subst e
        rw [if_pos (by omega)]
    · rw [if_neg hc]
      constructor
      · intro h; cases h
      · rintro ⟨h1, h2, -, h3, -⟩
        obtain ⟨w, hw, -⟩ := (readDec_iff l z h2).mp h1
        obtain ⟨g1, g2, -⟩ := readMag_int (fun h => h3 (takeSign_sub l _ h)) hw
        exact absurd ⟨g1, g2⟩ hc

example : parseF64 "-12.50".toList = some (lit (-12.5)) ∧ parseF64 "125e-1".toList = some (lit 12.5) ∧
    parseF64 "1e400".toList = some (inf false) ∧ parseF64 ".5".toList = some (lit 0.5) ∧ parseF64 "-NaN".toList = some nan ∧
    parseF64 "1 ".toList = none ∧ parseF64 "".toList = none ∧ parseF64 "-".toList = none ∧ parseF64 "1e".toList = none ∧
    parseI32 "-0012".toList = some (-12) ∧ parseI32 "2147483648".toList = none ∧ parseU8 "255".toList = some 255 ∧
    parseU8 "-0".toList = none := by decide +kernel

/-! ## C86: `{}` on an `f64` -/

theorem shortest_fin (s : Bool) (n : ℕ) (h : RepNat n ∧ n < OVN) (hn : 0 < n) :
    shortest (fin s n h) = fmtSign false s ++
      plainText (digitsAt n (digitCount h.1)).1 (digitsAt n (digitCount h.1)).2 := by
  show fmtSign false s ++ (if n = 0 then ['0'] else _) = _
  rw [if_neg (by omega)]

theorem shortest_zero (s : Bool) (h : RepNat 0 ∧ 0 < OVN) : shortest (fin s 0 h) = fmtSign false s ++ ['0'] := by
  show fmtSign false s ++ (if 0 = 0 then ['0'] else _) = _
  rw [if_pos rfl]

/-- The text of a finite number: a sign and a numeral that starts with a digit. -/
theorem shortest_shape (s : Bool) (n : ℕ) (h : RepNat n ∧ n < OVN) : ∃ c r, shortest (fin s n h) = fmtSign false s ++ c :: r ∧
    IsDig c ∧ ∀ d ∈ c :: r, IsDig d ∨ d = '.' := by
  rcases Nat.eq_zero_or_pos n with hn | hn
  · subst hn
    refine ⟨'0', [], shortest_zero s h, ⟨0, by norm_num, rfl⟩, fun d hd => .inl ⟨0, by norm_num, ?_⟩⟩
    rw [List.mem_singleton.mp hd]; rfl
  · rw [shortest_fin s n h hn]
    obtain ⟨-, ⟨c, r, e, hc⟩, hall⟩ := plainText_read (digitsAt n (digitCount h.1)).1 (digitsAt n (digitCount h.1)).2
    rw [e] at hall ⊢
    exact ⟨c, r, rfl, hc, hall⟩

theorem shortest_head (s : Bool) (n : ℕ) (h : RepNat n ∧ n < OVN) : (shortest (fin s n h)).head? ≠ some ' ' ∧
    decide ((shortest (fin s n h)).head? = some '-') = s := by
  obtain ⟨c, r, e, hc, -⟩ := shortest_shape s n h
  have h1 : c ≠ ' ' := by rintro rfl; exact absurd (isDigit_of_IsDig hc) (by decide)
  have h2 : c ≠ '-' := by rintro rfl; exact absurd (isDigit_of_IsDig hc) (by decide)
  rw [e]
  cases s <;> simp [fmtSign, h1, h2]

/-- **C86.** For every finite nonzero `x`, `{}` prints a decimal numeral `m * 10^e` with `|m| < 10^k` that rounds to `x`; no
decimal with fewer than `k` digits rounds to `x`, and none with `k` digits that does is nearer to `x`. -/
theorem C86_shortest (x : F64) (hf : isFin x = true) (h0 : v x ≠ 0) :
    ∃ (m e : ℤ) (k : ℕ), readDec (shortest x) = some (m * (10 : ℚ) ^ e) ∧ 0 < |m| ∧ |m| < 10 ^ k ∧ RN (m * (10 : ℚ) ^ e) = v x ∧
      ∀ (m' e' : ℤ) (i : ℕ), |m'| < 10 ^ i → RN (m' * (10 : ℚ) ^ e') = v x →
        k ≤ i ∧ (i = k → |m * (10 : ℚ) ^ e - v x| ≤ |m' * (10 : ℚ) ^ e' - v x|) := by
  obtain ⟨s, n, h, rfl, hv⟩ := is_fin (Is.self hf)
  have hn : 0 < n := by
    rcases Nat.eq_zero_or_pos n with rfl | hn
    · simp at hv; exact absurd hv h0
    · exact hn
  obtain ⟨j, hj⟩ : ∃ j, j = digitCount h.1 := ⟨_, rfl⟩
  obtain ⟨-, p1, p2, p3, p4⟩ := digitsAt_spec h.1 hn j hj
  obtain ⟨r1, ⟨c, r, e, hc⟩, -⟩ := plainText_read (digitsAt n j).1 (digitsAt n j).2
  have hrd := readDec_sign 0 false s (r := r) hc
  rw [List.replicate_zero, List.nil_append, ← e, r1, hj, ← shortest_fin s n h hn, ← hj] at hrd
  rw [readsBack_iff] at p3
  rw [hv, hrd]
  generalize (digitsAt n j).2 = E at *
  generalize (digitsAt n j).1 = M at *
  have hx : 0 < (n : ℚ) / U := div_pos (by exact_mod_cast hn) U_pos
  -- a decimal that rounds to a positive number is positive
  have hpos : ∀ (m' e' : ℤ), RN (m' * (10 : ℚ) ^ e') = n / U → 0 < m' := by
    intro m' e' hr
    by_contra hc
    have : RN (m' * (10 : ℚ) ^ e') ≤ 0 := RN_nonpos (mul_nonpos_of_nonpos_of_nonneg (by exact_mod_cast (not_lt.mp hc)) (by positivity))
    linarith
  have main : ∀ (m' e' : ℤ) (i : ℕ), |m'| < 10 ^ i → RN (m' * (10 : ℚ) ^ e') = n / U →
        j ≤ i ∧ (i = j → |M * (10 : ℚ) ^ E - n / U| ≤ |m' * (10 : ℚ) ^ e' - n / U|) := by
    intro m' e' i hm hr
    have := hpos m' e' hr
    obtain ⟨w, rfl⟩ := Int.eq_ofNat_of_zero_le this.le
    rw [abs_of_pos this] at hm
    have := p4 w e' i (by exact_mod_cast hm) ((readsBack_iff _ _ _).mpr (by exact_mod_cast hr))
    exact_mod_cast this
  cases s with
  | false =>
    refine ⟨M, E, j, by simp, ?_, ?_, by simpa using p3, by simpa using main⟩
    · rw [abs_of_pos (by exact_mod_cast p1)]; exact_mod_cast p1
    · rw [abs_of_pos (by exact_mod_cast p1)]; exact_mod_cast p2
  | true =>
    refine ⟨-M, E, j, by simp, ?_, ?_, ?_, ?_⟩
    · rw [abs_neg, abs_of_pos (by exact_mod_cast p1)]; exact_mod_cast p1
    · rw [abs_neg, abs_of_pos (by exact_mod_cast p1)]; exact_mod_cast p2
    · push_cast; rw [neg_mul, RN_neg, p3]; simp
    · intro m' e' i hm hr
      have := main (-m') e' i (by rwa [abs_neg]) (by push_cast; rw [neg_mul, RN_neg, hr]; simp)
      refine ⟨this.1, fun hi => ?_⟩
      have := this.2 hi
      rw [← abs_neg] at this
      rw [← abs_neg (m' * (10 : ℚ) ^ e' - _)]
      convert this using 2 <;> push_cast <;> simp <;> ring

/-- **C86.** What `{}` prints reads back to the same `f64`, for every `f64`: finite (the sign of zero included), infinite, NaN. -/
theorem C86_read_back (x : F64) : parseF64 (shortest x) = some x := by
  cases x with
  | nan => decide
  | inf s => cases s <;> decide
  | fin s n h =>
    obtain ⟨hs, hneg⟩ := shortest_head s n h
    have hval : v (fin s n h) = if s then -((n : ℚ) / U) else n / U := by
      obtain ⟨s', n', h', e, hv⟩ := is_fin (Is.self (x := fin s n h) rfl)
      cases e
      exact hv
    have hrd : ∃ q, readDec (shortest (fin s n h)) = some q ∧ RN q = v (fin s n h) := by
      by_cases h0 : v (fin s n h) = 0
      · have hn : n = 0 := by
          rw [hval] at h0
          have := U_pos.ne'
          cases s <;> simpa [this] using h0
        subst hn
        refine ⟨0, ?_, by rw [RN_zero, h0]⟩
        rw [shortest_zero]
        cases s <;> decide
      · obtain ⟨m, e, k, g1, -, -, g2, -⟩ := C86_shortest _ rfl h0
        exact ⟨_, g1, g2⟩
    obtain ⟨q, hq, hr⟩ := hrd
    obtain ⟨x, hx, hfin, -⟩ := C85_parse_f64 _ q hq hs
    obtain ⟨i1, -, n', h', hx'⟩ := hfin (by rw [hr]; exact (Is.self (x := fin s n h) rfl).lt_OVQ)
    rw [hx, hx', hneg]
    congr 1
    have e := i1.val
    rw [hx', hneg, hr] at e
    have hval' : v (fin s n' h') = if s then -((n' : ℚ) / U) else n' / U := by
      obtain ⟨s', n'', h', e, hv⟩ := is_fin (Is.self (x := fin s n' h') rfl)
      cases e
      exact hv
    rw [hval, hval'] at e
    have hU := U_pos.ne'
    have : n' = n := by
      cases s <;> simp only [if_true, Bool.false_eq_true, if_false, neg_inj, div_left_inj' hU] at e <;> exact_mod_cast e
    subst this
    rfl

/-- **C86.** The text of a finite number consists of digits, points and minus signs: there is no exponent.  No text has a
line break. -/
theorem C86_characters (x : F64) : (isFin x = true → ∀ c ∈ shortest x, (digit? c).isSome ∨ c = '.' ∨ c = '-') ∧
    '\n' ∉ shortest x := by
  have key : isFin x = true → ∀ c ∈ shortest x, (digit? c).isSome ∨ c = '.' ∨ c = '-' := by
    intro hf c hc
    cases x with
    | nan => cases hf
    | inf s => cases hf
    | fin s n h =>
      obtain ⟨d, r, e, -, hall⟩ := shortest_shape s n h
      rw [e] at hc
      rcases List.mem_append.mp hc with h1 | h1
      · cases s <;> simp [fmtSign] at h1
        exact .inr (.inr h1)
      · rcases hall c h1 with h2 | h2
        · obtain ⟨k, hk⟩ := (isDigit_iff c).mp (isDigit_of_IsDig h2)
          exact .inl (by rw [hk]; rfl)
        · exact .inr (.inl h2)
  refine ⟨key, fun hn => ?_⟩
  cases x with
  | nan => exact absurd hn (by decide)
  | inf s => cases s <;> exact absurd hn (by decide)
  | fin s n h => exact absurd (key rfl _ hn) (by decide)

/-- Nonzero finite numbers exist; and some texts. -/
example : isFin (lit 0.1 : F64) = true ∧ (lit 0.1 : F64) ≠ lit 0 ∧ shortest (lit 0.1) = "0.1".toList ∧
    shortest (lit (-1234567.75)) = "-1234567.75".toList ∧ shortest (lit 0.1 +. lit 0.2) = "0.30000000000000004".toList ∧
    shortest (lit 1e23) = "100000000000000000000000".toList := by decide +kernel

end Verif
