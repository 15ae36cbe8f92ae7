import Verif.Spec.Numeral
import Verif.Model.Format
import Verif.Lemmas.Display

/-!
# Formatted numbers read back
-/

namespace Verif
open F64 Spec

/-- A digit character. -/
def IsDig (c : Char) : Prop := ∃ d < 10, c = Nat.digitChar d

theorem digit_digitChar : ∀ d < 10, digit? (Nat.digitChar d) = some d := by decide

theorem IsDig.ne {c : Char} (h : IsDig c) : c ≠ '.' ∧ c ≠ ' ' ∧ c ≠ '-' ∧ c ≠ '+' ∧ c ≠ ',' ∧ c ≠ ':' ∧ c ≠ '\n' := by
  obtain ⟨d, hd, rfl⟩ := h
  have : ∀ d < 10, Nat.digitChar d ≠ '.' ∧ Nat.digitChar d ≠ ' ' ∧ Nat.digitChar d ≠ '-' ∧ Nat.digitChar d ≠ '+' ∧
    Nat.digitChar d ≠ ',' ∧ Nat.digitChar d ≠ ':' ∧ Nat.digitChar d ≠ '\n' := by decide
  exact this d hd

theorem dec_digits (n : ℕ) : ∀ c ∈ dec n, IsDig c := by
  induction n using Nat.strong_induction_on with
  | _ n ih =>
    by_cases h : n < 10
    · rw [dec_small h]
      intro c hc
      rw [List.mem_singleton] at hc
      exact ⟨n, h, hc⟩
    · rw [dec_big (by omega)]
      intro c hc
      rw [List.mem_append, List.mem_singleton] at hc
      rcases hc with hc | hc
      · exact ih _ (by omega) c hc
      · exact ⟨n % 10, by omega, hc⟩

theorem padLeft_digits (w : ℕ) {l : List Char} (h : ∀ c ∈ l, IsDig c) : ∀ c ∈ padLeft w l, IsDig c := by
  intro c hc
  unfold padLeft at hc
  rw [List.mem_append, List.mem_replicate] at hc
  rcases hc with ⟨-, rfl⟩ | hc
  · exact ⟨0, by norm_num, rfl⟩
  · exact h c hc

theorem foldl_dec (a n : ℕ) :
    (dec n).foldl (fun acc c => acc.bind fun a => (digit? c).map fun d => 10 * a + d) (some a) =
      some (a * 10 ^ (dec n).length + n) := by
  induction n using Nat.strong_induction_on with
  | _ n ih =>
    by_cases h : n < 10
    · rw [dec_small h]
      simp [digit_digitChar n h]
      ring
    · rw [dec_big (by omega), List.foldl_append, ih _ (by omega)]
      simp [digit_digitChar (n % 10) (by omega)]
      have := Nat.div_add_mod n 10
      rw [pow_succ]
      have e : 10 * (a * 10 ^ (dec (n / 10)).length + n / 10) + n % 10 =
        a * (10 ^ (dec (n / 10)).length * 10) + (10 * (n / 10) + n % 10) := by ring
      rw [e, this]

theorem dec_ne_nil (n : ℕ) : dec n ≠ [] := by
  intro h
  have := dec_length_ge n
  rw [h] at this
  simp at this

theorem readNat_pad (w n : ℕ) : readNat (padLeft w (dec n)) = some n := by
  unfold readNat
  rw [if_neg (by unfold padLeft; simp [dec_ne_nil])]
  unfold padLeft
  rw [List.foldl_append]
  have z : ∀ k : ℕ, (List.replicate k '0').foldl (fun acc c => acc.bind fun a => (digit? c).map fun d => 10 * a + d) (some 0) =
      some 0 := by
    intro k
    induction k with
    | zero => rfl
    | succ k ih =>
      rw [List.replicate_succ, List.foldl_cons]
      exact ih
  rw [z, foldl_dec]
  simp

theorem padLeft_zero (l : List Char) : padLeft 0 l = l := by simp [padLeft]

theorem readNat_dec (n : ℕ) : readNat (dec n) = some n := by
  have := readNat_pad 0 n
  rwa [padLeft_zero] at this

theorem takeWhile_digits {l : List Char} (h : ∀ c ∈ l, IsDig c) (r : List Char) :
    (l ++ '.' :: r).takeWhile (· != '.') = l ∧ (l ++ '.' :: r).dropWhile (· != '.') = '.' :: r ∧
    l.takeWhile (· != '.') = l ∧ l.dropWhile (· != '.') = [] := by
  induction l with
  | nil => simp
  | cons c l ih =>
    have hc : (c != '.') = true := by
      have := (h c (by simp)).ne.1
      simpa using this
    obtain ⟨i1, i2, i3, i4⟩ := ih fun c hc => h c (by simp [hc])
    simp only [List.cons_append, List.takeWhile_cons, List.dropWhile_cons, hc, if_true, i1, i2, i3, i4, and_self]

/-- `prec` decimals of a rounded magnitude. -/
theorem readMag_fmt (w prec n : ℕ) :
    readMag (padLeft w (fmtMag prec n)) = some ((rhe (n * 10 ^ prec) UN : ℚ) / 10 ^ prec) := by
  unfold fmtMag
  split
  · rename_i h
    subst h
    have hd := padLeft_digits w (dec_digits (rhe n UN))
    obtain ⟨-, -, i3, i4⟩ := takeWhile_digits hd []
    unfold readMag
    rw [i3, i4]
    simp [readNat_pad]
  · rename_i h
    rw [fixedMag_eq]
    have hl : ('.' :: padLeft prec (dec (rhe (n * 10 ^ prec) UN % 10 ^ prec))).length = prec + 1 := by
      have hlt : rhe (n * 10 ^ prec) UN % 10 ^ prec < 10 ^ prec := Nat.mod_lt _ (by positivity)
      obtain ⟨k, rfl⟩ : ∃ k, prec = k + 1 := ⟨prec - 1, by omega⟩
      rw [padLeft_dec k _ hlt]
      simp [fixedD_length]
    generalize hA : dec (rhe (n * 10 ^ prec) UN / 10 ^ prec) = A
    generalize hB : padLeft prec (dec (rhe (n * 10 ^ prec) UN % 10 ^ prec)) = B at *
    have e : padLeft w (A ++ '.' :: B) = padLeft (w - (prec + 1)) A ++ '.' :: B := by
      unfold padLeft
      rw [List.length_append, hl, List.append_assoc]
      congr 2
      omega
    rw [e]
    have hd : ∀ c ∈ padLeft (w - (prec + 1)) A, IsDig c := by rw [← hA]; exact padLeft_digits _ (dec_digits _)
    obtain ⟨i1, i2, -, -⟩ := takeWhile_digits hd B
    unfold readMag
    rw [i1, i2, ← hA]
    have hB' : B.length = prec := by simpa using hl
    have hr : readNat B = some (rhe (n * 10 ^ prec) UN % 10 ^ prec) := by rw [← hB]; exact readNat_pad _ _
    simp only [readNat_pad, hr, Option.bind_some, Option.map_some, hB']
    have hk := Nat.div_add_mod (rhe (n * 10 ^ prec) UN) (10 ^ prec)
    generalize rhe (n * 10 ^ prec) UN = k at *
    congr 1
    have hk' : (k : ℚ) = 10 ^ prec * ((k / 10 ^ prec : ℕ) : ℚ) + ((k % 10 ^ prec : ℕ) : ℚ) := by exact_mod_cast hk.symm
    rw [hk']
    field_simp

/-- The rounding error. -/
theorem rhe_dec (prec n : ℕ) : |(rhe (n * 10 ^ prec) UN : ℚ) / 10 ^ prec - n / U| ≤ 1 / 2 / 10 ^ prec := by
  have hU := U_pos
  have hUN : (UN : ℚ) = U := rfl
  have herr := rhe_err (n * 10 ^ prec) UN UN_pos
  generalize rhe (n * 10 ^ prec) UN = k at *
  have e1 : (2 * (k * U) : ℚ) ≤ 2 * (n * 10 ^ prec) + U := by
    rw [← hUN]; exact_mod_cast herr.1
  have e2 : (2 * (n * 10 ^ prec) : ℚ) ≤ 2 * (k * U) + U := by
    rw [← hUN]; exact_mod_cast herr.2
  have hp : (0 : ℚ) < 10 ^ prec := by positivity
  have : (k : ℚ) / 10 ^ prec - n / U = (k * U - n * 10 ^ prec) / (10 ^ prec * U) := by
    field_simp
  rw [this, abs_div, abs_of_pos (show (0 : ℚ) < 10 ^ prec * U by positivity), div_le_iff₀ (by positivity)]
  have : (1 / 2 / 10 ^ prec * (10 ^ prec * U) : ℚ) = U / 2 := by field_simp
  rw [this, abs_le]
  constructor <;> linarith

/-- The text of a magnitude starts with a digit. -/
theorem fmtMag_head (w prec n : ℕ) : ∃ c r, padLeft w (fmtMag prec n) = c :: r ∧ IsDig c := by
  have key : ∀ A B : List Char, A ≠ [] → (∀ c ∈ A, IsDig c) → ∃ c r, padLeft w (A ++ B) = c :: r ∧ IsDig c := by
    intro A B hA hd
    unfold padLeft
    cases h : w - (A ++ B).length with
    | zero =>
      cases A with
      | nil => exact absurd rfl hA
      | cons c r => exact ⟨c, r ++ B, rfl, hd c (by simp)⟩
    | succ k => exact ⟨'0', List.replicate k '0' ++ (A ++ B), rfl, 0, by norm_num, rfl⟩
  unfold fmtMag
  split
  · have := key (dec (rhe n UN)) [] (dec_ne_nil _) (dec_digits _)
    rwa [List.append_nil] at this
  · rw [fixedMag_eq]
    exact key _ _ (dec_ne_nil _) (dec_digits _)

/-- Spaces, a sign and a body that starts with a digit. -/
theorem readDec_sign (k : ℕ) (plus s : Bool) {c : Char} {r : List Char} (h : IsDig c) :
    readDec (List.replicate k ' ' ++ (fmtSign plus s ++ c :: r)) =
      (readMag (c :: r)).map fun x => if s then -x else x := by
  have hk : ∀ (l : List Char) (d : Char) (r : List Char), l = d :: r → d ≠ ' ' →
      (List.replicate k ' ' ++ l).dropWhile (· == ' ') = l := by
    intro l d r hl hd
    induction k with
    | zero => simp [hl, hd]
    | succ k ih =>
      rw [List.replicate_succ, List.cons_append, List.dropWhile_cons]
      simpa using ih
  obtain ⟨-, n2, n3, n4, -⟩ := h.ne
  unfold readDec fmtSign
  cases s
  · cases plus
    · rw [hk _ c r (by simp) n2]
      simp only [Bool.false_eq_true, if_false, List.nil_append]
      split
      · rename_i hh; exact absurd (List.cons.inj hh).1 n3
      · rename_i hh; exact absurd (List.cons.inj hh).1 n4
      · simp
    · rw [hk _ '+' (c :: r) (by simp) (by decide)]
      simp
  · rw [hk _ '-' (c :: r) (by simp) (by decide)]
    simp

theorem is_fin {x : F64} {q : ℚ} (h : Is x q) : ∃ s n hn, x = .fin s n hn ∧ q = if s then -(n / U) else n / U := by
  obtain ⟨h1, h2⟩ := h
  cases x with
  | nan => simp [F64.isFin] at h1
  | inf s => simp [F64.isFin] at h1
  | fin s n hn =>
    refine ⟨s, n, hn, rfl, ?_⟩
    rw [← h2]
    cases s <;> simp [F64.v, F64.sval]
    ring

theorem signed_err {s : Bool} {a b e : ℚ} (h : |a - b| ≤ e) : |(if s then -a else a) - (if s then -b else b)| ≤ e := by
  cases s
  · simpa using h
  · have : -a - -b = -(a - b) := by ring
    simp only [if_true]
    rw [this, abs_neg]; exact h

/-- `{:w.prec}`, `{:+w.prec}` and `{:.prec}` of a finite number read back to within half a unit of the last decimal. -/
theorem read_fmtSpace (plus : Bool) (w prec : ℕ) {x : F64} {q : ℚ} (h : Is x q) :
    ∃ t, readDec (fmtSpace plus w prec x) = some t ∧ |t - q| ≤ 1 / 2 / 10 ^ prec := by
  obtain ⟨s, n, hn, rfl, rfl⟩ := is_fin h
  unfold fmtSpace fmtParts
  simp only
  obtain ⟨c, r, hc, hd⟩ := fmtMag_head 0 prec n
  have hm := readMag_fmt 0 prec n
  rw [padLeft_zero] at hc hm
  rw [hc] at hm ⊢
  rw [readDec_sign _ _ _ hd, hm]
  exact ⟨_, rfl, signed_err (rhe_dec prec n)⟩

/-- `{:0w.prec}` and `{:+0w.prec}` of a finite number read back to within half a unit of the last decimal. -/
theorem read_fmtZero (plus : Bool) (w prec : ℕ) {x : F64} {q : ℚ} (h : Is x q) :
    ∃ t, readDec (fmtZero plus w prec x) = some t ∧ |t - q| ≤ 1 / 2 / 10 ^ prec := by
  obtain ⟨s, n, hn, rfl, rfl⟩ := is_fin h
  unfold fmtZero fmtParts
  simp only
  obtain ⟨c, r, hc, hd⟩ := fmtMag_head (w - (fmtSign plus s).length) prec n
  have hm := readMag_fmt (w - (fmtSign plus s).length) prec n
  rw [hc] at hm ⊢
  have := readDec_sign 0 plus s (r := r) hd
  simp only [List.replicate_zero, List.nil_append] at this
  rw [this, hm]
  exact ⟨_, rfl, signed_err (rhe_dec prec n)⟩

/-- The characters of a printed number. -/
def NumChar (c : Char) : Prop := IsDig c ∨ c = ' ' ∨ c = '+' ∨ c = '-' ∨ c = '.'

theorem NumChar.ne {c : Char} (h : NumChar c) : c ≠ ',' ∧ c ≠ ':' ∧ c ≠ '\n' ∧ c ≠ '=' ∧ c ≠ '°' := by
  have key : ∀ d < 10, Nat.digitChar d ≠ ',' ∧ Nat.digitChar d ≠ ':' ∧ Nat.digitChar d ≠ '\n' ∧
      Nat.digitChar d ≠ '=' ∧ Nat.digitChar d ≠ '°' := by decide
  rcases h with ⟨d, hd, rfl⟩ | rfl | rfl | rfl | rfl
  · exact key d hd
  all_goals decide

theorem fmtMag_chars (prec n : ℕ) : ∀ c ∈ fmtMag prec n, NumChar c := by
  unfold fmtMag
  split
  · exact fun c hc => .inl (dec_digits _ c hc)
  · rw [fixedMag_eq]
    intro c hc
    rcases List.mem_append.mp hc with h | h
    · exact .inl (dec_digits _ c h)
    · rcases List.mem_cons.mp h with h | h
      · exact .inr (.inr (.inr (.inr h)))
      · exact .inl (padLeft_digits _ (dec_digits _) c h)

theorem fmtSign_chars (plus s : Bool) : ∀ c ∈ fmtSign plus s, NumChar c := by
  unfold fmtSign
  cases s <;> cases plus <;> simp [NumChar]

theorem padLeft_chars (w : ℕ) {l : List Char} (h : ∀ c ∈ l, NumChar c) : ∀ c ∈ padLeft w l, NumChar c := by
  unfold padLeft
  intro c hc
  rcases List.mem_append.mp hc with h1 | h1
  · exact .inl ⟨0, by norm_num, (List.mem_replicate.mp h1).2⟩
  · exact h c h1

theorem fmtSpace_chars (plus : Bool) (w prec : ℕ) {x : F64} {q : ℚ} (h : Is x q) :
    ∀ c ∈ fmtSpace plus w prec x, NumChar c := by
  obtain ⟨s, n, hn, rfl, -⟩ := is_fin h
  unfold fmtSpace fmtParts
  simp only
  intro c hc
  rcases List.mem_append.mp hc with h1 | h1
  · exact .inr (.inl (List.mem_replicate.mp h1).2)
  · rcases List.mem_append.mp h1 with h2 | h2
    · exact fmtSign_chars _ _ c h2
    · exact fmtMag_chars _ _ c h2

theorem fmtZero_chars (plus : Bool) (w prec : ℕ) {x : F64} {q : ℚ} (h : Is x q) :
    ∀ c ∈ fmtZero plus w prec x, NumChar c := by
  obtain ⟨s, n, hn, rfl, -⟩ := is_fin h
  unfold fmtZero fmtParts
  simp only
  intro c hc
  rcases List.mem_append.mp hc with h2 | h2
  · exact fmtSign_chars _ _ c h2
  · exact padLeft_chars _ (fmtMag_chars _ _) c h2

theorem fmtInt_chars (w : ℕ) (z : ℤ) : ∀ c ∈ fmtInt w z, NumChar c := by
  unfold fmtInt
  split
  · intro c hc
    rcases List.mem_cons.mp hc with h | h
    · exact .inr (.inr (.inr (.inl h)))
    · exact .inl (padLeft_digits _ (dec_digits _) c h)
  · exact fun c hc => .inl (padLeft_digits _ (dec_digits _) c hc)

theorem fmtFill_chars (w prec : ℕ) (hp : prec ≠ 0) {x : F64} {q : ℚ} (h : Is x q) :
    ∀ c ∈ fmtFill w prec x, NumChar c := by
  obtain ⟨s, n, hn, rfl, -⟩ := is_fin h
  unfold fmtFill
  refine padLeft_chars _ fun c hc => ?_
  rcases List.mem_append.mp hc with h | h
  · cases s
    · simp at h
    · simp at h; exact .inr (.inr (.inr (.inl h)))
  · have := fmtMag_chars prec n c
    unfold fmtMag at this
    rw [if_neg hp] at this
    exact this h

/-- The text without its sign is at most as long as the bound on the number says. -/
theorem dec_length_le (w n : ℕ) (h : n < 10 ^ (w + 1)) : (dec n).length ≤ w + 1 := by
  have := congrArg List.length (padLeft_dec w n h)
  rw [fixedD_length] at this
  unfold padLeft at this
  rw [List.length_append] at this
  omega

theorem rhe_lt_of (p k a : ℕ) (hk : 0 < k) (h : 2 * p + k < 2 * (a * k)) : rhe p k < a := by
  have := (rhe_err p k hk).1
  by_contra hc
  push Not at hc
  have : a * k ≤ rhe p k * k := Nat.mul_le_mul_right k hc
  omega

/-- Length of the digits of a magnitude below `10^(i+1)` after rounding. -/
theorem fmtMag_length_le (i prec n : ℕ) (h : (n : ℚ) / U < 10 ^ (i + 1) - 1 / 2 / 10 ^ prec) :
    (fmtMag prec n).length ≤ i + 1 + (if prec = 0 then 0 else prec + 1) := by
  have hU := U_pos
  have hk : rhe (n * 10 ^ prec) UN < 10 ^ (i + 1) * 10 ^ prec := by
    refine rhe_lt_of _ _ _ UN_pos ?_
    have hp : (0 : ℚ) < 10 ^ prec := by positivity
    have h2 : (n : ℚ) < (10 ^ (i + 1) - 1 / 2 / 10 ^ prec) * U := by rwa [div_lt_iff₀ hU] at h
    have h3 : (n : ℚ) * 10 ^ prec < (10 ^ (i + 1) * 10 ^ prec - 1 / 2) * U := by
      calc (n : ℚ) * 10 ^ prec < (10 ^ (i + 1) - 1 / 2 / 10 ^ prec) * U * 10 ^ prec := by
            exact mul_lt_mul_of_pos_right h2 hp
        _ = _ := by field_simp
    have hUN : (UN : ℚ) = U := rfl
    have : ((2 * (n * 10 ^ prec) + UN : ℕ) : ℚ) < ((2 * (10 ^ (i + 1) * 10 ^ prec * UN) : ℕ) : ℚ) := by
      push_cast
      rw [hUN]
      linarith
    exact_mod_cast this
  unfold fmtMag
  split
  · rename_i h0
    subst h0
    simpa using dec_length_le i _ (by simpa using hk)
  · rename_i h0
    rw [fixedMag_eq]
    have h1 : rhe (n * 10 ^ prec) UN / 10 ^ prec < 10 ^ (i + 1) := by
      rw [Nat.div_lt_iff_lt_mul (by positivity)]; exact hk
    have h2 : (padLeft prec (dec (rhe (n * 10 ^ prec) UN % 10 ^ prec))).length = prec := by
      obtain ⟨k, rfl⟩ : ∃ k, prec = k + 1 := ⟨prec - 1, by omega⟩
      rw [padLeft_dec k _ (Nat.mod_lt _ (by positivity)), fixedD_length]
    have h3 := dec_length_le i _ h1
    rw [List.length_append, List.length_cons, h2]
    omega

/-- Width of `{:+0w.prec}`. -/
theorem fmtZero_length (i prec w : ℕ) (hp : prec ≠ 0) (hw : w = i + prec + 3) {x : F64} {q : ℚ} (h : Is x q)
    (hq : |q| < 10 ^ (i + 1) - 1 / 2 / 10 ^ prec) : (fmtZero true w prec x).length = w := by
  obtain ⟨s, n, hn, rfl, rfl⟩ := is_fin h
  have hU := U_pos
  have h1 : (n : ℚ) / U < 10 ^ (i + 1) - 1 / 2 / 10 ^ prec := by
    have h0 : (0 : ℚ) ≤ n / U := by positivity
    cases s
    · simpa [abs_of_nonneg h0] using hq
    · simpa [abs_of_nonneg h0] using hq
  have h2 := fmtMag_length_le i prec n h1
  rw [if_neg hp] at h2
  unfold fmtZero fmtParts padLeft
  simp only [List.length_append, List.length_replicate]
  have h3 : (fmtSign true s).length = 1 := by cases s <;> rfl
  rw [h3]
  omega

/-- Width of `{:w.prec}` and `{:+w.prec}`. -/
theorem fmtSpace_length (plus : Bool) (i prec w : ℕ) (hw : i + 2 + (if prec = 0 then 0 else prec + 1) ≤ w) {x : F64}
    {q : ℚ} (h : Is x q) (hq : |q| < 10 ^ (i + 1) - 1 / 2 / 10 ^ prec) : (fmtSpace plus w prec x).length = w := by
  obtain ⟨s, n, hn, rfl, rfl⟩ := is_fin h
  have hU := U_pos
  have h1 : (n : ℚ) / U < 10 ^ (i + 1) - 1 / 2 / 10 ^ prec := by
    have h0 : (0 : ℚ) ≤ n / U := by positivity
    cases s
    · simpa [abs_of_nonneg h0] using hq
    · simpa [abs_of_nonneg h0] using hq
  have h2 := fmtMag_length_le i prec n h1
  unfold fmtSpace fmtParts
  simp only [List.length_append, List.length_replicate]
  have h3 : (fmtSign plus s).length ≤ 1 := by cases s <;> cases plus <;> simp [fmtSign]
  omega

/-- Splitting at a separator. -/
theorem splitOn_cons_of {sep : Char} {l : List Char} (h : sep ∉ l) (r : List Char) :
    (l ++ sep :: r).splitOn sep = l :: r.splitOn sep := by
  rw [List.splitOn_append_cons_of_beq _ _ (by simp), List.splitOn_eq_singleton h]
  rfl

end Verif
