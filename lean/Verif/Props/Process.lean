import Verif.Model.Process
import Verif.Props.CommandLine
import Mathlib.Data.List.TakeWhile

/-!
# C104: error messages and exit status of the tools
-/

namespace Verif
open F64 Arith Spec

/-! ## Why a text is not an integer -/

theorem isDigit_eq (c : Char) : isDigit c = (digit? c).isSome := by
  unfold isDigit digit?
  by_cases h : '0' ≤ c ∧ c ≤ '9'
  · simp [h]
  · rw [if_neg h]
    simpa using h

/-- The value of digits after some others. -/
def digitsFrom (a : ℕ) (l : List Char) : ℕ := l.foldl (fun a c => 10 * a + (c.toNat - 48)) a

theorem le_digitsFrom (a : ℕ) (l : List Char) : a ≤ digitsFrom a l := by
  induction l generalizing a with
  | nil => exact le_rfl
  | cons c r ih => exact le_trans (by omega) (ih (10 * a + (c.toNat - 48)))

theorem intLoop_pos {lo hi : ℤ} {d r : List Char} (hd : Digits d) (hr : ∀ c, r.head? = some c → digit? c = none) (a : ℕ) (ha : (a : ℤ) ≤ hi) :
    intLoop false lo hi a (d ++ r) =
      if hi < digitsFrom a d then .error .tooLarge else if r ≠ [] then .error .invalidDigit else .ok (digitsFrom a d) := by
  induction d generalizing a with
  | nil =>
    show intLoop false lo hi a r = if hi < (a : ℤ) then _ else if r ≠ [] then _ else .ok (a : ℤ)
    rw [if_neg (by omega)]
    cases r with
    | nil => simp [intLoop]
    | cons c t =>
      have : isDigit c = false := by rw [isDigit_eq, hr c rfl]; rfl
      simp [intLoop, this]
  | cons c t ih =>
    have hc : isDigit c = true := by rw [isDigit_eq]; exact hd c (by simp)
    have e : digitsFrom a (c :: t) = digitsFrom (10 * a + (c.toNat - 48)) t := rfl
    rw [e]
    show (if isDigit c = false then _ else _) = _
    rw [if_neg (by simp [hc])]
    simp only [Bool.false_eq_true, if_false]
    have hle := le_digitsFrom (10 * a + (c.toNat - 48)) t
    by_cases h : hi < 10 * (a : ℤ) + ((c.toNat - 48 : ℕ) : ℤ)
    · rw [if_pos (Or.inr h), if_pos (by omega)]
    · rw [if_neg (by omega)]
      have := ih (fun x hx => hd x (by simp [hx])) (10 * a + (c.toNat - 48)) (by push_cast; omega)
      push_cast at this ⊢
      exact this

theorem intLoop_neg {lo hi : ℤ} {d r : List Char} (hd : Digits d) (hr : ∀ c, r.head? = some c → digit? c = none) (a : ℕ) (ha : lo ≤ -(a : ℤ)) :
    intLoop true lo hi (-a) (d ++ r) =
      if -(digitsFrom a d : ℤ) < lo then .error .tooSmall else if r ≠ [] then .error .invalidDigit else .ok (-digitsFrom a d) := by
  induction d generalizing a with
  | nil =>
    show intLoop true lo hi (-a) r = if -(a : ℤ) < lo then _ else if r ≠ [] then _ else .ok (-(a : ℤ))
    rw [if_neg (by omega)]
    cases r with
    | nil => simp [intLoop]
    | cons c t =>
      have : isDigit c = false := by rw [isDigit_eq, hr c rfl]; rfl
      simp [intLoop, this]
  | cons c t ih =>
    have hc : isDigit c = true := by rw [isDigit_eq]; exact hd c (by simp)
    have e : digitsFrom a (c :: t) = digitsFrom (10 * a + (c.toNat - 48)) t := rfl
    rw [e]
    show (if isDigit c = false then _ else _) = _
    rw [if_neg (by simp [hc])]
    simp only [if_true]
    have hle := le_digitsFrom (10 * a + (c.toNat - 48)) t
    by_cases h : 10 * (-(a : ℤ)) - ((c.toNat - 48 : ℕ) : ℤ) < lo
    · rw [if_pos (Or.inr h), if_pos (by omega)]
    · rw [if_neg (by omega)]
      have := ih (fun x hx => hd x (by simp [hx])) (10 * a + (c.toNat - 48)) (by push_cast; omega)
      push_cast at this ⊢
      rw [← this]
      congr 1
      ring

theorem digits_head {d r : List Char} (hd : Digits d) {c : Char} {t : List Char} (h : d ++ r = c :: t) (hc : digit? c = none) : d = [] := by
  cases d with
  | nil => rfl
  | cons x y =>
    simp only [List.cons_append, List.cons.injEq] at h
    have := hd x (by simp)
    rw [h.1, hc] at this
    cases this

/-- A text that begins with no sign goes straight to the loop. -/
theorem fromStrInt_plain {signed : Bool} {lo hi : ℤ} {l : List Char} (h0 : l ≠ []) (h1 : l.head? ≠ some '+') (h2 : l.head? ≠ some '-') :
    fromStrInt signed lo hi l = intLoop false lo hi 0 l := by
  unfold fromStrInt
  split <;> simp_all

theorem fromStrInt_plus {signed : Bool} {lo hi : ℤ} {l : List Char} (h0 : l ≠ []) :
    fromStrInt signed lo hi ('+' :: l) = intLoop false lo hi 0 l := by
  unfold fromStrInt
  split <;> simp_all

theorem fromStrInt_minus {signed : Bool} {lo hi : ℤ} {l : List Char} (h0 : l ≠ []) :
    fromStrInt signed lo hi ('-' :: l) = if signed then intLoop true lo hi 0 l else .error .invalidDigit := by
  unfold fromStrInt
  split <;> simp_all
  rfl

/-- The value of a text of digits, zero for none. -/
theorem digits_value {d : List Char} (hd : Digits d) {n : ℕ} (hn : (readNat d).getD 0 = n) : digitsFrom 0 d = n := by
  by_cases h : d = []
  · subst h; subst hn; rfl
  · have := (readNat_iff d (digitsVal d)).mpr ⟨h, by
      rw [List.all_eq_true]; intro c hc; rw [isDigit_eq]; exact hd c hc, rfl⟩
    rw [this] at hn
    exact hn

/-- **C104.** The reason why a text is no `i32`.  Any text is a sign or none, digits and a rest that begins with no digit. -/
theorem C104_i32_reason (s d r : List Char) (hs : SignText s) (hd : Digits d) (hr : ∀ c, r.head? = some c → digit? c = none)
    (h0 : s = [] → d = [] → r.head? ≠ some '+' ∧ r.head? ≠ some '-') (n : ℕ) (hn : (readNat d).getD 0 = n) :
    fromStrI32 (s ++ (d ++ r)) =
      if s ++ (d ++ r) = [] then .error .emptyInt
      else if s ≠ ['-'] ∧ 2 ^ 31 ≤ n then .error .tooLarge
      else if s = ['-'] ∧ 2 ^ 31 < n then .error .tooSmall
      else if r ≠ [] ∨ d = [] then .error .invalidDigit
      else .ok (if s = ['-'] then -(n : ℤ) else n) := by
  have hv := digits_value hd hn
  have hz : d = [] → n = 0 := by rintro rfl; rw [← hn]; rfl
  have P := intLoop_pos (lo := -2 ^ 31) (hi := 2 ^ 31 - 1) hd hr 0 (by norm_num)
  have N := intLoop_neg (lo := -2 ^ 31) (hi := 2 ^ 31 - 1) hd hr 0 (by norm_num)
  rw [hv] at P N
  simp only [Nat.cast_zero, neg_zero] at P N
  unfold fromStrI32
  by_cases e : d ++ r = []
  · obtain ⟨rfl, rfl⟩ := List.append_eq_nil_iff.mp e
    have := hz rfl
    subst this
    rcases hs with rfl | rfl | rfl <;> rfl
  · have e' : s ++ (d ++ r) ≠ [] := by simp [e]
    rw [if_neg e']
    have tail : ∀ (z : ℤ), (if r ≠ [] then (.error .invalidDigit : Except ParseFail ℤ) else .ok z) =
        if r ≠ [] ∨ d = [] then .error .invalidDigit else .ok z := by
      intro z
      by_cases hr0 : r = []
      · have : d ≠ [] := by rintro rfl; exact e (by simp [hr0])
        simp [hr0, this]
      · simp [hr0]
    rw [tail] at P N
    have b1 : ((2 : ℤ) ^ 31 - 1 < (n : ℤ)) ↔ 2 ^ 31 ≤ n := by constructor <;> intro h <;> omega
    have b2 : (-(n : ℤ) < -2 ^ 31) ↔ 2 ^ 31 < n := by constructor <;> intro h <;> omega
    simp only [b1] at P
    simp only [b2] at N
    rcases hs with rfl | rfl | rfl
    · have hh : (d ++ r).head? ≠ some '+' ∧ (d ++ r).head? ≠ some '-' := by
        cases d with
        | nil => exact h0 rfl rfl
        | cons x y =>
          have := hd x (by simp)
          constructor <;> (intro h; simp at h; rw [h] at this; exact absurd this (by decide))
      rw [List.nil_append, fromStrInt_plain e hh.1 hh.2, P]
      simp
    · rw [List.singleton_append, fromStrInt_plus e, P]
      simp
    · rw [List.singleton_append, fromStrInt_minus e, if_pos rfl, N]
      simp

/-- **C104.** The reason why a text is no `u8`: as for an `i32`, but a minus sign is an invalid digit. -/
theorem C104_u8_reason (s d r : List Char) (hs : SignText s) (hd : Digits d) (hr : ∀ c, r.head? = some c → digit? c = none)
    (h0 : s = [] → d = [] → r.head? ≠ some '+' ∧ r.head? ≠ some '-') (n : ℕ) (hn : (readNat d).getD 0 = n) :
    fromStrU8 (s ++ (d ++ r)) =
      if s ++ (d ++ r) = [] then .error .emptyInt
      else if s ≠ ['-'] ∧ 256 ≤ n then .error .tooLarge
      else if r ≠ [] ∨ d = [] ∨ s = ['-'] then .error .invalidDigit
      else .ok n := by
  have hv := digits_value hd hn
  have hz : d = [] → n = 0 := by rintro rfl; rw [← hn]; rfl
  have P := intLoop_pos (lo := 0) (hi := 255) hd hr 0 (by norm_num)
  rw [hv] at P
  push_cast at P
  unfold fromStrU8
  by_cases e : d ++ r = []
  · obtain ⟨rfl, rfl⟩ := List.append_eq_nil_iff.mp e
    have := hz rfl
    subst this
    rcases hs with rfl | rfl | rfl <;> rfl
  · have e' : s ++ (d ++ r) ≠ [] := by simp [e]
    rw [if_neg e']
    have tail : ∀ (z : ℤ), (if r ≠ [] then (.error .invalidDigit : Except ParseFail ℤ) else .ok z) =
        if r ≠ [] ∨ d = [] then .error .invalidDigit else .ok z := by
      intro z
      by_cases hr0 : r = []
      · have : d ≠ [] := by rintro rfl; exact e (by simp [hr0])
        simp [hr0, this]
      · simp [hr0]
    rw [tail] at P
    have b1 : ((255 : ℤ) < (n : ℤ)) ↔ 256 ≤ n := by constructor <;> intro h <;> omega
    simp only [b1] at P
    rcases hs with rfl | rfl | rfl
    · have hh : (d ++ r).head? ≠ some '+' ∧ (d ++ r).head? ≠ some '-' := by
        cases d with
        | nil => exact h0 rfl rfl
        | cons x y =>
          have := hd x (by simp)
          constructor <;> (intro h; simp at h; rw [h] at this; exact absurd this (by decide))
      rw [List.nil_append, fromStrInt_plain e hh.1 hh.2, P]
      simp
    · rw [List.singleton_append, fromStrInt_plus e, P]
      simp
    · rw [List.singleton_append, fromStrInt_minus e]
      simp

/-- Texts with each of the reasons; a number that overflows before its first bad character is too large. -/
example : fromStrI32 "".toList = .error .emptyInt ∧ fromStrI32 "-".toList = .error .invalidDigit ∧
    fromStrI32 "2147483648x".toList = .error .tooLarge ∧ fromStrI32 "-2147483649".toList = .error .tooSmall ∧
    fromStrI32 "12x99999999999".toList = .error .invalidDigit ∧ fromStrI32 "-2147483648".toList = .ok (-2147483648) ∧
    fromStrU8 "-0".toList = .error .invalidDigit ∧ fromStrU8 "256".toList = .error .tooLarge ∧ fromStrU8 "+007".toList = .ok 7 := by
  decide +kernel

example : SignText ['-'] ∧ Digits "2147483649".toList ∧ (readNat "2147483649".toList).getD 0 = 2147483649 ∧
    (∀ c, "x".toList.head? = some c → digit? c = none) :=
  ⟨.inr (.inr rfl), by unfold Digits; decide, by decide +kernel, by intro c h; cases h; decide⟩

/-- Any text is of that form. -/
theorem int_text (l : List Char) : ∃ s d r, l = s ++ (d ++ r) ∧ SignText s ∧ Digits d ∧ (∀ c, r.head? = some c → digit? c = none) ∧
    (s = [] → d = [] → r.head? ≠ some '+' ∧ r.head? ≠ some '-') := by
  have key : ∀ t : List Char, ∃ d r, t = d ++ r ∧ Digits d ∧ ∀ c, r.head? = some c → digit? c = none := by
    intro t
    refine ⟨t.takeWhile isDigit, t.dropWhile isDigit, List.takeWhile_append_dropWhile.symm, ?_, ?_⟩
    · intro c hc; rw [← isDigit_eq]; exact List.mem_takeWhile_imp hc
    · intro c hc
      have := List.head?_dropWhile_not isDigit t
      rw [hc] at this
      simpa [isDigit_eq] using this
  have sign : ∀ (c : Char) t, l = c :: t → (c = '+' ∨ c = '-') → ∃ s d r, l = s ++ (d ++ r) ∧ SignText s ∧ Digits d ∧ (∀ c, r.head? = some c → digit? c = none) ∧
      (s = [] → d = [] → r.head? ≠ some '+' ∧ r.head? ≠ some '-') := by
    intro c t hl hc
    obtain ⟨d, r, rfl, hd, hr⟩ := key t
    refine ⟨[c], d, r, hl, ?_, hd, hr, by simp⟩
    rcases hc with rfl | rfl
    · exact .inr (.inl rfl)
    · exact .inr (.inr rfl)
  by_cases h : l.head? = some '+' ∨ l.head? = some '-'
  · cases l with
    | nil => simp at h
    | cons c t => exact sign c t rfl (by simpa using h)
  · obtain ⟨d, r, e, hd, hr⟩ := key l
    refine ⟨[], d, r, e, .inl rfl, hd, hr, fun _ h0 => ?_⟩
    subst h0
    rw [e] at h
    push Not at h
    exact h

/-- **C104.** The reasons go with the parsers of C85: a text is read with a value exactly if it is read there, with the same value. -/
theorem C104_same_numbers (l : List Char) : (∀ z, fromStrI32 l = .ok z ↔ parseI32 l = some z) ∧
    (∀ z, fromStrU8 l = .ok z ↔ parseU8 l = some z) ∧ (∀ x, fromStrF64 l = .ok x ↔ parseF64 l = some x) := by
  refine ⟨fun z => ?_, fun z => ?_, fun x => ?_⟩
  · obtain ⟨s, d, r, rfl, hs, hd, hr, h0⟩ := int_text l
    rw [C104_i32_reason s d r hs hd hr h0 _ rfl]
    have hv := digits_value hd rfl
    have hT : takeSign (s ++ (d ++ r)) = (decide (s = ['-']), d ++ r) := by
      rcases hs with rfl | rfl | rfl
      · cases hdr : d ++ r with
        | nil => rfl
        | cons c t =>
          have hc : c ≠ '-' ∧ c ≠ '+' := by
            cases d with
            | nil =>
              have := h0 rfl rfl
              rw [List.nil_append] at hdr
              rw [hdr] at this
              simpa [and_comm] using this
            | cons x y =>
              have := hd x (by simp)
              simp only [List.cons_append, List.cons.injEq] at hdr
              rw [hdr.1] at this
              constructor <;> (rintro rfl; exact absurd this (by decide))
          rw [List.nil_append, takeSign_of_ne t hc.1 hc.2]; rfl
      · rfl
      · rfl
    have hall : (d ++ r ≠ [] ∧ (d ++ r).all isDigit = true) ↔ ¬(r ≠ [] ∨ d = []) := by
      constructor
      · rintro ⟨h1, h2⟩
        have : r = [] := by
          cases r with
          | nil => rfl
          | cons c t =>
            rw [List.all_eq_true] at h2
            have := h2 c (by simp)
            rw [isDigit_eq, hr c rfl] at this
            cases this
        subst this
        simpa using h1
      · intro h
        push Not at h
        obtain ⟨rfl, h⟩ := h
        refine ⟨by simpa using h, ?_⟩
        rw [List.append_nil, List.all_eq_true]
        intro c hc; rw [isDigit_eq]; exact hd c hc
    have hu : parseI32 (s ++ (d ++ r)) = if d ++ r ≠ [] ∧ (d ++ r).all isDigit = true then
        if -2 ^ 31 ≤ (if s = ['-'] then -(digitsVal (d ++ r) : ℤ) else digitsVal (d ++ r)) ∧
          (if s = ['-'] then -(digitsVal (d ++ r) : ℤ) else digitsVal (d ++ r)) < 2 ^ 31
        then some (if s = ['-'] then -(digitsVal (d ++ r) : ℤ) else digitsVal (d ++ r)) else none
        else none := by
      unfold parseI32
      rw [hT]
      simp only [decide_eq_true_eq]
    rw [hu]
    generalize (readNat d).getD 0 = n at *
    by_cases e : s ++ (d ++ r) = []
    · rw [if_pos e]
      have : d ++ r = [] := (List.append_eq_nil_iff.mp e).2
      rw [this]; simp
    rw [if_neg e]
    by_cases hg : r ≠ [] ∨ d = []
    · rw [if_pos hg, if_neg (show ¬(d ++ r ≠ [] ∧ (d ++ r).all isDigit = true) by rw [hall, not_not]; exact hg)]
      split_ifs <;> simp
    · rw [if_neg hg, if_pos (hall.mpr hg)]
      push Not at hg
      obtain ⟨rfl, -⟩ := hg
      rw [List.append_nil]
      have hv' : digitsVal d = n := hv
      rw [hv']
      by_cases hm : s = ['-']
      · simp only [hm, if_true, ne_eq, not_true_eq_false, false_and, if_false, true_and]
        by_cases hb : 2 ^ 31 < n
        · rw [if_pos hb, if_neg (by omega)]; simp
        · rw [if_neg hb, if_pos (by omega)]; simp
      · simp only [hm, if_false, ne_eq, not_false_eq_true, true_and, false_and]
        by_cases hb : 2 ^ 31 ≤ n
        · rw [if_pos hb, if_neg (by omega)]; simp
        · rw [if_neg hb, if_pos (by omega)]; simp
  · obtain ⟨s, d, r, rfl, hs, hd, hr, h0⟩ := int_text l
    rw [C104_u8_reason s d r hs hd hr h0 _ rfl]
    have hv := digits_value hd rfl
    have hT : dropPlus (s ++ (d ++ r)) = if s = ['-'] then '-' :: (d ++ r) else d ++ r := by
      rcases hs with rfl | rfl | rfl
      · rw [if_neg (by simp), List.nil_append]
        unfold dropPlus
        split
        · rename_i t heq
          exfalso
          cases d with
          | nil => exact (h0 rfl rfl).1 (by rw [← List.nil_append r, heq]; rfl)
          | cons x y =>
            have := hd x (by simp)
            simp only [List.cons_append, List.cons.injEq] at heq
            rw [heq.1] at this
            exact absurd this (by decide)
        · rfl
      · rfl
      · rfl
    have hall : (d ++ r ≠ [] ∧ (d ++ r).all isDigit = true) ↔ ¬(r ≠ [] ∨ d = []) := by
      constructor
      · rintro ⟨h1, h2⟩
        have : r = [] := by
          cases r with
          | nil => rfl
          | cons c t =>
            rw [List.all_eq_true] at h2
            have := h2 c (by simp)
            rw [isDigit_eq, hr c rfl] at this
            cases this
        subst this
        simpa using h1
      · intro h
        push Not at h
        obtain ⟨rfl, h⟩ := h
        refine ⟨by simpa using h, ?_⟩
        rw [List.append_nil, List.all_eq_true]
        intro c hc; rw [isDigit_eq]; exact hd c hc
    unfold parseU8
    simp only [hT]
    generalize (readNat d).getD 0 = n at *
    by_cases hm : s = ['-']
    · subst hm
      have : isDigit '-' = false := by decide
      simp [this]
    · simp only [hm, if_false, or_false, ne_eq, not_false_eq_true, true_and]
      by_cases e : s ++ (d ++ r) = []
      · rw [if_pos e]
        have : d ++ r = [] := (List.append_eq_nil_iff.mp e).2
        rw [this]; simp
      rw [if_neg e]
      by_cases hg : r ≠ [] ∨ d = []
      · rw [if_pos hg, if_neg (show ¬(d ++ r ≠ [] ∧ (d ++ r).all isDigit = true) by rw [hall, not_not]; exact hg)]
        split_ifs <;> simp
      · rw [if_neg hg, if_pos (show d ++ r ≠ [] ∧ (d ++ r).all isDigit = true from hall.mpr hg)]
        push Not at hg
        obtain ⟨rfl, -⟩ := hg
        rw [List.append_nil]
        have hv' : digitsVal d = n := hv
        rw [hv']
        by_cases hb : 256 ≤ n
        · rw [if_pos hb, if_neg (by omega)]; simp
        · rw [if_neg hb, if_pos (by omega)]; simp
  · unfold fromStrF64
    by_cases h : l = []
    · subst h
      have : parseF64 [] = none := by decide
      simp [this]
    · rw [if_neg h]
      cases parseF64 l <;> simp

/-! ## The messages are distinct -/

/-- What can be wrong with a run, apart from a panic. -/
inductive Fault where
  | usage (e : OsError)
  | calendar (e : CalendarError)
  deriving DecidableEq

def Fault.text : Fault → List Char
  | .usage e => e.text
  | .calendar e => e.text

/-- The texts of `bail!` in the two tools. -/
def bails : List (List Char) := ["Specify gregorian or julian".toList, "Invalid extra arguments".toList, "Unhandled extra arguments".toList]

theorem cause_unique {v v' : List Char} {c c' : ParseFail} (h : v ++ "': ".toList ++ c.text = v' ++ "': ".toList ++ c'.text) : v = v' ∧ c = c' := by
  have s1 : ("': ".toList ++ c.text) <:+ (v ++ "': ".toList ++ c.text) := ⟨v, by simp⟩
  have s2 : ("': ".toList ++ c'.text) <:+ (v ++ "': ".toList ++ c.text) := ⟨v', by rw [h]; simp⟩
  have key : ∀ a b : ParseFail, ("': ".toList ++ a.text) <:+ ("': ".toList ++ b.text) → a = b := by
    intro a b hab
    have : ("': ".toList ++ a.text).isSuffixOf ("': ".toList ++ b.text) = true := List.isSuffixOf_iff_suffix.mpr hab
    revert this
    cases a <;> cases b <;> decide
  have e : c = c' := by
    rcases le_total ("': ".toList ++ c.text).length ("': ".toList ++ c'.text).length with hl | hl
    · exact key _ _ (List.suffix_of_suffix_length_le s1 s2 hl)
    · exact (key _ _ (List.suffix_of_suffix_length_le s2 s1 hl)).symm
  subst e
  rw [List.append_assoc, List.append_assoc] at h
  exact ⟨List.append_cancel_right h, rfl⟩

/-- **C104.** The message tells what was wrong: two faults with the same line on standard error are the same, down to the option
or the text that was refused and the reason. -/
theorem C104_messages_distinct (a b : Fault) (ha : ∀ m, a = .usage (.bail m) → m ∈ bails) (hb : ∀ m, b = .usage (.bail m) → m ∈ bails)
    (h : errorLine a.text = errorLine b.text) : a = b := by
  have h : a.text = b.text := by
    unfold errorLine at h
    exact List.append_cancel_left (List.append_cancel_right h)
  have hh : a.text.head? = b.text.head? := by rw [h]
  have hl : a.text.getLast? = b.text.getLast? := by rw [h]
  have t1 : ∀ k, (OsError.missing k).text.head? = some 't' := fun k => rfl
  have t2 : ∀ k, (OsError.noValue k).text.head? = some 't' := fun k => rfl
  have t3 : ∀ v c, (OsError.parseFailed v c).text.head? = some 'f' := fun v c => rfl
  have t4 : OsError.nonUtf8.text.head? = some 'a' := rfl
  have t5 : ∀ m ∈ bails, m.head? = some 'S' ∨ m.head? = some 'I' ∨ m.head? = some 'U' := by decide
  have t6 : ∀ e : CalendarError, e.text.head? = some 'b' := by intro e; cases e <;> rfl
  have l1 : ∀ k, (OsError.missing k).text.getLast? = some 't' := by
    intro k; unfold OsError.text; rw [List.getLast?_append]; rfl
  have l2 : ∀ k, (OsError.noValue k).text.getLast? = some 'e' := by
    intro k; unfold OsError.text; rw [List.getLast?_append]; rfl
  have inj5 : ∀ m ∈ bails, ∀ m' ∈ bails, m = m' ∨ m ≠ m' := by decide
  have inj6 : ∀ e e' : CalendarError, e.text = e'.text → e = e' := by
    intro e e' he
    cases e <;> cases e' <;> first | rfl | exact absurd he (by decide)
  cases a with
  | usage a =>
    cases b with
    | usage b =>
      congr 1
      change a.text = b.text at h
      change a.text.head? = b.text.head? at hh
      change a.text.getLast? = b.text.getLast? at hl
      cases a with
      | nonUtf8 =>
        cases b with
        | nonUtf8 => rfl
        | missing k => rw [t4, t1] at hh; exact absurd hh (by decide)
        | noValue k => rw [t4, t2] at hh; exact absurd hh (by decide)
        | parseFailed v c => rw [t4, t3] at hh; exact absurd hh (by decide)
        | bail m =>
          rw [t4] at hh
          change _ = m.head? at hh
          rcases t5 m (hb m rfl) with k | k | k <;> rw [k] at hh <;> exact absurd hh (by decide)
      | missing k =>
        cases b with
        | nonUtf8 => rw [t4, t1] at hh; exact absurd hh (by decide)
        | missing k' =>
          unfold OsError.text at h
          rw [List.append_cancel_left (List.append_cancel_right h)]
        | noValue k' => rw [l1, l2] at hl; exact absurd hl (by decide)
        | parseFailed v c => rw [t1, t3] at hh; exact absurd hh (by decide)
        | bail m =>
          rw [t1] at hh
          change _ = m.head? at hh
          rcases t5 m (hb m rfl) with k | k | k <;> rw [k] at hh <;> exact absurd hh (by decide)
      | noValue k =>
        cases b with
        | nonUtf8 => rw [t4, t2] at hh; exact absurd hh (by decide)
        | missing k' => rw [l1, l2] at hl; exact absurd hl (by decide)
        | noValue k' =>
          unfold OsError.text at h
          rw [List.append_cancel_left (List.append_cancel_right h)]
        | parseFailed v c => rw [t2, t3] at hh; exact absurd hh (by decide)
        | bail m =>
          rw [t2] at hh
          change _ = m.head? at hh
          rcases t5 m (hb m rfl) with k | k | k <;> rw [k] at hh <;> exact absurd hh (by decide)
      | parseFailed v c =>
        cases b with
        | nonUtf8 => rw [t4, t3] at hh; exact absurd hh (by decide)
        | missing k' => rw [t1, t3] at hh; exact absurd hh (by decide)
        | noValue k' => rw [t2, t3] at hh; exact absurd hh (by decide)
        | parseFailed v' c' =>
          unfold OsError.text at h
          simp only [List.append_assoc] at h
          have := List.append_cancel_left h
          simp only [← List.append_assoc] at this
          obtain ⟨rfl, rfl⟩ := cause_unique this
          rfl
        | bail m =>
          rw [t3] at hh
          change _ = m.head? at hh
          rcases t5 m (hb m rfl) with k | k | k <;> rw [k] at hh <;> exact absurd hh (by decide)
      | bail m =>
        have km := t5 m (ha m rfl)
        change m.head? = _ at hh
        cases b with
        | nonUtf8 => rw [t4] at hh; rcases km with k | k | k <;> rw [k] at hh <;> exact absurd hh (by decide)
        | missing k' => rw [t1] at hh; rcases km with k | k | k <;> rw [k] at hh <;> exact absurd hh (by decide)
        | noValue k' => rw [t2] at hh; rcases km with k | k | k <;> rw [k] at hh <;> exact absurd hh (by decide)
        | parseFailed v c => rw [t3] at hh; rcases km with k | k | k <;> rw [k] at hh <;> exact absurd hh (by decide)
        | bail m' => exact congrArg _ h
    | calendar b =>
      exfalso
      change a.text.head? = b.text.head? at hh
      rw [t6] at hh
      cases a with
      | nonUtf8 => exact absurd hh (by decide)
      | missing k => rw [t1] at hh; exact absurd hh (by decide)
      | noValue k => rw [t2] at hh; exact absurd hh (by decide)
      | parseFailed v c => rw [t3] at hh; exact absurd hh (by decide)
      | bail m =>
        change m.head? = _ at hh
        rcases t5 m (ha m rfl) with k | k | k <;> rw [k] at hh <;> exact absurd hh (by decide)
  | calendar a =>
    cases b with
    | calendar b => exact congrArg _ (inj6 a b h)
    | usage b =>
      exfalso
      change a.text.head? = b.text.head? at hh
      rw [t6] at hh
      cases b with
      | nonUtf8 => exact absurd hh (by decide)
      | missing k => rw [t1] at hh; exact absurd hh (by decide)
      | noValue k => rw [t2] at hh; exact absurd hh (by decide)
      | parseFailed v c => rw [t3] at hh; exact absurd hh (by decide)
      | bail m =>
        change _ = m.head? at hh
        rcases t5 m (hb m rfl) with k | k | k <;> rw [k] at hh <;> exact absurd hh (by decide)

example : errorLine (Fault.usage (.parseFailed "a': b".toList .invalidDigit)).text =
    "Error: failed to parse 'a': b': invalid digit found in string\n".toList ∧ "Invalid extra arguments".toList ∈ bails := by decide

/-! ## The same programs as in C87 -/

/-- The error of `Model/Args` that an error stands for. -/
def OsError.usage : OsError → UsageError
  | .nonUtf8 => .extra
  | .missing k => .missing k
  | .noValue k => .noValue k
  | .parseFailed v _ => .badValue v
  | .bail m => if m = "Specify gregorian or julian".toList then .subcommand else .extra

/-- A computation on texts and one on arguments that do the same. -/
def Sim {β : Type} (m : OsCli β) (m' : Cli β) : Prop := ∀ a : Args,
  (∀ x a', m' a = .ok (x, a') → m (a.map some) = .ok (x, a'.map some)) ∧
  (∀ e, m' a = .error e → ∃ e', m (a.map some) = .error e' ∧ e'.usage = e)

theorem os_bind_ok {β γ : Type} {m : OsCli β} {f : β → OsCli γ} {a a' : List OsArg} {x : β} (h : m a = .ok (x, a')) :
    (m >>= f) a = f x a' := by
  show Except.bind (m a) _ = _
  rw [h]; rfl

theorem os_bind_error {β γ : Type} {m : OsCli β} {f : β → OsCli γ} {a : List OsArg} {e : OsError} (h : m a = .error e) :
    (m >>= f) a = .error e := by
  show Except.bind (m a) _ = _
  rw [h]; rfl

theorem Sim.bind {β γ : Type} {m : OsCli β} {m' : Cli β} {f : β → OsCli γ} {f' : β → Cli γ} (h : Sim m m') (k : ∀ x, Sim (f x) (f' x)) :
    Sim (m >>= f) (m' >>= f') := by
  intro a
  cases hm : m' a with
  | error e =>
    obtain ⟨e', h1, h2⟩ := (h a).2 e hm
    rw [bind_error hm, os_bind_error h1]
    exact ⟨fun x a' h => (by cases h), fun e0 h0 => ⟨e', rfl, by rw [h2]; exact Except.error.inj h0⟩⟩
  | ok s =>
    obtain ⟨x, a'⟩ := s
    rw [bind_ok hm, os_bind_ok ((h a).1 x a' hm)]
    exact k x a'

theorem Sim.pure {β : Type} (x : β) : Sim (Pure.pure x) (Pure.pure x) := fun a =>
  ⟨fun y a' h => (by cases h; rfl), fun e h => by cases h⟩

theorem osSplit_map (key : List Char) (a : Args) :
    osSplit key (a.map some) = (splitKey key a).map fun s => (s.1.map some, s.2.map some) := by
  induction a with
  | nil => rfl
  | cons x r ih =>
    show (if some x = some key then _ else _) = _
    unfold splitKey
    by_cases h : x = key
    · rw [if_pos (by rw [h]), if_pos h]; rfl
    · rw [if_neg (by simpa using h), if_neg h, ih]
      cases splitKey key r <;> rfl

theorem Sim.opt {β : Type} {parse : List Char → Option β} {parse' : List Char → Except ParseFail β}
    (hp : ∀ l x, parse' l = .ok x ↔ parse l = some x) (key : String) : Sim (osOpt parse' key) (optValue parse key) := by
  intro a
  unfold osOpt optValue
  rw [osSplit_map]
  cases h : splitKey key.toList a with
  | none =>
    refine ⟨fun x a' h => ?_, fun e h => (by cases h)⟩
    cases h; rfl
  | some s =>
    obtain ⟨b, r⟩ := s
    cases r with
    | nil =>
      refine ⟨fun x a' h => (by cases h), fun e h => ?_⟩
      cases h; exact ⟨_, rfl, rfl⟩
    | cons v r =>
      simp only [Option.map_some, List.map_cons]
      cases hv : parse v with
      | none =>
        cases hv' : parse' v with
        | ok y => rw [(hp v y).mp hv'] at hv; cases hv
        | error c =>
          refine ⟨fun x a' h => (by cases h), fun e h => ?_⟩
          cases h; exact ⟨_, rfl, rfl⟩
      | some y =>
        rw [(hp v y).mpr hv]
        refine ⟨fun x a' h => ?_, fun e h => (by cases h)⟩
        cases h; simp

theorem Sim.req {β : Type} {parse : List Char → Option β} {parse' : List Char → Except ParseFail β}
    (hp : ∀ l x, parse' l = .ok x ↔ parse l = some x) (key : String) : Sim (osReq parse' key) (reqValue parse key) := by
  refine (Sim.opt hp key).bind fun o => ?_
  cases o with
  | none => exact fun a => ⟨fun x a' h => (by cases h), fun e h => by cases h; exact ⟨_, rfl, rfl⟩⟩
  | some y => exact Sim.pure y

theorem Sim.flag (key : String) : Sim (osFlag key) (hasFlag key) := by
  intro a
  unfold osFlag hasFlag
  rw [osSplit_map]
  cases h : splitKey key.toList a with
  | none =>
    refine ⟨fun x a' h => ?_, fun e h => (by cases h)⟩
    cases h; rfl
  | some s =>
    refine ⟨fun x a' h => ?_, fun e h => (by cases h)⟩
    cases h; simp

theorem Sim.finish {m : String} (hm : m.toList ≠ "Specify gregorian or julian".toList) : Sim (osFinish m) finish := by
  intro a
  unfold osFinish Verif.finish
  by_cases h : a = []
  · subst h
    refine ⟨fun x a' h => ?_, fun e h => ?_⟩
    · cases h; rfl
    · simp at h
  · rw [if_neg h, if_neg (by simpa using h)]
    refine ⟨fun x a' h => (by cases h), fun e h => ?_⟩
    cases h
    exact ⟨_, rfl, if_neg hm⟩

theorem sim_i32 : ∀ l x, fromStrI32 l = .ok x ↔ parseI32 l = some x := fun l => (C104_same_numbers l).1
theorem sim_u8 : ∀ l x, fromStrU8 l = .ok x ↔ parseU8 l = some x := fun l => (C104_same_numbers l).2.1
theorem sim_f64 : ∀ l x, fromStrF64 l = .ok x ↔ parseF64 l = some x := fun l => (C104_same_numbers l).2.2

theorem sim_gregorian : Sim osGregorian gregorianArgs := by
  refine (Sim.req sim_i32 _).bind fun _ => (Sim.req sim_i32 _).bind fun _ => (Sim.req sim_i32 _).bind fun _ =>
    (Sim.opt sim_u8 _).bind fun _ => (Sim.opt sim_u8 _).bind fun _ => (Sim.opt sim_f64 _).bind fun _ => Sim.pure _

theorem sim_julian : Sim osJulian julianArgs := by
  refine (Sim.req sim_f64 _).bind fun _ => (Sim.opt sim_f64 _).bind fun _ => (Sim.finish (by decide)).bind fun _ => Sim.pure _

theorem sim_sunAngle : Sim osSunAngle sunAngleArgs := by
  refine (Sim.opt sim_i32 _).bind fun _ => (Sim.opt sim_i32 _).bind fun _ => (Sim.opt sim_i32 _).bind fun _ =>
    (Sim.opt sim_u8 _).bind fun _ => (Sim.opt sim_u8 _).bind fun _ => (Sim.opt sim_f64 _).bind fun _ =>
    (Sim.opt sim_f64 _).bind fun _ => (Sim.opt sim_f64 _).bind fun _ => (Sim.opt sim_f64 _).bind fun _ =>
    (Sim.opt sim_f64 _).bind fun _ => (Sim.opt sim_f64 _).bind fun _ => (Sim.opt sim_f64 _).bind fun _ =>
    (Sim.flag _).bind fun _ => (Sim.finish (by decide)).bind fun _ => Sim.pure _

theorem os_map_ok {β γ : Type} {m : Except OsError β} {f : β → γ} {x : β} (h : m = .ok x) : m.map f = .ok (f x) := by rw [h]; rfl
theorem os_map_error {β γ : Type} {m : Except OsError β} {f : β → γ} {e : OsError} (h : m = .error e) : m.map f = .error e := by rw [h]; rfl

theorem sim_map {β γ : Type} {m : OsCli β} {m' : Cli β} (hs : Sim m m') (f : β → γ) (r : Args) :
    (∀ y, (m'.run r).map (fun s => f s.1) = .ok y → (m.run (r.map some)).map (fun s => f s.1) = .ok y) ∧
    (∀ e, (m'.run r).map (fun s => f s.1) = .error e → ∃ e' : OsError, (m.run (r.map some)).map (fun s => f s.1) = .error e' ∧ e'.usage = e) := by
  change (∀ y, (m' r).map (fun s => f s.1) = .ok y → (m (r.map some)).map (fun s => f s.1) = .ok y) ∧
    (∀ e, (m' r).map (fun s => f s.1) = .error e → ∃ e' : OsError, (m (r.map some)).map (fun s => f s.1) = .error e' ∧ e'.usage = e)
  cases hm : m' r with
  | ok s =>
    rw [os_map_ok ((hs r).1 s.1 s.2 hm)]
    refine ⟨fun y h => ?_, fun e h => (by cases h)⟩
    cases h; rfl
  | error e =>
    obtain ⟨e', k1, k2⟩ := (hs r).2 e hm
    rw [os_map_error k1]
    refine ⟨fun y h => (by cases h), fun e0 h => ?_⟩
    cases h; exact ⟨e', rfl, k2⟩

/-- **C104.** On arguments that are texts the processes are the programs of C87: the same output where these run, an error line, no
output and status 1 where they end with an error. -/
theorem C104_text_arguments [Libm F64] (pt : Panic → List Char) (p : Profile) (a : Args) (n : ℕ) :
    (∀ r, julianToolMain p a = .ok r → julianToolProcess pt p (a.map some) = r.outcome pt) ∧
    (∀ e, julianToolMain p a = .error e → ∃ e' : OsError, julianToolProcess pt p (a.map some) = ⟨[], errorLine e'.text, 1⟩ ∧ e'.usage = e) ∧
    (∀ r, sunAngleToolMain p a n = .ok r → sunAngleToolProcess pt p (a.map some) n = r.map (Run.outcome pt)) ∧
    (∀ e, sunAngleToolMain p a n = .error e → ∃ e' : OsError, sunAngleToolProcess pt p (a.map some) n = some ⟨[], errorLine e'.text, 1⟩ ∧ e'.usage = e) := by
  have J : (∀ r, julianToolMain p a = .ok r → julianToolRun p (a.map some) = .ok r) ∧
      (∀ e, julianToolMain p a = .error e → ∃ e' : OsError, julianToolRun p (a.map some) = .error e' ∧ e'.usage = e) := by
    cases a with
    | nil =>
      refine ⟨fun r h => (by cases h), fun e h => ?_⟩
      cases h
      exact ⟨.bail "Specify gregorian or julian".toList, rfl, rfl⟩
    | cons c r =>
      by_cases hd : c.head? = some '-'
      · have e1 : julianToolMain p (c :: r) = .error .subcommand := by
          unfold julianToolMain subcommand
          simp only [if_pos hd]
        have e2 : julianToolRun p ((c :: r).map some) = .error (.bail "Specify gregorian or julian".toList) := by
          unfold julianToolRun
          rw [List.map_cons]
          unfold osSubcommand
          simp only [if_pos hd]
          rfl
        rw [e1, e2]
        refine ⟨fun r h => (by cases h), fun e h => ?_⟩
        cases h
        exact ⟨_, rfl, rfl⟩
      · have e1 : julianToolMain p (c :: r) = if c = "gregorian".toList ∨ c = "g".toList then
              (gregorianArgs.run r).map fun s => julianToolGregorian p s.1.year s.1.month s.1.day s.1.hour s.1.minute s.1.second
            else if c = "julian".toList ∨ c = "j".toList then
              (julianArgs.run r).map fun s => julianToolJulian shortest p s.1.1 s.1.2
            else .error .subcommand := by
          unfold julianToolMain subcommand
          simp only [if_neg hd]
        have e2 : julianToolRun p ((c :: r).map some) = if c = "gregorian".toList ∨ c = "g".toList then
              (osGregorian.run (r.map some)).map fun s => julianToolGregorian p s.1.year s.1.month s.1.day s.1.hour s.1.minute s.1.second
            else if c = "julian".toList ∨ c = "j".toList then
              (osJulian.run (r.map some)).map fun s => julianToolJulian shortest p s.1.1 s.1.2
            else .error (.bail "Specify gregorian or julian".toList) := by
          unfold julianToolRun
          rw [List.map_cons]
          unfold osSubcommand
          simp only [if_neg hd]
          rfl
        rw [e1, e2]
        by_cases hg : c = "gregorian".toList ∨ c = "g".toList
        · rw [if_pos hg, if_pos hg]
          exact sim_map sim_gregorian (fun s => julianToolGregorian p s.year s.month s.day s.hour s.minute s.second) r
        · rw [if_neg hg, if_neg hg]
          by_cases hj : c = "julian".toList ∨ c = "j".toList
          · rw [if_pos hj, if_pos hj]
            exact sim_map sim_julian (fun s => julianToolJulian shortest p s.1 s.2) r
          · rw [if_neg hj, if_neg hj]
            refine ⟨fun r h => (by cases h), fun e h => ?_⟩
            cases h; exact ⟨_, rfl, rfl⟩
  refine ⟨fun r h => ?_, fun e h => ?_, fun r h => ?_, fun e h => ?_⟩
  · unfold julianToolProcess; rw [J.1 r h]
  · obtain ⟨e', k1, k2⟩ := J.2 e h
    refine ⟨e', ?_, k2⟩
    unfold julianToolProcess; rw [k1]
  · change (sunAngleArgs a).map _ = _ at h
    cases hm : sunAngleArgs a with
    | error e => rw [hm] at h; cases h
    | ok s =>
      rw [hm] at h
      cases h
      unfold sunAngleToolProcess
      have : osSunAngle.run (a.map some) = _ := (sim_sunAngle a).1 s.1 s.2 hm
      rw [this]
  · change (sunAngleArgs a).map _ = _ at h
    cases hm : sunAngleArgs a with
    | ok s => rw [hm] at h; cases h
    | error e0 =>
      rw [hm] at h
      cases h
      obtain ⟨e', k1, k2⟩ := (sim_sunAngle a).2 e hm
      refine ⟨e', ?_, k2⟩
      unfold sunAngleToolProcess
      have : osSunAngle.run (a.map some) = _ := k1
      rw [this]

/-- Both cases occur. -/
example : (∃ r, julianToolMain .checked ["g".toList, "--year".toList, "2000".toList, "--month".toList, "1".toList, "--day".toList, "1".toList] = .ok r) ∧
    julianToolMain .checked ["g".toList, "--year".toList, "x".toList] = .error (.badValue "x".toList) :=
  ⟨⟨_, rfl⟩, by rfl⟩

/-! ## Which error is reported -/

/-- An option with its value, which may be no text, or a flag. -/
abbrev OsItem := List Char × Option OsArg

def osFlat (items : List OsItem) : List OsArg := items.flatMap fun it => some it.1 :: it.2.toList

/-- No option is given twice, no value is the name of an option of the program, and the options in `V` have values. -/
structure OsWellFormed (K V : List (List Char)) (items : List OsItem) : Prop where
  once : (items.map Prod.fst).Nodup
  values : ∀ it ∈ items, ∀ k ∈ K, it.2 ≠ some (some k)
  valued : ∀ it ∈ items, it.1 ∈ V → it.2 ≠ none

/-- What is wrong with an option, if anything. -/
def trouble {β : Type} (items : List OsItem) (required : Bool) (parse : List Char → Except ParseFail β) (key : String) : Option OsError :=
  match items.find? fun it => it.1 = key.toList with
  | none => if required then some (.missing key.toList) else none
  | some (_, none) => some (.noValue key.toList)
  | some (_, some none) => some .nonUtf8
  | some (_, some (some v)) =>
    match parse v with
    | .error c => some (.parseFailed v c)
    | .ok _ => none

/-- The first trouble. -/
def firstOf (l : List (Option OsError)) : Option OsError := l.findSome? id

/-- The error of a computation. -/
def failure {γ : Type} : Except OsError γ → Option OsError
  | .error e => some e
  | .ok _ => none

def osLeft (read : List (List Char)) (items : List OsItem) : List OsItem := items.filter fun it => it.1 ∉ read

theorem osFlat_cons (it : OsItem) (r : List OsItem) : osFlat (it :: r) = some it.1 :: (it.2.toList ++ osFlat r) := rfl

theorem osFlat_append (A B : List OsItem) : osFlat (A ++ B) = osFlat A ++ osFlat B := by simp [osFlat]

theorem osSplit_none {key : List Char} {items : List OsItem} (hv : ∀ it ∈ items, it.2 ≠ some (some key)) (hk : ∀ it ∈ items, it.1 ≠ key) :
    osSplit key (osFlat items) = none := by
  induction items with
  | nil => rfl
  | cons it r ih =>
    have ih := ih (fun it h => hv it (by simp [h])) (fun it h => hk it (by simp [h]))
    have h1 := hk it (by simp)
    have h2 := hv it (by simp)
    rw [osFlat_cons]
    obtain ⟨k, o⟩ := it
    simp only at h1 h2
    cases o with
    | none => simp [osSplit, h1, ih]
    | some v =>
      have : v ≠ some key := fun h => h2 (by rw [h])
      simp [osSplit, h1, this, ih]

theorem osSplit_some {key : List Char} {A : List OsItem} (o : Option OsArg) (B : List OsItem)
    (hv : ∀ it ∈ A, it.2 ≠ some (some key)) (hk : ∀ it ∈ A, it.1 ≠ key) :
    osSplit key (osFlat (A ++ (key, o) :: B)) = some (osFlat A, o.toList ++ osFlat B) := by
  induction A with
  | nil => simp [osSplit, osFlat]
  | cons it r ih =>
    have ih := ih (fun it h => hv it (by simp [h])) (fun it h => hk it (by simp [h]))
    have h1 := hk it (by simp)
    have h2 := hv it (by simp)
    rw [List.cons_append, osFlat_cons, osFlat_cons]
    obtain ⟨k, o'⟩ := it
    simp only at h1 h2
    cases o' with
    | none => simp [osSplit, h1, ih]
    | some v =>
      have : v ≠ some key := fun h => h2 (by rw [h])
      simp [osSplit, h1, this, ih]

/-- Where an option stands among those left over. -/
theorem osLeft_split {items : List OsItem} (h : (items.map Prod.fst).Nodup) {read : List (List Char)} {key : List Char} (hr : key ∉ read) :
    (items.find? (fun it => it.1 = key) = none ∧ (∀ it ∈ osLeft read items, it.1 ≠ key) ∧ osLeft (key :: read) items = osLeft read items) ∨
    ∃ o A B, items.find? (fun it => it.1 = key) = some (key, o) ∧ (key, o) ∈ items ∧ osLeft read items = A ++ (key, o) :: B ∧ (∀ it ∈ A, it.1 ≠ key) ∧
      osLeft (key :: read) items = A ++ B := by
  induction items with
  | nil => left; exact ⟨rfl, by simp [osLeft], rfl⟩
  | cons it r ih =>
    rw [List.map_cons, List.nodup_cons] at h
    obtain ⟨k, o⟩ := it
    by_cases hk : k = key
    · subst hk
      right
      have hB : ∀ it ∈ r, it.1 ≠ k := by
        intro it hi e
        apply h.1
        rw [show ((k, o) : OsItem).1 = it.1 from e.symm]
        exact List.mem_map_of_mem hi
      refine ⟨o, [], osLeft read r, by simp, by simp, ?_, by simp, ?_⟩
      · unfold osLeft; rw [List.filter_cons_of_pos (by simpa using hr)]; rfl
      · unfold osLeft
        rw [List.filter_cons_of_neg (by simp), List.nil_append]
        apply List.filter_congr
        intro it hi
        simp [hB it hi]
    · have hf : (List.find? (fun it => it.1 = key) ((k, o) :: r)) = r.find? fun it => it.1 = key := by
        rw [List.find?_cons_of_neg (by simpa using hk)]
      rw [hf]
      have c1 : ∀ read, osLeft read ((k, o) :: r) = if k ∈ read then osLeft read r else (k, o) :: osLeft read r := by
        intro read
        unfold osLeft
        by_cases hm : k ∈ read
        · rw [if_pos hm, List.filter_cons_of_neg (by simpa using hm)]
        · rw [if_neg hm, List.filter_cons_of_pos (by simpa using hm)]
      have hm : k ∈ key :: read ↔ k ∈ read := by simp [hk]
      rcases ih h.2 with ⟨i1, i2, i3⟩ | ⟨o', A, B, i1, i2, i3, i4, i5⟩
      · left
        refine ⟨i1, ?_, ?_⟩
        · rw [c1]
          intro it hi
          split at hi
          · exact i2 it hi
          · rcases List.mem_cons.mp hi with rfl | hi
            · exact hk
            · exact i2 it hi
        · rw [c1, c1, i3]; simp only [hm]
      · right
        by_cases hkr : k ∈ read
        · exact ⟨o', A, B, i1, List.mem_cons_of_mem _ i2, by rw [c1, if_pos hkr, i3], i4, by rw [c1, if_pos (hm.mpr hkr), i5]⟩
        · refine ⟨o', (k, o) :: A, B, i1, List.mem_cons_of_mem _ i2, by rw [c1, if_neg hkr, i3]; rfl, ?_, by
            rw [c1, if_neg (by rw [hm]; exact hkr), i5]; rfl⟩
          intro it hi
          rcases List.mem_cons.mp hi with rfl | hi
          · exact hk
          · exact i4 it hi

/-- Reading one option. -/
theorem osOpt_left {β : Type} {K V : List (List Char)} {items : List OsItem} (hw : OsWellFormed K V items) (parse : List Char → Except ParseFail β)
    (key : String) (read : List (List Char)) (hK : key.toList ∈ K) (hV : key.toList ∈ V) (hr : key.toList ∉ read) :
    (∀ e, trouble items false parse key = some e → osOpt parse key (osFlat (osLeft read items)) = .error e) ∧
    (trouble items false parse key = none → ∃ o, osOpt parse key (osFlat (osLeft read items)) = .ok (o, osFlat (osLeft (key.toList :: read) items)) ∧
      (o = none ↔ items.find? (fun it => it.1 = key.toList) = none)) := by
  have hv : ∀ it ∈ items, it.2 ≠ some (some key.toList) := fun it hi => hw.values it hi _ hK
  have hvl : ∀ it ∈ osLeft read items, it.2 ≠ some (some key.toList) := fun it hi => hv it (List.mem_of_mem_filter hi)
  unfold trouble osOpt
  rcases osLeft_split hw.once hr with ⟨i1, i2, i3⟩ | ⟨o, A, B, i1, i2, i3, i4, i5⟩
  · rw [i1, osSplit_none hvl i2, i3]
    refine ⟨fun e h => by simp at h, fun _ => ⟨none, rfl, by simp⟩⟩
  · rw [i3] at hvl
    rw [i1, i3, osSplit_some o B (fun it hi => hvl it (by simp [hi])) i4, i5]
    cases o with
    | none => exact absurd rfl (hw.valued _ i2 hV)
    | some v =>
      cases v with
      | none => exact ⟨fun e h => (by cases h; rfl), fun h => by cases h⟩
      | some v =>
        simp only [Option.toList_some, List.cons_append, List.nil_append]
        cases parse v with
        | error c => exact ⟨fun e h => (by cases h; rfl), fun h => by cases h⟩
        | ok y => exact ⟨fun e h => (by cases h), fun _ => ⟨some y, by rw [osFlat_append], by simp⟩⟩

theorem osReq_left {β : Type} {K V : List (List Char)} {items : List OsItem} (hw : OsWellFormed K V items) (parse : List Char → Except ParseFail β)
    (key : String) (read : List (List Char)) (hK : key.toList ∈ K) (hV : key.toList ∈ V) (hr : key.toList ∉ read) :
    (∀ e, trouble items true parse key = some e → osReq parse key (osFlat (osLeft read items)) = .error e) ∧
    (trouble items true parse key = none → ∃ y, osReq parse key (osFlat (osLeft read items)) = .ok (y, osFlat (osLeft (key.toList :: read) items))) := by
  obtain ⟨h1, h2⟩ := osOpt_left hw parse key read hK hV hr
  unfold osReq
  cases hf : items.find? fun it => it.1 = key.toList with
  | none =>
    have t1 : trouble items true parse key = some (.missing key.toList) := by unfold trouble; rw [hf]; rfl
    have t0 : trouble items false parse key = none := by unfold trouble; rw [hf]; rfl
    obtain ⟨o, k1, k2⟩ := h2 t0
    have := k2.mpr hf
    subst this
    rw [t1, os_bind_ok k1]
    exact ⟨fun e h => (by cases h; rfl), fun h => by cases h⟩
  | some it =>
    have tt : trouble items true parse key = trouble items false parse key := by
      unfold trouble; rw [hf]; obtain ⟨_, o⟩ := it; cases o with
      | none => rfl
      | some v => cases v <;> rfl
    rw [tt]
    refine ⟨fun e h => os_bind_error (h1 e h), fun h => ?_⟩
    obtain ⟨o, k1, k2⟩ := h2 h
    cases o with
    | none => rw [k2.mp rfl] at hf; cases hf
    | some y => exact ⟨y, by rw [os_bind_ok k1]; rfl⟩

/-- One step of reading. -/
theorem failure_bind {β γ : Type} {m : OsCli β} {f : β → OsCli γ} {a a' : List OsArg} {t rest : Option OsError}
    (h1 : ∀ e, t = some e → m a = .error e) (h2 : t = none → ∃ x, m a = .ok (x, a')) (k : ∀ x, failure (f x a') = rest) :
    failure ((m >>= f) a) = t.or rest := by
  cases t with
  | some e => rw [os_bind_error (h1 e rfl)]; rfl
  | none =>
    obtain ⟨x, hx⟩ := h2 rfl
    rw [os_bind_ok hx, k x]; rfl

theorem firstOf_cons (t : Option OsError) (l : List (Option OsError)) : firstOf (t :: l) = t.or (firstOf l) := by
  cases t <;> rfl

theorem osLeft_nil (items : List OsItem) : osLeft [] items = items := by simp [osLeft]

theorem osFlat_eq_nil {items : List OsItem} : osFlat items = [] ↔ items = [] := by
  cases items with
  | nil => simp [osFlat]
  | cons it r => simp [osFlat]

/-- The options of `julian_tool gregorian` in the order in which it reads them, with what is wrong with each. -/
def gregorianTroubles (items : List OsItem) : List (Option OsError) :=
  [trouble items true fromStrI32 "--year", trouble items true fromStrI32 "--month", trouble items true fromStrI32 "--day",
    trouble items false fromStrU8 "--hour", trouble items false fromStrU8 "--minute", trouble items false fromStrF64 "--second"]

/-- The same for `julian_tool julian`. -/
def julianTroubles (items : List OsItem) : List (Option OsError) :=
  [trouble items true fromStrF64 "--jd", trouble items false fromStrF64 "--jd2",
    if ∀ it ∈ items, it.1 ∈ julianKeys then none else some (.bail "Invalid extra arguments".toList)]

/-- The same for `sun_angle_tool`. -/
def sunAngleTroubles (items : List OsItem) : List (Option OsError) :=
  [trouble items false fromStrI32 "--year", trouble items false fromStrI32 "--month", trouble items false fromStrI32 "--day",
    trouble items false fromStrU8 "--hour", trouble items false fromStrU8 "--min", trouble items false fromStrF64 "--sec",
    trouble items false fromStrF64 "--lat", trouble items false fromStrF64 "--lon", trouble items false fromStrF64 "--height",
    trouble items false fromStrF64 "--delta0", trouble items false fromStrF64 "--delta1", trouble items false fromStrF64 "--delta_step",
    if ∀ it ∈ items, it.1 ∈ "--scan".toList :: sunAngleKeys then none else some (.bail "Unhandled extra arguments".toList)]

theorem opt_step {β γ : Type} {K V : List (List Char)} {items : List OsItem} (hw : OsWellFormed K V items) (parse : List Char → Except ParseFail β)
    (key : String) (read : List (List Char)) (hK : key.toList ∈ K) (hV : key.toList ∈ V) (hr : key.toList ∉ read) {f : Option β → OsCli γ}
    {rest : List (Option OsError)} (k : ∀ x, failure (f x (osFlat (osLeft (key.toList :: read) items))) = firstOf rest) :
    failure ((osOpt parse key >>= f) (osFlat (osLeft read items))) = firstOf (trouble items false parse key :: rest) := by
  obtain ⟨h1, h2⟩ := osOpt_left hw parse key read hK hV hr
  rw [firstOf_cons]
  exact failure_bind h1 (fun h => let ⟨o, k1, _⟩ := h2 h; ⟨o, k1⟩) k

theorem req_step {β γ : Type} {K V : List (List Char)} {items : List OsItem} (hw : OsWellFormed K V items) (parse : List Char → Except ParseFail β)
    (key : String) (read : List (List Char)) (hK : key.toList ∈ K) (hV : key.toList ∈ V) (hr : key.toList ∉ read) {f : β → OsCli γ}
    {rest : List (Option OsError)} (k : ∀ x, failure (f x (osFlat (osLeft (key.toList :: read) items))) = firstOf rest) :
    failure ((osReq parse key >>= f) (osFlat (osLeft read items))) = firstOf (trouble items true parse key :: rest) := by
  obtain ⟨h1, h2⟩ := osReq_left hw parse key read hK hV hr
  rw [firstOf_cons]
  exact failure_bind h1 h2 k

theorem finish_step {γ : Type} {items : List OsItem} (message : String) (read keys : List (List Char)) (hk : ∀ x, x ∈ read ↔ x ∈ keys) (x : γ) :
    failure ((osFinish message >>= fun _ => (pure x : OsCli γ)) (osFlat (osLeft read items))) =
      firstOf [if ∀ it ∈ items, it.1 ∈ keys then none else some (.bail message.toList)] := by
  have e : osFlat (osLeft read items) = [] ↔ ∀ it ∈ items, it.1 ∈ keys := by
    rw [osFlat_eq_nil]
    unfold osLeft
    rw [List.filter_eq_nil_iff]
    simp [hk]
  by_cases h : ∀ it ∈ items, it.1 ∈ keys
  · rw [if_pos h, e.mpr h]; rfl
  · rw [if_neg h]
    have : osFinish message (osFlat (osLeft read items)) = .error (.bail message.toList) := by
      unfold osFinish; rw [if_neg (by rw [e]; exact h)]
    rw [os_bind_error this]; rfl

theorem gregorian_failure {items : List OsItem} (hw : OsWellFormed gregorianKeys gregorianKeys items) :
    failure (osGregorian (osFlat items)) = firstOf (gregorianTroubles items) := by
  unfold osGregorian gregorianTroubles
  conv_lhs => rw [← osLeft_nil items]
  refine req_step hw _ _ _ (by decide) (by decide) (by decide) fun _ => ?_
  refine req_step hw _ _ _ (by decide) (by decide) (by decide) fun _ => ?_
  refine req_step hw _ _ _ (by decide) (by decide) (by decide) fun _ => ?_
  refine opt_step hw _ _ _ (by decide) (by decide) (by decide) fun _ => ?_
  refine opt_step hw _ _ _ (by decide) (by decide) (by decide) fun _ => ?_
  refine opt_step hw _ _ _ (by decide) (by decide) (by decide) fun _ => ?_
  rfl

theorem julian_failure {items : List OsItem} (hw : OsWellFormed julianKeys julianKeys items) :
    failure (osJulian (osFlat items)) = firstOf (julianTroubles items) := by
  unfold osJulian julianTroubles
  conv_lhs => rw [← osLeft_nil items]
  refine req_step hw _ _ _ (by decide) (by decide) (by decide) fun _ => ?_
  refine opt_step hw _ _ _ (by decide) (by decide) (by decide) fun _ => ?_
  exact finish_step _ _ _ (by intro x; simp [julianKeys]; tauto) _

theorem osFlag_left {K V : List (List Char)} {items : List OsItem} (hw : OsWellFormed K V items) (key : String) (read : List (List Char))
    (hK : key.toList ∈ K) (hr : key.toList ∉ read) (hF : ∀ it ∈ items, it.1 = key.toList → it.2 = none) :
    ∃ b, osFlag key (osFlat (osLeft read items)) = .ok (b, osFlat (osLeft (key.toList :: read) items)) := by
  have hv : ∀ it ∈ items, it.2 ≠ some (some key.toList) := fun it hi => hw.values it hi _ hK
  have hvl : ∀ it ∈ osLeft read items, it.2 ≠ some (some key.toList) := fun it hi => hv it (List.mem_of_mem_filter hi)
  unfold osFlag
  rcases osLeft_split hw.once hr with ⟨i1, i2, i3⟩ | ⟨o, A, B, i1, i2, i3, i4, i5⟩
  · rw [osSplit_none hvl i2, i3]; exact ⟨_, rfl⟩
  · rw [i3] at hvl
    rw [i3, osSplit_some o B (fun it hi => hvl it (by simp [hi])) i4, i5]
    cases o with
    | none => exact ⟨true, by simp only [Option.toList_none, List.nil_append, osFlat_append]⟩
    | some v => cases hF _ i2 rfl

theorem sunAngle_failure {items : List OsItem} (hw : OsWellFormed ("--scan".toList :: sunAngleKeys) sunAngleKeys items)
    (hF : ∀ it ∈ items, it.1 = "--scan".toList → it.2 = none) : failure (osSunAngle (osFlat items)) = firstOf (sunAngleTroubles items) := by
  unfold osSunAngle sunAngleTroubles
  conv_lhs => rw [← osLeft_nil items]
  iterate 12 refine opt_step hw _ _ _ (by decide) (by decide) (by decide) fun _ => ?_
  obtain ⟨b, hb⟩ := osFlag_left hw "--scan" ["--delta_step".toList, "--delta1".toList, "--delta0".toList, "--height".toList, "--lon".toList, "--lat".toList,
    "--sec".toList, "--min".toList, "--hour".toList, "--day".toList, "--month".toList, "--year".toList] (by decide) (by decide) hF
  rw [os_bind_ok hb]
  exact finish_step _ _ _ (by intro x; simp [sunAngleKeys]; tauto) _

theorem failure_some {γ : Type} {x : Except OsError γ} {e : OsError} (h : failure x = some e) : x = .error e := by
  cases x with
  | ok _ => cases h
  | error _ => cases h; rfl

theorem failure_none {γ : Type} {x : Except OsError γ} (h : failure x = none) : ∃ y, x = .ok y := by
  cases x with
  | ok y => exact ⟨y, rfl⟩
  | error _ => cases h

theorem gregorian_run (p : Profile) {c : List Char} (hc : c = "gregorian".toList ∨ c = "g".toList) (a : List OsArg) :
    julianToolRun p (some c :: a) =
      (osGregorian a).map fun s => julianToolGregorian p s.1.year s.1.month s.1.day s.1.hour s.1.minute s.1.second := by
  rcases hc with rfl | rfl <;> rfl

theorem julian_run (p : Profile) {c : List Char} (hc : c = "julian".toList ∨ c = "j".toList) (a : List OsArg) :
    julianToolRun p (some c :: a) = (osJulian a).map fun s => julianToolJulian shortest p s.1.1 s.1.2 := by
  rcases hc with rfl | rfl <;> rfl

/-- **C104.** Of the errors in the options of `julian_tool gregorian` the one reported is the first in the order year, month, day,
hour, minute, second, whatever the order of the options on the command line; without any the tool runs. -/
theorem C104_gregorian_first_error (pt : Panic → List Char) (p : Profile) {c : List Char} (hc : c = "gregorian".toList ∨ c = "g".toList)
    {items : List OsItem} (hw : OsWellFormed gregorianKeys gregorianKeys items) :
    (∀ e, firstOf (gregorianTroubles items) = some e → julianToolProcess pt p (some c :: osFlat items) = ⟨[], errorLine e.text, 1⟩) ∧
    (firstOf (gregorianTroubles items) = none → ∃ s : GregorianArgs, julianToolProcess pt p (some c :: osFlat items) =
      (julianToolGregorian p s.year s.month s.day s.hour s.minute s.second).outcome pt) := by
  have hf := gregorian_failure hw
  unfold julianToolProcess
  rw [gregorian_run p hc]
  refine ⟨fun e he => ?_, fun he => ?_⟩
  · rw [os_map_error (failure_some (hf.trans he))]
  · obtain ⟨s, hs⟩ := failure_none (hf.trans he)
    exact ⟨s.1, by rw [os_map_ok hs]⟩

/-- **C104.** The same for `julian_tool julian`: the date, the second part, then anything left over. -/
theorem C104_julian_first_error (pt : Panic → List Char) (p : Profile) {c : List Char} (hc : c = "julian".toList ∨ c = "j".toList)
    {items : List OsItem} (hw : OsWellFormed julianKeys julianKeys items) :
    (∀ e, firstOf (julianTroubles items) = some e → julianToolProcess pt p (some c :: osFlat items) = ⟨[], errorLine e.text, 1⟩) ∧
    (firstOf (julianTroubles items) = none → ∃ s : F64 × Option F64, julianToolProcess pt p (some c :: osFlat items) =
      (julianToolJulian shortest p s.1 s.2).outcome pt) := by
  have hf := julian_failure hw
  unfold julianToolProcess
  rw [julian_run p hc]
  refine ⟨fun e he => ?_, fun he => ?_⟩
  · rw [os_map_error (failure_some (hf.trans he))]
  · obtain ⟨s, hs⟩ := failure_none (hf.trans he)
    exact ⟨s.1, by rw [os_map_ok hs]⟩

/-- **C104.** The same for `sun_angle_tool`: the options in the order in which it reads them, then anything left over. -/
theorem C104_sun_angle_first_error [Libm F64] (pt : Panic → List Char) (p : Profile) (n : ℕ) {items : List OsItem}
    (hw : OsWellFormed ("--scan".toList :: sunAngleKeys) sunAngleKeys items) (hF : ∀ it ∈ items, it.1 = "--scan".toList → it.2 = none) :
    (∀ e, firstOf (sunAngleTroubles items) = some e → sunAngleToolProcess pt p (osFlat items) n = some ⟨[], errorLine e.text, 1⟩) ∧
    (firstOf (sunAngleTroubles items) = none → ∃ s : ToolArgs F64, sunAngleToolProcess pt p (osFlat items) n =
      (sunAngleToolText p s n).map (Run.outcome pt)) := by
  have hf := sunAngle_failure hw hF
  unfold sunAngleToolProcess
  refine ⟨fun e he => ?_, fun he => ?_⟩
  · have : osSunAngle.run (osFlat items) = _ := failure_some (hf.trans he)
    rw [this]
  · obtain ⟨s, hs⟩ := failure_none (hf.trans he)
    have : osSunAngle.run (osFlat items) = _ := hs
    exact ⟨s.1, by rw [this]⟩

/-- The month is read before the day: its error is reported though the day comes first on the command line. -/
example (pt : Panic → List Char) (p : Profile) :
    julianToolProcess pt p [some "g".toList, some "--day".toList, some "x".toList, some "--month".toList, some "2147483648".toList,
      some "--year".toList, some "2000".toList] =
      ⟨[], "Error: failed to parse '2147483648': number too large to fit in target type\n".toList, 1⟩ := by
  have hw : OsWellFormed gregorianKeys gregorianKeys [("--day".toList, some (some "x".toList)), ("--month".toList, some (some "2147483648".toList)),
      ("--year".toList, some (some "2000".toList))] := ⟨by decide, by decide +kernel, by decide⟩
  exact ((C104_gregorian_first_error pt p (Or.inr rfl) hw).1 (.parseFailed "2147483648".toList .tooLarge) (by decide +kernel)).trans (by decide +kernel)

example (pt : Panic → List Char) (p : Profile) :
    julianToolProcess pt p [some "j".toList, some "--jd".toList, some "2.5e6".toList, some "--verbose".toList] =
      ⟨[], "Error: Invalid extra arguments\n".toList, 1⟩ := by
  have hw : OsWellFormed julianKeys julianKeys [("--jd".toList, some (some "2.5e6".toList)), ("--verbose".toList, none)] :=
    ⟨by decide, by decide +kernel, by decide⟩
  exact ((C104_julian_first_error pt p (Or.inr rfl) hw).1 (.bail "Invalid extra arguments".toList) (by decide +kernel)).trans (by decide +kernel)

example [Libm F64] (pt : Panic → List Char) (p : Profile) (n : ℕ) :
    sunAngleToolProcess pt p [some "--scan".toList, some "--lon".toList, none, some "--min".toList, some "-0".toList] n =
      some ⟨[], "Error: failed to parse '-0': invalid digit found in string\n".toList, 1⟩ := by
  have hw : OsWellFormed ("--scan".toList :: sunAngleKeys) sunAngleKeys [("--scan".toList, none), ("--lon".toList, some none),
      ("--min".toList, some (some "-0".toList))] := ⟨by decide, by decide +kernel, by decide⟩
  refine ((C104_sun_angle_first_error pt p n hw (by decide)).1 (.parseFailed "-0".toList .invalidDigit) (by decide +kernel)).trans ?_
  exact congrArg some (by decide +kernel)

/-! ## Arguments that are no text -/

theorem osSplit_eq {key : List Char} {a b r : List OsArg} (h : osSplit key a = some (b, r)) : a = b ++ some key :: r := by
  induction a generalizing b with
  | nil => cases h
  | cons x s ih =>
    unfold osSplit at h
    by_cases hx : x = some key
    · rw [if_pos hx] at h
      cases h
      rw [hx]; rfl
    · rw [if_neg hx] at h
      cases hs : osSplit key s with
      | none => rw [hs] at h; cases h
      | some q =>
        obtain ⟨b', r'⟩ := q
        rw [hs] at h
        cases h
        rw [ih hs]; rfl

theorem osOpt_none {β : Type} {parse : List Char → Except ParseFail β} {key : String} {a a' : List OsArg} {o : Option β}
    (h : osOpt parse key a = .ok (o, a')) (hn : none ∈ a) : none ∈ a' := by
  unfold osOpt at h
  cases hs : osSplit key.toList a with
  | none => rw [hs] at h; cases h; exact hn
  | some q =>
    obtain ⟨b, r⟩ := q
    have he := osSplit_eq hs
    rw [hs] at h
    cases r with
    | nil => cases h
    | cons v r =>
      cases v with
      | none => cases h
      | some v =>
        simp only at h
        cases hp : parse v with
        | error c => rw [hp] at h; cases h
        | ok y =>
          rw [hp] at h
          cases h
          rw [he] at hn
          simpa using hn

/-- A computation under which an argument that is no text stays. -/
def Keeps {β : Type} (m : OsCli β) : Prop := ∀ a x a', m a = .ok (x, a') → none ∈ a → none ∈ a'

theorem Keeps.bind {β γ : Type} {m : OsCli β} {f : β → OsCli γ} (hm : Keeps m) (hf : ∀ x, Keeps (f x)) : Keeps (m >>= f) := by
  intro a y a' h hn
  cases hx : m a with
  | error e => rw [os_bind_error hx] at h; cases h
  | ok s =>
    rw [os_bind_ok (x := s.1) (a' := s.2) hx] at h
    exact hf _ _ _ _ h (hm _ _ _ hx hn)

theorem Keeps.pure {β : Type} (x : β) : Keeps (pure x : OsCli β) := by
  intro a y a' h hn
  cases h; exact hn

theorem Keeps.opt {β : Type} (parse : List Char → Except ParseFail β) (key : String) : Keeps (osOpt parse key) :=
  fun _ _ _ h hn => osOpt_none h hn

theorem Keeps.req {β : Type} (parse : List Char → Except ParseFail β) (key : String) : Keeps (osReq parse key) := by
  refine (Keeps.opt parse key).bind fun o => ?_
  cases o with
  | none => intro a y a' h; cases h
  | some y => exact Keeps.pure y

theorem Keeps.flag (key : String) : Keeps (osFlag key) := by
  intro a x a' h hn
  unfold osFlag at h
  cases hs : osSplit key.toList a with
  | none => rw [hs] at h; cases h; exact hn
  | some q =>
    obtain ⟨b, r⟩ := q
    have he := osSplit_eq hs
    rw [hs] at h
    cases h
    rw [he] at hn
    simpa using hn

theorem Keeps.finish (message : String) : Keeps (osFinish message) := by
  intro a x a' h hn
  unfold osFinish at h
  split at h
  · cases h; exact hn
  · cases h

theorem rejects_bind {β γ : Type} {m : OsCli β} {f : β → OsCli γ} (hm : Keeps m) (hf : ∀ x a, none ∈ a → ∃ e, f x a = .error e) {a : List OsArg}
    (hn : none ∈ a) : ∃ e, (m >>= f) a = .error e := by
  cases hx : m a with
  | error e => exact ⟨e, os_bind_error hx⟩
  | ok s =>
    rw [os_bind_ok (x := s.1) (a' := s.2) hx]
    exact hf _ _ (hm _ _ _ hx hn)

theorem osFinish_rejects {message : String} {a : List OsArg} (hn : none ∈ a) : ∃ e, osFinish message a = .error e := by
  unfold osFinish
  rw [if_neg (List.ne_nil_of_mem hn)]
  exact ⟨_, rfl⟩

/-- **C104.** An argument that is no text is an error in `julian_tool julian` and in `sun_angle_tool`, wherever it stands: nothing is
written to standard output, and the status is 1. -/
theorem C104_no_text [Libm F64] (pt : Panic → List Char) (p : Profile) (n : ℕ) {a : List OsArg} (hn : none ∈ a) :
    (∀ c : List Char, c = "julian".toList ∨ c = "j".toList → ∃ e : OsError, julianToolProcess pt p (some c :: a) = ⟨[], errorLine e.text, 1⟩) ∧
    ∃ e : OsError, sunAngleToolProcess pt p a n = some ⟨[], errorLine e.text, 1⟩ := by
  refine ⟨fun c hc => ?_, ?_⟩
  · obtain ⟨e, he⟩ : ∃ e, osJulian a = .error e := by
      unfold osJulian
      refine rejects_bind (Keeps.req _ _) (fun _ a hn => rejects_bind (Keeps.opt _ _) (fun _ a hn => ?_) hn) hn
      obtain ⟨e, he⟩ := osFinish_rejects (message := "Invalid extra arguments") hn
      exact ⟨e, os_bind_error he⟩
    refine ⟨e, ?_⟩
    unfold julianToolProcess
    rw [julian_run p hc, os_map_error he]
  · obtain ⟨e, he⟩ : ∃ e, osSunAngle a = .error e := by
      unfold osSunAngle
      iterate 12 refine rejects_bind (Keeps.opt _ _) (fun _ a hn => ?_) hn
      refine rejects_bind (Keeps.flag _) (fun _ a hn => ?_) hn
      obtain ⟨e, he⟩ := osFinish_rejects (message := "Unhandled extra arguments") hn
      exact ⟨e, os_bind_error he⟩
    refine ⟨e, ?_⟩
    unfold sunAngleToolProcess
    have : osSunAngle.run a = _ := he
    rw [this]

/-- **C104.** `julian_tool gregorian` does not look at what is left over, so it runs with such an argument too. -/
theorem C104_gregorian_ignores_no_text : ¬ ∀ (pt : Panic → List Char) (p : Profile) (a : List OsArg), none ∈ a →
    (julianToolProcess pt p (some "gregorian".toList :: a)).status ≠ 0 := by
  intro h
  refine h (fun _ => []) .checked [some "--year".toList, some "2000".toList, some "--month".toList, some "1".toList, some "--day".toList, some "1".toList,
    none] (by simp) ?_
  decide +kernel

/-! ## The status -/

/-- **C104.** The status of a process that has ended is 0, 1 or 101.  With 0 nothing is written to standard error; with 1 exactly one
line, which names the fault; 101 is that of a panic. -/
theorem C104_status [Libm F64] (pt : Panic → List Char) (p : Profile) (a : List OsArg) (n : ℕ) (o : Outcome)
    (h : o = julianToolProcess pt p a ∨ sunAngleToolProcess pt p a n = some o) :
    (o.status = 0 ∧ o.stderr = []) ∨
    (o.status = 1 ∧ ((o.stdout = [] ∧ ∃ e : OsError, o.stderr = errorLine e.text) ∨ ∃ e : CalendarError, o.stderr = errorLine e.text)) ∨
    (o.status = 101 ∧ ∃ e : Panic, o.stderr = pt e) := by
  have R : ∀ r : Run, o = r.outcome pt → (o.status = 0 ∧ o.stderr = []) ∨
      (o.status = 1 ∧ ((o.stdout = [] ∧ ∃ e : OsError, o.stderr = errorLine e.text) ∨ ∃ e : CalendarError, o.stderr = errorLine e.text)) ∨
      (o.status = 101 ∧ ∃ e : Panic, o.stderr = pt e) := by
    intro r hr
    unfold Run.outcome at hr
    cases hs : r.stop with
    | done => rw [hs] at hr; subst hr; exact .inl ⟨rfl, rfl⟩
    | error e => rw [hs] at hr; subst hr; exact .inr (.inl ⟨rfl, .inr ⟨e, rfl⟩⟩)
    | panic e => rw [hs] at hr; subst hr; exact .inr (.inr ⟨rfl, e, rfl⟩)
  rcases h with h | h
  · unfold julianToolProcess at h
    cases hr : julianToolRun p a with
    | error e => rw [hr] at h; subst h; exact .inr (.inl ⟨rfl, .inl ⟨rfl, e, rfl⟩⟩)
    | ok r => rw [hr] at h; exact R r h
  · unfold sunAngleToolProcess at h
    cases hr : osSunAngle.run a with
    | error e => rw [hr] at h; cases h; exact .inr (.inl ⟨rfl, .inl ⟨rfl, e, rfl⟩⟩)
    | ok s =>
      rw [hr] at h
      simp only at h
      cases ht : sunAngleToolText p s.1 n with
      | none => rw [ht] at h; cases h
      | some r => rw [ht] at h; cases h; exact R r rfl

/-- All three occur: a date, a day that does not exist, and one whose Julian day number does not fit. -/
example :
    (julianToolProcess (fun _ => []) .checked [some "g".toList, some "--year".toList, some "2000".toList, some "--month".toList, some "1".toList, some "--day".toList, some "1".toList]).status = 0 ∧
    julianToolProcess (fun _ => []) .checked [some "g".toList, some "--year".toList, some "2001".toList, some "--month".toList, some "2".toList, some "--day".toList, some "29".toList] =
      ⟨[], "Error: bad day\n".toList, 1⟩ ∧
    (julianToolProcess (fun _ => []) .checked [some "g".toList, some "--year".toList, some "2147483647".toList, some "--month".toList, some "2".toList, some "--day".toList, some "1".toList]).status = 101 := by
  refine ⟨?_, ?_, ?_⟩ <;> decide +kernel

end Verif
