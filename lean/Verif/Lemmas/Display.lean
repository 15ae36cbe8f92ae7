import Verif.Model.Display
import Verif.Float.Is

/-!
# Fixed-width decimal numbers
-/

namespace Verif
open F64

/-- The `w` low decimal digits of `n`, most significant first. -/
def fixedD : ℕ → ℕ → List Char
  | 0, _ => []
  | w + 1, n => fixedD w (n / 10) ++ [Nat.digitChar (n % 10)]

theorem fixedD_length (w n : ℕ) : (fixedD w n).length = w := by
  induction w generalizing n with
  | zero => rfl
  | succ w ih => simp [fixedD, ih]

theorem fixedD_zero (w : ℕ) : fixedD w 0 = List.replicate w '0' := by
  induction w with
  | zero => rfl
  | succ w ih =>
    simp only [fixedD, Nat.zero_div, ih, Nat.zero_mod]
    rw [List.replicate_succ']
    rfl

theorem dec_small {n : ℕ} (h : n < 10) : dec n = [Nat.digitChar n] := Nat.toDigits_of_lt_base h

theorem dec_big {n : ℕ} (h : 10 ≤ n) : dec n = dec (n / 10) ++ [Nat.digitChar (n % 10)] := by
  have h1 : 0 < n / 10 := by omega
  have h2 : n % 10 < 10 := by omega
  have := Nat.toDigits_append_toDigits (b := 10) (by norm_num) h1 h2
  rw [Nat.div_add_mod] at this
  unfold dec
  rw [← this, Nat.toDigits_of_lt_base h2]

theorem padLeft_snoc (w : ℕ) (l : List Char) (c : Char) :
    padLeft (w + 1) (l ++ [c]) = padLeft w l ++ [c] := by
  unfold padLeft
  simp

theorem padLeft_dec (w n : ℕ) (h : n < 10 ^ (w + 1)) : padLeft (w + 1) (dec n) = fixedD (w + 1) n := by
  induction w generalizing n with
  | zero =>
    have : n < 10 := by simpa using h
    rw [dec_small this]
    simp [padLeft, fixedD, Nat.mod_eq_of_lt this]
  | succ w ih =>
    by_cases hn : n < 10
    · rw [dec_small hn]
      have e : n / 10 = 0 := by omega
      have e2 : n % 10 = n := by omega
      rw [fixedD, e, e2, fixedD_zero]
      unfold padLeft
      simp
    · push Not at hn
      rw [dec_big hn, padLeft_snoc, fixedD]
      rw [ih (n / 10) (by rw [pow_succ] at h; omega)]

theorem lt_append_iff {l₁ l₂ r₁ r₂ : List Char} (h : l₁.length = l₂.length) :
    l₁ ++ r₁ < l₂ ++ r₂ ↔ l₁ < l₂ ∨ (l₁ = l₂ ∧ r₁ < r₂) := by
  induction l₁ generalizing l₂ with
  | nil =>
    have : l₂ = [] := by simpa using h.symm
    subst this
    simp
  | cons a l₁ ih =>
    cases l₂ with
    | nil => simp at h
    | cons b l₂ =>
      have h' : l₁.length = l₂.length := by simpa using h
      rw [List.cons_append, List.cons_append, List.cons_lt_cons_iff, List.cons_lt_cons_iff, ih h',
        List.cons.injEq]
      tauto

theorem digitChar_lt (a b : ℕ) (ha : a < 10) (hb : b < 10) :
    ([Nat.digitChar a] < [Nat.digitChar b] ↔ a < b) := by
  have : ∀ a < 10, ∀ b < 10, (decide ([Nat.digitChar a] < [Nat.digitChar b]) = decide (a < b)) := by
    decide
  have := this a ha b hb
  simpa using this

theorem fixedD_inj (w n m : ℕ) (hn : n < 10 ^ w) (hm : m < 10 ^ w) (h : fixedD w n = fixedD w m) :
    n = m := by
  induction w generalizing n m with
  | zero => simp at hn hm; omega
  | succ w ih =>
    simp only [fixedD] at h
    have := List.append_inj' h rfl
    have h1 := ih (n / 10) (m / 10) (by rw [pow_succ] at hn; omega) (by rw [pow_succ] at hm; omega)
      this.1
    have h2 : Nat.digitChar (n % 10) = Nat.digitChar (m % 10) := by simpa using this.2
    have h3 : n % 10 = m % 10 := by
      have key : ∀ a < 10, ∀ b < 10, Nat.digitChar a = Nat.digitChar b → a = b := by decide
      exact key _ (by omega) _ (by omega) h2
    omega

theorem fixedD_lt (w n m : ℕ) (hn : n < 10 ^ w) (hm : m < 10 ^ w) :
    fixedD w n < fixedD w m ↔ n < m := by
  induction w generalizing n m with
  | zero => simp at hn hm; subst hn; subst hm; simp
  | succ w ih =>
    have a1 : n / 10 < 10 ^ w := by rw [pow_succ] at hn; omega
    have a2 : m / 10 < 10 ^ w := by rw [pow_succ] at hm; omega
    simp only [fixedD]
    rw [lt_append_iff (by rw [fixedD_length, fixedD_length]), ih _ _ a1 a2,
      digitChar_lt _ _ (by omega) (by omega)]
    constructor
    · rintro (h | ⟨h, h'⟩)
      · omega
      · have := fixedD_inj w _ _ a1 a2 h
        omega
    · intro h
      rcases Nat.lt_or_ge (n / 10) (m / 10) with h1 | h1
      · exact Or.inl h1
      · right
        have : n / 10 = m / 10 := by omega
        rw [this]
        exact ⟨rfl, by omega⟩

theorem fmtInt_fixed (w : ℕ) (z : ℤ) (h0 : 0 ≤ z) (h : z < 10 ^ (w + 1)) :
    fmtInt (w + 1) z = fixedD (w + 1) z.toNat := by
  unfold fmtInt
  rw [if_neg (by omega)]
  have e : z.natAbs = z.toNat := by omega
  rw [e, padLeft_dec]
  have : ((z.toNat : ℕ) : ℤ) < ((10 ^ (w + 1) : ℕ) : ℤ) := by
    rw [Int.toNat_of_nonneg h0]; push_cast; exact h
  exact_mod_cast this

theorem dec_length_ge (n : ℕ) : 1 ≤ (dec n).length := by
  by_cases h : n < 10
  · rw [dec_small h]; simp
  · rw [dec_big (by omega)]; simp

theorem padLeft_append (w : ℕ) (l r : List Char) :
    padLeft (w + r.length) (l ++ r) = padLeft w l ++ r := by
  unfold padLeft
  rw [List.length_append, Nat.add_sub_add_right, List.append_assoc]

theorem fixedMag_eq (prec n : ℕ) : fixedMag prec n =
    dec (rhe (n * 10 ^ prec) UN / 10 ^ prec) ++
      '.' :: padLeft prec (dec (rhe (n * 10 ^ prec) UN % 10 ^ prec)) := rfl

theorem fmtFill_fin (w prec n : ℕ) (h) : fmtFill w prec (.fin false n h) =
    padLeft w (fixedMag prec n) := rfl

end Verif
