import Verif.Model.Calendar
import Verif.Spec.Calendar
import Mathlib.Tactic.IntervalCases

/-!
# The integer part of the calendar code
-/

namespace Verif
open Spec

/-- Closed formula for the Modified Julian Date at 0h of a civil date (helper for the proofs, not part of
any statement). -/
def mjdN (y m d : ℤ) : ℤ :=
  let a := if m ≤ 2 then y - 1 else y
  let k := if m ≤ 2 then m + 10 else m - 2
  365 * a + a / 4 - a / 100 + a / 400 + 367 * k / 12 + d - 678912

theorem leap_iff (y : ℤ) : Leap y ↔ (y % 4 = 0 ∧ (y % 100 ≠ 0 ∨ y % 400 = 0)) := by
  unfold Leap; omega

theorem monthLen_cases (y m : ℤ) (h1 : 1 ≤ m) (h2 : m ≤ 12) :
    (m = 2 ∧ y % 4 = 0 ∧ (y % 100 ≠ 0 ∨ y % 400 = 0) ∧ monthLen y m = 29) ∨
    (m = 2 ∧ ¬ (y % 4 = 0 ∧ (y % 100 ≠ 0 ∨ y % 400 = 0)) ∧ monthLen y m = 28) ∨
    ((m = 4 ∨ m = 6 ∨ m = 9 ∨ m = 11) ∧ monthLen y m = 30) ∨
    ((m = 1 ∨ m = 3 ∨ m = 5 ∨ m = 7 ∨ m = 8 ∨ m = 10 ∨ m = 12) ∧ monthLen y m = 31) := by
  unfold monthLen
  by_cases hL : Leap y
  · have := (leap_iff y).mp hL
    simp only [hL, if_true]
    split
    · simp [*]
    · split
      · right; right; left; simp [*]
      · right; right; right; simp [h1, h2]; omega
  · have h3 := hL
    rw [leap_iff] at h3
    simp only [hL, if_false]
    split
    · right; left; exact ⟨by assumption, h3, rfl⟩
    · split
      · right; right; left; simp [*]
      · right; right; right; simp [h1, h2]; omega

/-- `mjdN` as a case distinction over the month. -/
theorem mjdN_cases (y m d : ℤ) :
    (m ≤ 2 ∧ mjdN y m d = 365 * (y - 1) + (y - 1) / 4 - (y - 1) / 100 + (y - 1) / 400
        + 367 * (m + 10) / 12 + d - 678912) ∨
    (3 ≤ m ∧ mjdN y m d = 365 * y + y / 4 - y / 100 + y / 400
        + 367 * (m - 2) / 12 + d - 678912) := by
  unfold mjdN
  simp only
  split
  · left; exact ⟨by assumption, rfl⟩
  · right; exact ⟨by omega, rfl⟩

theorem mjdN_next (c : Civil) (h : IsDate c) :
    mjdN (next c).1 (next c).2.1 (next c).2.2 = mjdN c.1 c.2.1 c.2.2 + 1 := by
  obtain ⟨y, m, d⟩ := c
  obtain ⟨h1, h2, h3, h4⟩ := h
  simp only at h1 h2 h3 h4 ⊢
  have hM := monthLen_cases y m h1 h2
  unfold next
  simp only
  split
  · simp only [mjdN]; omega
  · split
    · simp only
      have e1 := mjdN_cases y m d
      have e2 := mjdN_cases y (m + 1) 1
      interval_cases m <;> omega
    · simp only
      have e1 := mjdN_cases y m d
      have e2 := mjdN_cases (y + 1) 1 1
      have : m = 12 := by omega
      subst this
      omega

theorem next_isDate (c : Civil) (h : IsDate c) : IsDate (next c) := by
  obtain ⟨y, m, d⟩ := c
  obtain ⟨h1, h2, h3, h4⟩ := h
  simp only at h1 h2 h3 h4 ⊢
  unfold next
  simp only
  split
  · exact ⟨h1, h2, by simp only; omega, by simp only; omega⟩
  · split
    · refine ⟨by simp only; omega, by simp only; omega, le_refl _, ?_⟩
      simp only
      unfold monthLen
      split
      · split <;> omega
      · split
        · omega
        · split <;> omega
    · refine ⟨le_refl _, by norm_num, le_refl _, ?_⟩
      simp [monthLen]

theorem monthLen_ge {y m : ℤ} (h1 : 1 ≤ m) (h2 : m ≤ 12) : 28 ≤ monthLen y m := by
  unfold monthLen
  split
  · split <;> omega
  · split
    · omega
    · split <;> omega

theorem monthLen_le (y m : ℤ) : monthLen y m ≤ 31 := by
  unfold monthLen
  split
  · split <;> omega
  · split
    · omega
    · split <;> omega

/-- First day of the month is strictly later than any day of the previous month. -/
theorem mjdN_mono (a b : Civil) (ha : IsDate a) (hb : IsDate b) (h : Before a b) :
    mjdN a.1 a.2.1 a.2.2 < mjdN b.1 b.2.1 b.2.2 := by
  obtain ⟨y, m, d⟩ := a
  obtain ⟨y', m', d'⟩ := b
  obtain ⟨h1, h2, h3, h4⟩ := ha
  obtain ⟨g1, g2, g3, g4⟩ := hb
  simp only at h1 h2 h3 h4 g1 g2 g3 g4 ⊢
  unfold Before at h
  simp only at h
  -- the start of year `y` in this count
  have hstart : ∀ y m d : ℤ, 1 ≤ m → m ≤ 12 → 1 ≤ d → d ≤ monthLen y m →
      mjdN y 1 1 ≤ mjdN y m d ∧ mjdN y m d < mjdN (y + 1) 1 1 := by
    intro y m d h1 h2 h3 h4
    have hM := monthLen_cases y m h1 h2
    have e1 := mjdN_cases y m d
    have e2 := mjdN_cases y 1 1
    have e3 := mjdN_cases (y + 1) 1 1
    interval_cases m <;> omega
  have hyear : ∀ y y' : ℤ, y ≤ y' → mjdN y 1 1 ≤ mjdN y' 1 1 := by
    intro y y' h
    unfold mjdN
    simp
    omega
  rcases h with h | ⟨rfl, h | ⟨rfl, h⟩⟩
  · have e1 := (hstart y m d h1 h2 h3 h4).2
    have e2 := (hstart y' m' d' g1 g2 g3 g4).1
    have e3 := hyear (y + 1) y' (by omega)
    omega
  · have hM := monthLen_cases y m h1 h2
    have e1 := mjdN_cases y m d
    have e2 := mjdN_cases y m' d'
    clear hstart hyear g4
    interval_cases m <;> omega
  · simp only [mjdN]
    omega

theorem before_trichotomy (a b : Civil) : Before a b ∨ a = b ∨ Before b a := by
  obtain ⟨y, m, d⟩ := a
  obtain ⟨y', m', d'⟩ := b
  unfold Before
  simp only [Prod.mk.injEq]
  omega

theorem before_iff (a b : Civil) (ha : IsDate a) (hb : IsDate b) :
    Before a b ↔ mjdN a.1 a.2.1 a.2.2 < mjdN b.1 b.2.1 b.2.2 := by
  constructor
  · exact mjdN_mono a b ha hb
  · intro h
    rcases before_trichotomy a b with h1 | h1 | h1
    · exact h1
    · subst h1; omega
    · have := mjdN_mono b a hb ha h1; omega

theorem mjdN_inj (a b : Civil) (ha : IsDate a) (hb : IsDate b)
    (h : mjdN a.1 a.2.1 a.2.2 = mjdN b.1 b.2.1 b.2.2) : a = b := by
  rcases before_trichotomy a b with h1 | h1 | h1
  · have := mjdN_mono a b ha hb h1; omega
  · exact h1
  · have := mjdN_mono b a hb ha h1; omega

theorem iterate_next (n : ℕ) (a : Civil) (ha : IsDate a) :
    IsDate (next^[n] a) ∧
      mjdN (next^[n] a).1 (next^[n] a).2.1 (next^[n] a).2.2 = mjdN a.1 a.2.1 a.2.2 + n := by
  induction n generalizing a with
  | zero => simp [ha]
  | succ n ih =>
    rw [Function.iterate_succ_apply]
    obtain ⟨h1, h2⟩ := ih (next a) (next_isDate a ha)
    refine ⟨h1, ?_⟩
    rw [h2, mjdN_next a ha]
    push_cast
    ring

theorem daysFrom_mjdN (a b : Civil) (ha : IsDate a) (hb : IsDate b) :
    DaysFrom a b (mjdN b.1 b.2.1 b.2.2 - mjdN a.1 a.2.1 a.2.2) := by
  constructor
  · intro h
    obtain ⟨h1, h2⟩ := iterate_next
      (mjdN b.1 b.2.1 b.2.2 - mjdN a.1 a.2.1 a.2.2).toNat a ha
    apply mjdN_inj _ _ h1 hb
    rw [h2]
    omega
  · intro h
    obtain ⟨h1, h2⟩ := iterate_next
      (-(mjdN b.1 b.2.1 b.2.2 - mjdN a.1 a.2.1 a.2.2)).toNat b hb
    apply mjdN_inj _ _ h1 ha
    rw [h2]
    omega

theorem daysFrom_unique (a b : Civil) (ha : IsDate a) (hb : IsDate b) (n : ℤ) (h : DaysFrom a b n) :
    n = mjdN b.1 b.2.1 b.2.2 - mjdN a.1 a.2.1 a.2.2 := by
  rcases le_total 0 n with h0 | h0
  · have h1 := h.1 h0
    obtain ⟨_, h3⟩ := iterate_next n.toNat a ha
    rw [h1] at h3
    omega
  · have h1 := h.2 h0
    obtain ⟨_, h3⟩ := iterate_next (-n).toNat b hb
    rw [h1] at h3
    omega

theorem mjdEpoch_isDate : IsDate mjdEpoch := by decide

theorem mjdN_epoch : mjdN mjdEpoch.1 mjdEpoch.2.1 mjdEpoch.2.2 = 0 := by decide

end Verif
