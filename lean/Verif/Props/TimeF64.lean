import Verif.Props.Time
import Verif.Props.Text

/-!
# C24, C25: the conversions between UT1, TT and TDB in binary64; C74: times that are not numbers
-/

namespace Verif
open Arith F64 Spec

theorem sub_seconds {x y d : F64} {a b q : ℚ} (hx : Is x a) (hy : Is y b) (hd : Is d q)
    (hb : |b| ≤ 2 ^ 100) (hq : |q| ≤ 2 ^ 100) :
    Is (y -. (d /. lit 86400)) (RN (b - RN (q / 86400))) ∧
      |a + RN (b - RN (q / 86400)) - (a + b - q / 86400)| ≤
        |b| / 2 ^ 53 + 3 * |q / 86400| / 2 ^ 53 + 1 / 2 ^ 98 := by
  have _ := hx
  have hc : Is (d /. lit 86400) (RN (q / 86400)) := by
    refine hd.div lit86400_is (by norm_num) (small_le_HUGE ?_)
    rw [abs_div, abs_of_pos (show (0 : ℚ) < 86400 by norm_num), div_le_iff₀ (by norm_num)]
    exact hq.trans (by norm_num)
  have hh : |b - RN (q / 86400)| ≤ HUGE := by
    have h1 := RN_err' (q / 86400)
    have h2 := small_div hq
    have h3 : |RN (q / 86400)| ≤ 2 ^ 100 := by
      have : RN (q / 86400) = (RN (q / 86400) - q / 86400) + q / 86400 := by ring
      rw [this]
      exact (abs_add_le _ _).trans (by linarith)
    exact small_le_HUGE ((abs_sub _ _).trans ((add_le_add hb h3).trans (by norm_num)))
  refine ⟨hy.sub hc hh, ?_⟩
  have h1 := RN_err' (q / 86400)
  have h2 := RN_err' (b - RN (q / 86400))
  have h3 : |b - RN (q / 86400)| ≤ |b| + (|q / 86400| + (|q / 86400| / 2 ^ 53 + 1 / 2 ^ 100)) := by
    have : b - RN (q / 86400) = b - (q / 86400 + (RN (q / 86400) - q / 86400)) := by ring
    rw [this]
    exact (abs_sub _ _).trans (add_le_add le_rfl ((abs_add_le _ _).trans (by linarith)))
  have e : a + RN (b - RN (q / 86400)) - (a + b - q / 86400) =
    (RN (b - RN (q / 86400)) - (b - RN (q / 86400))) - (RN (q / 86400) - q / 86400) := by ring
  rw [e]
  refine (abs_sub _ _).trans ((add_le_add h2 h1).trans ?_)
  have hQ := abs_nonneg (q / 86400)
  generalize |b - RN (q / 86400)| = z at *
  generalize |q / 86400| = Q at *
  generalize |b| = B at *
  norm_num at *
  linarith

/-- **C24.** In binary64, both ways: one part (the larger) is returned bit for bit, the other is the correctly rounded sum or
difference of the part and the correctly rounded `dt/86400`; the exact total is off by at most
`2^-53 * (|changed part| + 3*|dt|/86400) + 2^-98` days. -/
theorem C24_shift_f64 (x y d : F64) (a b q : ℚ) (hx : Is x a) (hy : Is y b) (hd : Is d q)
    (ha : |a| ≤ 2 ^ 100) (hb : |b| ≤ 2 ^ 100) (hq : |q| ≤ 2 ^ 100) :
    (b < a → ∃ (z z' : F64) (r r' : ℚ), TT.fromUT1 (x, y) d = (x, z) ∧ UT1.fromTT (x, y) d = (x, z') ∧ Is z r ∧ Is z' r' ∧
      r = RN (b + RN (q / 86400)) ∧ r' = RN (b - RN (q / 86400)) ∧
      |a + r - (a + b + q / 86400)| ≤ |b| / 2 ^ 53 + 3 * |q / 86400| / 2 ^ 53 + 1 / 2 ^ 98 ∧
      |a + r' - (a + b - q / 86400)| ≤ |b| / 2 ^ 53 + 3 * |q / 86400| / 2 ^ 53 + 1 / 2 ^ 98) ∧
    (a ≤ b → ∃ (z z' : F64) (r r' : ℚ), TT.fromUT1 (x, y) d = (z, y) ∧ UT1.fromTT (x, y) d = (z', y) ∧ Is z r ∧ Is z' r' ∧
      r = RN (a + RN (q / 86400)) ∧ r' = RN (a - RN (q / 86400)) ∧
      |r + b - (a + b + q / 86400)| ≤ |a| / 2 ^ 53 + 3 * |q / 86400| / 2 ^ 53 + 1 / 2 ^ 98 ∧
      |r' + b - (a + b - q / 86400)| ≤ |a| / 2 ^ 53 + 3 * |q / 86400| / 2 ^ 53 + 1 / 2 ^ 98) := by
  constructor
  · intro h
    obtain ⟨h1, h2⟩ := add_seconds hx hy hd hb hq (corr_huge hb hq)
    obtain ⟨g1, g2⟩ := sub_seconds hx hy hd hb hq
    refine ⟨_, _, _, _, ?_, ?_, h1, g1, rfl, rfl, h2, g2⟩
    · unfold TT.fromUT1 D2S
      simp only [if_pos ((Is.lt_iff hy hx).mpr h)]
    · unfold UT1.fromTT D2S
      simp only [if_pos ((Is.lt_iff hy hx).mpr h)]
  · intro h
    obtain ⟨h1, h2⟩ := add_seconds hy hx hd ha hq (corr_huge ha hq)
    obtain ⟨g1, g2⟩ := sub_seconds hy hx hd ha hq
    have hn : ¬ (y <. x) = true := by simp only [Is.lt_iff hy hx]; exact not_lt.mpr h
    refine ⟨_, _, _, _, ?_, ?_, h1, g1, rfl, rfl, ?_, ?_⟩
    · unfold TT.fromUT1 D2S
      simp only [if_neg hn]
    · unfold UT1.fromTT D2S
      simp only [if_neg hn]
    · rw [show ∀ r : ℚ, r + b - (a + b + q / 86400) = b + r - (b + a + q / 86400) from fun r => by ring]; exact h2
    · rw [show ∀ r : ℚ, r + b - (a + b - q / 86400) = b + r - (b + a - q / 86400) from fun r => by ring]; exact g2

/-- **C25.** In binary64: one part (the larger) is returned bit for bit, the other is the correctly rounded sum of the part and
the correctly rounded `dtr/86400`; the exact total is off by at most `2^-53 * (|changed part| + 3*|dtr|/86400) + 2^-98` days. -/
theorem C25_tt_to_tdb_f64 (x y d : F64) (a b q : ℚ) (hx : Is x a) (hy : Is y b) (hd : Is d q)
    (ha : |a| ≤ 2 ^ 100) (hb : |b| ≤ 2 ^ 100) (hq : |q| ≤ 2 ^ 100) :
    (b < a → ∃ (z : F64) (r : ℚ), TDB.fromTT (x, y) d = (x, z) ∧ Is z r ∧
      r = RN (b + RN (q / 86400)) ∧
      |a + r - (a + b + q / 86400)| ≤ |b| / 2 ^ 53 + 3 * |q / 86400| / 2 ^ 53 + 1 / 2 ^ 98) ∧
    (a ≤ b → ∃ (z : F64) (r : ℚ), TDB.fromTT (x, y) d = (z, y) ∧ Is z r ∧
      r = RN (a + RN (q / 86400)) ∧
      |r + b - (a + b + q / 86400)| ≤ |a| / 2 ^ 53 + 3 * |q / 86400| / 2 ^ 53 + 1 / 2 ^ 98) := by
  constructor
  · intro h
    obtain ⟨h1, h2⟩ := add_seconds hx hy hd hb hq (corr_huge hb hq)
    refine ⟨_, _, ?_, h1, rfl, h2⟩
    unfold TDB.fromTT D2S
    simp only [if_pos ((Is.lt_iff hy hx).mpr h)]
  · intro h
    obtain ⟨h1, h2⟩ := add_seconds hy hx hd ha hq (corr_huge ha hq)
    refine ⟨_, _, ?_, h1, rfl, ?_⟩
    · unfold TDB.fromTT D2S
      simp only [if_neg (show ¬ (y <. x) = true by simp only [Is.lt_iff hy hx]; exact not_lt.mpr h)]
    · rw [show ∀ r : ℚ, r + b - (a + b + q / 86400) = b + r - (b + a + q / 86400) from fun r => by ring]; exact h2

-- a two-part date in each order, and a correction of a minute
example : ∃ x y d : F64, Is x 2451545 ∧ Is y 3 ∧ Is d 60 ∧ (3 : ℚ) < 2451545 ∧ |(2451545 : ℚ)| ≤ 2 ^ 100 ∧ |(60 : ℚ)| ≤ 2 ^ 100 :=
  ⟨lit 2451545, lit 3, lit 60, by have := Is.lit_int 2451545 (by norm_num); push_cast at this; exact this,
    by have := Is.lit_int 3 (by norm_num); push_cast at this; exact this,
    by have := Is.lit_int 60 (by norm_num); push_cast at this; exact this, by norm_num, by norm_num, by norm_num⟩

example : TDB.fromTT ((lit 2451545, lit 3) : F64 × F64) (lit 43200) = (lit 2451545, lit (7 / 2)) ∧
    TDB.fromTT ((lit 3, lit 2451545) : F64 × F64) (lit 43200) = (lit (7 / 2), lit 2451545) ∧
    UT1.fromTT ((lit 3, lit 2451545) : F64 × F64) (lit 43200) = (lit (5 / 2), lit 2451545) := by decide +kernel

/-- **C74.** A time whose second is not a number or is infinite: hour and minute are printed as always, then zeros and
the word, nine characters. No reader of decimals takes that for a number. -/
theorem C74_time_text_not_finite (t : HMS F64) (h : ∀ s, ¬ Is t.second s) :
    ∃ a b c : List Char, t.display.splitOn ':' = [a, b, c] ∧ readDec a = some (t.hour : ℚ) ∧ readDec b = some (t.minute : ℚ) ∧
      readDec c = none ∧ (c = "000000NaN".toList ↔ t.second = .nan) ∧ (c = "000000inf".toList ↔ t.second = .inf false) ∧
      (c = "00000-inf".toList ↔ t.second = .inf true) := by
  have key : ∀ c : List Char, fmtFill 9 6 t.second = c → ':' ∉ c → t.display.splitOn ':' = [fmtInt 2 t.hour, fmtInt 2 t.minute, c] := by
    intro c hc hn
    unfold HMS.display
    rw [splitOn_cons_of (NumChar.not_mem (fmtInt_chars _ _)).2.1, splitOn_cons_of (NumChar.not_mem (fmtInt_chars _ _)).2.1,
      hc, List.splitOn_eq_singleton hn]
  rcases e : t.second with _ | s | ⟨s, n, hn⟩
  · refine ⟨_, _, "000000NaN".toList, key _ (by rw [e]; decide) (by decide), read_fmtInt _ _, read_fmtInt _ _, by decide +kernel, ?_⟩
    simp
  · cases s
    · refine ⟨_, _, "000000inf".toList, key _ (by rw [e]; decide) (by decide), read_fmtInt _ _, read_fmtInt _ _, by decide +kernel, ?_⟩
      simp
    · refine ⟨_, _, "00000-inf".toList, key _ (by rw [e]; decide) (by decide), read_fmtInt _ _, read_fmtInt _ _, by decide +kernel, ?_⟩
      simp
  · exact absurd (show Is t.second (F64.v t.second) from ⟨by rw [e]; rfl, rfl⟩) (h _)

example : (⟨7, 5, .nan⟩ : HMS F64).display = "07:05:000000NaN".toList ∧
    (⟨7, 5, .inf true⟩ : HMS F64).display = "07:05:00000-inf".toList := by decide +kernel

end Verif
