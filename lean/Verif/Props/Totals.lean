import Verif.Model.Time
import Verif.Float.NB
import Verif.Float.Nearest
import Verif.Props.Time

/-!
# The `total` methods of the time scales
-/

namespace Verif
open Arith F64

/-- **C70.** In `f64` the total of any finite pair whose sum does not overflow is the representable number nearest to
the exact sum, and is off by at most `2^-53` of it (plus `2^-100`). -/
theorem C70_total_f64 (x y : F64) (a b : ℚ) (hx : Is x a) (hy : Is y b) (h : |a + b| ≤ HUGE) :
    ∃ r : ℚ, Is (total (x, y)) r ∧ (∀ z : ℚ, RepQ z → |r - (a + b)| ≤ |z - (a + b)|) ∧
      |r - (a + b)| ≤ |a + b| / 2 ^ 53 + 1 / 2 ^ 100 :=
  ⟨RN (a + b), hx.add hy h, fun _ hz => RN_nearest _ hz, RN_err_le le_rfl⟩

/-- **C70.** In exact arithmetic the totals of the converted time scales differ from the total before conversion by
the offset of the conversion in days, whichever part the code adds it to. -/
theorem C70_total_conversions (t : ℝ × ℝ) (d : ℝ) :
    total (TAI.fromUTC t d) - total t = d / 86400 ∧ total (TT.fromTAI t) - total t = 32.184 / 86400 ∧
    total (TT.fromUT1 t d) - total t = d / 86400 ∧ total (TDB.fromTT t d) - total t = d / 86400 ∧
    total (UT1.fromTT t d) - total t = -(d / 86400) := by
  unfold total TAI.fromUTC TT.fromTAI TT.fromUT1 TDB.fromTT UT1.fromTT DTAT D2S
  refine ⟨?_, ?_, ?_, ?_, ?_⟩ <;>
  · simp only [lit_real, div_real, add_real, sub_real]
    split <;> (simp only; push_cast; ring)

/-- The hypotheses hold for J2000.0 in the modified Julian split, whose total is exact. -/
example : Is (lit 2400000.5 : F64) 2400000.5 ∧ Is (lit 51544.5 : F64) 51544.5 ∧ |(2400000.5 + 51544.5 : ℚ)| ≤ HUGE := by
  refine ⟨Is.lit_exact _ ?_ (small_le_HUGE (by norm_num)), Is.lit_exact _ ?_ (small_le_HUGE (by norm_num)),
    small_le_HUGE (by norm_num)⟩
  · have := RepQ.dyadic 4800001 1 (by norm_num) (by norm_num)
    norm_num at this ⊢; exact this
  · have := RepQ.dyadic 103089 1 (by norm_num) (by norm_num)
    norm_num at this ⊢; exact this

/-- The offset is really added: one minute is not zero. -/
example : total (TAI.fromUTC ((2451545, 0) : ℝ × ℝ) 60) ≠ total ((2451545, 0) : ℝ × ℝ) := by
  intro h
  have := (C70_total_conversions (2451545, 0) 60).1
  rw [h] at this
  norm_num at this

end Verif
