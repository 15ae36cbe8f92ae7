import Verif.Props.ToolRuns
import Verif.Props.MeanSun

/-!
# C88: default parameters
-/

namespace Verif
open F64 Arith Spec

/-- What `sun_angle_tool` uses when no option is given. -/
def noOptions : ToolArgs F64 :=
  ⟨none, none, none, none, none, none, none, none, none, none, none, none, false⟩

/-- **C88.** The defaults of `sun_angle_tool` and those of the library, `SunAngleParameters::default`, are the same: midnight at
the start of 2007-04-05, on the equator, 120 degrees west, height zero. -/
theorem C88_defaults_agree :
    GregorianDate.new (noOptions.year.getD 2007) (noOptions.month.getD 4) (noOptions.day.getD 5) =
      .ok (SunAngleParameters.default (α := F64)).date ∧
    noOptions.params (SunAngleParameters.default (α := F64)).date = SunAngleParameters.default ∧
    (SunAngleParameters.default (α := F64)).date = ⟨2007, 4, 5⟩ ∧
    (SunAngleParameters.default (α := F64)).time.hour = 0 ∧ (SunAngleParameters.default (α := F64)).time.minute = 0 ∧
    Is (SunAngleParameters.default (α := F64)).time.second 0 ∧
    Is (SunAngleParameters.default (α := F64)).position.lat 0 ∧
    Is (SunAngleParameters.default (α := F64)).position.lon (-120) ∧
    Is (SunAngleParameters.default (α := F64)).position.height 0 := by
  have i0 : Is (lit 0 : F64) 0 := by have := Is.lit_int 0 (by norm_num); push_cast at this; exact this
  have i1 : Is (lit (-120) : F64) (-120) := by have := Is.lit_int (-120) (by norm_num); push_cast at this; exact this
  exact ⟨by decide, rfl, rfl, rfl, rfl, i0, i0, i1, i0⟩

/-- The default parameters are in the range of C72 with every offset up to `1e9` seconds. -/
theorem default_input {δ : F64} {d : ℚ} (h : Is δ d) (hd : |d| ≤ 1000000000) :
    SunInput (SunAngleParameters.default : SunAngleParameters F64) δ 0 (-120) 0 0 d 54195 := by
  obtain ⟨-, -, -, -, -, i1, i2, i3, i4⟩ := C88_defaults_agree
  refine ⟨⟨by decide, by decide, by decide⟩, by decide, by decide, i1, by norm_num [SunAngleParameters.default], by
    norm_num [SunAngleParameters.default], i3, i2, i4, by norm_num, by norm_num, by norm_num, h, hd, daysFrom_epoch (by decide), ?_⟩
  rw [abs_le] at hd ⊢
  norm_num [SunAngleParameters.default]
  constructor <;> linarith [hd.1, hd.2]

/-- **C88.** `sun_angle_tool` without arguments prints one correct report and ends: that for the default parameters, ten minutes
before midnight. -/
theorem C88_no_arguments [Libm F64] (hL : LibmAcc) (p : Profile) (n : ℕ) (hn : 0 < n) :
    ∃ t, sunAngleToolMain p [] n = .ok (some ⟨t, .done⟩) ∧
      IsReport p SunAngleParameters.default 0 (-120) 0 0 (-600) 54195 t := by
  have i6 : Is (lit (-600) : F64) (-600) := by have := Is.lit_int (-600) (by norm_num); push_cast at this; exact this
  obtain ⟨e1, e2, -⟩ := C88_defaults_agree
  have h := C87_sun_report hL p [] ⟨by decide, by decide⟩ (by unfold Valued; decide) (by decide) noOptions
    (by constructor <;> first | exact fun it hi => absurd hi (by simp) | simp [noOptions]) _ e1 0 (-120) 0 0 (-600) 54195
    (by rw [e2]; exact default_input i6 (by norm_num)) (by decide +kernel) n hn
  rwa [e2] at h

/-- **C88.** With the default parameters the Sun is up from 18:00 to 22:00 UTC and down from 06:00 to 10:00, on
every day within 1e9 seconds (31 years). -/
theorem C88_default_day_and_night [Libm F64] (hL : LibmAcc) (p : Profile) (δ : F64) (d : ℚ) (h : Is δ d) (hd : |d| ≤ 1000000000) :
    ∃ (c : SunAngleCalculator F64) (r : SunAngleResult F64) (x : ℚ), SunAngleCalculator.new p SunAngleParameters.default = .ok c ∧
      c.compute δ = .ok r ∧ Is (c.zen.normalize.dot r.sun_e.normalize) x ∧
      ((∃ k : ℤ, |d / 3600 - 20 - 24 * k| ≤ 2) → 0 < x ∧ (x ≤ 1 → ∃ z : ℚ, Is r.sza z ∧ (z : ℝ) < Real.pi / 2)) ∧
      ((∃ k : ℤ, |d / 3600 - 8 - 24 * k| ≤ 2) → x < 0 ∧ (-1 ≤ x → ∃ z : ℚ, Is r.sza z ∧ Real.pi / 2 < z)) := by
  obtain ⟨c, r, x, hc, hr, ix, u, w⟩ := C84_noon_and_midnight_f64 hL p _ δ 0 (-120) 0 0 d 54195 (default_input h hd) (by norm_num)
    (d / 3600 - 8) (by norm_num [SunAngleParameters.default]; ring)
  refine ⟨c, r, x, hc, hr, ix, fun ⟨k, hk⟩ => u ⟨k, ?_⟩, fun ⟨k, hk⟩ => w ⟨k, hk⟩⟩
  rwa [show d / 3600 - 8 - 12 - 24 * (k : ℚ) = d / 3600 - 20 - 24 * k by ring]

/-- Twenty hours after midnight UTC it is noon at 120 degrees west. -/
example : Is (lit 72000 : F64) 72000 ∧ |(72000 : ℚ)| ≤ 1000000000 ∧ |(72000 : ℚ) / 3600 - 20 - 24 * ((0 : ℤ) : ℚ)| ≤ 2 ∧
    ∃ L : Libm F64, @LibmAcc L := by
  have := Is.lit_int 72000 (by norm_num)
  push_cast at this
  exact ⟨this, by norm_num, by norm_num, goodLibm, exists_libmAcc⟩

end Verif
