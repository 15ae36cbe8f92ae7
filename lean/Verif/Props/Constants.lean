import Verif.Props.Calendar
import Verif.Props.Common
import Verif.Props.Ellipsoid
import Verif.Model.Time
import Mathlib.Analysis.Real.Pi.Bounds
import Mathlib.Analysis.SpecialFunctions.Complex.Arctan

/-!
# C61, C62: numerical constants against their definitions
-/

namespace Verif
open Arith F64 Spec

/-! ## C61 -/

/-- Error of the partial sums of the arctangent series. -/
theorem arctan_partial (x : ℝ) (x0 : 0 ≤ x) (x1 : x < 1) (n : ℕ) :
    |Real.arctan x - ∑ i ∈ Finset.range n, (-1) ^ i * (x ^ (2 * i + 1) / (2 * i + 1))| ≤ x ^ (2 * n + 1) / (2 * n + 1) := by
  have hs := Real.hasSum_arctan (x := x) (by rwa [Real.norm_of_nonneg x0])
  have he : (fun n : ℕ => (-1) ^ n * x ^ (2 * n + 1) / ((2 * n + 1 : ℕ) : ℝ)) =
      fun n : ℕ => (-1) ^ n * (x ^ (2 * n + 1) / (2 * (n : ℝ) + 1)) := by
    funext n; push_cast; rw [mul_div_assoc]
  rw [he] at hs
  have ha : Antitone fun n : ℕ => x ^ (2 * n + 1) / (2 * (n : ℝ) + 1) := by
    refine antitone_nat_of_succ_le fun n => ?_
    push_cast
    refine div_le_div₀ (by positivity) (pow_le_pow_of_le_one x0 x1.le (by omega)) (by positivity) (by linarith)
  have hf : Summable fun n : ℕ => x ^ (2 * n + 1) / (2 * (n : ℝ) + 1) := by
    refine Summable.of_nonneg_of_le (fun n => by positivity) (fun n => ?_) (summable_geometric_of_lt_one x0 x1)
    refine (div_le_self (by positivity) (by linarith [Nat.cast_nonneg (α := ℝ) n])).trans
      (pow_le_pow_of_le_one x0 x1.le (by omega))
  have := alternating_series_error_bound _ ha hf n
  rwa [hs.tsum_eq] at this

/-- 34 decimals of `pi`, by Machin's formula. -/
theorem pi_close34 : |Real.pi - 3.14159265358979323846264338327950288| ≤ 1 / 10 ^ 34 := by
  have h1 := abs_le.mp (arctan_partial 5⁻¹ (by norm_num) (by norm_num) 25)
  have h2 := abs_le.mp (arctan_partial 239⁻¹ (by norm_num) (by norm_num) 8)
  have h := Real.four_mul_arctan_inv_5_sub_arctan_inv_239
  norm_num [Finset.sum_range_succ] at h1 h2
  norm_num at h
  rw [abs_le]
  constructor <;> norm_num <;> linarith [h1.1, h1.2, h2.1, h2.2]

theorem pi_close : |Real.pi - 3.14159265358979323846| ≤ 1 / 10 ^ 20 := by
  have h := abs_le.mp pi_close34
  rw [abs_le]
  constructor <;> norm_num at * <;> linarith

/-- **C61** (exact). The decimal constants are `2*pi`, `pi/648000` (one arcsecond), a thousandth of it, `pi/180`, and
one turn in arcseconds, to half a unit of the last of the 25 digits written in the source. -/
theorem C61_constants_exact :
    |(TWO_PI : ℝ) - 2 * Real.pi| ≤ 0.5 / 10 ^ 24 ∧
    |(AS2R : ℝ) - Real.pi / 648000| ≤ 0.5 / 10 ^ 30 ∧
    |(MAS2R : ℝ) - Real.pi / 648000000| ≤ 0.5 / 10 ^ 33 ∧
    (DEGREE : ℝ) = Real.pi / 180 ∧
    (TURNAS : ℝ) = 360 * 3600 ∧
    |(TURNAS : ℝ) * AS2R - TWO_PI| ≤ 1 / 10 ^ 24 := by
  have h := abs_le.mp pi_close34
  have e1 : (TWO_PI : ℝ) = 6.283185307179586476925287 := by unfold TWO_PI; norm_num
  have e2 : (AS2R : ℝ) = 4.848136811095359935899141e-6 := by unfold AS2R; norm_num
  have e3 : (MAS2R : ℝ) = 4.848136811095359935899141e-6 / 1000 := by
    unfold MAS2R; rw [div_real, e2]; norm_num
  have e4 : (DEGREE : ℝ) = Real.pi / 180 := by unfold DEGREE; simp
  have e5 : (TURNAS : ℝ) = 1296000 := by unfold TURNAS; norm_num
  rw [e1, e2, e3, e5]
  refine ⟨?_, ?_, ?_, e4, by norm_num, ?_⟩
  · rw [abs_le]; constructor <;> norm_num at * <;> linarith
  · rw [abs_le]; constructor <;> norm_num at * <;> linarith
  · rw [abs_le]; constructor <;> norm_num at * <;> linarith
  · norm_num [abs_le]

/-- **C61** (f64). The `f64` values of the constants are within half a unit in the last place of the numbers they stand
for, and `TWO_PI` is exactly twice `PI`. -/
theorem C61_constants_f64 : ∃ p w a m d : ℚ, Is (Arith.pi : F64) p ∧ Is (TWO_PI : F64) w ∧ Is (AS2R : F64) a ∧
    Is (MAS2R : F64) m ∧ Is (DEGREE : F64) d ∧ Is (TURNAS : F64) (360 * 3600) ∧ w = 2 * p ∧
    |(p : ℝ) - Real.pi| < 1 / 2 ^ 52 ∧ |(w : ℝ) - 2 * Real.pi| < 1 / 2 ^ 51 ∧
    |(a : ℝ) - Real.pi / 648000| < 1 / 2 ^ 71 ∧ |(m : ℝ) - Real.pi / 648000000| < 1 / 2 ^ 81 ∧
    |(d : ℝ) - Real.pi / 180| < 1 / 2 ^ 59 := by
  have h := abs_le.mp pi_close34
  have hp : Is (Arith.pi : F64) (0x1921FB54442D18 / 2 ^ 51) := by
    have : Is (lit (0x1921FB54442D18 / 2 ^ 51) : F64) (0x1921FB54442D18 / 2 ^ 51) := by
      refine Is.lit_exact _ ?_ (small_le_HUGE (by norm_num))
      have := RepQ.dyadic 0x1921FB54442D18 51 (by norm_num) (by norm_num)
      push_cast at this
      exact this
    have e : (Arith.pi : F64) = lit (0x1921FB54442D18 / 2 ^ 51) := by decide +kernel
    rw [e]; exact this
  have hw : Is (TWO_PI : F64) (0x1921FB54442D18 / 2 ^ 50) := by
    have : Is (lit (0x1921FB54442D18 / 2 ^ 50) : F64) (0x1921FB54442D18 / 2 ^ 50) := by
      refine Is.lit_exact _ ?_ (small_le_HUGE (by norm_num))
      have := RepQ.dyadic 0x1921FB54442D18 50 (by norm_num) (by norm_num)
      push_cast at this
      exact this
    have e : (TWO_PI : F64) = lit (0x1921FB54442D18 / 2 ^ 50) := by decide +kernel
    rw [e]; exact this
  have ha : Is (AS2R : F64) (0x1455A5B2FF8F9D / 2 ^ 70) := by
    have : Is (lit (0x1455A5B2FF8F9D / 2 ^ 70) : F64) (0x1455A5B2FF8F9D / 2 ^ 70) := by
      refine Is.lit_exact _ ?_ (small_le_HUGE (by norm_num))
      have := RepQ.dyadic 0x1455A5B2FF8F9D 70 (by norm_num) (by norm_num)
      push_cast at this
      exact this
    have e : (AS2R : F64) = lit (0x1455A5B2FF8F9D / 2 ^ 70) := by decide +kernel
    rw [e]; exact this
  have hd : Is (DEGREE : F64) (0x11DF46A2529D39 / 2 ^ 58) := by
    have : Is (lit (0x11DF46A2529D39 / 2 ^ 58) : F64) (0x11DF46A2529D39 / 2 ^ 58) := by
      refine Is.lit_exact _ ?_ (small_le_HUGE (by norm_num))
      have := RepQ.dyadic 0x11DF46A2529D39 58 (by norm_num) (by norm_num)
      push_cast at this
      exact this
    have e : (DEGREE : F64) = lit (0x11DF46A2529D39 / 2 ^ 58) := by decide +kernel
    rw [e]; exact this
  have hm : Is (MAS2R : F64) (0x14d295322c9b41 / 2 ^ 80) := by
    have : Is (lit (0x14d295322c9b41 / 2 ^ 80) : F64) (0x14d295322c9b41 / 2 ^ 80) := by
      refine Is.lit_exact _ ?_ (small_le_HUGE (by norm_num))
      have := RepQ.dyadic 0x14d295322c9b41 80 (by norm_num) (by norm_num)
      push_cast at this
      exact this
    have e : (MAS2R : F64) = lit (0x14d295322c9b41 / 2 ^ 80) := by decide +kernel
    rw [e]; exact this
  have ht : Is (TURNAS : F64) (360 * 3600) := by
    have := Is.lit_exact (360 * 3600) (by
      have := RepQ.dyadic 1296000 0 (by norm_num) (by norm_num)
      norm_num at this ⊢
      exact this) (small_le_HUGE (by norm_num))
    have e : (TURNAS : F64) = lit (360 * 3600) := by decide +kernel
    rw [e]; exact this
  refine ⟨_, _, _, _, _, hp, hw, ha, hm, hd, ht, by norm_num, ?_, ?_, ?_, ?_, ?_⟩
  all_goals
    rw [abs_lt]
    push_cast
    constructor <;> norm_num at * <;> linarith

/-- **C61.** The origin of Julian centuries is noon of 2000-01-01 as computed by the calendar, a Julian century is
100 Julian years of 365.25 days, and a day has 24*60*60 seconds, in exact arithmetic and in `f64`. -/
theorem C61_time_constants (p : Profile) :
    (∃ a b : ℝ, GregorianDate.toJulian p ⟨2000, 1, 1⟩ = .ok (a, b) ∧ a + b + 1 / 2 = DJ00) ∧
    (DJC : ℝ) = 100 * DJY ∧ (D2S : ℝ) = 24 * 60 * 60 ∧
    (∃ a b : F64, GregorianDate.toJulian p ⟨2000, 1, 1⟩ = .ok (a, b) ∧ (a +. b) +. lit (1 / 2) = DJ00) ∧
    (DJC : F64) = lit 100 *. DJY ∧ (D2S : F64) = (lit 24 *. lit 60) *. lit 60 := by
  have h : GregorianDate.toJulianDay p ⟨2000, 1, 1⟩ = .ok 51544 := by cases p <;> decide +kernel
  refine ⟨⟨2400000.5, 51544, ?_, ?_⟩, ?_, ?_, ⟨GregorianDate.MJD_ZERO, Arith.ofInt 51544, ?_, ?_⟩, by decide +kernel, by decide +kernel⟩
  · unfold GregorianDate.toJulian GregorianDate.MJD_ZERO
    rw [h]
    simp only [ok_bind, lit_real, ofInt_real]
    norm_num
    rfl
  · unfold DJ00; norm_num
  · unfold DJC DJY; norm_num
  · unfold D2S; norm_num
  · unfold GregorianDate.toJulian
    rw [h]
    rfl
  · decide +kernel

/-! ## C62 -/

/-- **C62** (exact). The derived constants of the WGS84 converter agree with the published ones (NIMA TR8350.2,
table 3.3): polar radius 6356752.3142 m, first eccentricity squared 6.69437999014e-3, second eccentricity squared
6.73949674228e-3, axis ratio 0.996647189335, polar radius of curvature 6399593.6258 m, to half a unit of the last printed
digit. -/
theorem C62_wgs84_exact : ∃ w, EllipsoidConverter.new (WGS84 : Ellipsoid ℝ) = .ok w ∧
    w.el.a = 6378137 ∧ |w.b - 6356752.3142| ≤ 0.00005 ∧ |w.e2 - 6.69437999014e-3| ≤ 0.5e-14 ∧
    |w.e2 / w.ec2 - 6.73949674228e-3| ≤ 0.5e-14 ∧ |w.ec - 0.996647189335| ≤ 0.5e-12 ∧
    |w.el.a ^ 2 / w.b - 6399593.6258| ≤ 0.00005 ∧ w.b = w.el.a * (1 - w.el.f) := by
  have e : (WGS84 : Ellipsoid ℝ) = ⟨6378137, 1 / 298.257223563⟩ := by
    unfold WGS84; simp
  refine ⟨_, by rw [e]; exact new_real _ _ (by norm_num) (by norm_num) (by norm_num), ?_⟩
  norm_num [abs_le]

/-- **C62** (f64). The same in binary64. -/
theorem C62_wgs84_f64 : ∃ (w : EllipsoidConverter F64) (b e2 ec : ℚ),
    EllipsoidConverter.new (WGS84 : Ellipsoid F64) = .ok w ∧ w.el.a = lit 6378137 ∧
    Is w.b b ∧ Is w.e2 e2 ∧ Is w.ec ec ∧ |b - 6356752.3142| ≤ 0.00005 ∧ |e2 - 6.69437999014e-3| ≤ 0.5e-14 ∧
    |ec - 0.996647189335| ≤ 0.5e-12 := by
  let chk (w : EllipsoidConverter F64) : Bool := (lit 6356752.314151 <=. w.b) && (w.b <=. lit 6356752.314249) &&
    (lit 6.694379990136e-3 <=. w.e2) && (w.e2 <=. lit 6.694379990144e-3) && w.b.isFin && w.e2.isFin &&
    (lit 0.9966471893346 <=. w.ec) && (w.ec <=. lit 0.9966471893354) && w.ec.isFin
  have hc : (match EllipsoidConverter.new (WGS84 : Ellipsoid F64) with
    | .ok w => chk w && decide (w.el.a = lit 6378137) | .error _ => false) = true := by decide +kernel
  cases h : EllipsoidConverter.new (WGS84 : Ellipsoid F64) with
  | error e => rw [h] at hc; cases hc
  | ok w =>
    rw [h] at hc
    simp only [chk, Bool.and_eq_true, decide_eq_true_eq] at hc
    obtain ⟨⟨⟨⟨⟨⟨⟨⟨⟨h1, h2⟩, h3⟩, h4⟩, h5⟩, h6⟩, h8⟩, h9⟩, h10⟩, h7⟩ := hc
    have cmp : ∀ (x : ℚ), |x| ≤ 10 ^ 7 → ∃ y, Is (lit x : F64) y ∧ |y - x| ≤ |x| / 2 ^ 53 + 1 / 2 ^ 100 := fun x hx =>
      ⟨_, Is.lit _ (small_le_HUGE (hx.trans (by norm_num))), RN_err' x⟩
    obtain ⟨y1, i1, c1⟩ := cmp 6356752.314151 (by norm_num)
    obtain ⟨y2, i2, c2⟩ := cmp 6356752.314249 (by norm_num)
    obtain ⟨y3, i3, c3⟩ := cmp 6.694379990136e-3 (by norm_num)
    obtain ⟨y4, i4, c4⟩ := cmp 6.694379990144e-3 (by norm_num)
    obtain ⟨y5, i5, c5⟩ := cmp 0.9966471893346 (by norm_num)
    obtain ⟨y6, i6, c6⟩ := cmp 0.9966471893354 (by norm_num)
    rw [i5.le (Is.self h10), decide_eq_true_eq] at h8
    rw [(Is.self h10).le i6, decide_eq_true_eq] at h9
    rw [i1.le (Is.self h5), decide_eq_true_eq] at h1
    rw [(Is.self h5).le i2, decide_eq_true_eq] at h2
    rw [i3.le (Is.self h6), decide_eq_true_eq] at h3
    rw [(Is.self h6).le i4, decide_eq_true_eq] at h4
    rw [abs_le] at c1 c2 c3 c4 c5 c6
    refine ⟨w, _, _, _, rfl, h7, Is.self h5, Is.self h6, Is.self h10, ?_, ?_, ?_⟩
    · rw [abs_le]
      norm_num [abs_of_pos] at c1 c2 ⊢
      constructor <;> linarith
    · rw [abs_le]
      norm_num [abs_of_pos] at c3 c4 ⊢
      constructor <;> linarith
    · rw [abs_le]
      norm_num [abs_of_pos] at c5 c6 ⊢
      constructor <;> linarith

end Verif
