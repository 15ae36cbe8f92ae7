import Verif.Model.SunAngle
import Verif.Props.DeltaAt
import Verif.Props.Earth
import Verif.Props.EarthAngle
import Verif.Props.Frames
import Verif.Props.Ellipsoid
import Verif.Props.Time

/-!
# C52-C54: the Sun angle calculator
-/

namespace Verif
open Arith F64 Spec Matrix

/-! ## C52 -/

section generic
variable {α : Type} [Arith α]

theorem toJulian_of_day {p : Profile} {d : GregorianDate} {N : ℤ} (h : d.toJulianDay p = .ok N) :
    d.toJulian p = .ok ((GregorianDate.MJD_ZERO : α), (Arith.ofInt N : α)) := by
  unfold GregorianDate.toJulian; rw [h]; rfl

theorem toJulian_of_err {p : Profile} {d : GregorianDate} {e : Panic} (h : d.toJulianDay p = .error e) :
    d.toJulian (α := α) p = .error e := by
  unfold GregorianDate.toJulian; rw [h]; rfl

/-- The integer operations of `delta_at` succeed. -/
def MonthOk (p : Profile) (d : GregorianDate) : Prop :=
  p = .wrapping ∨ (1 ≤ d.month ∧ d.month ≤ 12 ∧ d.year ≤ 178956969)

theorem deltaAt_ok {p : Profile} {d : GregorianDate} {fd : α} {N : ℤ}
    (h : ¬ (fd <. lit 0 || lit 1 <. fd) = true) (hj : d.toJulianDay p = .ok N) (hm : MonthOk p d) :
    ∃ o, deltaAt p d fd = .ok (.ok o) ∧ (d.year < 1960 ↔ o = none) := by
  by_cases hy : d.year < 1960
  · exact ⟨none, deltaAt_none p d fd h hy, by simp [hy]⟩
  · obtain ⟨m, e1⟩ : ∃ m, (I32.mul p 12 d.year >>= fun x => I32.add p x d.month) = .ok m := by
      rcases hm with rfl | ⟨m1, m2, hy'⟩
      · unfold I32.mul I32.add
        simp only [I32.norm_wrapping, ok_bind]
        exact ⟨_, rfl⟩
      · rw [I32.mul_ok (by omega) (by omega), ok_bind, I32.add_ok (by omega) (by omega)]
        exact ⟨_, rfl⟩
    have e2 : deltaAt p d fd = (match (datRow m).drift with
        | none => .ok (.ok (some (lit (datRow m).dat)))
        | some (d0, d1) => do
          let (_, djm) ← GregorianDate.toJulian (α := α) p d
          return .ok (some (lit (datRow m).dat +. ((djm +. fd) -. lit d0) *. lit d1))) := by
      have hy0 : ¬ d.year < (DAT_DATA[0]'(by decide)).year := by
        have : (DAT_DATA[0]'(by decide)).year = 1960 := by decide
        rw [this]; omega
      unfold deltaAt
      rw [if_neg h, if_neg hy0]
      cases h1 : I32.mul p 12 d.year with
      | error e => rw [h1, err_bind] at e1; cases e1
      | ok x =>
        rw [h1, ok_bind] at e1
        simp only [ok_bind, e1]
        cases (datRow m).drift with
        | none => rfl
        | some q => rfl
    rw [e2]
    cases (datRow m).drift with
    | none => exact ⟨_, rfl, by simp [hy]⟩
    | some q =>
      simp only
      rw [toJulian_of_day hj]
      exact ⟨_, rfl, by simp [hy]⟩

/-- `cos²φ + (1-f)² sin²φ` of `geodetic_to_geocentric` for WGS84, evaluated as in the code. -/
def wgsRadicand (cp sp : α) : α :=
  cp *. cp +. (((lit 1 -. (WGS84 (α := α)).f) *. (lit 1 -. (WGS84 (α := α)).f)) *. sp) *. sp

variable [Libm α]

omit [Libm α] in
theorem new_el {el : Ellipsoid α} {w : EllipsoidConverter α} (h : EllipsoidConverter.new el = .ok w) : w.el = el := by
  unfold EllipsoidConverter.new at h
  simp only at h
  split at h
  · cases h
  · split at h
    · cases h
    · split at h
      · cases h
      · obtain rfl := Except.ok.inj h; rfl

theorem geocentric_ok_iff {w : EllipsoidConverter α} (hw : w.el = WGS84) (g : Geodetic α) :
    (((lit 0 : α) <. wgsRadicand (Libm.cos g.phi) (Libm.sin g.phi)) = true ∧
      ∃ v, w.geodeticToGeocentric g = .ok v) ∨
    (¬ ((lit 0 : α) <. wgsRadicand (Libm.cos g.phi) (Libm.sin g.phi)) = true ∧
      w.geodeticToGeocentric g = .error .badCoordinates) := by
  unfold EllipsoidConverter.geodeticToGeocentric wgsRadicand
  rw [hw]
  simp only
  split
  · exact .inl ⟨by assumption, _, rfl⟩
  · exact .inr ⟨by assumption, rfl⟩

/-- The outcome of `new` in any arithmetic whose WGS84 converter can be built. -/
theorem new_outcome {p : Profile} {q : SunAngleParameters α} {N : ℤ} {w : EllipsoidConverter α}
    (hj : q.date.toJulianDay p = .ok N) (hm : MonthOk p q.date) (hw : EllipsoidConverter.new WGS84 = .ok w) :
    let fr := q.time.toFractionOfDay
    let phi := (Geodetic.from360 q.position).phi
    let bad := (fr <. lit 0) = true ∨ (lit 1 <. fr) = true ∨
      ¬ ((lit 0 : α) <. wgsRadicand (Libm.cos phi) (Libm.sin phi)) = true
    (bad → SunAngleCalculator.new p q = .error .unwrap) ∧
    (¬ bad → ∃ c, SunAngleCalculator.new p q = .ok c ∧ c.jd0 = GregorianDate.MJD_ZERO ∧ c.jd1_date = Arith.ofInt N ∧
      c.fr = fr ∧ deltaAt p q.date fr = .ok (.ok (if q.date.year < 1960 then none else some c.dat)) ∧
      (q.date.year < 1960 → c.dat = lit 0) ∧ c.dut1 = lit (-0.072073685) ∧ c.dtr = lit 0 ∧
      c.xp = lit 0.0349282 *. AS2R ∧ c.yp = lit 0.4833163 *. AS2R ∧
      w.geodeticToGeocentric (Geodetic.from360 q.position) = .ok c.p ∧
      c.zen = (Geodetic.from360 q.position).zenith) := by
  intro fr phi bad
  unfold SunAngleCalculator.new
  simp only [toJulian_of_day hj, ok_bind, hw, expect]
  by_cases hb : (fr <. lit 0 || lit 1 <. fr) = true
  · rw [deltaAt_bad p q.date _ hb]
    simp only [ok_bind]
    refine ⟨fun _ => rfl, fun h => absurd ?_ h⟩
    rw [Bool.or_eq_true] at hb
    rcases hb with hb | hb
    · exact .inl hb
    · exact .inr (.inl hb)
  · obtain ⟨o, ho, hn⟩ := deltaAt_ok hb hj hm
    have ho' : deltaAt p q.date q.time.toFractionOfDay = .ok (.ok o) := ho
    rw [ho']
    simp only [ok_bind]
    rw [Bool.or_eq_true] at hb
    rcases geocentric_ok_iff (new_el hw) (Geodetic.from360 q.position) with ⟨hd, v, hv⟩ | ⟨hd, hv⟩
    · rw [hv]
      simp only [ok_bind]
      refine ⟨fun h => ?_, fun _ => ⟨_, rfl, rfl, rfl, rfl, ?_, ?_, rfl, rfl, rfl, rfl, rfl, rfl⟩⟩
      · rcases h with h | h | h
        · exact absurd (.inl h) hb
        · exact absurd (.inr h) hb
        · exact absurd hd h
      · simp only
        by_cases hy : q.date.year < 1960
        · rw [if_pos hy, hn.mp hy]
        · rw [if_neg hy]
          cases o with
          | none => exact absurd (hn.mpr rfl) hy
          | some x => rfl
      · intro hy
        simp only
        rw [hn.mp hy]; rfl
    · rw [hv]
      simp only [err_bind]
      exact ⟨fun _ => trivial, fun h => absurd (.inr (.inr hd)) h⟩

end generic

theorem wgs84_real : EllipsoidConverter.new (WGS84 : Ellipsoid ℝ) = .ok (convR 6378137 (1 / 298.257223563)) := by
  have e : (WGS84 : Ellipsoid ℝ) = ⟨6378137, 1 / 298.257223563⟩ := by
    unfold WGS84; simp
  rw [e]
  exact new_real _ _ (by norm_num) (by norm_num) (by norm_num)

theorem wgsRadicand_real (φ : ℝ) : ((lit 0 : ℝ) <. wgsRadicand (Libm.cos φ) (Libm.sin φ)) = true := by
  have h := radicand_pos (1 / 298.257223563) φ (by norm_num)
  unfold wgsRadicand WGS84
  simp only [lit_real, lt_real, add_real, sub_real, mul_real, div_real, cos_real, sin_real]
  push_cast
  nlinarith

/-- A date as accepted by `GregorianDate::new` and below the overflow limit of `to_julian`. -/
structure GoodDate (d : GregorianDate) : Prop where
  civil : IsDate d.civil
  early : -4799 ≤ d.year
  late : marchYear d ≤ 1465072

theorem GoodDate.day {d : GregorianDate} (h : GoodDate d) (p : Profile) :
    d.toJulianDay p = .ok (mjdN d.year d.month d.day) := toJulianDay_ok p d h.civil h.early h.late

theorem GoodDate.month {d : GregorianDate} (h : GoodDate d) (p : Profile) : MonthOk p d := by
  obtain ⟨h1, h2, h3⟩ := h
  obtain ⟨m1, m2, -, -⟩ := h1
  simp only [GregorianDate.civil] at m1 m2
  refine .inr ⟨m1, m2, ?_⟩
  unfold marchYear at h3
  split at h3 <;> omega

/-- **C52** (exact). For a valid date `new` panics exactly when the time of day is outside `[0, 1]`; the
panic is that of `expect("Delta AT error")`; any latitude, longitude and height are accepted. -/
theorem C52_new_exact (p : Profile) (q : SunAngleParameters ℝ) (hd : GoodDate q.date) :
    ((∃ c, SunAngleCalculator.new p q = .ok c) ↔ 0 ≤ q.time.toFractionOfDay ∧ q.time.toFractionOfDay ≤ 1) ∧
    (¬ (0 ≤ q.time.toFractionOfDay ∧ q.time.toFractionOfDay ≤ 1) →
      SunAngleCalculator.new p q = .error .unwrap) := by
  obtain ⟨h1, h2⟩ := new_outcome (hd.day p) (hd.month p) wgs84_real
  have hb : ((q.time.toFractionOfDay <. lit 0) = true ∨ (lit 1 <. q.time.toFractionOfDay) = true ∨
      ¬ ((lit 0 : ℝ) <. wgsRadicand (Libm.cos (Geodetic.from360 q.position).phi)
        (Libm.sin (Geodetic.from360 q.position).phi)) = true) ↔
      ¬ (0 ≤ q.time.toFractionOfDay ∧ q.time.toFractionOfDay ≤ 1) := by
    rw [wgsRadicand_real, lt_real, lt_real]
    simp only [lit_real, Rat.cast_zero, Rat.cast_one, not_true, or_false]
    rw [not_and_or, not_le, not_le]
  simp only [hb] at h1 h2
  refine ⟨⟨?_, fun h => ?_⟩, h1⟩
  · rintro ⟨c, hc⟩
    by_contra h
    rw [h1 h] at hc
    cases hc
  · obtain ⟨c, hc, -⟩ := h2 (by simpa using h)
    exact ⟨c, hc⟩

theorem wgs84_f64 : ∃ w, EllipsoidConverter.new (WGS84 : Ellipsoid F64) = .ok w := by
  have : isOk (EllipsoidConverter.new (WGS84 : Ellipsoid F64)) = true := by decide +kernel
  cases h : EllipsoidConverter.new (WGS84 : Ellipsoid F64) with
  | ok w => exact ⟨w, rfl⟩
  | error e => rw [h] at this; cases this

/-- **C52** (f64). For every valid date below the overflow limit, every `f64` time of day and position and
every libm: `new` panics (with the panic of `expect`) exactly when the fraction of day compares below 0 or
above 1, or the radicand of `geodetic_to_geocentric` does not compare above 0. Otherwise delta AT is that of
`delta_at`, and 0 for the years before 1960. -/
theorem C52_new_f64 [Libm F64] (p : Profile) (q : SunAngleParameters F64) (hd : GoodDate q.date) :
    let fr := q.time.toFractionOfDay
    let phi := (Geodetic.from360 q.position).phi
    let bad := (fr <. lit 0) = true ∨ (lit 1 <. fr) = true ∨
      ¬ ((lit 0 : F64) <. wgsRadicand (Libm.cos phi) (Libm.sin phi)) = true
    (bad → SunAngleCalculator.new p q = .error .unwrap) ∧
    (¬ bad → ∃ c, SunAngleCalculator.new p q = .ok c ∧
      deltaAt p q.date fr = .ok (.ok (if q.date.year < 1960 then none else some c.dat)) ∧
      (q.date.year < 1960 → c.dat = lit 0)) := by
  obtain ⟨w, hw⟩ := wgs84_f64
  obtain ⟨h1, h2⟩ := new_outcome (hd.day p) (hd.month p) hw
  exact ⟨h1, fun hb => let ⟨c, hc, _, _, _, e1, e2, _⟩ := h2 hb; ⟨c, hc, e1, e2⟩⟩

/-- **C52** (f64). The position cannot make `new` panic if the libm returns numbers in `[-1, 1]` whose squares add
up to at least one half. -/
theorem C52_position_ok (cp sp : F64) (a b : ℚ) (hc : Is cp a) (hs : Is sp b) (ha : |a| ≤ 1) (hb : |b| ≤ 1)
    (h : 1 / 2 ≤ a ^ 2 + b ^ 2) : ((lit 0 : F64) <. wgsRadicand cp sp) = true := by
  obtain ⟨w, hw, w1, w2⟩ : ∃ w : ℚ, Is ((lit 1 -. (WGS84 (α := F64)).f) *. (lit 1 -. (WGS84 (α := F64)).f)) w ∧
      1 / 2 ≤ w ∧ w ≤ 1 := by
    refine ⟨_, Is.self (by decide +kernel), ?_, ?_⟩
    · have h2 : Is (lit (1 / 2) : F64) (1 / 2) :=
        Is.lit_exact _ (by have := RepQ.dyadic 1 1 (by norm_num) (by norm_num); norm_num at this ⊢; exact this)
          (small_le_HUGE (by norm_num))
      have := h2.le (Is.self (x := (lit 1 -. (WGS84 (α := F64)).f) *. (lit 1 -. (WGS84 (α := F64)).f))
        (by decide +kernel))
      have h3 : ((lit (1 / 2) : F64) <=. ((lit 1 -. (WGS84 (α := F64)).f) *. (lit 1 -. (WGS84 (α := F64)).f)))
        = true := by decide +kernel
      rw [h3] at this
      exact of_decide_eq_true this.symm
    · have h2 : Is (lit 1 : F64) 1 := by
        have := Is.lit_int 1 (by norm_num); push_cast at this; exact this
      have := (Is.self (x := (lit 1 -. (WGS84 (α := F64)).f) *. (lit 1 -. (WGS84 (α := F64)).f))
        (by decide +kernel)).le h2
      have h3 : (((lit 1 -. (WGS84 (α := F64)).f) *. (lit 1 -. (WGS84 (α := F64)).f)) <=. (lit 1 : F64))
        = true := by decide +kernel
      rw [h3] at this
      exact of_decide_eq_true this.symm
  have ra : ∀ x : ℚ, |x| ≤ 1 → |RN x| ≤ 1 := by
    intro x hx
    have r1 : RepQ (1 : ℚ) := by have := RepQ.int 1 (by norm_num); push_cast at this; exact this
    rw [abs_le] at hx ⊢
    exact ⟨le_RN_of_le r1.neg hx.1, RN_le_of_le r1 hx.2⟩
  have haa : |a * a| ≤ 1 := by rw [abs_mul]; exact mul_le_one₀ ha (abs_nonneg _) ha
  have hwb : |w * b| ≤ 1 := by
    rw [abs_mul]; exact mul_le_one₀ (by rw [abs_le]; constructor <;> linarith) (abs_nonneg _) hb
  have hwbb : |RN (w * b) * b| ≤ 1 := by
    rw [abs_mul]; exact mul_le_one₀ (ra _ hwb) (abs_nonneg _) hb
  have i1 := hc.mul hc (small_le_HUGE (by linarith))
  have i2 := hw.mul hs (small_le_HUGE (by linarith))
  have i3 := i2.mul hs (small_le_HUGE (by linarith))
  have t1 := ra _ haa
  have t2 := ra _ hwbb
  have i4 := i1.add i3 (small_le_HUGE (by
    refine (abs_add_le _ _).trans ?_
    linarith))
  have z : Is (lit 0 : F64) 0 := by
    have := Is.lit_int 0 (by norm_num); push_cast at this; exact this
  have e1 := RN_err_le (x := a * a) (M := 1) haa
  have e2 := RN_err_le (x := w * b) (M := 1) hwb
  have e3 := RN_err_le (x := RN (w * b) * b) (M := 1) hwbb
  have e4 := RN_err_le (x := RN (a * a) + RN (RN (w * b) * b)) (M := 2) (by
    refine (abs_add_le _ _).trans ?_
    linarith)
  unfold wgsRadicand
  rw [z.lt i4, decide_eq_true_iff]
  have e5 : |RN (w * b) * b - w * b * b| ≤ 1 / 1000 := by
    rw [← sub_mul, abs_mul]
    calc _ ≤ _ := mul_le_of_le_one_right (abs_nonneg _) hb
      _ ≤ _ := e2.trans (by norm_num)
  rw [abs_le] at e1 e3 e4 e5
  have b2 : 0 ≤ b * b := mul_self_nonneg b
  have a2 : 0 ≤ a * a := mul_self_nonneg a
  have b3 : 1 / 2 * (b * b) ≤ w * b * b := by rw [mul_assoc]; exact mul_le_mul_of_nonneg_right w1 b2
  norm_num at e1 e3 e4
  linarith [e1.1, e3.1, e4.1, e5.1]

/-- Latitude 30 degrees or thereabouts: half and seven eighths. -/
example : Is (lit 0.5 : F64) (1 / 2) ∧ Is (lit 0.875 : F64) (7 / 8) ∧ (1 : ℚ) / 2 ≤ (1 / 2) ^ 2 + (7 / 8) ^ 2 := by
  refine ⟨?_, ?_, by norm_num⟩
  · have := Is.lit_exact 0.5 (by have := RepQ.dyadic 1 1 (by norm_num) (by norm_num); norm_num at this ⊢; exact this)
      (small_le_HUGE (by norm_num))
    norm_num at this ⊢; exact this
  · have := Is.lit_exact 0.875 (by have := RepQ.dyadic 7 3 (by norm_num) (by norm_num); norm_num at this ⊢; exact this)
      (small_le_HUGE (by norm_num))
    norm_num at this ⊢; exact this

/-- **C52**. Far-future dates: in a build with overflow checks `new` panics, whatever the time and position. -/
theorem C52_overflow {α : Type} [Arith α] [Libm α] (q : SunAngleParameters α) (hc : IsDate q.date.civil)
    (hr : I32.InRange q.date.year) (hY : 1465073 ≤ marchYear q.date) :
    SunAngleCalculator.new .checked q = .error .overflow := by
  unfold SunAngleCalculator.new
  simp only [toJulian_of_err (toJulianDay_checked_overflow _ hc hr hY), err_bind]

example : IsDate (GregorianDate.mk 1465073 4 1).civil ∧ I32.InRange 1465073 ∧ 1465073 ≤ marchYear ⟨1465073, 4, 1⟩ := by
  refine ⟨by decide, by decide, by decide⟩

-- the default parameters, a leap second (fraction above 1), a date before 1960
example : GoodDate ⟨2007, 4, 5⟩ := ⟨by decide, by decide, by decide⟩
example : ((lit 1 : F64) <. (⟨24, 0, lit 1⟩ : HMS F64).toFractionOfDay) = true := by decide +kernel
example : ∃ c, SunAngleCalculator.new .checked (SunAngleParameters.default (α := ℝ)) = .ok c := by
  rw [(C52_new_exact _ _ ⟨by decide, by decide, by decide⟩).1]
  unfold SunAngleParameters.default HMS.toFractionOfDay
  norm_num

/-- **C52** (finding). NaN seconds are accepted. -/
theorem C52_nan_seconds [Libm F64] (p : Profile) (d : GregorianDate) (pos : Geodetic360 F64) (h m : ℤ)
    (hd : GoodDate d)
    (hp : ((lit 0 : F64) <. wgsRadicand (Libm.cos (Geodetic.from360 pos).phi)
      (Libm.sin (Geodetic.from360 pos).phi)) = true) :
    ∃ c, SunAngleCalculator.new p ⟨d, ⟨h, m, .nan⟩, pos⟩ = .ok c ∧ c.fr = .nan := by
  obtain ⟨w, hw⟩ := wgs84_f64
  have e : (⟨h, m, .nan⟩ : HMS F64).toFractionOfDay = .nan := rfl
  obtain ⟨-, h2⟩ := new_outcome (q := ⟨d, ⟨h, m, .nan⟩, pos⟩) (hd.day p) (hd.month p) hw
  obtain ⟨c, hc, -, -, h3, -⟩ := h2 (by
    simp only [e]
    rintro (h | h | h)
    · exact absurd h (by decide +kernel)
    · exact absurd h (by decide +kernel)
    · exact h hp)
  exact ⟨c, hc, h3.trans e⟩

/-- The condition on the position holds on the equator for a library with `cos 0 = 1`, `sin 0 = 0`. -/
example : GoodDate ⟨2007, 4, 5⟩ ∧ ((lit 0 : F64) <. wgsRadicand (lit 1) (lit 0)) = true :=
  ⟨⟨by decide, by decide, by decide⟩, by decide +kernel⟩

/-! ## C53 -/

/-- The three components of the vertical at longitude `lon` and latitude `lat` degrees. -/
noncomputable def vertical (lon lat : ℝ) : Vec3 ℝ :=
  ⟨Real.cos (lat * (Real.pi / 180)) * Real.cos (lon * (Real.pi / 180)),
   Real.cos (lat * (Real.pi / 180)) * Real.sin (lon * (Real.pi / 180)), Real.sin (lat * (Real.pi / 180))⟩

theorem vertical_unit (lon lat : ℝ) : (vertical lon lat).norm = 1 := by
  rw [norm_real]
  unfold vertical
  have h1 := Real.sin_sq_add_cos_sq (lat * (Real.pi / 180))
  have h2 := Real.sin_sq_add_cos_sq (lon * (Real.pi / 180))
  simp only
  rw [show (Real.cos (lat * (Real.pi / 180)) * Real.cos (lon * (Real.pi / 180))) ^ 2 +
      (Real.cos (lat * (Real.pi / 180)) * Real.sin (lon * (Real.pi / 180))) ^ 2 +
      Real.sin (lat * (Real.pi / 180)) ^ 2 = Real.cos (lat * (Real.pi / 180)) ^ 2 *
        (Real.sin (lon * (Real.pi / 180)) ^ 2 + Real.cos (lon * (Real.pi / 180)) ^ 2) +
      Real.sin (lat * (Real.pi / 180)) ^ 2 by ring, h2]
  rw [Real.sqrt_eq_one]
  linarith

/-- What `new` stores, in exact arithmetic. -/
theorem new_fields {p : Profile} {q : SunAngleParameters ℝ} {c : SunAngleCalculator ℝ} (hd : GoodDate q.date)
    (h : SunAngleCalculator.new p q = .ok c) :
    c.jd0 = 2400000.5 ∧ c.jd1_date = mjdN q.date.year q.date.month q.date.day ∧
    c.fr = (q.time.second + 60 * (q.time.minute + 60 * q.time.hour)) / 86400 ∧
    deltaAt p q.date c.fr = .ok (.ok (if q.date.year < 1960 then none else some c.dat)) ∧
    (q.date.year < 1960 → c.dat = 0) ∧ c.dut1 = -0.072073685 ∧ c.dtr = 0 ∧
    c.xp = 0.0349282 * AS2R ∧ c.yp = 0.4833163 * AS2R ∧
    (convR 6378137 (1 / 298.257223563)).geodeticToGeocentric (Geodetic.from360 q.position) = .ok c.p ∧
    c.zen = vertical q.position.lon q.position.lat := by
  obtain ⟨h1, h2⟩ := new_outcome (hd.day p) (hd.month p) wgs84_real
  by_cases hb : ((q.time.toFractionOfDay <. lit 0) = true ∨ (lit 1 <. q.time.toFractionOfDay) = true ∨
      ¬ ((lit 0 : ℝ) <. wgsRadicand (Libm.cos (Geodetic.from360 q.position).phi)
        (Libm.sin (Geodetic.from360 q.position).phi)) = true)
  · rw [h1 hb] at h; cases h
  · obtain ⟨c', hc, e1, e2, e3, e4, e5, e6, e7, e8, e9, e10, e11⟩ := h2 hb
    rw [hc] at h
    obtain rfl := Except.ok.inj h
    refine ⟨?_, ?_, ?_, by rw [e3]; exact e4, ?_, ?_, ?_, ?_, ?_, e10, ?_⟩
    · rw [e1]; unfold GregorianDate.MJD_ZERO; norm_num
    · rw [e2, ofInt_real]
    · rw [e3]; unfold HMS.toFractionOfDay; simp
    · intro hy; rw [e5 hy]; simp
    · rw [e6]; norm_num
    · rw [e7]; norm_num
    · rw [e8]; norm_num
    · rw [e9]; norm_num
    · rw [e11]
      unfold Geodetic.zenith Geodetic.from360 vertical DEGREE
      simp

/-- `compute` in exact arithmetic. -/
theorem compute_real (c : SunAngleCalculator ℝ) (δ : ℝ) :
    ∃ r, c.compute δ = .ok r ∧ r.jd0 = c.jd0 ∧ r.jd1 = c.jd1_date + (c.fr + δ / 86400) ∧ r.delta_s = δ ∧
      r.p = c.p ∧ r.utc = (r.jd0, r.jd1) ∧ r.dat = c.dat ∧ r.tai = TAI.fromUTC r.utc c.dat ∧
      r.tt = TT.fromTAI r.tai ∧ r.ut1 = (r.jd0, r.jd1 + c.dut1 / 86400) ∧ r.era = rotationAngle r.ut1 ∧
      r.earth = (earthAt (r.tt.1 + r.tt.2 + c.dtr / 86400)).heliocentric.p ∧
      r.sun_e = (celestialToTerrestrial r.tt r.ut1 c.xp c.yp).transpose.apply (r.earth.neg.scale AUM) ∧
      r.sza = c.zen.angle r.sun_e := by
  unfold SunAngleCalculator.compute
  simp only [fromTDB_real, ok_bind, C25_tt_to_tdb_exact]
  refine ⟨_, rfl, rfl, ?_, rfl, rfl, rfl, rfl, rfl, rfl, ?_, rfl, ?_, rfl, rfl⟩
  all_goals simp

theorem toVec_norm (v : Vec3 ℝ) : v.norm ^ 2 = v.toVec ⬝ᵥ v.toVec := by
  rw [norm_sq_real]
  simp [Vec3.toVec, dotProduct, Fin.sum_univ_three]
  ring

/-- A rotation keeps lengths. -/
theorem rotation_norm {m : Mat3 ℝ} (h : IsRotation m) (v : Vec3 ℝ) : (m.transpose.apply v).norm = v.norm := by
  have e : (m.transpose.apply v).norm ^ 2 = v.norm ^ 2 := by
    rw [toVec_norm, toVec_norm, Mat3.toVec_apply, Mat3.toMatrix_transpose, Matrix.transpose_transpose]
    have o := (isRotation_iff m).mp h
    have o' : m.toMatrixᵀ * m.toMatrix = 1 := mul_eq_one_comm.mp o.1
    rw [Matrix.dotProduct_mulVec, Matrix.vecMul_mulVec, o', Matrix.vecMul_one]
  have p1 : 0 ≤ (m.transpose.apply v).norm := by rw [norm_real]; positivity
  have p2 : 0 ≤ v.norm := by rw [norm_real]; positivity
  exact (sq_eq_sq₀ p1 p2).mp e

/-- **C53.** For every valid set of parameters and every offset, in exact arithmetic, with `M` the celestial
to terrestrial matrix of the result's TT and UT1 and the polar motion constants of the program:
the Sun vector is `M` applied to minus the heliocentric Earth position (at the TDB date given by TT) in metres,
its length is the astronomical unit times the heliocentric distance, the zenith angle is in `[0, π]`, and its
cosine times the length of the Sun vector is the component of the Sun vector along the local vertical. -/
theorem C53_sun_zenith_angle (p : Profile) (q : SunAngleParameters ℝ) (hd : GoodDate q.date)
    (c : SunAngleCalculator ℝ) (hc : SunAngleCalculator.new p q = .ok c) (δ : ℝ) :
    ∃ r, c.compute δ = .ok r ∧
      r.sun_e.toVec = (celestialToTerrestrial r.tt r.ut1 (0.0349282 * AS2R) (0.4833163 * AS2R)).toMatrix *ᵥ
        (fun i => -(149597870700 * r.earth.toVec i)) ∧
      (∀ e, EarthPosVel.fromTDB r.tt = .ok e → r.earth = e.heliocentric.p) ∧
      r.sun_e.norm = 149597870700 * r.earth.norm ∧
      0 ≤ r.sza ∧ r.sza ≤ Real.pi ∧
      (r.earth ≠ ⟨0, 0, 0⟩ → Real.cos r.sza * r.sun_e.norm =
        Real.cos (q.position.lat * (Real.pi / 180)) * Real.cos (q.position.lon * (Real.pi / 180)) * r.sun_e.x +
        Real.cos (q.position.lat * (Real.pi / 180)) * Real.sin (q.position.lon * (Real.pi / 180)) * r.sun_e.y +
        Real.sin (q.position.lat * (Real.pi / 180)) * r.sun_e.z) := by
  obtain ⟨-, -, -, -, -, -, f7, f8, f9, -, f11⟩ := new_fields hd hc
  obtain ⟨r, hr, -, -, -, -, -, -, -, -, -, -, e11, e12, e13⟩ := compute_real c δ
  have hA : (AUM : ℝ) = 149597870700 := by unfold AUM; norm_num
  have hrot := C38_celestial_to_terrestrial r.tt r.ut1 c.xp c.yp
  have hn : r.sun_e.norm = 149597870700 * r.earth.norm := by
    rw [e12, rotation_norm hrot, norm_scale _ (by rw [hA]; norm_num), hA]
    have hneg : r.earth.neg.norm = r.earth.norm := by
      rw [norm_real, norm_real]; unfold Vec3.neg; simp
    rw [hneg]
  refine ⟨r, hr, ?_, ?_, hn, ?_, ?_, ?_⟩
  · have hm : celestialToTerrestrial r.tt r.ut1 (0.0349282 * AS2R) (0.4833163 * AS2R) =
      celestialToTerrestrial r.tt r.ut1 c.xp c.yp := by rw [f8, f9]
    rw [hm]
    clear hm f8 f9
    generalize celestialToTerrestrial r.tt r.ut1 c.xp c.yp = m at *
    rw [e12, Mat3.toVec_apply, Mat3.toMatrix_transpose, Matrix.transpose_transpose]
    refine congrArg (m.toMatrix *ᵥ ·) (funext fun i => ?_)
    fin_cases i <;> simp [Vec3.toVec, Vec3.scale, Vec3.neg, hA]
  · intro e he
    rw [fromTDB_real] at he
    have z : r.tt.1 + r.tt.2 + c.dtr / 86400 = r.tt.1 + r.tt.2 := by rw [f7]; simp
    exact (e11.trans (congrArg (fun t => (earthAt t).heliocentric.p) z)).trans
      (congrArg (fun t : EarthPosVel ℝ => t.heliocentric.p) (Except.ok.inj he))
  · rw [e13, angle_real]; exact Real.arccos_nonneg _
  · rw [e13, angle_real]; exact Real.arccos_le_pi _
  · intro hne
    have hs : r.sun_e ≠ ⟨0, 0, 0⟩ := by
      intro h0
      have p1 := norm_pos_real hne
      rw [h0] at hn
      have : (⟨0, 0, 0⟩ : Vec3 ℝ).norm = 0 := by rw [norm_real]; simp
      rw [this] at hn
      linarith
    have hv1 := vertical_unit q.position.lon q.position.lat
    have hz : c.zen ≠ ⟨0, 0, 0⟩ := by
      rw [f11]
      intro h0
      rw [h0] at hv1
      have : (⟨0, 0, 0⟩ : Vec3 ℝ).norm = 0 := by rw [norm_real]; simp
      linarith
    obtain ⟨-, -, k⟩ := C27_angle_cos c.zen r.sun_e hz hs
    rw [← norm_real, ← norm_real, ← e13, f11, hv1, mul_one] at k
    rw [k]
    rfl

/-- **C53.** Within a century of J2000.0 the Earth is not at the Sun: the distance to the Sun is between
0.982 and 1.019 au. -/
theorem C53_sun_distance (p : Profile) (q : SunAngleParameters ℝ) (hd : GoodDate q.date)
    (c : SunAngleCalculator ℝ) (hc : SunAngleCalculator.new p q = .ok c) (δ : ℝ) (r : SunAngleResult ℝ)
    (hr : c.compute δ = .ok r) (h : |r.tt.1 + r.tt.2 - 2451545| ≤ 36525) :
    r.earth ≠ ⟨0, 0, 0⟩ ∧ 0.982 * 149597870700 ≤ r.sun_e.norm ∧ r.sun_e.norm ≤ 1.019 * 149597870700 := by
  obtain ⟨r', hr', -, h2, h3, -⟩ := C53_sun_zenith_angle p q hd c hc δ
  rw [hr'] at hr
  obtain rfl := Except.ok.inj hr
  obtain ⟨d1, d2⟩ := C36_distance _ _ h _ (fromTDB_real _)
  have e := h2 _ (fromTDB_real _)
  rw [← e] at d1 d2
  refine ⟨?_, by rw [h3]; linarith, by rw [h3]; linarith⟩
  intro h0
  rw [h0] at d1
  have : (⟨0, 0, 0⟩ : Vec3 ℝ).norm = 0 := by rw [norm_real]; simp
  rw [this] at d1
  norm_num at d1

-- with the default parameters there is a calculator, and the date is within the century
example : ∃ c r, SunAngleCalculator.new .checked (SunAngleParameters.default (α := ℝ)) = .ok c ∧
    c.compute 0 = .ok r ∧ |r.tt.1 + r.tt.2 - 2451545| ≤ 36525 := by
  obtain ⟨c, hc⟩ := ((C52_new_exact .checked (SunAngleParameters.default (α := ℝ))
    ⟨by decide, by decide, by decide⟩).1).mpr (by
      unfold SunAngleParameters.default HMS.toFractionOfDay
      norm_num)
  obtain ⟨f1, f2, f3, f4, -⟩ := new_fields ⟨by decide, by decide, by decide⟩ hc
  obtain ⟨r, hr, e1, e2, -, -, e5, -, e7, e8, -⟩ := compute_real c 0
  refine ⟨c, r, hc, hr, ?_⟩
  rw [e8, C22_tai_to_tt_exact, e7, C23_utc_to_tai_exact, e5, e1, e2, f1, f2]
  have hdat : c.dat = 33 := by
    have hfr : c.fr = 0 := by rw [f3]; unfold SunAngleParameters.default; norm_num
    rw [hfr] at f4
    have := deltaAt_some (α := ℝ) .checked ⟨2007, 4, 5⟩ 0 (by simp) (by decide) (by decide) ⟨by decide, by decide⟩
    have hrow : datRow (monthNo 2007 4) = ⟨2006, 1, 33, none⟩ := by decide +kernel
    simp only [hrow] at this
    have k := f4.symm.trans this
    unfold SunAngleParameters.default at k
    simp at k
    exact k
  rw [hdat, f3]
  unfold SunAngleParameters.default
  have : mjdN 2007 4 5 = 54195 := by decide
  simp only [this]
  norm_num [abs_le]

/-! ## C54 -/

/-- **C54.** Let two calculators be built for the same date and position and let the time of day of the second
be `s` seconds later. If both use the same delta AT, evaluating the first at offset `s + ε` and the second at
`ε` gives equal results in every field except the recorded offset. -/
theorem C54_offset_is_shift (p p' : Profile) (q q' : SunAngleParameters ℝ) (hd : GoodDate q.date)
    (c c' : SunAngleCalculator ℝ) (hc : SunAngleCalculator.new p q = .ok c)
    (hc' : SunAngleCalculator.new p' q' = .ok c') (hdate : q'.date = q.date) (hpos : q'.position = q.position)
    (s ε : ℝ)
    (htime : q'.time.second + 60 * (q'.time.minute + 60 * q'.time.hour) =
      q.time.second + 60 * (q.time.minute + 60 * q.time.hour) + s)
    (hdat : c'.dat = c.dat) (r r' : SunAngleResult ℝ) (hr : c.compute (s + ε) = .ok r)
    (hr' : c'.compute ε = .ok r') : r' = { r with delta_s := r'.delta_s } := by
  obtain ⟨a1, a2, a3, -, -, a6, a7, a8, a9, a10, a11⟩ := new_fields hd hc
  obtain ⟨b1, b2, b3, -, -, b6, b7, b8, b9, b10, b11⟩ := new_fields (hdate ▸ hd) hc'
  have k : c' = { c with fr := c.fr + s / 86400 } := by
    rw [hpos, a10] at b10
    obtain ⟨x1, x2, x3, x4, x5, x6, x7, x8, x9, x10⟩ := c
    obtain ⟨y1, y2, y3, y4, y5, y6, y7, y8, y9, y10⟩ := c'
    have b10 := Except.ok.inj b10
    simp only at *
    subst a1 a2 a3 a6 a7 a8 a9 a11 b1 b2 b3 b6 b7 b8 b9 b11 b10
    simp only [SunAngleCalculator.mk.injEq]
    refine ⟨trivial, by rw [hdate], hdat, by rw [htime]; ring, trivial, trivial, trivial, trivial, trivial,
      by rw [hpos]⟩
  subst k
  unfold SunAngleCalculator.compute at hr hr'
  simp only [fromTDB_real, ok_bind, add_real, div_real, lit_real] at hr hr'
  have e : c.fr + (s + ε) / ((86400 : ℚ) : ℝ) = c.fr + s / 86400 + ε / ((86400 : ℚ) : ℝ) := by
    push_cast; ring
  rw [e] at hr
  obtain rfl := Except.ok.inj hr
  obtain rfl := Except.ok.inj hr'
  rfl

/-- **C54.** The delta AT condition holds automatically for dates before 1960 and from February 1972 on. -/
theorem C54_same_delta_at (p p' : Profile) (q q' : SunAngleParameters ℝ) (hd : GoodDate q.date)
    (c c' : SunAngleCalculator ℝ) (hc : SunAngleCalculator.new p q = .ok c)
    (hc' : SunAngleCalculator.new p' q' = .ok c') (hdate : q'.date = q.date)
    (h : q.date.year < 1960 ∨ monthNo 1972 1 < monthNo q.date.year q.date.month) : c'.dat = c.dat := by
  obtain ⟨-, -, -, a4, a5, -⟩ := new_fields hd hc
  obtain ⟨-, -, -, b4, b5, -⟩ := new_fields (hdate ▸ hd) hc'
  rw [hdate] at b4 b5
  rcases h with h | h
  · rw [a5 h, b5 h]
  · have hy : 1960 ≤ q.date.year := by
      have h1 := hd.civil.2.1
      simp only [GregorianDate.civil] at h1
      unfold monthNo at h; omega
    have hy' : q.date.year ≤ 178956969 := by
      have := hd.late; unfold marchYear at this; split at this <;> omega
    have key : ∀ (p : Profile) (fd v : ℝ),
        deltaAt p q.date fd = .ok (.ok (some v)) → v = ((datRow (monthNo q.date.year q.date.month)).dat : ℝ) := by
      intro p fd v hv
      have nb : ¬ (fd <. lit 0 || lit 1 <. fd) = true := by
        intro hb; rw [deltaAt_bad p _ fd hb] at hv; cases hv
      rw [deltaAt_some p _ fd nb hy hy' ⟨hd.civil.1, hd.civil.2.1⟩,
        (datRow_integer _ (by have : monthNo 1972 1 = 23665 := by decide
                              omega)).1] at hv
      simp only [lit_real] at hv
      exact (Option.some.inj (Except.ok.inj (Except.ok.inj hv))).symm
    rw [if_neg (by omega)] at a4 b4
    rw [key _ _ _ a4, key _ _ _ b4]

-- midnight and ten past midnight
example : ∃ c c' r r', SunAngleCalculator.new .checked (SunAngleParameters.default (α := ℝ)) = .ok c ∧
    SunAngleCalculator.new .checked
      { SunAngleParameters.default (α := ℝ) with time := ⟨0, 10, 0⟩ } = .ok c' ∧
    c.compute (600 + -60) = .ok r ∧ c'.compute (-60) = .ok r' ∧ r'.sza = r.sza := by
  have hd : GoodDate (SunAngleParameters.default (α := ℝ)).date := ⟨by decide, by decide, by decide⟩
  obtain ⟨c, hc⟩ := ((C52_new_exact .checked (SunAngleParameters.default (α := ℝ)) hd).1).mpr (by
      unfold SunAngleParameters.default HMS.toFractionOfDay
      norm_num)
  obtain ⟨c', hc'⟩ := ((C52_new_exact .checked { SunAngleParameters.default (α := ℝ) with time := ⟨0, 10, 0⟩ }
    hd).1).mpr (by
      unfold HMS.toFractionOfDay
      norm_num)
  obtain ⟨r, hr, -⟩ := compute_real c (600 + -60)
  obtain ⟨r', hr', -⟩ := compute_real c' (-60)
  refine ⟨c, c', r, r', hc, hc', hr, hr', ?_⟩
  rw [C54_offset_is_shift _ _ _ _ hd c c' hc hc' rfl rfl 600 (-60)
    (by simp [SunAngleParameters.default]; norm_num)
    (C54_same_delta_at _ _ _ _ hd c c' hc hc' rfl (.inr (by decide))) r r' hr hr']

/-- **C54** (where it stops). From January 1960 to January 1972 delta AT itself depends on the time of day: the two
calculators differ, by a positive rate times the shift, so an offset is there not a shift of the time. -/
theorem C54_drift_years (p : Profile) (q q' : SunAngleParameters ℝ) (hd : GoodDate q.date)
    (c c' : SunAngleCalculator ℝ) (hc : SunAngleCalculator.new p q = .ok c)
    (hc' : SunAngleCalculator.new p q' = .ok c') (hdate : q'.date = q.date)
    (hy : 1960 ≤ q.date.year) (hl : monthNo q.date.year q.date.month ≤ monthNo 1972 1) (s : ℝ)
    (htime : q'.time.second + 60 * (q'.time.minute + 60 * q'.time.hour) =
      q.time.second + 60 * (q.time.minute + 60 * q.time.hour) + s) :
    ∃ e ∈ steps, 0 < e.rate ∧ c'.dat = c.dat + e.rate * (s / 86400) := by
  obtain ⟨-, -, a3, a4, -⟩ := new_fields hd hc
  obtain ⟨-, -, b3, b4, -⟩ := new_fields (hdate ▸ hd) hc'
  have hn : GregorianDate.new q.date.year q.date.month q.date.day = .ok q.date :=
    (accepted_iff _).mpr ⟨by have := hd.early; omega, hd.civil⟩
  rw [hdate] at b4
  rw [if_neg (by omega)] at a4 b4
  have nb : ∀ (p : Profile) (fd : ℝ) v, deltaAt p q.date fd = .ok (.ok (some v)) → 0 ≤ fd ∧ fd ≤ 1 := by
    intro p fd v hv
    have : ¬ (fd <. lit 0 || lit 1 <. fd) = true := by
      intro hb; rw [deltaAt_bad p _ fd hb] at hv; cases hv
    rw [Bool.or_eq_true, lt_real, lt_real] at this
    push Not at this
    simpa using this
  obtain ⟨e, N, h1, h2, h3, -, h5⟩ := C21_delta_at_linear p q.date hn hy hl
  have k := a4.symm.trans (h5 _ (nb _ _ _ a4).1 (nb _ _ _ a4).2)
  have k' := b4.symm.trans (h5 _ (nb _ _ _ b4).1 (nb _ _ _ b4).2)
  have k := Option.some.inj (Except.ok.inj (Except.ok.inj k))
  have k' := Option.some.inj (Except.ok.inj (Except.ok.inj k'))
  refine ⟨e, h1, h2, ?_⟩
  rw [k, k', a3, b3, htime]
  ring

/-- Two times of 1965-05-17, an hour apart. -/
example : ∃ q q' : SunAngleParameters ℝ, GoodDate q.date ∧ (∃ c, SunAngleCalculator.new .checked q = .ok c) ∧
    (∃ c', SunAngleCalculator.new .checked q' = .ok c') ∧ q'.date = q.date ∧ 1960 ≤ q.date.year ∧
    monthNo q.date.year q.date.month ≤ monthNo 1972 1 ∧
    q'.time.second + 60 * (q'.time.minute + 60 * q'.time.hour) = q.time.second + 60 * (q.time.minute + 60 * q.time.hour) + 3600 := by
  have hd : GoodDate ⟨1965, 5, 17⟩ := ⟨by decide, by decide, by decide⟩
  refine ⟨{ SunAngleParameters.default with date := ⟨1965, 5, 17⟩, time := ⟨6, 30, 0⟩ },
    { SunAngleParameters.default with date := ⟨1965, 5, 17⟩, time := ⟨7, 30, 0⟩ }, hd, ?_, ?_, rfl, by decide, by decide, by norm_num⟩ <;>
  · rw [(C52_new_exact _ _ hd).1]
    unfold SunAngleParameters.default HMS.toFractionOfDay
    norm_num

end Verif
