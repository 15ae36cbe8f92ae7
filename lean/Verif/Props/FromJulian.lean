import Verif.Lemmas.FromJulian
import Verif.Props.Calendar

/-!
# C04 – C12: `GregorianDate::from_julian`

The Julian date of a civil date at 0h is stated through the specification: `2400000.5 + N` where `N` is the
number of days from 1858-11-17 (`Spec.DaysFrom`).
-/

namespace Verif
open Spec F64

/-- Convenience: the specification's day count of an actual date. -/
theorem daysFrom_epoch {c : Civil} (h : IsDate c) : DaysFrom mjdEpoch c (mjdN c.1 c.2.1 c.2.2) := by
  have := daysFrom_mjdN mjdEpoch c mjdEpoch_isDate h
  rwa [mjdN_epoch, sub_zero] at this

theorem year_ge_of_mjdN {c : Civil} (h : IsDate c) (y0 : ℤ)
    (h2 : mjdN y0 1 1 ≤ mjdN c.1 c.2.1 c.2.2) : y0 ≤ c.1 := by
  by_contra hc
  have hb : Before c (y0, 1, 1) := Or.inl (by simp only; omega)
  have hd : IsDate (y0, 1, 1) := by
    refine ⟨by norm_num, by norm_num, by norm_num, ?_⟩
    have := monthLen_ge (y := y0) (m := 1) (by norm_num) (by norm_num)
    simp only; omega
  have := mjdN_mono c (y0, 1, 1) h hd hb
  simp only at this
  omega

theorem year_lt_of_mjdN {c : Civil} (h : IsDate c) (y0 : ℤ)
    (h2 : mjdN c.1 c.2.1 c.2.2 < mjdN y0 1 1) : c.1 < y0 := by
  by_contra hc
  have hd : IsDate (y0, 1, 1) := by
    refine ⟨by norm_num, by norm_num, by norm_num, ?_⟩
    have := monthLen_ge (y := y0) (m := 1) (by norm_num) (by norm_num)
    simp only; omega
  rcases before_trichotomy c (y0, 1, 1) with hb | hb | hb
  · rcases hb with hb | hb
    · simp only at hb; omega
    · obtain ⟨-, hb⟩ := hb
      obtain ⟨a1, a2, a3, a4⟩ := h
      simp only at hb; omega
  · rw [hb] at h2; simp only at h2; omega
  · have := mjdN_mono (y0, 1, 1) c hd h hb
    simp only at this
    omega

/-- `536802340` as an `f64` literal. -/
def SAFE_MAX {α : Type} [Arith α] : α := Arith.lit 536802340

theorem safe_max_is : Is (SAFE_MAX : F64) 536802340 := by
  have := Is.lit_int 536802340 (by norm_num)
  exact this.congr (by norm_num)

/-- **C05.** For all finite `f64` pairs whose `f64` sum is in `[-32000, 536802340]`, `from_julian` does not
overflow (in either profile) and returns a date of the proleptic Gregorian calendar (year ≥ -4800) and a
fraction `0 ≤ f ≤ 1`; the instant they denote differs from the exact sum `dj1 + dj2` by at most
`2^-53 (|min(dj1,dj2)| + 3)`, and never by more than `1/2 + 2^-52`. -/
theorem C05_from_julian_instant (p : Profile) (x y : F64) (hx : isFin x = true) (hy : isFin y = true)
    (hlo : ((Arith.lit (-32000.0) : F64) <=. (x +. y)) = true)
    (hhi : ((x +. y) <=. (Arith.lit 536802340 : F64)) = true) :
    ∃ (d : GregorianDate) (f : F64) (N : ℤ), GregorianDate.fromJulian p x y = .ok (.ok (d, f)) ∧
      IsDate d.civil ∧ -4800 ≤ d.year ∧ DaysFrom mjdEpoch d.civil N ∧
      isFin f = true ∧ 0 ≤ v f ∧ v f ≤ 1 ∧
      |(2400000.5 + N + v f) - (v x + v y)| ≤ (|min (v x) (v y)| + 3) / 2 ^ 53 ∧
      |(2400000.5 + N + v f) - (v x + v y)| ≤ 1 / 2 + 1 / 2 ^ 52 := by
  have ix := Is.self hx
  have iy := Is.self hy
  obtain ⟨hs, s1, s2⟩ := add_between ix iy lit_neg32000_is safe_max_is hlo hhi
  have hhi' : ((x +. y) <=. (GregorianDate.DJ_MAX : F64)) = true := by
    rw [hs.le lit_1e9_is]; simp; linarith
  obtain ⟨D, f, q, e, hf, q0, q1, heq, he1, he2, hc, -, -, -, -, hres⟩ :=
    fromJulian_f64 p ix iy hlo hhi'
  have hc' := abs_le.mp hc
  have he' := abs_le.mp he2
  have hD1 : (-32003 : ℚ) < D := by norm_num at hc' he' ⊢; linarith [hc'.1, hc'.2]
  have hD2 : (D : ℚ) < 536802342 := by norm_num at hc' he' ⊢; linarith [hc'.1, hc'.2]
  have hD1' : -32003 < D := by exact_mod_cast hD1
  have hD2' : D < 536802342 := by exact_mod_cast hD2
  obtain ⟨d, hd, hdate, -, hmj⟩ := ofDay_ok p (D + 1) (by omega) (by omega)
  have hcast : ((mjdN d.year d.month d.day : ℤ) : ℚ) = D - 2400000 := by
    rw [hmj]; push_cast; ring
  have hdiff : (2400000.5 + ((mjdN d.year d.month d.day : ℤ) : ℚ) + v f) - (v x + v y) = e := by
    rw [hcast, hf.val]
    norm_num at heq ⊢
    linarith
  refine ⟨d, f, mjdN d.year d.month d.day, ?_, hdate, ?_, daysFrom_epoch hdate, hf.fin,
    by rw [hf.val]; exact q0, by rw [hf.val]; exact q1, ?_, ?_⟩
  · rw [hres, hd]; rfl
  · apply year_ge_of_mjdN hdate (-4800)
    have : mjdN (-4800) 1 1 = -2432105 := by decide
    simp only [GregorianDate.civil]
    omega
  · rw [hdiff]; exact he1
  · rw [hdiff]; exact he2

-- J2000.0 (2451545.0, 0.0) meets the hypotheses and gives 2000-01-01, fraction 0.5
example : ((Arith.lit (-32000.0) : F64) <=. ((Arith.lit 2451545 : F64) +. Arith.lit 0)) = true ∧
    (((Arith.lit 2451545 : F64) +. Arith.lit 0) <=. (Arith.lit 536802340 : F64)) = true := by
  decide +kernel
example : GregorianDate.fromJulian .checked (Arith.lit 2451545 : F64) (Arith.lit 0) =
    .ok (.ok (⟨2000, 1, 1⟩, Arith.lit 0.5)) := by decide +kernel

/-- **C06.** In exact arithmetic, for every pair with sum in `[-32000, 536802340]`, `from_julian` returns a
date of the calendar and a fraction `0 ≤ f < 1` with (Julian date of the date at 0h) + `f` equal to
`dj1 + dj2`. -/
theorem C06_from_julian_exact (p : Profile) (x y : ℝ) (h1 : -32000 ≤ x + y)
    (h2 : x + y ≤ 536802340) :
    ∃ (d : GregorianDate) (f : ℝ) (N : ℤ), GregorianDate.fromJulian p x y = .ok (.ok (d, f)) ∧
      IsDate d.civil ∧ -4800 ≤ d.year ∧ DaysFrom mjdEpoch d.civil N ∧ 0 ≤ f ∧ f < 1 ∧
      2400000.5 + N + f = x + y := by
  have f1 : (-32001 : ℤ) ≤ ⌊x + y - 1 / 2⌋ := by rw [Int.le_floor]; push_cast; linarith
  have f2 : ⌊x + y - 1 / 2⌋ < 536802341 := by rw [Int.floor_lt]; push_cast; linarith
  obtain ⟨d, hd, hdate, -, hmj⟩ := ofDay_ok p (⌊x + y - 1 / 2⌋ + 1) (by omega) (by omega)
  refine ⟨d, Int.fract (x + y - 1 / 2), mjdN d.year d.month d.day, ?_, hdate, ?_,
    daysFrom_epoch hdate, Int.fract_nonneg _, Int.fract_lt_one _, ?_⟩
  · rw [fromJulian_real p x y h1 (by linarith), hd]; rfl
  · apply year_ge_of_mjdN hdate (-4800)
    have : mjdN (-4800) 1 1 = -2432105 := by decide
    simp only [GregorianDate.civil]
    omega
  · rw [hmj]
    have := Int.floor_add_fract (x + y - 1 / 2)
    push_cast
    have e : (2400000.5 : ℝ) = 2400000 + 1 / 2 := by norm_num
    rw [e]
    linarith

/-- **C06**, consequence: in exact arithmetic the result depends only on the sum. -/
theorem C06_from_julian_sum_only (p : Profile) (x y x' y' : ℝ) (h : x + y = x' + y') :
    GregorianDate.fromJulian p x y = GregorianDate.fromJulian p x' y' := by
  by_cases hr : -32000 ≤ x + y ∧ x + y ≤ 1000000000
  · rw [fromJulian_real p x y hr.1 hr.2, fromJulian_real p x' y' (h ▸ hr.1) (h ▸ hr.2), h]
  · have key : ∀ a b : ℝ, ¬ (-32000 ≤ a + b ∧ a + b ≤ 1000000000) →
        GregorianDate.fromJulian p a b = .ok (.error .badJulian) := by
      intro a b hab
      unfold GregorianDate.fromJulian
      have e1 : (GregorianDate.DJ_MIN : ℝ) = -32000 := by
        unfold GregorianDate.DJ_MIN; simp; norm_num
      have e2 : (GregorianDate.DJ_MAX : ℝ) = 1000000000 := by
        unfold GregorianDate.DJ_MAX; simp; norm_num
      have : ((a +. b) <. (GregorianDate.DJ_MIN : ℝ) || (GregorianDate.DJ_MAX : ℝ) <. (a +. b)) =
          true := by
        rw [Bool.or_eq_true, e1, e2]
        simp only [lt_real, add_real]
        by_contra hc
        push Not at hc
        exact hab hc
      simp only [this, if_true]
    rw [key x y hr, key x' y' (h ▸ hr)]

example : (2451545 : ℝ) + 0.25 = 2400000.5 + 51544.75 := by norm_num

example : (-32000 : ℝ) ≤ 2451545 + 0.25 ∧ (2451545 + 0.25 : ℝ) ≤ 536802340 := by norm_num

/-- **C07.** The documented/expected `f < 1` is false in `f64`: for `dj1 = 2451545.0` and
`dj2 = 0.49999999999999994` the returned fraction is exactly `1.0` and the time of day is `24:00:00`. -/
theorem C07_fraction_below_one_false :
    (∃ (x y : F64) (d : GregorianDate) (f : F64), isFin x = true ∧ isFin y = true ∧
      GregorianDate.fromJulian .checked x y = .ok (.ok (d, f)) ∧ ¬ (v f < 1)) ∧
    GregorianDate.fromJulian .checked (Arith.lit 2451545.0 : F64) (Arith.lit 0.49999999999999994) =
      .ok (.ok (⟨2000, 1, 1⟩, Arith.lit 1)) ∧
    GregorianDateHMS.fromJulian .checked (Arith.lit 2451545.0 : F64)
      (Arith.lit 0.49999999999999994) = .ok (.ok ⟨⟨2000, 1, 1⟩, ⟨24, 0, Arith.lit 0⟩⟩) := by
  have h1 : GregorianDate.fromJulian .checked (Arith.lit 2451545.0 : F64)
      (Arith.lit 0.49999999999999994) = .ok (.ok (⟨2000, 1, 1⟩, Arith.lit 1)) := by decide +kernel
  refine ⟨⟨_, _, _, _, by decide +kernel, by decide +kernel, h1, ?_⟩, h1, by decide +kernel⟩
  have := Is.lit_int 1 (by norm_num)
  rw [Int.cast_one] at this
  rw [this.val]
  norm_num

/-- **C07**, what remains true for every accepted finite input: `0 ≤ f ≤ 1`. -/
theorem C07_fraction_le_one_partial (p : Profile) (x y : F64) (hx : isFin x = true)
    (hy : isFin y = true) (d : GregorianDate) (f : F64)
    (h : GregorianDate.fromJulian p x y = .ok (.ok (d, f))) :
    isFin f = true ∧ 0 ≤ v f ∧ v f ≤ 1 := by
  have ix := Is.self hx
  have iy := Is.self hy
  by_cases hr : ((x +. y) <. (GregorianDate.DJ_MIN : F64) || (GregorianDate.DJ_MAX : F64) <. (x +. y)) =
      true
  · unfold GregorianDate.fromJulian at h
    simp only [hr, if_true] at h
    simp at h
  · rw [Bool.not_eq_true, Bool.or_eq_false_iff] at hr
    -- a finite-or-infinite sum that is not out of range is in range
    have hnn : (x +. y) ≠ F64.nan := by
      match x, y, hx, hy with
      | .fin s a _, .fin t b _, _, _ =>
        change F64.add _ _ ≠ _
        simp only [F64.add]
        split
        · unfold zero ofQuot mkFin; split <;> simp
        · unfold ofQuot mkFin; split <;> simp
    have tot : ∀ u w : F64, u ≠ F64.nan → isFin w = true → (u <. w) = false → (w <=. u) = true := by
      intro u w hu hw hlt
      match u, w, hw with
      | .nan, _, _ => exact absurd rfl hu
      | .inf true, .fin _ _ _, _ => simp [Arith.lt, F64.lt] at hlt
      | .inf false, .fin _ _ _, _ => rfl
      | .fin s a _, .fin t b _, _ =>
        change decide _ = false at hlt
        change decide _ = true
        simp at hlt ⊢; exact hlt
    have tot' : ∀ u w : F64, u ≠ F64.nan → isFin w = true → (w <. u) = false → (u <=. w) = true := by
      intro u w hu hw hlt
      match u, w, hw with
      | .nan, _, _ => exact absurd rfl hu
      | .inf false, .fin _ _ _, _ => simp [Arith.lt, F64.lt] at hlt
      | .inf true, .fin _ _ _, _ => rfl
      | .fin s a _, .fin t b _, _ =>
        change decide _ = false at hlt
        change decide _ = true
        simp at hlt ⊢; exact hlt
    obtain ⟨D, g, q, e, hf, q0, q1, -, -, -, -, -, -, -, -, hres⟩ :=
      fromJulian_f64 p ix iy (tot _ _ hnn lit_neg32000_is.fin hr.1)
        (tot' _ _ hnn lit_1e9_is.fin hr.2)
    rw [hres] at h
    cases ho : GregorianDate.ofDay p (D + 1) with
    | error e => rw [ho] at h; simp [Except.map] at h
    | ok d' =>
      rw [ho] at h
      simp only [Except.map, Except.ok.injEq, Prod.mk.injEq] at h
      obtain ⟨-, rfl⟩ := h
      exact ⟨hf.fin, by rw [hf.val]; exact q0, by rw [hf.val]; exact q1⟩

/-- Noon of 2000-01-01, and a sum whose fraction rounds to one. -/
example : GregorianDate.fromJulian .checked (Arith.lit 2451545 : F64) (Arith.lit 0.25) = .ok (.ok (⟨2000, 1, 1⟩, Arith.lit 0.75)) ∧
    isFin (Arith.lit 2451545 : F64) = true ∧ isFin (Arith.lit 0.25 : F64) = true := by decide +kernel

/-- **C08.** `from_julian` returns `BadJulian` exactly when the computed sum is `< -32000` or `> 1e9`, and
never another error. -/
theorem C08_range_check (p : Profile) (x y : F64) :
    (GregorianDate.fromJulian p x y = .ok (.error .badJulian) ↔
      ((x +. y) <. (Arith.lit (-32000) : F64)) = true ∨
      ((Arith.lit 1000000000 : F64) <. (x +. y)) = true) ∧
    ∀ e, GregorianDate.fromJulian p x y = .ok (.error e) → e = .badJulian := by
  have e1 : (GregorianDate.DJ_MIN : F64) = Arith.lit (-32000) := by
    unfold GregorianDate.DJ_MIN; norm_num
  have e2 : (GregorianDate.DJ_MAX : F64) = Arith.lit 1000000000 := by
    unfold GregorianDate.DJ_MAX; norm_num
  rw [← e1, ← e2, ← Bool.or_eq_true]
  by_cases h : ((x +. y) <. (GregorianDate.DJ_MIN : F64) || (GregorianDate.DJ_MAX : F64) <. (x +. y)) =
    true
  · unfold GregorianDate.fromJulian
    simp only [h, if_true]
    simp
  · have h2 : ∀ e, GregorianDate.fromJulian p x y ≠ .ok (.error e) := by
      intro e
      unfold GregorianDate.fromJulian
      simp only [h]
      rcases GregorianDate.order x y with ⟨d1, d2⟩
      rcases GregorianDate.split d1 d2 with ⟨d, f⟩
      simp only
      cases I32.add p (Arith.castSat (-2147483648) 2147483647 d) 1 with
      | error _ => simp [err_bind]
      | ok jd =>
        rw [ok_bind]
        cases GregorianDate.ofDay p jd with
        | error _ => simp
        | ok _ => rw [ok_bind]; simp [pure, Except.pure]
    refine ⟨⟨fun hh => absurd hh (h2 _), fun hh => absurd hh h⟩, fun e he => absurd he (h2 e)⟩

/-- **C08**, NaN is not rejected: whenever the sum is NaN, `from_julian` returns `Ok` with a fixed ancient
date and a NaN fraction. -/
theorem C08_nan_accepted (p : Profile) (x y : F64) (h : x +. y = F64.nan) :
    GregorianDate.fromJulian p x y = .ok (.ok (⟨-4713, 11, 25⟩, F64.nan)) := by
  have h1 : ((x +. y) <. (GregorianDate.DJ_MIN : F64) || (GregorianDate.DJ_MAX : F64) <. (x +. y)) =
      false := by
    rw [h]
    decide +kernel
  have nanl : ∀ u : F64, F64.add F64.nan u = F64.nan := fun u => rfl
  have nanr : ∀ u : F64, F64.add u F64.nan = F64.nan := fun u => by cases u <;> rfl
  have hsplit : ∀ u w : F64, F64.rem u (Arith.lit 1) = F64.nan ∨
      F64.rem (w -. Arith.lit 0.5) (Arith.lit 1) = F64.nan →
      GregorianDate.split u w = (F64.nan, F64.nan) := by
    intro u w huw
    unfold GregorianDate.split
    simp only [Arith.add, Arith.sub, Arith.rem, Arith.round, Arith.lt] at huw ⊢
    have hs : F64.add (F64.rem u (Arith.lit 1))
        (F64.rem (F64.sub w (Arith.lit 0.5)) (Arith.lit 1)) = F64.nan := by
      rcases huw with hh | hh
      · rw [hh]; exact nanl _
      · rw [hh]; exact nanr _
    rw [hs]
    have r1 : F64.rem F64.nan (Arith.lit 1) = F64.nan := rfl
    rw [r1]
    have l1 : F64.lt F64.nan (Arith.lit 0) = false := rfl
    rw [l1]
    simp only [Bool.false_eq_true, if_false]
    have s1 : F64.sub F64.nan F64.nan = F64.nan := rfl
    rw [s1]
    have s2 : F64.round F64.nan = F64.nan := rfl
    rw [s2, nanr]
  have remnan : F64.rem F64.nan (Arith.lit 1) = F64.nan := rfl
  have reminf : ∀ s, F64.rem (F64.inf s) (Arith.lit 1) = F64.nan := by
    intro s
    have : ∀ w : F64, F64.rem (F64.inf s) w = F64.nan := by intro w; cases w <;> rfl
    exact this _
  have subnan : F64.nan -. Arith.lit 0.5 = F64.nan := rfl
  have hany : GregorianDate.split (GregorianDate.order x y).1 (GregorianDate.order x y).2 =
      (F64.nan, F64.nan) := by
    apply hsplit
    unfold GregorianDate.order
    match x, y, h with
    | .nan, w, _ =>
      have : (w <=. F64.nan) = false := by cases w <;> rfl
      rw [this]
      right
      change F64.rem (F64.nan -. Arith.lit 0.5) _ = _
      rw [subnan]; exact remnan
    | .inf s, .nan, _ => left; exact remnan
    | .fin s a h, .nan, _ => left; exact remnan
    | .inf s, .inf t, _ =>
      left
      split
      · exact reminf s
      · exact reminf t
    | .inf s, .fin t b hb, h => exact absurd h (by intro h'; cases h')
    | .fin s a ha, .inf t, h => exact absurd h (by intro h'; cases h')
    | .fin s a ha, .fin t b hb, h =>
      exfalso
      revert h
      change F64.add _ _ ≠ _
      simp only [F64.add]
      split
      · unfold zero ofQuot mkFin; split <;> simp
      · unfold ofQuot mkFin; split <;> simp
  unfold GregorianDate.fromJulian
  simp only [h1, Bool.false_eq_true, if_false]
  rw [hany]
  cases p <;> decide +kernel

example : GregorianDate.fromJulian .checked F64.nan (Arith.lit 0) =
    .ok (.ok (⟨-4713, 11, 25⟩, F64.nan)) := C08_nan_accepted _ _ _ rfl
example : GregorianDate.fromJulian .checked (Arith.lit 2000000000 : F64) (Arith.lit 0) =
    .ok (.error .badJulian) := by decide +kernel

/-- **C09.** Inside the accepted range: for every finite pair whose `f64` sum is in
`[536802344, 1e9]`, a checked build panics with integer overflow and a wrapping build returns
something that is not a calendar date.  (For sums up to 536802340 neither happens: `C05`.) -/
theorem C09_from_julian_overflow (x y : F64) (hx : isFin x = true) (hy : isFin y = true)
    (hlo : ((Arith.lit 536802344 : F64) <=. (x +. y)) = true)
    (hhi : ((x +. y) <=. (Arith.lit 1e9 : F64)) = true) :
    GregorianDate.fromJulian .checked x y = .error .overflow ∧
    ∃ d f, GregorianDate.fromJulian .wrapping x y = .ok (.ok (d, f)) ∧ ¬ IsDate d.civil := by
  have ix := Is.self hx
  have iy := Is.self hy
  have hl : Is (Arith.lit 536802344 : F64) 536802344 := by
    have := Is.lit_int 536802344 (by norm_num)
    exact this.congr (by norm_num)
  obtain ⟨hs, s1, s2⟩ := add_between ix iy hl lit_1e9_is hlo hhi
  have hlo' : ((GregorianDate.DJ_MIN : F64) <=. (x +. y)) = true := by
    rw [lit_neg32000_is.le hs]; simp; linarith
  have key : ∀ p, ∃ (D : ℤ) (f : F64), 536802342 ≤ D ∧ D ≤ 1000000099 ∧
      GregorianDate.fromJulian p x y =
        (GregorianDate.ofDay p (D + 1)).map (fun d => Except.ok (d, f)) := by
    intro p
    obtain ⟨D, f, q, e, hf, q0, q1, heq, he1, he2, hc, -, -, -, -, hres⟩ :=
      fromJulian_f64 p ix iy hlo' hhi
    have hc' := abs_le.mp hc
    have he' := abs_le.mp he2
    have hD1 : (536802341 : ℚ) < D := by norm_num at hc' he' ⊢; linarith [hc'.1, hc'.2]
    have hD2 : (D : ℚ) < 1000000100 := by norm_num at hc' he' ⊢; linarith [hc'.1, hc'.2]
    have hD1' : 536802341 < D := by exact_mod_cast hD1
    have hD2' : D < 1000000100 := by exact_mod_cast hD2
    exact ⟨D, f, by omega, by omega, hres⟩
  constructor
  · obtain ⟨D, f, h1, h2, e⟩ := key .checked
    rw [e, ofDay_checked_overflow _ (by omega)]
    rfl
  · obtain ⟨D, f, h1, h2, e⟩ := key .wrapping
    obtain ⟨d, hd, hne⟩ := ofDay_wrapping_wrong (D + 1) (by omega) (by omega)
    exact ⟨d, f, by rw [e, hd]; rfl, hne⟩

/-- **C09** in exact arithmetic, with the exact threshold: overflow happens exactly from
`dj1 + dj2 = 536802342.5` on. -/
theorem C09_exact_threshold (x y : ℝ) (h1 : -32000 ≤ x + y) (h2 : x + y ≤ 1000000000) :
    (536802342.5 ≤ x + y → GregorianDate.fromJulian .checked x y = .error .overflow ∧
      ∃ d f, GregorianDate.fromJulian .wrapping x y = .ok (.ok (d, f)) ∧ ¬ IsDate d.civil) ∧
    (x + y < 536802342.5 → ∀ p, ∃ d f, GregorianDate.fromJulian p x y = .ok (.ok (d, f)) ∧
      IsDate d.civil) := by
  constructor
  · intro h
    have f1 : (536802342 : ℤ) ≤ ⌊x + y - 1 / 2⌋ := by
      rw [Int.le_floor]; push_cast; norm_num at h ⊢; linarith
    have f2 : ⌊x + y - 1 / 2⌋ < 1000000001 := by rw [Int.floor_lt]; push_cast; linarith
    obtain ⟨d, hd, hne⟩ := ofDay_wrapping_wrong (⌊x + y - 1 / 2⌋ + 1) (by omega) (by omega)
    rw [fromJulian_real _ x y h1 h2, fromJulian_real _ x y h1 h2,
      ofDay_checked_overflow _ (by omega), hd]
    exact ⟨rfl, d, _, rfl, hne⟩
  · intro h p
    have f1 : (-32001 : ℤ) ≤ ⌊x + y - 1 / 2⌋ := by rw [Int.le_floor]; push_cast; linarith
    have f2 : ⌊x + y - 1 / 2⌋ < 536802342 := by
      rw [Int.floor_lt]; push_cast; norm_num at h ⊢; linarith
    obtain ⟨d, hd, hdate, -, -⟩ := ofDay_ok p (⌊x + y - 1 / 2⌋ + 1) (by omega) (by omega)
    rw [fromJulian_real _ x y h1 h2, hd]
    exact ⟨d, _, rfl, hdate⟩

example : ((Arith.lit 536802344 : F64) <=. ((Arith.lit 600000000 : F64) +. Arith.lit 0.25)) = true ∧
    (((Arith.lit 600000000 : F64) +. Arith.lit 0.25) <=. (Arith.lit 1e9 : F64)) = true := by
  decide +kernel
example : (536802342.5 : ℝ) ≤ 600000000 + 0 := by norm_num

/-- **C10** in exact arithmetic: for accepted sums up to 536802340, the returned date is accepted by `new`
exactly when the sum is at least -31738.5; below, the year is -4800 and `new` reports `BadYear`. -/
theorem C10_from_julian_accepted_by_new (p : Profile) (x y : ℝ) (h1 : -32000 ≤ x + y)
    (h2 : x + y ≤ 536802340) :
    ∃ (d : GregorianDate) (f : ℝ), GregorianDate.fromJulian p x y = .ok (.ok (d, f)) ∧
      (-31738.5 ≤ x + y → GregorianDate.new d.year d.month d.day = .ok d) ∧
      (x + y < -31738.5 → d.year = -4800 ∧
        GregorianDate.new d.year d.month d.day = .error .badYear) := by
  have f1 : (-32001 : ℤ) ≤ ⌊x + y - 1 / 2⌋ := by rw [Int.le_floor]; push_cast; linarith
  have f2 : ⌊x + y - 1 / 2⌋ < 536802341 := by rw [Int.floor_lt]; push_cast; linarith
  obtain ⟨d, hd, hdate, -, hmj⟩ := ofDay_ok p (⌊x + y - 1 / 2⌋ + 1) (by omega) (by omega)
  have m1 : mjdN (-4799) 1 1 = -2431739 := by decide
  have m2 : mjdN (-4800) 1 1 = -2432105 := by decide
  refine ⟨d, _, by rw [fromJulian_real p x y h1 (by linarith), hd]; rfl, ?_, ?_⟩
  · intro h
    have f3 : (-31739 : ℤ) ≤ ⌊x + y - 1 / 2⌋ := by
      rw [Int.le_floor]; push_cast; norm_num at h; linarith
    rw [accepted_iff]
    refine ⟨year_ge_of_mjdN hdate (-4799) ?_, hdate⟩
    simp only [GregorianDate.civil]; omega
  · intro h
    have f3 : ⌊x + y - 1 / 2⌋ < -31739 := by
      rw [Int.floor_lt]; push_cast; norm_num at h; linarith
    have y1 : d.year < -4799 := year_lt_of_mjdN hdate (-4799) (by
      simp only [GregorianDate.civil]; omega)
    have y2 : -4800 ≤ d.year := year_ge_of_mjdN hdate (-4800) (by
      simp only [GregorianDate.civil]; omega)
    refine ⟨by omega, ?_⟩
    rw [(C01_new_accepts_exactly_real_dates _ _ _).2.1]
    exact y1

/-- **C10** in `f64`: for every finite pair whose `f64` sum is in `[-31737, 536802340]` the returned date is
accepted by `new`. -/
theorem C10_from_julian_accepted_f64 (p : Profile) (x y : F64) (hx : isFin x = true)
    (hy : isFin y = true) (hlo : ((Arith.lit (-31737) : F64) <=. (x +. y)) = true)
    (hhi : ((x +. y) <=. (Arith.lit 536802340 : F64)) = true) :
    ∃ (d : GregorianDate) (f : F64), GregorianDate.fromJulian p x y = .ok (.ok (d, f)) ∧
      GregorianDate.new d.year d.month d.day = .ok d := by
  have hl : Is (Arith.lit (-31737) : F64) (-31737) := by
    have := Is.lit_int (-31737) (by norm_num)
    exact this.congr (by norm_num)
  have ix := Is.self hx
  have iy := Is.self hy
  obtain ⟨hs, s1, s2⟩ := add_between ix iy hl safe_max_is hlo hhi
  have hlo' : ((GregorianDate.DJ_MIN : F64) <=. (x +. y)) = true := by
    rw [lit_neg32000_is.le hs]; simp; linarith
  have hcl : |RN (v x + v y) - (v x + v y)| ≤ 1 / 2 ^ 20 := rn_close (by
    rw [abs_le]; constructor <;> linarith)
  obtain ⟨d, f, N, e, hdate, -, hN, -, q0, q1, -, he⟩ :=
    C05_from_julian_instant p x y hx hy hlo' hhi
  refine ⟨d, f, e, (accepted_iff d).mpr ⟨year_ge_of_mjdN hdate (-4799) ?_, hdate⟩⟩
  have m1 : mjdN (-4799) 1 1 = -2431739 := by decide
  have hN' := daysFrom_unique mjdEpoch d.civil mjdEpoch_isDate hdate N hN
  rw [mjdN_epoch, sub_zero] at hN'
  rw [← hN', m1]
  have he' := abs_le.mp he
  have hc' := abs_le.mp hcl
  have : (-2431740 : ℚ) < N := by
    norm_num at he' hc' ⊢
    linarith [he'.1, hc'.1, hc'.2]
  have : -2431740 < N := by exact_mod_cast this
  omega

example : ((Arith.lit (-31737) : F64) <=. ((Arith.lit (-31737) : F64) +. Arith.lit 0.125)) = true ∧
    (((Arith.lit (-31737) : F64) +. Arith.lit 0.125) <=. (Arith.lit 536802340 : F64)) = true := by
  decide +kernel

/-- **C10** in `f64`, the other side: for every finite pair whose `f64` sum is in `[-32000, -31740]`,
`from_julian` returns a date of year -4800, which `new` rejects. -/
theorem C10_from_julian_rejected_f64 (p : Profile) (x y : F64) (hx : isFin x = true)
    (hy : isFin y = true) (hlo : ((Arith.lit (-32000.0) : F64) <=. (x +. y)) = true)
    (hhi : ((x +. y) <=. (Arith.lit (-31740) : F64)) = true) :
    ∃ (d : GregorianDate) (f : F64), GregorianDate.fromJulian p x y = .ok (.ok (d, f)) ∧
      d.year = -4800 ∧ IsDate d.civil ∧ GregorianDate.new d.year d.month d.day = .error .badYear := by
  have hl : Is (Arith.lit (-31740) : F64) (-31740) := by
    have := Is.lit_int (-31740) (by norm_num)
    exact this.congr (by norm_num)
  have ix := Is.self hx
  have iy := Is.self hy
  obtain ⟨hs, s1, s2⟩ := add_between ix iy lit_neg32000_is hl hlo hhi
  have hhi' : ((x +. y) <=. (GregorianDate.DJ_MAX : F64)) = true := by
    rw [hs.le lit_1e9_is]; simp; linarith
  obtain ⟨D, f, q, e, hf, q0, q1, heq, he1, he2, hc, -, -, -, -, hres⟩ :=
    fromJulian_f64 p ix iy hlo hhi'
  have hc' := abs_le.mp hc
  have he' := abs_le.mp he2
  have hD1 : (-32003 : ℚ) < D := by norm_num at hc' he' ⊢; linarith [hc'.1, hc'.2]
  have hD2 : (D : ℚ) < -31739 := by norm_num at hc' he' ⊢; linarith [hc'.1, hc'.2]
  have hD1' : -32003 < D := by exact_mod_cast hD1
  have hD2' : D < -31739 := by exact_mod_cast hD2
  obtain ⟨d, hd, hdate, -, hmj⟩ := ofDay_ok p (D + 1) (by omega) (by omega)
  have m1 : mjdN (-4799) 1 1 = -2431739 := by decide
  have m2 : mjdN (-4800) 1 1 = -2432105 := by decide
  have y1 : d.year < -4799 := year_lt_of_mjdN hdate (-4799) (by
    simp only [GregorianDate.civil]; omega)
  have y2 : -4800 ≤ d.year := year_ge_of_mjdN hdate (-4800) (by
    simp only [GregorianDate.civil]; omega)
  refine ⟨d, f, by rw [hres, hd]; rfl, by omega, hdate, ?_⟩
  rw [(C01_new_accepts_exactly_real_dates _ _ _).2.1]
  exact y1

example : ((Arith.lit (-32000.0) : F64) <=. ((Arith.lit (-31800) : F64) +. Arith.lit 0.125)) = true ∧
    (((Arith.lit (-31800) : F64) +. Arith.lit 0.125) <=. (Arith.lit (-31740) : F64)) = true := by
  decide +kernel

theorem zero_rep : RepNat 0 ∧ 0 < OVN := by decide +kernel

/-- **C11.** `from_julian` gives the same result (bit for bit, panics included) for both argument orders.
NaN is a single value in the model, so this also covers NaN arguments up to the NaN's payload. -/
theorem C11_from_julian_comm (p : Profile) (x y : F64) :
    GregorianDate.fromJulian p x y = GregorianDate.fromJulian p y x := by
  have hz : ∀ s t : Bool, ∀ h h', GregorianDate.fromJulian p (F64.fin s 0 h) (F64.fin t 0 h') =
      GregorianDate.fromJulian p (F64.fin t 0 h') (F64.fin s 0 h) := by
    intro s t h h'
    change GregorianDate.fromJulian p (F64.fin s 0 zero_rep) (F64.fin t 0 zero_rep) =
      GregorianDate.fromJulian p (F64.fin t 0 zero_rep) (F64.fin s 0 zero_rep)
    cases p <;> cases s <;> cases t <;> decide +kernel
  by_cases hn : x +. y = F64.nan
  · rw [C08_nan_accepted p x y hn, C08_nan_accepted p y x (by rw [fadd_comm]; exact hn)]
  -- the ordered pair is the same unless the two are distinct data with equal value
  have hord : GregorianDate.order x y = GregorianDate.order y x →
      GregorianDate.fromJulian p x y = GregorianDate.fromJulian p y x := by
    intro h
    unfold GregorianDate.fromJulian
    rw [fadd_comm x y, h]
  by_cases hxy : x = y
  · rw [hxy]
  match x, y, hn, hxy, hz, hord with
  | .nan, _, hn, _, _, _ => exact absurd rfl hn
  | .inf s, .nan, hn, _, _, _ => exact absurd rfl hn
  | .fin _ _ _, .nan, hn, _, _, _ => exact absurd rfl hn
  | .inf s, .inf t, hn, hxy, _, hord =>
    apply hord
    cases s <;> cases t <;> rfl
  | .inf s, .fin t b hb, hn, hxy, _, hord => apply hord; cases s <;> rfl
  | .fin t b hb, .inf s, hn, hxy, _, hord => apply hord; cases s <;> rfl
  | .fin s a ha, .fin t b hb, hn, hxy, hz, hord =>
    rcases lt_trichotomy (sval s a) (sval t b) with h | h | h
    · apply hord
      unfold GregorianDate.order
      have e1 : ((F64.fin t b hb) <=. (F64.fin s a ha)) = false := by
        change decide _ = false; simp; exact h
      have e2 : ((F64.fin s a ha) <=. (F64.fin t b hb)) = true := by
        change decide _ = true; simp; exact h.le
      rw [e1, e2]; rfl
    · -- equal values: both zero, or the same datum
      have hab : a = b := by
        have := congrArg (fun z : ℤ => z.natAbs) h
        cases s <;> cases t <;> simpa [sval] using this
      subst hab
      by_cases h0 : a = 0
      · subst h0; exact hz s t ha hb
      · exfalso
        apply hxy
        have : s = t := by
          cases s <;> cases t <;> simp [sval] at h ⊢ <;> omega
        subst this; rfl
    · apply hord
      unfold GregorianDate.order
      have e1 : ((F64.fin t b hb) <=. (F64.fin s a ha)) = true := by
        change decide _ = true; simp; exact h.le
      have e2 : ((F64.fin s a ha) <=. (F64.fin t b hb)) = false := by
        change decide _ = false; simp; exact h
      rw [e1, e2]; rfl

/-- **C12**, second part: in exact arithmetic a larger Julian date never maps to an earlier
(date, fraction). -/
theorem C12_from_julian_monotone (p : Profile) (x y x' y' : ℝ) (h1 : -32000 ≤ x + y)
    (h2 : x' + y' ≤ 536802340) (hle : x + y ≤ x' + y') :
    ∃ d f d' f', GregorianDate.fromJulian p x y = .ok (.ok (d, f)) ∧
      GregorianDate.fromJulian p x' y' = .ok (.ok (d', f')) ∧
      (Before d.civil d'.civil ∨ (d = d' ∧ f ≤ f')) ∧
      (x + y < x' + y' → Before d.civil d'.civil ∨ (d = d' ∧ f < f')) := by
  obtain ⟨d, f, N, e, hd, -, hN, f0, f1, hs⟩ := C06_from_julian_exact p x y h1 (by linarith)
  obtain ⟨d', f', N', e', hd', -, hN', f0', f1', hs'⟩ :=
    C06_from_julian_exact p x' y' (by linarith) h2
  have u := daysFrom_unique _ _ mjdEpoch_isDate hd N hN
  have u' := daysFrom_unique _ _ mjdEpoch_isDate hd' N' hN'
  rw [mjdN_epoch, sub_zero] at u u'
  have hNN : N ≤ N' := by
    have : (N : ℝ) < N' + 1 := by linarith
    have : N < N' + 1 := by exact_mod_cast this
    omega
  refine ⟨d, f, d', f', e, e', ?_⟩
  rcases hNN.lt_or_eq with h | h
  · have hb := (before_iff d.civil d'.civil hd hd').mpr (by rw [← u, ← u']; exact h)
    exact ⟨Or.inl hb, fun _ => Or.inl hb⟩
  · have hc : d.civil = d'.civil := mjdN_inj _ _ hd hd' (by rw [← u, ← u', h])
    have hdd : d = d' := by
      cases d; cases d'
      simp only [GregorianDate.civil, Prod.mk.injEq] at hc
      simp only [GregorianDate.mk.injEq]
      exact hc
    subst h
    exact ⟨Or.inr ⟨hdd, by linarith⟩, fun hl => Or.inr ⟨hdd, by linarith⟩⟩

example : (-32000 : ℝ) ≤ 2451545 + 0 ∧ (2451545 + 1 : ℝ) ≤ 536802340 ∧
    (2451545 + 0 : ℝ) ≤ 2451545 + 1 := by norm_num

/-- **C04.** For every date accepted by `new` up to year 1465000, `from_julian` applied to the pair returned
by `to_julian`, in either order, returns exactly that date with fraction exactly zero, in `f64`. -/
theorem C04_round_trip (p : Profile) (d : GregorianDate)
    (hd : GregorianDate.new d.year d.month d.day = .ok d) (hy : d.year ≤ 1465000) :
    ∃ (a b f : F64), GregorianDate.toJulian p d = .ok (a, b) ∧ Is f 0 ∧
      GregorianDate.fromJulian p a b = .ok (.ok (d, f)) ∧
      GregorianDate.fromJulian p b a = .ok (.ok (d, f)) := by
  obtain ⟨h1, h2⟩ := (accepted_iff d).mp hd
  obtain ⟨a, b, e, ha, hb⟩ := toJulian_f64 p d h2 h1 (by have := marchYear_le d; omega)
  obtain ⟨N, hN⟩ : ∃ N, N = mjdN d.year d.month d.day := ⟨_, rfl⟩
  rw [← hN] at hb
  have b1 : -2431739 ≤ N := by
    have : mjdN (-4799) 1 1 = -2431739 := by decide
    by_contra hc
    have := year_lt_of_mjdN h2 (-4799) (by simp only [GregorianDate.civil]; omega)
    simp only [GregorianDate.civil] at this
    omega
  have b2 : N < 534401687 := by
    have : mjdN 1465001 1 1 = 534401687 := by decide
    by_contra hc
    have := year_ge_of_mjdN h2 1465001 (by simp only [GregorianDate.civil]; omega)
    simp only [GregorianDate.civil] at this
    omega
  have c1 : (-2431739 : ℚ) ≤ N := by exact_mod_cast b1
  have c2 : (N : ℚ) < 534401687 := by exact_mod_cast b2
  have hr : RepQ ((4800001 / 2 : ℚ) + N) := by
    have : ((4800001 / 2 : ℚ) + N) = ((4800001 + 2 * N : ℤ) : ℚ) / 2 ^ 1 := by push_cast; ring
    rw [this]
    exact RepQ.dyadic _ _ (by rw [abs_le]; constructor <;> omega) (by norm_num)
  have hs := ha.add_exact hb hr (small_lt_OVQ (by rw [abs_le]; constructor <;> linarith))
  have hlo : ((GregorianDate.DJ_MIN : F64) <=. (a +. b)) = true := by
    rw [lit_neg32000_is.le hs]; simp; linarith
  have hhi : ((a +. b) <=. (GregorianDate.DJ_MAX : F64)) = true := by
    rw [hs.le lit_1e9_is]; simp; linarith
  obtain ⟨D, f, q, er, hf, q0, q1, heq, -, -, -, -, -, -, hex, hres⟩ :=
    fromJulian_f64 p ha hb hlo hhi
  obtain ⟨e0, q1'⟩ := hex 0 4800001 (2 * N) (by norm_num) (by norm_num) (by push_cast; ring) (by
    have : |min (4800001 / 2 : ℚ) N - 1 / 2| ≤ 2500000 := by
      rw [abs_le]
      constructor
      · have := le_min (show (-2431739 : ℚ) ≤ 4800001 / 2 by norm_num) c1
        linarith
      · have := min_le_left (4800001 / 2 : ℚ) N
        linarith
    norm_num
    linarith)
  subst e0
  have hD : D = 2400000 + N := by
    have g1 : (D : ℚ) < 2400000 + N + 1 := by linarith
    have g2 : (2400000 + N : ℚ) < D + 1 := by linarith
    have g1' : D < 2400000 + N + 1 := by exact_mod_cast g1
    have g2' : 2400000 + N < D + 1 := by exact_mod_cast g2
    omega
  have hq : q = 0 := by
    rw [hD] at heq; push_cast at heq; linarith
  obtain ⟨d', hd', hdate', -, hmj⟩ := ofDay_ok p (D + 1) (by omega) (by omega)
  have hdd : d'.civil = d.civil := mjdN_inj _ _ hdate' h2 (by
    simp only [GregorianDate.civil]; omega)
  have hdd' : d' = d := by
    cases d; cases d'
    simp only [GregorianDate.civil, Prod.mk.injEq] at hdd
    simp only [GregorianDate.mk.injEq]
    exact hdd
  have hfin : GregorianDate.fromJulian p a b = .ok (.ok (d, f)) := by
    rw [hres, hd', hdd']; rfl
  exact ⟨a, b, f, e, hf.congr hq, hfin, by rw [C11_from_julian_comm]; exact hfin⟩

example : GregorianDate.new (-4799) 1 1 = .ok ⟨-4799, 1, 1⟩ ∧
    GregorianDate.new 1465000 12 31 = .ok ⟨1465000, 12, 31⟩ := by decide

end Verif
