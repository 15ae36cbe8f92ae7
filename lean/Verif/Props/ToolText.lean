import Verif.Props.SunText
import Verif.Props.FromJulian
import Verif.Props.HMS
import Verif.Props.SunAngleTool

/-!
# C76, C77, C78: what the command line tools print
-/

namespace Verif
open Arith F64 Spec

/-! ## C76: `julian_tool gregorian` -/

/-- The exact Julian date of day `N` and a time of day. -/
noncomputable def julianOf (N h m : ℤ) (s : ℚ) : ℝ := 2400000.5 + N + (3600 * h + 60 * m + s) / 86400

theorem fod_nb (h m : ℤ) (s : F64) (x : ℚ) (hh : 0 ≤ h ∧ h ≤ 255) (hm : 0 ≤ m ∧ m ≤ 255) (hs : Is s x) (hx : |x| ≤ 10 ^ 6) :
    NB (HMS.toFractionOfDay ⟨h, m, s⟩ : F64) ((3600 * h + 60 * m + x) / 86400 : ℝ) (1 / 10 ^ 14) 30 := by
  have i := fod_is h m s x hh hm hs (hx.trans (by norm_num))
  have a0 : (0 : ℝ) ≤ h := by exact_mod_cast hh.1
  have a1 : (h : ℝ) ≤ 255 := by exact_mod_cast hh.2
  have b0 : (0 : ℝ) ≤ m := by exact_mod_cast hm.1
  have b1 : (m : ℝ) ≤ 255 := by exact_mod_cast hm.2
  have hx' : |(x : ℝ)| ≤ 10 ^ 6 := by exact_mod_cast hx
  rw [abs_le] at hx'
  norm_num at hx'
  have e1 := RN_err_real (x := x + ((60 * (m + 60 * h) : ℤ) : ℚ)) (M := 2000000) (by
    push_cast; rw [abs_le]; constructor <;> linarith)
  generalize RN (x + ((60 * (m + 60 * h) : ℤ) : ℚ)) = u at *
  push_cast at e1
  rw [abs_le] at e1
  norm_num at e1
  have e2 := RN_err_real (x := u / 86400) (M := 30) (by
    push_cast; rw [abs_le]; constructor <;> linarith)
  push_cast at e2
  rw [abs_le] at e2
  norm_num at e2
  refine ⟨⟨_, i, ?_⟩, ?_⟩
  · rw [abs_le]; norm_num; constructor <;> linarith
  · rw [abs_le]; constructor <;> linarith

/-- A numeral printed without a width starts with its sign or its first digit. -/
theorem fmtSpace_head {plus : Bool} {prec : ℕ} {x : F64} (hf : isFin x = true) : (fmtSpace plus 0 prec x).head? ≠ some ' ' := by
  obtain ⟨s, n, h, rfl, -⟩ := is_fin (Is.self hf)
  obtain ⟨c, r, e, hc⟩ := fmtMag_head 0 prec n
  rw [padLeft_zero] at e
  have hne : c ≠ ' ' := by
    have key : ∀ d < 10, Nat.digitChar d ≠ ' ' := by decide
    obtain ⟨d, hd, rfl⟩ := hc
    exact key d hd
  unfold fmtSpace fmtParts
  simp only [e]
  cases s <;> cases plus <;> simp [fmtSign, hne]

/-- **C76.** For every accepted date up to the year 1465072, every hour and minute and every finite second of at most
`10^6` in magnitude, `julian_tool gregorian` ends normally, in both profiles, with four lines: the date, the time, a
numeral within `7e-7` days of the exact Julian date and a numeral within `5.01e-7` of the exact fraction of the day.
Absent options mean noon. -/
theorem C76_gregorian_text (p : Profile) (y m d : ℤ) (hour minute : Option ℤ) (second : Option F64)
    (hd : GregorianDate.new y m d = .ok ⟨y, m, d⟩) (hy : y ≤ 1465072) (hh : 0 ≤ hour.getD 12 ∧ hour.getD 12 ≤ 255)
    (hm : 0 ≤ minute.getD 0 ∧ minute.getD 0 ≤ 255) (s : ℚ) (hs : Is (second.getD (lit 0)) s) (hs' : |s| ≤ 10 ^ 6) (N : ℤ)
    (hN : DaysFrom mjdEpoch (y, m, d) N) :
    ∃ a b : List Char, (julianToolGregorian p y m d hour minute second).stop = .done ∧
      (julianToolGregorian p y m d hour minute second).text.splitOn '\n' = [
        "Gregorian date: ".toList ++ (GregorianDate.mk y m d).display,
        "Time: ".toList ++ (HMS.mk (hour.getD 12) (minute.getD 0) (second.getD (lit 0)) : HMS F64).display,
        "Julian date: ".toList ++ a, "Fraction of day: ".toList ++ b, []] ∧
      Shows a (julianOf N (hour.getD 12) (minute.getD 0) s) 0.0000007 ∧
      Shows b ((3600 * hour.getD 12 + 60 * minute.getD 0 + s) / 86400) 0.000000501 ∧
      a.head? ≠ some ' ' ∧ b.head? ≠ some ' ' := by
  obtain ⟨h1, h2⟩ := (accepted_iff ⟨y, m, d⟩).mp hd
  obtain ⟨x, b, e, hx, hb⟩ := toJulian_f64 p ⟨y, m, d⟩ h2 h1 ((marchYear_le _).trans hy)
  have hNe : N = mjdN y m d := by
    have u1 := daysFrom_unique _ _ (by decide) h2 N hN
    have u2 := daysFrom_unique _ _ (by decide) h2 _ (daysFrom_epoch h2)
    exact u1.trans u2.symm
  have nb : |(N : ℝ)| ≤ 2 ^ 30 := by
    have := mjdN_small (d := ⟨y, m, d⟩) h2 h1 ((marchYear_le _).trans hy)
    rw [hNe]; exact_mod_cast this
  have hb' : Is b (N : ℚ) := by rw [hNe]; exact hb
  have f := fod_nb _ _ _ s hh hm hs hs'
  have j := ((NB.of_is' hx (a := 2400000.5) (M := 2400001) (by norm_num) (by norm_num)).add (NB.of_is hb' (M := 2 ^ 29) (by
      have hc := mjdN_cases y m d
      have h1y : -4799 ≤ y := h1
      have hl := monthLen_le y m
      obtain ⟨q1, q2, q3, q4⟩ := h2
      simp only [GregorianDate.civil] at q1 q2 q3 q4
      have k1 : -2 ^ 29 ≤ N := by rw [hNe]; norm_num; omega
      have k2 : N ≤ 536802341 := by rw [hNe]; omega
      have k1' : (-2 ^ 29 : ℝ) ≤ N := by exact_mod_cast k1
      have k2' : (N : ℝ) ≤ 536802341 := by exact_mod_cast k2
      push_cast
      rw [abs_le]
      constructor
      · linarith
      · norm_num at *; linarith)) (E := 6.1 / 10 ^ 8) (M := 540000000) (by norm_num)).add f (E := 13 / 10 ^ 8)
      (M := 540000100) (by norm_num)
  refine ⟨fmtSpace false 0 6 ((x +. b) +. HMS.toFractionOfDay ⟨hour.getD 12, minute.getD 0, second.getD (lit 0)⟩),
    fmtSpace false 0 6 (HMS.toFractionOfDay ⟨hour.getD 12, minute.getD 0, second.getD (lit 0)⟩), ?_, ?_,
    (j.near.congr ?_).shows _ _ _ (by norm_num), f.near.shows _ _ _ (by norm_num),
    fmtSpace_head j.near.choose_spec.1.fin, fmtSpace_head f.near.choose_spec.1.fin⟩
  · unfold julianToolGregorian; rw [hd]; simp only [e]
  · have e2 : (julianToolGregorian p y m d hour minute second).text = (List.map line [
        "Gregorian date: ".toList ++ (GregorianDate.mk y m d).display,
        "Time: ".toList ++ (HMS.mk (hour.getD 12) (minute.getD 0) (second.getD (lit 0)) : HMS F64).display,
        "Julian date: ".toList ++ fmtSpace false 0 6 ((x +. b) +. HMS.toFractionOfDay ⟨hour.getD 12, minute.getD 0, second.getD (lit 0)⟩),
        "Fraction of day: ".toList ++ fmtSpace false 0 6 (HMS.toFractionOfDay ⟨hour.getD 12, minute.getD 0, second.getD (lit 0)⟩)]).flatten := by
      unfold julianToolGregorian; rw [hd]; simp only [e]
      simp only [List.map_cons, List.map_nil, List.flatten_cons, List.flatten_nil, List.append_nil, List.append_assoc]
    rw [e2, splitOn_lines]
    · rfl
    · intro l hl
      have f := fmtSpace_newline
      have l0 : '\n' ∉ "Gregorian date: ".toList := by decide
      have l1 : '\n' ∉ "Time: ".toList := by decide
      have l2 : '\n' ∉ "Julian date: ".toList := by decide
      have l3 : '\n' ∉ "Fraction of day: ".toList := by decide
      have g1 := date_newline ⟨y, m, d⟩
      have g2 := time_newline ⟨hour.getD 12, minute.getD 0, second.getD (lit 0)⟩ hs
      simp only [List.mem_cons, List.not_mem_nil, or_false] at hl
      rcases hl with rfl | rfl | rfl | rfl <;>
      simp only [List.mem_append, f, g1, g2, l0, l1, l2, l3, not_false_eq_true, or_self]
  · unfold julianOf
    push_cast
    ring

/-- The hypotheses hold; and the text for the first day of the year 2000, at noon. -/
example : GregorianDate.new 2000 1 1 = .ok ⟨2000, 1, 1⟩ ∧ DaysFrom mjdEpoch (2000, 1, 1) 51544 ∧
    (julianToolGregorian .checked 2000 1 1 none none none).text =
      "Gregorian date: 2000-01-01\nTime: 12:00:00.000000\nJulian date: 2451545.000000\nFraction of day: 0.500000\n".toList := by
  refine ⟨by decide, daysFrom_epoch (by decide), by decide +kernel⟩

/-- **C76.** An unreal date ends the tool with the calendar error and no output.  An accepted date of the year 1465074 or
later stops a checked build with a panic after the date and the time are printed. -/
theorem C76_gregorian_stops (y m d : ℤ) (hour minute : Option ℤ) (second : Option F64) :
    (∀ p e, GregorianDate.new y m d = .error e → julianToolGregorian p y m d hour minute second = ⟨[], .error e⟩) ∧
    (GregorianDate.new y m d = .ok ⟨y, m, d⟩ → I32.InRange y → 1465074 ≤ y →
      (julianToolGregorian .checked y m d hour minute second).stop = .panic .overflow ∧
      (julianToolGregorian .checked y m d hour minute second).text =
        "Gregorian date: ".toList ++ (GregorianDate.mk y m d).display ++ '\n' :: ("Time: ".toList ++
        (HMS.mk (hour.getD 12) (minute.getD 0) (second.getD (lit 0)) : HMS F64).display ++ ['\n'])) := by
  constructor
  · intro p e h
    unfold julianToolGregorian
    rw [h]
  · intro h hr hy
    have e := ((C03_to_julian_overflow ⟨y, m, d⟩ hr h).1 (by split <;> simp only <;> omega)).1
    unfold julianToolGregorian
    rw [h]
    simp only [e]
    refine ⟨trivial, ?_⟩
    simp [line]

example : GregorianDate.new 2000000 1 1 = .ok ⟨2000000, 1, 1⟩ ∧ I32.InRange 2000000 ∧
    GregorianDate.new 2023 2 29 = .error .badDay := by decide

/-! ## C77: `julian_tool julian` -/

/-- **C77.** For all finite `f64` pairs whose `f64` sum is in `[-32000, 536802340]`, `julian_tool julian` ends
normally, in both profiles, with four lines.  The date shown is a real date, the time has an hour up to 24, a minute below
60 and a second in `[0, 60)`, and together they denote the exact sum `dj1 + dj2` to within `2^-53 (|min(dj1,dj2)| + 5)` days. The
first line shows the sum rounded to `f64`, the third the day fraction.  `shortest` stands for Rust's `{}` on an `f64`. -/
theorem C77_julian_text (shortest : F64 → List Char) (hsh : ∀ x, '\n' ∉ shortest x) (p : Profile) (x : F64) (y : Option F64)
    (hx : isFin x = true) (hy : isFin (y.getD (lit 0)) = true)
    (hlo : ((lit (-32000.0) : F64) <=. (x +. y.getD (lit 0))) = true)
    (hhi : ((x +. y.getD (lit 0)) <=. (lit 536802340 : F64)) = true) :
    ∃ (a : List Char) (fr : F64) (d : GregorianDate) (t : HMS F64) (s q : ℚ) (N : ℤ),
      (julianToolJulian shortest p x y).stop = .done ∧
      (julianToolJulian shortest p x y).text.splitOn '\n' = ["Julian date: ".toList ++ a,
        "Gregorian date: ".toList ++ d.display, "Fraction of day: ".toList ++ shortest fr, "Time: ".toList ++ t.display, []] ∧
      Shows a (v x + v (y.getD (lit 0))) 0.0000001 ∧ Is fr q ∧ 0 ≤ q ∧ q ≤ 1 ∧
      |(2400000.5 + N + q) - (v x + v (y.getD (lit 0)))| ≤ (|min (v x) (v (y.getD (lit 0)))| + 3) / 2 ^ 53 ∧
      IsDate d.civil ∧ -4800 ≤ d.year ∧ DaysFrom mjdEpoch d.civil N ∧ Is t.second s ∧ 0 ≤ t.hour ∧ t.hour ≤ 24 ∧ 0 ≤ t.minute ∧
      t.minute ≤ 59 ∧ 0 ≤ s ∧ s < 60 ∧
      |julianOf N t.hour t.minute s - (v x + v (y.getD (lit 0)))| ≤ (|min (v x) (v (y.getD (lit 0)))| + 5) / 2 ^ 53 := by
  generalize ey : y.getD (lit 0) = z at *
  obtain ⟨d, fr, N, e, hd, hd4, hN, hf, f0, f1, b1, -⟩ := C05_from_julian_instant p x z hx hy hlo hhi
  obtain ⟨h, m, s, eh, h0, h24, m0, m59, hs, s0, s60, es, -⟩ := C13_fields_in_range fr hf f0 f1
  have ix := Is.self hx
  have iz := Is.self hy
  obtain ⟨hsum, s1, s2⟩ := add_between ix iz lit_neg32000_is safe_max_is hlo hhi
  have i864 : Is (lit 86400 : F64) 86400 := by have := Is.lit_int 86400 (by norm_num); push_cast at this; exact this
  have ip : Is ((lit 86400 : F64) *. fr) (RN (86400 * v fr)) :=
    i864.mul (Is.self hf) (small_le_HUGE (by rw [abs_of_nonneg (by linarith)]; norm_num; linarith))
  have est : (3600 * h + 60 * m + v s : ℚ) = RN (86400 * v fr) := by rw [es]; exact ip.2
  have er := RN_err_le (x := 86400 * v fr) (M := 86400) (by rw [abs_of_nonneg (by linarith)]; linarith)
  rw [← est] at er
  refine ⟨fmtSpace false 18 14 (x +. z), fr, d, ⟨h, m, s⟩, v s, v fr, N, ?_, ?_, ?_, Is.self hf, f0, f1, b1, hd, hd4, hN, Is.self hs, h0, h24, m0,
    m59, s0, s60, ?_⟩
  · unfold julianToolJulian; rw [ey]; simp only [e, eh]
  · have e2 : (julianToolJulian shortest p x y).text = (List.map line ["Julian date: ".toList ++ fmtSpace false 18 14 (x +. z),
        "Gregorian date: ".toList ++ d.display, "Fraction of day: ".toList ++ shortest fr,
        "Time: ".toList ++ (⟨h, m, s⟩ : HMS F64).display]).flatten := by
      unfold julianToolJulian; rw [ey]; simp only [e, eh]
      simp only [List.map_cons, List.map_nil, List.flatten_cons, List.flatten_nil, List.append_nil, List.append_assoc]
    rw [e2, splitOn_lines]
    · rfl
    · intro l hl
      have f := fmtSpace_newline
      have l0 : '\n' ∉ "Gregorian date: ".toList := by decide
      have l1 : '\n' ∉ "Time: ".toList := by decide
      have l2 : '\n' ∉ "Julian date: ".toList := by decide
      have l3 : '\n' ∉ "Fraction of day: ".toList := by decide
      have g1 := date_newline d
      have g2 := time_newline ⟨h, m, s⟩ (Is.self hs)
      simp only [List.mem_cons, List.not_mem_nil, or_false] at hl
      rcases hl with rfl | rfl | rfl | rfl <;>
      simp only [List.mem_append, f, g1, g2, l0, l1, l2, l3, hsh, not_false_eq_true, or_self]
  · have c1 : v x + v z ≤ 536802341 := by
      by_contra hc
      have := le_RN_of_le (Is.lit_int 536802341 (by norm_num)).rep (le_of_lt (not_le.mp hc))
      push_cast at this
      linarith
    have c2 : -32001 ≤ v x + v z := by
      by_contra hc
      have := RN_le_of_le (Is.lit_int (-32001) (by norm_num)).rep (show v x + v z ≤ ((-32001 : ℤ) : ℚ) by
        push_cast; exact le_of_lt (not_le.mp hc))
      push_cast at this
      linarith
    have er := RN_err_real (x := v x + v z) (M := 536802341) (by
      have c1' : ((v x + v z : ℚ) : ℝ) ≤ 536802341 := by exact_mod_cast c1
      have c2' : (-32001 : ℝ) ≤ ((v x + v z : ℚ) : ℝ) := by exact_mod_cast c2
      rw [abs_le]; constructor <;> linarith)
    push_cast at er
    exact Near.shows (e := 536802341 / 2 ^ 53 + 1 / 2 ^ 100) ⟨_, hsum, er⟩ _ _ _ (by norm_num)
  · have hq : |(2400000.5 + N + (3600 * h + 60 * m + v s) / 86400) - (v x + v z)| ≤ (|min (v x) (v z)| + 5) / 2 ^ 53 := by
      have e5 : (2400000.5 + N + (3600 * h + 60 * m + v s) / 86400 : ℚ) - (v x + v z) =
          ((2400000.5 + N + v fr) - (v x + v z)) + ((3600 * h + 60 * m + v s) - 86400 * v fr) / 86400 := by ring
      rw [e5]
      refine (abs_add_le _ _).trans ?_
      rw [abs_div, abs_of_pos (show (0 : ℚ) < 86400 by norm_num)]
      have e6 : |(3600 * h + 60 * m + v s) - 86400 * v fr| / 86400 ≤ 2 / 2 ^ 53 := by
        rw [div_le_iff₀ (by norm_num)]
        exact er.trans (by norm_num)
      have e7 : (|min (v x) (v z)| + 5) / 2 ^ 53 = (|min (v x) (v z)| + 3) / 2 ^ 53 + 2 / 2 ^ 53 := by ring
      rw [e7]
      exact add_le_add b1 e6
    have h9 := (Rat.cast_le (K := ℝ)).mpr hq
    push_cast at h9
    unfold julianOf
    push_cast
    exact h9

/-- The hypotheses hold, and the text for the start of the day, with a stand-in for `{}`. -/
example : isFin (lit 2451545 : F64) = true ∧ isFin ((none : Option F64).getD (lit 0)) = true ∧
    ((lit (-32000.0) : F64) <=. ((lit 2451545 : F64) +. (none : Option F64).getD (lit 0))) = true ∧
    (((lit 2451545 : F64) +. (none : Option F64).getD (lit 0)) <=. (lit 536802340 : F64)) = true ∧
    (julianToolJulian (fmtSpace false 0 1) .checked (lit 2451545) none).text =
      "Julian date: 2451545.00000000000000\nGregorian date: 2000-01-01\nFraction of day: 0.5\nTime: 12:00:00.000000\n".toList := by
  decide +kernel

/-- **C77.** Outside the range the tool stops after its first line: with the calendar error if the `f64` sum is below
`-32000` or above `10^9`, with an overflow panic in a checked build if it is between `536802344` and `10^9`. -/
theorem C77_julian_stops (shortest : F64 → List Char) (x : F64) (y : Option F64) :
    (∀ p, (((x +. y.getD (lit 0)) <. (lit (-32000) : F64)) = true ∨ ((lit 1000000000 : F64) <. (x +. y.getD (lit 0))) = true) →
      julianToolJulian shortest p x y =
        ⟨"Julian date: ".toList ++ fmtSpace false 18 14 (x +. y.getD (lit 0)) ++ ['\n'], .error .badJulian⟩) ∧
    (isFin x = true → isFin (y.getD (lit 0)) = true → ((lit 536802344 : F64) <=. (x +. y.getD (lit 0))) = true →
      ((x +. y.getD (lit 0)) <=. (lit 1e9 : F64)) = true →
      julianToolJulian shortest .checked x y =
        ⟨"Julian date: ".toList ++ fmtSpace false 18 14 (x +. y.getD (lit 0)) ++ ['\n'], .panic .overflow⟩) := by
  constructor
  · intro p h
    have e := (C08_range_check p x (y.getD (lit 0))).1.mpr h
    unfold julianToolJulian
    simp only [e, line]
  · intro h1 h2 h3 h4
    have e := (C09_from_julian_overflow x (y.getD (lit 0)) h1 h2 h3 h4).1
    unfold julianToolJulian
    simp only [e, line]

example : ((lit 1000000000 : F64) <. ((lit 2000000000 : F64) +. (none : Option F64).getD (lit 0))) = true ∧
    ((lit 536802344 : F64) <=. ((lit 600000000 : F64) +. (none : Option F64).getD (lit 0))) = true ∧
    (((lit 600000000 : F64) +. (none : Option F64).getD (lit 0)) <=. (lit 1e9 : F64)) = true := by decide +kernel

/-- **C77.** The two subcommands invert each other: a numeral `a` that shows an instant as the `gregorian` subcommand does
(C76), parsed to the nearest `f64` and given to the `julian` subcommand, prints a date and a time that denote the same
instant to within `7.8e-7` days, 0.068 seconds. -/
theorem C77_round_trip (shortest : F64 → List Char) (hsh : ∀ x, '\n' ∉ shortest x) (p : Profile) (a : List Char) (N h m : ℤ)
    (s : ℚ) (ha : Shows a (julianOf N h m s) 0.0000007) (h1 : -31999 ≤ julianOf N h m s) (h2 : julianOf N h m s ≤ 536802339)
    (x : F64) (hx : ∀ t, readDec a = some t → Is x (RN t)) :
    ∃ (j f : List Char) (d : GregorianDate) (t : HMS F64) (s' : ℚ) (N' : ℤ),
      (julianToolJulian shortest p x none).text.splitOn '\n' = ["Julian date: ".toList ++ j,
        "Gregorian date: ".toList ++ d.display, "Fraction of day: ".toList ++ f, "Time: ".toList ++ t.display, []] ∧
      IsDate d.civil ∧ DaysFrom mjdEpoch d.civil N' ∧ Is t.second s' ∧
      |julianOf N' t.hour t.minute s' - julianOf N h m s| ≤ 0.00000078 := by
  obtain ⟨t, e, ht⟩ := ha
  have ix := hx t e
  rw [abs_le] at ht
  norm_num at ht
  have t1 : (-32000 : ℝ) ≤ t := by linarith
  have t2 : (t : ℝ) ≤ 536802340 := by linarith
  have er := RN_err_real (x := t) (M := 536802340) (by rw [abs_le]; constructor <;> linarith)
  have t1' : (-32000 : ℚ) ≤ t := by exact_mod_cast t1
  have t2' : t ≤ 536802340 := by exact_mod_cast t2
  have i0 : Is (lit 0 : F64) 0 := by have := Is.lit_int 0 (by norm_num); push_cast at this; exact this
  have r1 := le_RN_of_le (Is.lit_int (-32000) (by norm_num)).rep (show ((-32000 : ℤ) : ℚ) ≤ t by push_cast; exact t1')
  have r2 := RN_le_of_le (Is.lit_int 536802340 (by norm_num)).rep (show t ≤ ((536802340 : ℤ) : ℚ) by push_cast; exact t2')
  push_cast at r1 r2
  have isum : Is (x +. lit 0) (RN t) := by
    have := ix.add_exact i0 (by rw [add_zero]; exact ix.rep) (by rw [add_zero]; exact ix.lt_OVQ)
    rwa [add_zero] at this
  obtain ⟨j, f, d, u, s', -, N', -, g1, -, -, -, -, -, g2, -, g3, g4, -, -, -, -, -, -, g5⟩ := C77_julian_text shortest hsh p x none ix.fin i0.fin
    (by show ((lit (-32000.0) : F64) <=. (x +. lit 0)) = true
        exact (lit_neg32000_is.le isum).trans (by simpa using r1))
    (by show ((x +. lit 0) <=. (lit 536802340 : F64)) = true
        exact (isum.le safe_max_is).trans (by simpa using r2))
  refine ⟨j, shortest f, d, u, s', N', g1, g2, g3, g4, ?_⟩
  have v1 : v x = RN t := ix.val
  have v2 : v ((none : Option F64).getD (lit 0)) = 0 := i0.val
  rw [v1, v2] at g5
  push_cast at g5
  have hm : |min ((RN t : ℚ) : ℝ) 0| ≤ 32000 := by
    have r1' : (-32000 : ℝ) ≤ ((RN t : ℚ) : ℝ) := by exact_mod_cast r1
    rw [abs_le]
    refine ⟨le_min r1' (by norm_num), (min_le_right _ _).trans (by norm_num)⟩
  have g6 := g5.trans (show _ ≤ (32005 : ℝ) / 2 ^ 53 from div_le_div_of_nonneg_right (by linarith) (by positivity))
  rw [abs_le] at g6 er ⊢
  norm_num at g6 er ⊢
  constructor <;> linarith

/-- The hypotheses hold: the numeral `2451545.000000` and noon of the first day of the year 2000. -/
example : Shows "2451545.000000".toList (julianOf 51544 12 0 0) 0.0000007 ∧ (-31999 ≤ julianOf 51544 12 0 0 ∧
    julianOf 51544 12 0 0 ≤ 536802339) ∧ ∀ t, readDec "2451545.000000".toList = some t → Is (lit 2451545 : F64) (RN t) := by
  have e : readDec "2451545.000000".toList = some 2451545 := by decide +kernel
  have e2 : julianOf 51544 12 0 0 = 2451545 := by unfold julianOf; norm_num
  rw [e2]
  refine ⟨⟨_, e, by norm_num⟩, by norm_num, ?_⟩
  intro t ht
  rw [e] at ht
  cases ht
  have := Is.lit_int 2451545 (by norm_num)
  push_cast at this
  rw [RN_exact this.rep]
  exact this

/-! ## C78: `sun_angle_tool` -/

/-- What the command line asks for: the given values, or the defaults. -/
def ToolArgs.params (a : ToolArgs F64) (date : GregorianDate) : SunAngleParameters F64 :=
  ⟨date, ⟨a.hour.getD 0, a.minute.getD 0, a.second.getD (lit 0)⟩,
    { lat := a.lat.getD (lit 0), lon := a.lon.getD (lit (-120)), height := a.height.getD (lit 0) }⟩

/-- The printed text in terms of the list of results. -/
theorem text_of_results [Libm F64] (p : Profile) (a : ToolArgs F64) (date : GregorianDate) (c : SunAngleCalculator F64)
    (hd : GregorianDate.new (a.year.getD 2007) (a.month.getD 4) (a.day.getD 5) = .ok date)
    (hc : SunAngleCalculator.new p (a.params date) = .ok c) :
    toolCalc p a = some c ∧ ∀ n l, sunAngleTool p a n = some (.ok (.results l)) →
      sunAngleToolText p a n = some ⟨(if a.scan then line ("Will scan from ".toList ++ fmtSpace true 13 6 (a.delta0.getD (lit (-600))) ++
        "s to ".toList ++ fmtSpace true 13 6 (a.delta1.getD (lit 600)) ++ "s in steps of ".toList ++
        fmtSpace false 13 6 (a.delta_step.getD (lit 60))) else []) ++
        (l.map fun r => (if a.scan then ['\n'] else []) ++ bundleDisplay (a.params date) r).flatten, .done⟩ := by
  unfold ToolArgs.params at *
  have ht : toolCalc p a = some c := by unfold toolCalc; simp only [hd, hc]
  refine ⟨ht, fun n l hl => ?_⟩
  rw [tool_loop p a c ht] at hl
  unfold sunAngleToolText
  simp only [hd, hc]
  cases hw : whileLoop c.compute (a.delta1.getD (lit 600)) (a.delta_step.getD (lit 60)) a.scan n (a.delta0.getD (lit (-600))) with
  | none => rw [hw] at hl; cases hl
  | some x =>
    rw [hw] at hl
    cases x with
    | error e => cases hl
    | ok l' =>
      have : l' = l := by
        simp only [Option.map_some, Option.some.injEq] at hl
        cases hl
        rfl
      subst this
      rfl

/-- **C78.** Without `--scan`, for every accepted date and every input in the range of C72, `sun_angle_tool` prints one correct
report and ends, for any step.  The report is for `delta0` seconds after the given time: without options, ten minutes before it. -/
theorem C78_single_text [Libm F64] (hL : LibmAcc) (p : Profile) (a : ToolArgs F64) (date : GregorianDate)
    (hd : GregorianDate.new (a.year.getD 2007) (a.month.getD 4) (a.day.getD 5) = .ok date) (hs : a.scan = false)
    (s l b h d : ℚ) (N : ℤ) (H : SunInput (a.params date) (a.delta0.getD (lit (-600))) s l b h d N)
    (h01 : (a.delta0.getD (lit (-600)) <=. a.delta1.getD (lit 600)) = true) (n : ℕ) (hn : 0 < n) :
    ∃ t, sunAngleToolText p a n = some ⟨t, .done⟩ ∧ IsReport p (a.params date) s l b h d N t := by
  obtain ⟨c, r, hc, hr, hrep⟩ := C75_printed_report hL p _ _ s l b h d N H
  obtain ⟨ht, hl⟩ := text_of_results p a date c hd hc
  obtain ⟨r', hr', he⟩ := (C55_no_scan p a c ht hs n hn).1 h01
  rw [hr] at hr'
  obtain rfl := Except.ok.inj hr'
  refine ⟨_, (hl n _ he).trans ?_, hrep⟩
  simp [hs]

theorem SunInput.between {q : SunAngleParameters F64} {δ δ' : F64} {s l b h d d' : ℚ} {N : ℤ} (H : SunInput q δ s l b h d N)
    (H' : SunInput q δ' s l b h d' N) {x : F64} {e : ℚ} (hx : Is x e) (h1 : d ≤ e) (h2 : e ≤ d') : SunInput q x s l b h e N := by
  refine ⟨H.date, H.hour, H.minute, H.second, H.start, H.stop, H.lon, H.lat, H.height, H.lon_le, H.lat_le, H.height_le, hx, ?_,
    H.days, ?_⟩
  · have u1 := abs_le.mp H.offset_le
    have u2 := abs_le.mp H'.offset_le
    rw [abs_le]
    constructor <;> linarith [u1.1, u2.2]
  · have u1 := abs_le.mp H.century
    have u2 := abs_le.mp H'.century
    rw [abs_le]
    constructor <;> linarith [u1.1, u2.2]

theorem scan_shape {β : Type} (A a0 B a1 C a2 : List Char) (l : List β) (g : β → List Char) :
    line (A ++ a0 ++ B ++ a1 ++ C ++ a2) ++ (l.map fun r => ['\n'] ++ g r).flatten =
      A ++ a0 ++ B ++ a1 ++ C ++ a2 ++ '\n' :: ((l.map g).map fun t => '\n' :: t).flatten := by
  simp [line, Function.comp_def]

/-- **C78.** With `--scan`, when `delta0` and the step are multiples of a power of two `2^-k`, `k ≤ 30`, as the defaults are, and both
ends of the scan are in the range of C72, `sun_angle_tool` ends, having printed a line that shows the two bounds and the step, and
then, each after an empty line, one correct report for each `delta0 + j step ≤ delta1`, in order. -/
theorem C78_scan_text [Libm F64] (hL : LibmAcc) (p : Profile) (a : ToolArgs F64) (date : GregorianDate)
    (hdate : GregorianDate.new (a.year.getD 2007) (a.month.getD 4) (a.day.getD 5) = .ok date) (hs : a.scan = true)
    (k : ℕ) (hk : k ≤ 30) (i st : ℤ) (s l b h d1 : ℚ) (N : ℤ)
    (H0 : SunInput (a.params date) (a.delta0.getD (lit (-600))) s l b h ((i : ℚ) / 2 ^ k) N)
    (H1 : SunInput (a.params date) (a.delta1.getD (lit 600)) s l b h d1 N)
    (h2 : Is (a.delta_step.getD (lit 60)) ((st : ℚ) / 2 ^ k)) (hpos : 0 < st)
    (hi : |i| ≤ 2 ^ 52) (hst2 : st ≤ 2 ^ 52) (hd : d1 * 2 ^ k ≤ 2 ^ 52) :
    ∃ (n m : ℕ) (a0 a1 a2 : List Char) (reports : List (List Char)),
      (∀ j : ℕ, j < m ↔ ((i + j * st : ℤ) : ℚ) / 2 ^ k ≤ d1) ∧
      sunAngleToolText p a n = some ⟨"Will scan from ".toList ++ a0 ++ "s to ".toList ++ a1 ++ "s in steps of ".toList ++ a2 ++
        '\n' :: (reports.map fun t => '\n' :: t).flatten, .done⟩ ∧
      Shows a0 (((i : ℚ) / 2 ^ k : ℚ) : ℝ) 0.0000005 ∧ Shows a1 d1 0.0000005 ∧ Shows a2 (((st : ℚ) / 2 ^ k : ℚ) : ℝ) 0.0000005 ∧
      reports.length = m ∧ ∀ (j : ℕ) (hj : j < reports.length),
        IsReport p (a.params date) s l b h (((i + j * st : ℤ) : ℚ) / 2 ^ k) N reports[j] := by
  obtain ⟨c, r, hc, hr, -⟩ := C75_printed_report hL p _ _ s l b h _ N H0
  obtain ⟨ht, hl⟩ := text_of_results p a date c hdate hc
  obtain ⟨n, m, res, e, hm, hlen, hres⟩ := C55_scan_f64_exact p a c ht hs k hk i st d1 H0.offset H1.offset h2 hpos hst2 hi hd
  refine ⟨n, m, fmtSpace true 13 6 (a.delta0.getD (lit (-600))), fmtSpace true 13 6 (a.delta1.getD (lit 600)),
    fmtSpace false 13 6 (a.delta_step.getD (lit 60)), res.map (bundleDisplay (a.params date)), hm, (hl n _ e).trans ?_, (Near.of_is H0.offset).shows true 13 6 (by norm_num),
    (Near.of_is H1.offset).shows true 13 6 (by norm_num), (Near.of_is h2).shows false 13 6 (by norm_num), by simpa using hlen, ?_⟩
  · have e3 : (if a.scan = true then ['\n'] else []) = ['\n'] := if_pos hs
    rw [if_pos hs, e3]
    exact congrArg (fun t => some (Run.mk t .done)) (scan_shape _ _ _ _ _ _ _ _)
  · intro j hj
    have hj' : j < res.length := by simpa using hj
    obtain ⟨e1, e2⟩ := hres j hj'
    have pk : (0 : ℚ) < 2 ^ k := by positivity
    have H := H0.between H1 e1 (by
      push_cast
      have : 0 ≤ (j : ℚ) * st := by positivity
      gcongr
      linarith) ((hm j).mp (by omega))
    obtain ⟨c', r', hc', hr', hrep⟩ := C75_printed_report hL p _ _ s l b h _ N H
    rw [hc] at hc'
    obtain rfl := Except.ok.inj hc'
    rw [e2] at hr'
    obtain rfl := Except.ok.inj hr'
    rw [List.getElem_map]
    exact hrep

/-- **C78.** The other endings.  An unreal date: the calendar error and no output.  A calculator that cannot be built: a panic
and no output.  No `--scan` and a `delta0` that is not at most `delta1`: no output, and success. -/
theorem C78_silent_ends [Libm F64] (p : Profile) (a : ToolArgs F64) (n : ℕ) :
    (∀ e, GregorianDate.new (a.year.getD 2007) (a.month.getD 4) (a.day.getD 5) = .error e →
      sunAngleToolText p a n = some ⟨[], .error e⟩) ∧
    (∀ date, GregorianDate.new (a.year.getD 2007) (a.month.getD 4) (a.day.getD 5) = .ok date →
      (∀ e, SunAngleCalculator.new p (a.params date) = .error e → sunAngleToolText p a n = some ⟨[], .panic e⟩) ∧
      (∀ c, SunAngleCalculator.new p (a.params date) = .ok c → a.scan = false → 0 < n →
        (a.delta0.getD (lit (-600)) <=. a.delta1.getD (lit 600)) = false → sunAngleToolText p a n = some ⟨[], .done⟩)) := by
  refine ⟨fun e h => by unfold sunAngleToolText; rw [h], fun date hd => ⟨fun e h => ?_, fun c hc hs hn h => ?_⟩⟩
  · unfold ToolArgs.params at h
    unfold sunAngleToolText
    simp only [hd, h]
  · obtain ⟨ht, hl⟩ := text_of_results p a date c hd hc
    refine (hl n [] ((C55_no_scan p a c ht hs n hn).2 h)).trans ?_
    simp [hs]

/-- The hypotheses hold for the command line `--scan` and for the empty one. -/
example : ∃ L : Libm F64, @LibmAcc L ∧ ∀ scan : Bool,
    let a : ToolArgs F64 := ⟨none, none, none, none, none, none, none, none, none, none, none, none, scan⟩
    GregorianDate.new (a.year.getD 2007) (a.month.getD 4) (a.day.getD 5) = .ok ⟨2007, 4, 5⟩ ∧
    SunInput (a.params ⟨2007, 4, 5⟩) (a.delta0.getD (lit (-600))) 0 (-120) 0 0 (((-600 : ℤ) : ℚ) / 2 ^ 0) 54195 ∧
    SunInput (a.params ⟨2007, 4, 5⟩) (a.delta1.getD (lit 600)) 0 (-120) 0 0 600 54195 ∧
    Is (a.delta_step.getD (lit 60)) (((60 : ℤ) : ℚ) / 2 ^ 0) ∧
    (a.delta0.getD (lit (-600)) <=. a.delta1.getD (lit 600)) = true := by
  have i0 : Is (lit 0 : F64) 0 := by have := Is.lit_int 0 (by norm_num); push_cast at this; exact this
  have i1 : Is (lit (-120) : F64) (-120) := by have := Is.lit_int (-120) (by norm_num); push_cast at this; exact this
  have i2 : Is (lit 600 : F64) 600 := by have := Is.lit_int 600 (by norm_num); push_cast at this; exact this
  have i3 : Is (lit (-600) : F64) (((-600 : ℤ) : ℚ) / 2 ^ 0) := by
    have := Is.lit_int (-600) (by norm_num)
    exact (by push_cast at this ⊢; simpa using this)
  have i4 : Is (lit 60 : F64) (((60 : ℤ) : ℚ) / 2 ^ 0) := by
    have := Is.lit_int 60 (by norm_num)
    exact (by push_cast at this ⊢; simpa using this)
  refine ⟨goodLibm, exists_libmAcc, fun scan => ?_⟩
  cases scan <;>
  exact ⟨by decide, ⟨⟨by decide, by decide, by decide⟩, by decide, by decide, i0, by
    norm_num [ToolArgs.params], by norm_num [ToolArgs.params], i1, i0, i0, by norm_num, by norm_num, by norm_num, i3, by norm_num,
    daysFrom_epoch (by decide), by norm_num [ToolArgs.params]⟩, ⟨⟨by decide, by decide, by decide⟩, by decide, by decide, i0, by
    norm_num [ToolArgs.params], by norm_num [ToolArgs.params], i1, i0, i0, by norm_num, by norm_num, by norm_num, i2, by norm_num,
    daysFrom_epoch (by decide), by norm_num [ToolArgs.params]⟩, i4, by decide +kernel⟩

end Verif
