import Verif.Props.CommandLine

/-!
# C74, C77, C86, C87: whole runs of `julian_tool`
-/

namespace Verif
open F64 Arith Spec

/-! ## C74: a date with a time -/

theorem no_space_of {l : List Char} (h : ∀ c ∈ l, IsDig c ∨ c = '-' ∨ c = '.' ∨ c = ':') : ' ' ∉ l := by
  intro hm
  have key : ∀ d < 10, Nat.digitChar d ≠ ' ' := by decide
  rcases h _ hm with ⟨d, hd, e⟩ | h | h | h
  · exact key d hd e.symm
  all_goals exact absurd h (by decide)

theorem fmtInt_plain (w : ℕ) (z : ℤ) : ∀ c ∈ fmtInt w z, IsDig c ∨ c = '-' := by
  unfold fmtInt
  split
  · intro c hc
    rcases List.mem_cons.mp hc with h | h
    · exact .inr h
    · exact .inl (padLeft_digits _ (dec_digits _) c h)
  · exact fun c hc => .inl (padLeft_digits _ (dec_digits _) c hc)

/-- **C74.** A date with a time is printed as the date, one space and the time: the text splits at its only space, the first part
at its dashes and the second at its colons, into numerals of the fields, the seconds to within `5e-7`. -/
theorem C74_moment_text (x : GregorianDateHMS F64) (hd : GregorianDate.new x.date.year x.date.month x.date.day = .ok x.date) (s : ℚ)
    (hs : Is x.hms.second s) :
    ∃ a b e f g i j k : List Char, x.display.splitOn ' ' = [a, b] ∧ a = e ++ '-' :: (f ++ '-' :: g) ∧ b.splitOn ':' = [i, j, k] ∧
      readDec e = some (x.date.year : ℚ) ∧ readDec f = some (x.date.month : ℚ) ∧ readDec g = some (x.date.day : ℚ) ∧
      f.length = 2 ∧ g.length = 2 ∧ readDec i = some (x.hms.hour : ℚ) ∧ readDec j = some (x.hms.minute : ℚ) ∧
      ∃ u, readDec k = some u ∧ |u - s| ≤ 0.0000005 := by
  obtain ⟨e, f, g, h1, h2, h3, h4, h5, h6, -⟩ := C74_date_text x.date hd
  obtain ⟨i, j, k, k1, k2, k3, k4⟩ := C74_time_text x.hms s hs
  refine ⟨x.date.display, x.hms.display, e, f, g, i, j, k, ?_, h1, k1, h2, h3, h4, h5, h6, k2, k3, k4⟩
  have n1 : ' ' ∉ x.date.display := by
    refine no_space_of fun c hc => ?_
    unfold GregorianDate.display at hc
    have hp := fmtInt_plain
    simp only [List.mem_append, List.mem_cons] at hc
    rcases hc with h | rfl | h | rfl | h
    · exact (hp _ _ c h).imp_right .inl
    · exact .inr (.inl rfl)
    · exact (hp _ _ c h).imp_right .inl
    · exact .inr (.inl rfl)
    · exact (hp _ _ c h).imp_right .inl
  have n2 : ' ' ∉ x.hms.display := by
    refine no_space_of fun c hc => ?_
    unfold HMS.display at hc
    have hp := fmtInt_plain
    simp only [List.mem_append, List.mem_cons] at hc
    rcases hc with h | rfl | h | rfl | h
    · exact (hp _ _ c h).imp_right .inl
    · exact .inr (.inr (.inr rfl))
    · exact (hp _ _ c h).imp_right .inl
    · exact .inr (.inr (.inr rfl))
    · obtain ⟨σ, n, hn, e, -⟩ := is_fin hs
      rw [e] at h
      unfold fmtFill at h
      unfold padLeft at h
      rcases List.mem_append.mp h with h | h
      · exact .inl ⟨0, by norm_num, (List.mem_replicate.mp h).2⟩
      · rcases List.mem_append.mp h with h | h
        · cases σ
          · simp at h
          · exact .inr (.inl (by simpa using h))
        · rw [fixedMag_eq] at h
          rcases List.mem_append.mp h with h | h
          · exact .inl (dec_digits _ c h)
          · rcases List.mem_cons.mp h with h | h
            · exact .inr (.inr (.inl h))
            · exact .inl (padLeft_digits _ (dec_digits _) c h)
  unfold GregorianDateHMS.display
  rw [splitOn_cons_of n1, List.splitOn_eq_singleton n2]

example : (⟨⟨2007, 4, 5⟩, ⟨12, 0, lit 9.0625⟩⟩ : GregorianDateHMS F64).display = "2007-04-05 12:00:09.062500".toList := by
  decide +kernel

/-! ## C77: every way `julian_tool julian` can end -/

theorem ofDay_wrapping (z : ℤ) : ∃ d, GregorianDate.ofDay .wrapping z = .ok d := by
  unfold GregorianDate.ofDay
  simp only [I32.add, I32.sub, I32.mul, I32.norm_wrapping, ok_bind]
  exact ⟨_, rfl⟩

theorem add_fin {x y : F64} (h : isFin (x +. y) = true) : isFin x = true ∧ isFin y = true := by
  cases x with
  | nan => cases h
  | inf s =>
    cases y with
    | nan => cases h
    | inf t => cases s <;> cases t <;> cases h
    | fin => cases h
  | fin =>
    cases y with
    | nan => cases h
    | inf t => cases h
    | fin => exact ⟨rfl, rfl⟩

/-- The fraction of the day that `from_julian` returns is never refused by `from_fraction_of_day`. -/
theorem fromJulian_fraction (p : Profile) (x y : F64) (d : GregorianDate) (f : F64)
    (h : GregorianDate.fromJulian p x y = .ok (.ok (d, f))) : ∃ t, HMS.fromFractionOfDay f = .ok t := by
  have e1 : (lit (-32000) : F64) = GregorianDate.DJ_MIN := by unfold GregorianDate.DJ_MIN; norm_num
  have e2 : (lit 1000000000 : F64) = GregorianDate.DJ_MAX := by unfold GregorianDate.DJ_MAX; norm_num
  by_cases hr : ((x +. y) <. (lit (-32000) : F64)) = true ∨ ((lit 1000000000 : F64) <. (x +. y)) = true
  · rw [(C08_range_check p x y).1.mpr hr] at h
    cases h
  · rw [not_or, e1, e2] at hr
    cases hs : x +. y with
    | nan =>
      rw [C08_nan_accepted p x y hs] at h
      cases h
      exact ⟨_, (C13_bad_fract nan).2.2⟩
    | inf s =>
      rw [hs] at hr
      cases s
      · exact absurd (by decide +kernel) hr.2
      · exact absurd (by decide +kernel) hr.1
    | fin s n hn =>
      obtain ⟨hx, hy⟩ := add_fin (x := x) (y := y) (by rw [hs]; rfl)
      have isum : Is (x +. y) (v (x +. y)) := Is.self (by rw [hs]; rfl)
      have hlo : ((GregorianDate.DJ_MIN : F64) <=. (x +. y)) = true := by
        have := hr.1
        rw [Is.lt_iff isum lit_neg32000_is] at this
        rw [lit_neg32000_is.le isum]
        simpa using this
      have hhi : ((x +. y) <=. (GregorianDate.DJ_MAX : F64)) = true := by
        have := hr.2
        rw [Is.lt_iff lit_1e9_is isum] at this
        rw [isum.le lit_1e9_is]
        simpa using this
      obtain ⟨D, g, q, e, hg, q0, q1, -, -, -, -, -, -, -, -, hres⟩ := fromJulian_f64 p (Is.self hx) (Is.self hy) hlo hhi
      rw [hres] at h
      cases ho : GregorianDate.ofDay p (D + 1) with
      | error e => rw [ho] at h; cases h
      | ok d' =>
        rw [ho] at h
        cases h
        obtain ⟨hh, m, s, eh, -⟩ := C13_fields_in_range f hg.fin (by rw [hg.val]; exact q0) (by rw [hg.val]; exact q1)
        exact ⟨_, eh⟩

/-- **C77.** For all pairs of `f64` (infinite and NaN included), `julian_tool julian` ends in one of three ways: normally, after four
lines; with the error `BadJulianDate` after the first line; or, in a checked build only, with a panic after the first line. In
particular the fraction of the day is never refused after part of the output. -/
theorem C77_outcomes (p : Profile) (x : F64) (y : Option F64) :
    (∃ (d : GregorianDate) (f : F64) (t : HMS F64), julianToolJulian shortest p x y =
      ⟨line ("Julian date: ".toList ++ fmtSpace false 18 14 (x +. y.getD (lit 0))) ++ line ("Gregorian date: ".toList ++ d.display) ++
        line ("Fraction of day: ".toList ++ shortest f) ++ line ("Time: ".toList ++ t.display), .done⟩ ∧
      GregorianDate.fromJulian p x (y.getD (lit 0)) = .ok (.ok (d, f)) ∧ HMS.fromFractionOfDay f = .ok t) ∨
    julianToolJulian shortest p x y =
      ⟨line ("Julian date: ".toList ++ fmtSpace false 18 14 (x +. y.getD (lit 0))), .error .badJulian⟩ ∨
    p = .checked ∧ ∃ e, julianToolJulian shortest p x y =
      ⟨line ("Julian date: ".toList ++ fmtSpace false 18 14 (x +. y.getD (lit 0))), .panic e⟩ := by
  generalize ey : y.getD (lit 0) = z
  cases h : GregorianDate.fromJulian p x z with
  | error e =>
    refine .inr (.inr ⟨?_, e, by unfold julianToolJulian; simp only [ey, h]⟩)
    cases p with
    | checked => rfl
    | wrapping =>
      exfalso
      unfold GregorianDate.fromJulian at h
      simp only at h
      split at h
      · cases h
      · simp only [I32.add, I32.norm_wrapping, ok_bind] at h
        obtain ⟨d, hd⟩ := ofDay_wrapping (I32.wrap (Arith.castSat (-2147483648) 2147483647
          (GregorianDate.split (GregorianDate.order x z).1 (GregorianDate.order x z).2).1 + 1))
        rw [hd] at h
        cases h
  | ok r =>
    cases r with
    | error e =>
      have : e = .badJulian := by
        unfold GregorianDate.fromJulian at h
        simp only at h
        split at h
        · cases h; rfl
        · rename_i hc
          exfalso
          cases h1 : I32.add p (Arith.castSat (-2147483648) 2147483647
              (GregorianDate.split (GregorianDate.order x z).1 (GregorianDate.order x z).2).1) 1 with
          | error e => rw [h1] at h; cases h
          | ok j =>
            rw [h1] at h
            cases h2 : GregorianDate.ofDay p j with
            | error e => simp only [bind, Except.bind, h2] at h; cases h
            | ok d => simp only [bind, Except.bind, h2] at h; cases h
      subst this
      exact .inr (.inl (by unfold julianToolJulian; simp only [ey, h]))
    | ok r =>
      obtain ⟨d, f⟩ := r
      obtain ⟨t, ht⟩ := fromJulian_fraction p x z d f h
      exact .inl ⟨d, f, t, by unfold julianToolJulian; simp only [ey, h, ht], rfl, ht⟩

/-- **C77.** The moment returned by `GregorianDateHMS::from_julian`: the only error is `BadJulianDate`. -/
theorem C77_moment_error (p : Profile) (x y : F64) (e : CalendarError)
    (h : GregorianDateHMS.fromJulian p x y = .ok (.error e)) : e = .badJulian := by
  unfold GregorianDateHMS.fromJulian at h
  have hr := C77_outcomes p x (some y)
  simp only [Option.getD_some] at hr
  cases hf : GregorianDate.fromJulian p x y with
  | error e => rw [hf] at h; cases h
  | ok r =>
    rw [hf] at h
    cases r with
    | error e' =>
      cases h
      have : julianToolJulian shortest p x (some y) =
        ⟨line ("Julian date: ".toList ++ fmtSpace false 18 14 (x +. y)), .error e⟩ := by
        unfold julianToolJulian; simp only [Option.getD_some, hf]
      rw [this, hf] at hr
      rcases hr with ⟨d, f, t, -, h2, -⟩ | hr | ⟨-, e', hr⟩
      · cases h2
      · have := (Run.mk.inj hr).2
        cases this; rfl
      · have := (Run.mk.inj hr).2
        cases this
    | ok r =>
      obtain ⟨d, f⟩ := r
      obtain ⟨t, ht⟩ := fromJulian_fraction p x y d f hf
      simp only [bind, Except.bind, ht] at h
      cases h

/-- Each of the three ways happens. -/
example : (julianToolJulian shortest .checked (lit 2451545.25) none).stop = .done ∧
    (julianToolJulian shortest .checked nan none).stop = .done ∧
    (julianToolJulian shortest .checked (inf false) none).stop = .error .badJulian ∧
    (julianToolJulian shortest .checked (lit 600000000) none).stop = .panic .overflow := by decide +kernel

/-! ## C86: the fraction of the day in `julian_tool` -/

/-- **C86.** For all finite pairs in the range of C77, the third line of `julian_tool julian` shows the fraction of the day exactly: the
numeral reads back to the `f64` fraction, which with the date gives the sum to within `2^-53 (|min(dj1, dj2)| + 3)` days. -/
theorem C86_julian_fraction (p : Profile) (x : F64) (y : Option F64) (hx : isFin x = true) (hy : isFin (y.getD (lit 0)) = true)
    (hlo : ((lit (-32000.0) : F64) <=. (x +. y.getD (lit 0))) = true)
    (hhi : ((x +. y.getD (lit 0)) <=. (lit 536802340 : F64)) = true) :
    ∃ (l0 b l3 : List Char) (d : GregorianDate) (fr : F64) (q : ℚ) (N : ℤ), (julianToolJulian shortest p x y).text.splitOn '\n' =
        [l0, "Gregorian date: ".toList ++ d.display, "Fraction of day: ".toList ++ b, l3, []] ∧
      parseF64 b = some fr ∧ Is fr q ∧ 0 ≤ q ∧ q ≤ 1 ∧ IsDate d.civil ∧ DaysFrom mjdEpoch d.civil N ∧
      |(2400000.5 + N + q) - (v x + v (y.getD (lit 0)))| ≤ (|min (v x) (v (y.getD (lit 0)))| + 3) / 2 ^ 53 := by
  obtain ⟨a, fr, d, t, s, q, N, -, h1, -, h2, h3, h4, h5, h6, -, h7, -⟩ :=
    C77_julian_text shortest (fun x => (C86_characters x).2) p x y hx hy hlo hhi
  exact ⟨_, shortest fr, _, d, fr, q, N, h1, C86_read_back fr, h2, h3, h4, h6, h7, h5⟩

example : (julianToolJulian shortest .checked (lit 2451545) (some (lit 0.1))).text =
    ("Julian date: 2451545.10000000009313\nGregorian date: 2000-01-01\nFraction of day: 0.6\nTime: 14:24:00.000000\n").toList := by
  decide +kernel

/-! ## C87: from text to text and back -/

/-- **C87.** From the command line to the printed text and back: for every command line of `julian_tool gregorian` that gives an
accepted date, with seconds of at most `10^6` in magnitude and an instant in the safe range, the numeral that it prints after
`Julian date: `, given to `julian_tool julian --jd`, prints a date and a time of the same instant to within `7.8e-7` days,
0.068 seconds. -/
theorem C87_round_trip (p : Profile) (items : List Item) (hw : WellFormed gregorianKeys items) (hn : Valued gregorianKeys items)
    (y m d : ℤ) (hour minute : Option ℤ) (second : Option F64) (hg : GregorianGiven items y m d hour minute second)
    (hd : GregorianDate.new y m d = .ok ⟨y, m, d⟩) (hy : y ≤ 1465072) (s : ℚ) (hs : Is (second.getD (lit 0)) s)
    (hs' : |s| ≤ 10 ^ 6) (N : ℤ) (hN : DaysFrom mjdEpoch (y, m, d) N)
    (h1 : -31999 ≤ julianOf N (hour.getD 12) (minute.getD 0) s) (h2 : julianOf N (hour.getD 12) (minute.getD 0) s ≤ 536802339) :
    ∃ (l0 l1 a l3 : List Char) (r r' : Run) (j f : List Char) (d' : GregorianDate) (t : HMS F64) (s' : ℚ) (N' : ℤ),
      julianToolMain p ("gregorian".toList :: flat items) = .ok r ∧
      r.text.splitOn '\n' = [l0, l1, "Julian date: ".toList ++ a, l3, []] ∧
      julianToolMain p ["julian".toList, "--jd".toList, a] = .ok r' ∧
      r'.text.splitOn '\n' = [j, "Gregorian date: ".toList ++ d'.display, f, "Time: ".toList ++ t.display, []] ∧
      IsDate d'.civil ∧ DaysFrom mjdEpoch d'.civil N' ∧ Is t.second s' ∧
      |julianOf N' t.hour t.minute s' - julianOf N (hour.getD 12) (minute.getD 0) s| ≤ 0.00000078 := by
  have hu8 : ∀ (o : Option ℤ) (k : List Char) (z : ℤ), 0 ≤ z → z ≤ 255 → Gives items k parseU8 o → 0 ≤ o.getD z ∧ o.getD z ≤ 255 := by
    intro o k z z0 z1 h
    cases o with
    | none => exact ⟨z0, z1⟩
    | some w =>
      obtain ⟨t, -, ht⟩ := h
      obtain ⟨-, -, -, -, w0, w1⟩ := (C85_parse_int t w).2.mp ht
      exact ⟨w0, by show w ≤ 255; omega⟩
  obtain ⟨a, b, -, g2, g3, -, g5, -⟩ := C76_gregorian_text p y m d hour minute second hd hy
    (hu8 _ _ 12 (by norm_num) (by norm_num) hg.hour) (hu8 _ _ 0 (by norm_num) (by norm_num) hg.minute) s hs hs' N hN
  obtain ⟨t, e, ht⟩ := g3
  have hb : |(t : ℝ)| ≤ 2 ^ 30 := by
    rw [abs_le] at ht ⊢
    norm_num at ht ⊢
    constructor <;> linarith [ht.1, ht.2]
  have hov : |RN t| < OVQ := RN_lt_OVQ (small_le_HUGE (by
    have : |t| ≤ 2 ^ 30 := by exact_mod_cast hb
    refine this.trans (by norm_num)))
  obtain ⟨x, hx, hfin, -⟩ := C85_parse_f64 a t e g5
  obtain ⟨ix, -⟩ := hfin hov
  obtain ⟨j, f, d', u, s', N', q1, q2, q3, q4, q5⟩ := C77_round_trip shortest (fun x => (C86_characters x).2) p a N (hour.getD 12)
    (minute.getD 0) s ⟨t, e, ht⟩ h1 h2 x (by
      intro t' e'
      rw [e] at e'
      cases e'
      exact ix)
  exact ⟨_, _, a, _, _, julianToolJulian shortest p x none, _, _, d', u, s', N',
    (C87_gregorian_args p _ (.inl rfl) items hw hn _).mpr ⟨y, m, d, hour, minute, second, hg, rfl⟩, g2,
    (C87_julian_args p _ (.inl rfl) _ _).mpr (.inl ⟨a, x, rfl, hx, rfl⟩), q1, q2, q3, q4, q5⟩

/-- The hypotheses on the command line hold, and both runs, for `julian_tool gregorian --day 5 --year 2007 --month 4 --second 9.5`. -/
example : ∃ items y m d hour minute second, WellFormed gregorianKeys items ∧ Valued gregorianKeys items ∧
    GregorianGiven items y m d hour minute second ∧
    flat items = ["--day".toList, "5".toList, "--year".toList, "2007".toList, "--month".toList, "4".toList, "--second".toList, "9.5".toList] ∧
    (julianToolMain .checked ("g".toList :: flat items)).toOption.map Run.text = some
      "Gregorian date: 2007-04-05\nTime: 12:00:09.500000\nJulian date: 2454196.000110\nFraction of day: 0.500110\n".toList ∧
    (julianToolMain .checked ["j".toList, "--jd".toList, "2454196.000110".toList]).toOption.map Run.text = some
      "Julian date: 2454196.00010999990627\nGregorian date: 2007-04-05\nFraction of day: 0.5001099999062717\nTime: 12:00:09.503992\n".toList := by
  refine ⟨[("--day".toList, some "5".toList), ("--year".toList, some "2007".toList), ("--month".toList, some "4".toList),
    ("--second".toList, some "9.5".toList)], 2007, 4, 5, none, none, some (lit 9.5), ?_, ?_, ?_, rfl, by decide +kernel, by decide +kernel⟩
  · exact ⟨by decide, by decide⟩
  · unfold Valued; decide
  · exact ⟨⟨"2007".toList, by decide, by decide⟩, ⟨"4".toList, by decide, by decide⟩, ⟨"5".toList, by decide, by decide⟩,
      by unfold Gives; decide, by unfold Gives; decide, ⟨"9.5".toList, by decide, by decide +kernel⟩⟩

/-- **C87.** From the command line of `sun_angle_tool` to its report: for every command line without `--scan` that the program accepts (any
order of the options) and whose numbers are in the range of C72, with `delta0` at most `delta1`, the program ends, having printed a correct report. -/
theorem C87_sun_report [Libm F64] (hL : LibmAcc) (p : Profile) (items : List Item)
    (hw : WellFormed ("--scan".toList :: sunAngleKeys) items) (hn : Valued sunAngleKeys items)
    (hk : ∀ it ∈ items, it.1 ∈ sunAngleKeys) (a : ToolArgs F64) (ha : SunAngleGiven items a) (date : GregorianDate)
    (hd : GregorianDate.new (a.year.getD 2007) (a.month.getD 4) (a.day.getD 5) = .ok date) (s l b h d : ℚ) (N : ℤ)
    (H : SunInput (a.params date) (a.delta0.getD (lit (-600))) s l b h d N)
    (h01 : (a.delta0.getD (lit (-600)) <=. a.delta1.getD (lit 600)) = true) (n : ℕ) (h0 : 0 < n) :
    ∃ t, sunAngleToolMain p (flat items) n = .ok (some ⟨t, .done⟩) ∧ IsReport p (a.params date) s l b h d N t := by
  have hs : a.scan = false := by
    cases e : a.scan with
    | false => rfl
    | true => exact absurd (hk _ (ha.scan.mp e)) (by decide)
  obtain ⟨t, h1, h2⟩ := C78_single_text hL p a date hd hs s l b h d N H h01 n h0
  exact ⟨t, (C87_sun_angle_args p items n hw hn (fun t hm => absurd (hk _ hm) (by show "--scan".toList ∉ sunAngleKeys; decide)) _).mpr
    ⟨fun it hi => List.mem_cons_of_mem _ (hk it hi), a, ha, h1.symm⟩, h2⟩

/-- A misspelt option is ignored by `gregorian` (the time is noon), and refused by `julian` and by `sun_angle_tool`. -/
example [Libm F64] : (julianToolMain .checked ["g".toList, "--year".toList, "2007".toList, "--month".toList, "4".toList, "--day".toList,
      "5".toList, "--hours".toList, "7".toList]).toOption.map Run.text = some
      "Gregorian date: 2007-04-05\nTime: 12:00:00.000000\nJulian date: 2454196.000000\nFraction of day: 0.500000\n".toList ∧
    (julianToolMain .checked ["j".toList, "--jd".toList, "5".toList, "--jd3".toList, "7".toList]).toOption.isNone ∧
    ∀ n, sunAngleToolMain .checked ["--hours".toList, "7".toList] n = .error .extra := by
  refine ⟨by decide +kernel, by decide +kernel, fun n => rfl⟩

end Verif
