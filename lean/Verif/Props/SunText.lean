import Verif.Props.Text
import Verif.Props.SunAccuracy

/-!
# C75: the printed report of the Sun angle calculator
-/

namespace Verif
open Arith F64 Spec

/-- The text is a numeral within `e` of `x`. -/
def Shows (t : List Char) (x e : ℝ) : Prop := ∃ v : ℚ, readDec t = some v ∧ |(v : ℝ) - x| ≤ e

theorem Near.shows {x : F64} {a e E : ℝ} (h : Near x a e) (plus : Bool) (w prec : ℕ) (hE : e + 1 / 2 / 10 ^ prec ≤ E) :
    Shows (fmtSpace plus w prec x) a E := by
  obtain ⟨r, h1, h2⟩ := h
  obtain ⟨t, h3, h4⟩ := read_fmtSpace plus w prec h1
  refine ⟨t, h3, ?_⟩
  have h5 := (Rat.cast_le (K := ℝ)).mpr h4
  push_cast at h5
  have : (t : ℝ) - a = (t - r) + (r - a) := by ring
  rw [this]
  refine (abs_add_le _ _).trans ?_
  linarith

/-- No number prints with a line break. -/
theorem fmtSpace_newline (plus : Bool) (w prec : ℕ) (x : F64) : '\n' ∉ fmtSpace plus w prec x := by
  have hs : ∀ s, '\n' ∉ fmtSign plus s := fun s => (NumChar.not_mem (fmtSign_chars plus s)).2.2.1
  have key : ∀ l : List Char, '\n' ∉ l → ∀ n, '\n' ∉ List.replicate n ' ' ++ l := by
    intro l hl n hm
    rcases List.mem_append.mp hm with h | h
    · have := (List.mem_replicate.mp h).2; revert this; decide
    · exact hl h
  unfold fmtSpace
  refine key _ ?_ _
  unfold fmtParts
  cases x with
  | nan => change '\n' ∉ ['N', 'a', 'N']; decide
  | inf s =>
    intro h
    rcases List.mem_append.mp h with h | h
    · exact hs s h
    · change '\n' ∈ ['i', 'n', 'f'] at h; revert h; decide
  | fin s n hn =>
    intro h
    rcases List.mem_append.mp h with h | h
    · exact hs s h
    · exact (NumChar.not_mem (fmtMag_chars prec n)).2.2.1 h

theorem splitOn_lines (L : List (List Char)) (h : ∀ l ∈ L, '\n' ∉ l) : ((L.map line).flatten).splitOn '\n' = L ++ [[]] := by
  induction L with
  | nil => rfl
  | cons l L ih =>
    have e : ((l :: L).map line).flatten = l ++ '\n' :: (L.map line).flatten := by simp [line]
    rw [e, splitOn_cons_of (h l (by simp)), ih fun l' hl' => h l' (by simp [hl'])]
    rfl

theorem date_newline (d : GregorianDate) : '\n' ∉ d.display := by
  have h := fun w z => (NumChar.not_mem (fmtInt_chars w z)).2.2.1
  unfold GregorianDate.display
  intro hm
  rcases List.mem_append.mp hm with h1 | h1
  · exact h _ _ h1
  rcases List.mem_cons.mp h1 with h1 | h1
  · revert h1; decide
  rcases List.mem_append.mp h1 with h1 | h1
  · exact h _ _ h1
  rcases List.mem_cons.mp h1 with h1 | h1
  · revert h1; decide
  exact h _ _ h1

theorem time_newline (t : HMS F64) {s : ℚ} (hs : Is t.second s) : '\n' ∉ t.display := by
  have h := fun w z => (NumChar.not_mem (fmtInt_chars w z)).2.2.1
  unfold HMS.display
  intro hm
  rcases List.mem_append.mp hm with h1 | h1
  · exact h _ _ h1
  rcases List.mem_cons.mp h1 with h1 | h1
  · revert h1; decide
  rcases List.mem_append.mp h1 with h1 | h1
  · exact h _ _ h1
  rcases List.mem_cons.mp h1 with h1 | h1
  · revert h1; decide
  exact (NumChar.not_mem (fmtFill_chars _ _ (by norm_num) hs)).2.2.1 h1

theorem position_newline (g : Geodetic360 F64) {a o h : ℚ} (ha : Is g.lat a) (ho : Is g.lon o) (hh : Is g.height h) :
    '\n' ∉ g.display := by
  unfold Geodetic360.display
  intro hm
  rcases List.mem_append.mp hm with h1 | h1
  · exact (NumChar.not_mem (fmtZero_chars _ _ _ ha)).2.2.1 h1
  rcases List.mem_cons.mp h1 with h1 | h1
  · revert h1; decide
  rcases List.mem_append.mp h1 with h1 | h1
  · exact (NumChar.not_mem (fmtZero_chars _ _ _ ho)).2.2.1 h1
  rcases List.mem_cons.mp h1 with h1 | h1
  · revert h1; decide
  exact (NumChar.not_mem (fmtZero_chars _ _ _ hh)).2.2.1 h1

/-- The reported dates and delta AT in `f64` against the exact ones. -/
theorem SunInput.dates {q : SunAngleParameters F64} {δ : F64} {s l b h d : ℚ} {N : ℤ} (H : SunInput q δ s l b h d N)
    [Libm F64] (hL : LibmAcc) (p : Profile) {c : SunAngleCalculator F64} {C : SunAngleCalculator ℝ} {r : SunAngleResult F64}
    {R : SunAngleResult ℝ} (hc : SunAngleCalculator.new p q = .ok c)
    (hC : SunAngleCalculator.new p (exactParams q s l b h) = .ok C) (hr : c.compute δ = .ok r) (hR : C.compute (d : ℝ) = .ok R)
    (J : ℝ) (hJ : J = 2400000.5 + N + (3600 * q.time.hour + 60 * q.time.minute + s + d) / 86400) :
    Near r.jd0 2400000.5 0 ∧ Near r.jd1 (J - 2400000.5) (1 / 10 ^ 10) ∧
    Near (r.jd0 +. r.jd1) J (1 / 10 ^ 9) ∧ Near (total r.utc) J (1 / 10 ^ 9) ∧ Near r.dat R.dat (1 / 10 ^ 12) ∧
    Near (total r.tai) (J + R.dat / 86400) (1 / 10 ^ 9) ∧ Near (total r.tt) (J + (R.dat + 32.184) / 86400) (1 / 10 ^ 9) ∧
    Near (total r.ut1) (J - 0.072073685 / 86400) (1 / 10 ^ 9) ∧ r.delta_s = δ ∧ r.era = rotationAngle r.ut1 ∧
    R.era = rotationAngle R.ut1 := by
  obtain ⟨r', N', u1, u2, a1, a2, t1, t2, w1, w2, dat, hr', hN', i1, i2, i3, i4, i5, i6, i7, i8, i9, i10, e1, e2, e3, e4, b1, b2, b3, b4⟩ :=
    C60_time_scales_f64 p q H.date H.year_le H.hour H.minute s H.second (H.s_le.trans (by norm_num)) c hc δ d H.offset H.offset_le
  rw [hr] at hr'
  obtain rfl := Except.ok.inj hr'
  obtain ⟨c', C', hc', hC', ⟨x, hx, hxe⟩, -⟩ := H.news hL p
  rw [hc] at hc'
  obtain rfl := Except.ok.inj hc'
  rw [hC] at hC'
  obtain rfl := Except.ok.inj hC'
  obtain rfl : N' = N := (daysFrom_unique _ _ (by decide) H.date.civil _ hN').trans
    (daysFrom_unique _ _ (by decide) H.date.civil _ H.days).symm
  obtain ⟨r', hr', j0, j1, ut, ed, -, -, -⟩ := compute_time c δ
  rw [hr] at hr'
  obtain rfl := Except.ok.inj hr'
  obtain ⟨R', hR', -, -, -, -, -, ed', -, -, -, era, -⟩ := compute_real C d
  rw [hR] at hR'
  obtain rfl := Except.ok.inj hR'
  rw [ed] at i9
  have exd := i9.unique hx
  subst exd e1 e2 e3 e4
  have hB : (3 * |(N' : ℚ)| + 9 * |d| / 86400 + 15) / 2 ^ 53 ≤ 457 / 10 ^ 13 := by
    obtain ⟨n1, n2⟩ := H.N_le
    have n3 : |(N' : ℚ)| ≤ 101000 := by
      have n1' : (-2500 : ℚ) ≤ N' := by exact_mod_cast n1
      have n2' : (N' : ℚ) ≤ 101000 := by exact_mod_cast n2
      rw [abs_le]; constructor <;> linarith
    have n4 := H.offset_le
    rw [div_le_iff₀ (by norm_num)]
    norm_num at n4 ⊢
    linarith
  have c0 := (Rat.cast_le (K := ℝ)).mpr H.century
  have c1 := (Rat.cast_le (K := ℝ)).mpr (b1.trans hB)
  have c2 := (Rat.cast_le (K := ℝ)).mpr (b2.trans hB)
  have c3 := (Rat.cast_le (K := ℝ)).mpr (b3.trans hB)
  have c4 := (Rat.cast_le (K := ℝ)).mpr (b4.trans hB)
  have c5 := (Rat.cast_le (K := ℝ)).mpr i10
  push_cast at c0 c1 c2 c3 c4 c5
  rw [← hJ] at c0 c1 c2 c3 c4
  rw [abs_le] at c0 c5 hxe
  have key : ∀ {y z : F64} {b : ℚ} {A : ℝ}, Is y 2400000.5 → Is z b → |((2400000.5 : ℚ) : ℝ) + b - A| ≤ 5 / 10 ^ 11 → |A| ≤ 2500000 →
      Near (y +. z) A (1 / 10 ^ 9) := by
    intro y z b A hy hz hA hA'
    have := (Near.of_is hy).add (Near.of_is hz) (M := 2600000) (by
      have : ((2400000.5 : ℚ) : ℝ) + b = (((2400000.5 : ℚ) : ℝ) + b - A) + A := by ring
      rw [this]
      have := (abs_add_le (((2400000.5 : ℚ) : ℝ) + b - A) A).trans (add_le_add hA hA')
      norm_num at this ⊢
      linarith) (by norm_num)
    refine (this.shift hA).mono (by norm_num)
  norm_num at c0 c5 hxe
  have hu : Near (total r.utc) J (1 / 10 ^ 9) := key i1 i2 (c1.trans' (le_of_eq (by norm_num)) |>.trans (by norm_num))
    (by rw [abs_le]; constructor <;> linarith)
  rw [ed', ed]
  refine ⟨?_, ?_, ?_, hu, ⟨dat, hx, by rw [abs_le]; norm_num; exact hxe⟩, ?_, ?_, ?_, ?_, ?_, era⟩
  · have : r.jd0 = r.utc.1 := by rw [ut]
    rw [this]
    exact (Near.of_is i1).congr (by norm_num)
  · have : r.jd1 = r.utc.2 := by rw [ut]
    rw [this]
    refine ⟨u2, i2, ?_⟩
    rw [abs_le] at c1 ⊢
    norm_num at c1 ⊢
    constructor <;> linarith
  · have : total r.utc = r.jd0 +. r.jd1 := by rw [ut]; rfl
    rwa [← this]
  · refine key i3 i4 ?_ ?_
    · rw [abs_le] at c2 ⊢; norm_num at c2 ⊢; constructor <;> linarith
    · rw [abs_le]; constructor <;> linarith
  · refine key i5 i6 ?_ ?_
    · rw [abs_le] at c3 ⊢; norm_num at c3 ⊢; constructor <;> linarith
    · rw [abs_le]; norm_num; constructor <;> linarith
  · refine key i7 i8 ?_ ?_
    · rw [abs_le] at c4 ⊢; norm_num at c4 ⊢; constructor <;> linarith
    · rw [abs_le]; norm_num; constructor <;> linarith
  all_goals
    unfold SunAngleCalculator.compute at hr
    obtain ⟨e, he⟩ := C37_no_panic (TDB.fromTT (TT.fromTAI (TAI.fromUTC (c.jd0, c.jd1_date +.
      (c.fr +. δ /. lit 86400)) c.dat)) c.dtr)
    simp only [he, ok_bind] at hr
    obtain rfl := Except.ok.inj hr
    rfl

/-- A turn in degrees. -/
theorem cong_deg {e x y : ℝ} (h : Cong e x y) : ∃ k : ℤ, |x / (Real.pi / 180) - (y * 180 / Real.pi - 360 * k)| ≤ 58 * e := by
  obtain ⟨k, hk⟩ := h
  have pp := Real.pi_pos
  have p1 := Real.pi_gt_d2
  refine ⟨k, ?_⟩
  have e0 : 0 ≤ e := (abs_nonneg _).trans hk
  have : x / (Real.pi / 180) - (y * 180 / Real.pi - 360 * k) = (x - (y - k * (2 * Real.pi))) / (Real.pi / 180) := by
    field_simp; ring
  rw [this, abs_div, abs_of_pos (show (0 : ℝ) < Real.pi / 180 by positivity), div_le_iff₀ (by positivity)]
  refine hk.trans ?_
  norm_num at p1
  nlinarith

theorem bundle_lines (q : SunAngleParameters F64) (r : SunAngleResult F64) (g1 : '\n' ∉ q.date.display)
    (g2 : '\n' ∉ q.time.display) (g3 : '\n' ∉ q.position.display) :
    (bundleDisplay q r).splitOn '\n' = [
        "Date:                ".toList ++ q.date.display,
        "Time:                ".toList ++ q.time.display ++ ' ' :: fmtSpace true 13 6 r.delta_s ++ ['s'],
        "Julian date:         ".toList ++ fmtSpace false 0 6 (r.jd0 +. r.jd1) ++ " = ".toList ++ fmtSpace false 0 6 r.jd0 ++
          " + ".toList ++ fmtSpace false 0 6 r.jd1,
        "Position:            ".toList ++ q.position.display,
        "                     X=".toList ++ fmtSpace false 16 1 r.p.x ++ " Y=".toList ++ fmtSpace false 16 1 r.p.y ++
          " Z=".toList ++ fmtSpace false 16 1 r.p.z,
        "UTC:                 ".toList ++ fmtSpace false 0 6 (total r.utc),
        "Delta AT:            ".toList ++ fmtSpace false 0 6 r.dat,
        "TAI:                 ".toList ++ fmtSpace false 0 6 (total r.tai),
        "TT:                  ".toList ++ fmtSpace false 0 6 (total r.tt),
        "UT1:                 ".toList ++ fmtSpace false 0 6 (total r.ut1),
        "ERA:                 ".toList ++ fmtSpace false 0 6 (r.era /. DEGREE) ++ ['°'],
        "Earth position (AU): X=".toList ++ fmtSpace true 15 13 r.earth.x ++ " Y=".toList ++ fmtSpace true 15 13 r.earth.y ++
          " Z=".toList ++ fmtSpace true 15 13 r.earth.z,
        "Sun position (m):    X=".toList ++ fmtSpace true 16 0 r.sun_e.x ++ " Y=".toList ++ fmtSpace true 16 0 r.sun_e.y ++
          " Z=".toList ++ fmtSpace true 16 0 r.sun_e.z,
        "Sun Zenith angle:    ".toList ++ fmtSpace false 7 2 (r.sza /. DEGREE) ++ "° or elevation: ".toList ++
          fmtSpace false 7 2 (lit 90 -. r.sza /. DEGREE) ++ ['°'], []] := by
  have e : bundleDisplay q r = (List.map line [
        "Date:                ".toList ++ q.date.display,
        "Time:                ".toList ++ q.time.display ++ ' ' :: fmtSpace true 13 6 r.delta_s ++ ['s'],
        "Julian date:         ".toList ++ fmtSpace false 0 6 (r.jd0 +. r.jd1) ++ " = ".toList ++ fmtSpace false 0 6 r.jd0 ++
          " + ".toList ++ fmtSpace false 0 6 r.jd1,
        "Position:            ".toList ++ q.position.display,
        "                     X=".toList ++ fmtSpace false 16 1 r.p.x ++ " Y=".toList ++ fmtSpace false 16 1 r.p.y ++
          " Z=".toList ++ fmtSpace false 16 1 r.p.z,
        "UTC:                 ".toList ++ fmtSpace false 0 6 (total r.utc),
        "Delta AT:            ".toList ++ fmtSpace false 0 6 r.dat,
        "TAI:                 ".toList ++ fmtSpace false 0 6 (total r.tai),
        "TT:                  ".toList ++ fmtSpace false 0 6 (total r.tt),
        "UT1:                 ".toList ++ fmtSpace false 0 6 (total r.ut1),
        "ERA:                 ".toList ++ fmtSpace false 0 6 (r.era /. DEGREE) ++ ['°'],
        "Earth position (AU): X=".toList ++ fmtSpace true 15 13 r.earth.x ++ " Y=".toList ++ fmtSpace true 15 13 r.earth.y ++
          " Z=".toList ++ fmtSpace true 15 13 r.earth.z,
        "Sun position (m):    X=".toList ++ fmtSpace true 16 0 r.sun_e.x ++ " Y=".toList ++ fmtSpace true 16 0 r.sun_e.y ++
          " Z=".toList ++ fmtSpace true 16 0 r.sun_e.z,
        "Sun Zenith angle:    ".toList ++ fmtSpace false 7 2 (r.sza /. DEGREE) ++ "° or elevation: ".toList ++
          fmtSpace false 7 2 (lit 90 -. r.sza /. DEGREE) ++ ['°']]).flatten := by
    unfold bundleDisplay
    simp only [List.map_cons, List.map_nil, List.flatten_cons, List.flatten_nil, List.append_nil, List.append_assoc]
  rw [e, splitOn_lines]
  · rfl
  · intro l hl
    have f := fmtSpace_newline
    have d0 : '\n' ≠ '°' ∧ '\n' ≠ ' ' ∧ '\n' ≠ 's' := by decide
    have l0 : '\n' ∉ "Date:                ".toList := by decide
    have l1 : '\n' ∉ "Time:                ".toList := by decide
    have l2 : '\n' ∉ "Julian date:         ".toList := by decide
    have l3 : '\n' ∉ " = ".toList := by decide
    have l4 : '\n' ∉ " + ".toList := by decide
    have l5 : '\n' ∉ "Position:            ".toList := by decide
    have l6 : '\n' ∉ "                     X=".toList := by decide
    have l7 : '\n' ∉ " Y=".toList := by decide
    have l8 : '\n' ∉ " Z=".toList := by decide
    have l9 : '\n' ∉ "UTC:                 ".toList := by decide
    have l10 : '\n' ∉ "Delta AT:            ".toList := by decide
    have l11 : '\n' ∉ "TAI:                 ".toList := by decide
    have l12 : '\n' ∉ "TT:                  ".toList := by decide
    have l13 : '\n' ∉ "UT1:                 ".toList := by decide
    have l14 : '\n' ∉ "ERA:                 ".toList := by decide
    have l15 : '\n' ∉ "Earth position (AU): X=".toList := by decide
    have l16 : '\n' ∉ "Sun position (m):    X=".toList := by decide
    have l17 : '\n' ∉ "Sun Zenith angle:    ".toList := by decide
    have l18 : '\n' ∉ "° or elevation: ".toList := by decide
    simp only [List.mem_cons, List.not_mem_nil, or_false] at hl
    rcases hl with rfl | rfl | rfl | rfl | rfl | rfl | rfl | rfl | rfl | rfl | rfl | rfl | rfl | rfl <;>
    simp only [List.mem_append, List.mem_cons, List.not_mem_nil, or_false, f, g1, g2, g3, d0.1, d0.2.1, d0.2.2, l0, l1, l2, l3, l4, l5, l6, l7, l8, l9, l10, l11, l12, l13, l14, l15, l16, l17, l18, not_false_eq_true, or_self]

/-- The exact Julian date (UTC) of the instant: the date, the time of day and the offset. -/
noncomputable def instant (q : SunAngleParameters F64) (s d : ℚ) (N : ℤ) : ℝ :=
  2400000.5 + N + (3600 * q.time.hour + 60 * q.time.minute + s + d) / 86400

/-- What a correct report says.  It has fourteen lines.  They show the date, time, offset and position that
were given, and numerals that read back to: the exact Julian dates UTC, TAI, TT and UT1 of the instant within
`5.01e-7` days; the exact position within 5.1 cm; the exact Earth rotation angle within `5.4e-7` degrees (up to whole
turns); the exact heliocentric Earth within `3.1e-11` au; the exact Sun vector within 86 m per coordinate; and, unless the
Sun is within a thirtieth of a degree of the zenith or nadir, the exact zenith angle and elevation within
0.00515 degrees, within 0.0079 degrees unless it is within a third of a hundredth of a degree of them.  `R` is the result of the calculator in exact arithmetic. -/
def IsReport (p : Profile) (q : SunAngleParameters F64) (s l b h d : ℚ) (N : ℤ) (text : List Char) : Prop :=
    ∃ (C : SunAngleCalculator ℝ) (R : SunAngleResult ℝ),
      SunAngleCalculator.new p (exactParams q s l b h) = .ok C ∧ C.compute (d : ℝ) = .ok R ∧
      ∃ off j j0 j1 x y z utc dat tai tt ut1 era ex ey ez sx sy sz sza el : List Char,
      text.splitOn '\n' = [
        "Date:                ".toList ++ q.date.display,
        "Time:                ".toList ++ q.time.display ++ ' ' :: off ++ ['s'],
        "Julian date:         ".toList ++ j ++ " = ".toList ++ j0 ++ " + ".toList ++ j1,
        "Position:            ".toList ++ q.position.display,
        "                     X=".toList ++ x ++ " Y=".toList ++ y ++ " Z=".toList ++ z,
        "UTC:                 ".toList ++ utc,
        "Delta AT:            ".toList ++ dat,
        "TAI:                 ".toList ++ tai,
        "TT:                  ".toList ++ tt,
        "UT1:                 ".toList ++ ut1,
        "ERA:                 ".toList ++ era ++ ['°'],
        "Earth position (AU): X=".toList ++ ex ++ " Y=".toList ++ ey ++ " Z=".toList ++ ez,
        "Sun position (m):    X=".toList ++ sx ++ " Y=".toList ++ sy ++ " Z=".toList ++ sz,
        "Sun Zenith angle:    ".toList ++ sza ++ "° or elevation: ".toList ++ el ++ ['°'], []] ∧
      Shows off d 0.0000005 ∧ Shows j (instant q s d N) 0.000000501 ∧ Shows j0 2400000.5 0.0000005 ∧
      Shows j1 (instant q s d N - 2400000.5) 0.000000501 ∧ Shows x R.p.x 0.051 ∧ Shows y R.p.y 0.051 ∧ Shows z R.p.z 0.051 ∧
      Shows utc (instant q s d N) 0.000000501 ∧ Shows dat R.dat 0.000000501 ∧ Shows tai (instant q s d N + R.dat / 86400) 0.000000501 ∧
      Shows tt (instant q s d N + (R.dat + 32.184) / 86400) 0.000000501 ∧ Shows ut1 (instant q s d N - 0.072073685 / 86400) 0.000000501 ∧
      (∃ k : ℤ, Shows era (R.era * 180 / Real.pi - 360 * k) 0.00000054) ∧
      Shows ex R.earth.x 3.1e-11 ∧ Shows ey R.earth.y 3.1e-11 ∧ Shows ez R.earth.z 3.1e-11 ∧
      Shows sx R.sun_e.x 86 ∧ Shows sy R.sun_e.y 86 ∧ Shows sz R.sun_e.z 86 ∧
      (1 / 2000 ≤ Real.sin R.sza → Shows sza (R.sza * 180 / Real.pi) 0.00515 ∧ Shows el (90 - R.sza * 180 / Real.pi) 0.00515) ∧
      (4.91 / 10 ^ 5 ≤ R.sza → R.sza ≤ Real.pi - 4.91 / 10 ^ 5 →
        Shows sza (R.sza * 180 / Real.pi) 0.0079 ∧ Shows el (90 - R.sza * 180 / Real.pi) 0.0079)

theorem angle_degrees {x : F64} {θ e E : ℝ} (h : Near x θ e) (t0 : 0 ≤ θ) (t1 : θ ≤ Real.pi) (he : e ≤ 1 / 1000)
    (hE : 57.48 * e + 1 / 10 ^ 10 ≤ E) (hE' : E ≤ 1) :
    Near (x /. DEGREE) (θ * 180 / Real.pi) E ∧ Near (lit 90 -. x /. DEGREE) (90 - θ * 180 / Real.pi) (E + 1 / 10 ^ 10) := by
  have pp := Real.pi_lt_d2
  have e0 : 0 ≤ e := by
    obtain ⟨r, -, hr⟩ := h
    exact (abs_nonneg _).trans hr
  have n2 : NB (x /. DEGREE) (θ / (Real.pi / 180)) E 182 :=
    NB.div (A := 3.15) ⟨h, by rw [abs_of_nonneg t0]; exact t1.trans pp.le⟩ degree_nb (β := 0.0174) (by
      have := Real.pi_gt_d2
      rw [abs_of_pos (by positivity)]; norm_num at this ⊢; linarith) (by norm_num) (by
      have h1 : e / (0.0174 - 2 / 10 ^ 18) ≤ 57.475 * e := by
        rw [div_le_iff₀ (by norm_num)]; nlinarith
      refine ⟨?_, by norm_num, ?_⟩
      · norm_num at h1 hE ⊢
        linarith
      · norm_num at h1 ⊢
        linarith)
  have e : θ / (Real.pi / 180) = θ * 180 / Real.pi := by field_simp
  rw [e] at n2
  have i90 : Is (lit 90 : F64) 90 := by have := Is.lit_int 90 (by norm_num); push_cast at this; exact this
  have n3 := (NB.of_is' i90 (a := 90) (by norm_num) (M := 90) (by norm_num)).sub n2 (E := E + 1 / 10 ^ 10) (M := 300) (by
    refine ⟨?_, by norm_num, ?_⟩ <;> · norm_num; linarith)
  exact ⟨n2.near, n3.near⟩

/-- **C75.** For every profile, every set of finite parameters of `SunInput` and every mathematical library accurate to
`2^-50`: the calculator succeeds and prints a correct report. -/
theorem C75_printed_report [Libm F64] (hL : LibmAcc) (p : Profile) (q : SunAngleParameters F64) (δ : F64) (s l b h d : ℚ)
    (N : ℤ) (H : SunInput q δ s l b h d N) :
    ∃ (c : SunAngleCalculator F64) (r : SunAngleResult F64), SunAngleCalculator.new p q = .ok c ∧ c.compute δ = .ok r ∧
      IsReport p q s l b h d N (bundleDisplay q r) := by
  obtain ⟨c, C, r, R, hc, hC, hr, hR, ⟨p1, p2, p3⟩, ⟨e1, e2, e3⟩, ⟨s1, s2, s3⟩, -, hz⟩ := C72_sun_angle_f64 hL p q δ s l b h d N H
  obtain ⟨d1, d2, d3, d4, d5, d6, d7, d8, d9, d10, d11⟩ := H.dates hL p hc hC hr hR (instant q s d N) rfl
  obtain ⟨-, -, -, -, hsz', -⟩ := compute_geometry C d hR
  have t0 : 0 ≤ R.sza := by rw [hsz', angle_real]; exact Real.arccos_nonneg _
  have t1 : R.sza ≤ Real.pi := by rw [hsz', angle_real]; exact Real.arccos_le_pi _
  refine ⟨c, r, hc, hr, C, R, hC, hR, fmtSpace true 13 6 r.delta_s, fmtSpace false 0 6 (r.jd0 +. r.jd1),
    fmtSpace false 0 6 r.jd0, fmtSpace false 0 6 r.jd1, fmtSpace false 16 1 r.p.x, fmtSpace false 16 1 r.p.y,
    fmtSpace false 16 1 r.p.z, fmtSpace false 0 6 (total r.utc), fmtSpace false 0 6 r.dat, fmtSpace false 0 6 (total r.tai),
    fmtSpace false 0 6 (total r.tt), fmtSpace false 0 6 (total r.ut1), fmtSpace false 0 6 (r.era /. DEGREE),
    fmtSpace true 15 13 r.earth.x, fmtSpace true 15 13 r.earth.y, fmtSpace true 15 13 r.earth.z,
    fmtSpace true 16 0 r.sun_e.x, fmtSpace true 16 0 r.sun_e.y, fmtSpace true 16 0 r.sun_e.z,
    fmtSpace false 7 2 (r.sza /. DEGREE), fmtSpace false 7 2 (lit 90 -. r.sza /. DEGREE), ?_, ?_, d3.shows _ _ _ (by norm_num),
    d1.shows _ _ _ (by norm_num), d2.shows _ _ _ (by norm_num), p1.shows _ _ _ (by norm_num), p2.shows _ _ _ (by norm_num),
    p3.shows _ _ _ (by norm_num), d4.shows _ _ _ (by norm_num), d5.shows _ _ _ (by norm_num), d6.shows _ _ _ (by norm_num),
    d7.shows _ _ _ (by norm_num), d8.shows _ _ _ (by norm_num), ?_, e1.shows _ _ _ (by norm_num), e2.shows _ _ _ (by norm_num),
    e3.shows _ _ _ (by norm_num), s1.shows _ _ _ (by norm_num), s2.shows _ _ _ (by norm_num), s3.shows _ _ _ (by norm_num), ?_, ?_⟩
  · exact bundle_lines q r (date_newline _) (time_newline q.time H.second) (position_newline q.position H.lat H.lon H.height)
  · rw [d9]; exact (Near.of_is H.offset).shows _ _ _ (by norm_num)
  · obtain ⟨r', R', t, w, hr', hR', -, -, iw1, iw2, -, hcent', -, hut⟩ := H.times p hc hC (by
      obtain ⟨c', C', hc', hC', hdat, -⟩ := H.news hL p
      rw [hc] at hc'
      obtain rfl := Except.ok.inj hc'
      rw [hC] at hC'
      obtain rfl := Except.ok.inj hC'
      exact hdat)
    rw [hr] at hr'
    obtain rfl := Except.ok.inj hr'
    rw [hR] at hR'
    obtain rfl := Except.ok.inj hR'
    have era := (era_ang iw1 iw2 (by norm_num) (by
      have h1 := abs_le.mp hut
      have h2 := abs_le.mp hcent'
      norm_num at h1 h2
      have k1 : ((-4000000 : ℚ) : ℝ) ≤ w := by push_cast; linarith
      have k2 : (w : ℝ) ≤ ((4000000 : ℚ) : ℝ) := by push_cast; linarith
      exact abs_le.mpr ⟨Rat.cast_le.mp k1, Rat.cast_le.mp k2⟩)).cong (era_sens (Δ := 46 / 10 ^ 12) (by push_cast; exact hut) (by norm_num)) (E := 492 / 10 ^ 12) (by norm_num)
    obtain ⟨x, ix, cx, mx⟩ := era
    obtain ⟨k, hk⟩ := cong_deg cx
    have nx := ((NB.of_is ix mx).div degree_nb (β := 0.0174) (by
      have := Real.pi_gt_d2
      rw [abs_of_pos (by positivity)]; norm_num at this ⊢; linarith) (by norm_num) (E := 1 / 10 ^ 12) (M := 500) (by norm_num)).near
    refine ⟨k, ?_⟩
    rw [d10, d11]
    exact ((nx.shift hk).shows _ _ _ (by norm_num))
  · intro hs
    have n0 := hz hs
    have sp : (0 : ℝ) < 1 / 2000 := by norm_num
    have n1 : Near r.sza R.sza (2.4601 / 10 ^ 6) := n0.mono (by
      have : 1.23 / 10 ^ 9 / Real.sin R.sza ≤ 1.23 / 10 ^ 9 / (1 / 2000) := by gcongr
      norm_num at this ⊢
      linarith)
    obtain ⟨n2, n3⟩ := angle_degrees n1 t0 t1 (E := 1.42 / 10 ^ 4) (by norm_num) (by norm_num) (by norm_num)
    exact ⟨n2.shows _ _ _ (by norm_num), n3.shows _ _ _ (by norm_num)⟩
  · intro h1 h2
    obtain ⟨c', C', r', R', hc', hC', hr', hR', n1⟩ := C72_sun_angle_everywhere hL p q δ s l b h d N H
    rw [hc] at hc'
    obtain rfl := Except.ok.inj hc'
    rw [hC] at hC'
    obtain rfl := Except.ok.inj hC'
    rw [hr] at hr'
    obtain rfl := Except.ok.inj hr'
    rw [hR] at hR'
    obtain rfl := Except.ok.inj hR'
    rcases n1 with n1 | ⟨-, h3 | h3⟩
    · obtain ⟨n2, n3⟩ := angle_degrees n1 t0 t1 (E := 2.823 / 10 ^ 3) (by norm_num) (by norm_num) (by norm_num)
      exact ⟨n2.shows _ _ _ (by norm_num), n3.shows _ _ _ (by norm_num)⟩
    · norm_num at h1 h3; linarith
    · norm_num at h2 h3; linarith

/-- The hypotheses hold for the default parameters of the program, an offset of an hour, and a library that exists. -/
example : ∃ L : Libm F64, @LibmAcc L ∧
    SunInput (SunAngleParameters.default : SunAngleParameters F64) (lit 3600) 0 (-120) 0 0 3600 54195 := by
  have i0 : Is (lit 0 : F64) 0 := by have := Is.lit_int 0 (by norm_num); push_cast at this; exact this
  have i1 : Is (lit (-120) : F64) (-120) := by have := Is.lit_int (-120) (by norm_num); push_cast at this; exact this
  have i2 : Is (lit 3600 : F64) 3600 := by have := Is.lit_int 3600 (by norm_num); push_cast at this; exact this
  refine ⟨goodLibm, exists_libmAcc, ⟨⟨by decide, by decide, by decide⟩, by decide, by decide, i0, by
    norm_num [SunAngleParameters.default], by norm_num [SunAngleParameters.default], i1, i0, i0, by norm_num, by norm_num, by norm_num, i2, by norm_num,
    daysFrom_epoch (by decide), by norm_num [SunAngleParameters.default]⟩⟩

end Verif
