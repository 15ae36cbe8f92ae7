import Verif.Model.TestSun
import Verif.Props.SunAngleTime
import Verif.Props.TestSofa
import Verif.Lemmas.FinF64
import Verif.Lemmas.TestData
import Verif.Lemmas.SunNew
import Verif.Props.SunAccuracy

/-!
# C101: the time scales of the calculator and of the program it was checked against
-/

namespace Verif
open F64 Arith Spec

theorem same_of_value {x y : F64} {a : ℚ} (hx : Is x a) (hy : Is y a) (h : a ≠ 0) : x = y := by
  obtain ⟨s, n, hn, rfl, e⟩ := is_fin hx
  obtain ⟨s', n', hn', rfl, e'⟩ := is_fin hy
  have hU := U_pos
  have n0 : (0 : ℚ) ≤ (n : ℚ) / U := by positivity
  have n1 : (0 : ℚ) ≤ (n' : ℚ) / U := by positivity
  have hd : (n : ℚ) / U = n' / U → n = n' := fun h => by
    have := (div_left_inj' hU.ne').mp h
    exact_mod_cast this
  rcases s with _ | _ <;> rcases s' with _ | _ <;> simp only [if_true, Bool.false_eq_true, if_false] at e e'
  · obtain rfl := hd (e.symm.trans e'); rfl
  · exact absurd (by linarith) h
  · exact absurd (by linarith) h
  · obtain rfl := hd (by linarith); rfl

/-- **C101.** In exact arithmetic: at offset zero the dates of the calculator are those of the Fortran program, the day number and
delta AT being those of the calculator, its constant being `DUT1`. -/
theorem C101_times_exact (p : Profile) (q : SunAngleParameters ℝ) (hd : GoodDate q.date) (c : SunAngleCalculator ℝ)
    (hc : SunAngleCalculator.new p q = .ok c) :
    ∃ (r : SunAngleResult ℝ) (N : ℤ), c.compute 0 = .ok r ∧ DaysFrom mjdEpoch q.date.civil N ∧
      let T := testSunTimes q.time.hour q.time.minute q.time.second (N : ℝ) r.dat (-0.072073685)
      r.utc.1 + r.utc.2 = 2400000.5 + T.utc ∧ r.tai.1 + r.tai.2 = 2400000.5 + T.tai ∧ r.tt.1 + r.tt.2 = 2400000.5 + T.tt ∧
      r.ut1.1 + r.ut1.2 = 2400000.5 + T.ut1 ∧ T.ut1 = N + T.tut := by
  obtain ⟨r, N, hr, hN, h⟩ := C60_time_scales_exact p q hd c hc 0
  obtain ⟨-, -, -, h1, h2, h3, h4, -⟩ := h
  refine ⟨r, N, hr, hN, ?_⟩
  intro T
  have e : T = ⟨N + (60 * (60 * (q.time.hour : ℝ) + q.time.minute) + q.time.second) / 86400,
      N + (60 * (60 * (q.time.hour : ℝ) + q.time.minute) + q.time.second) / 86400 + r.dat / 86400,
      N + (60 * (60 * (q.time.hour : ℝ) + q.time.minute) + q.time.second) / 86400 + r.dat / 86400 + 32.184 / 86400,
      (60 * (60 * (q.time.hour : ℝ) + q.time.minute) + q.time.second) / 86400 + -0.072073685 / 86400,
      N + ((60 * (60 * (q.time.hour : ℝ) + q.time.minute) + q.time.second) / 86400 + -0.072073685 / 86400)⟩ := by
    simp only [T, testSunTimes]
    simp only [lit_real]
    simp
  rw [e]
  simp only
  refine ⟨?_, ?_, ?_, ?_, trivial⟩
  · rw [h1]; ring
  · rw [h2]; ring
  · rw [h3]; ring
  · rw [h4]; ring

/-- The parts of the dates, for a calculator that `new` returns. -/
theorem sun_times [Libm F64] {p : Profile} {q : SunAngleParameters F64} (hd : GoodDate q.date) (hy1 : 1859 ≤ q.date.year)
    (hyl : q.date.year ≤ 8000) (hh : 0 ≤ q.time.hour ∧ q.time.hour ≤ 255) (hm : 0 ≤ q.time.minute ∧ q.time.minute ≤ 255) {s : ℚ}
    (hs : Is q.time.second s) (hsb : |s| ≤ 2 ^ 100) {c : SunAngleCalculator F64} (hc : SunAngleCalculator.new p q = .ok c) {δ : F64}
    (hδ : Is δ 0) :
    ∃ (r : SunAngleResult F64) (N : ℤ) (f : ℚ), c.compute δ = .ok r ∧ DaysFrom mjdEpoch q.date.civil N ∧ 1 ≤ N ∧ N ≤ 2250000 ∧
      Is (q.time.toFractionOfDay : F64) f ∧ 0 ≤ f ∧ f ≤ 1 ∧ c.dut1 = lit (-0.072073685) ∧
      r.utc = (lit 2400000.5, Arith.ofInt N +. q.time.toFractionOfDay) ∧ r.tai = (lit 2400000.5, r.utc.2 +. r.dat /. lit 86400) ∧
      r.tt = (lit 2400000.5, r.tai.2 +. lit 32.184 /. lit 86400) ∧ r.ut1 = (lit 2400000.5, r.utc.2 +. lit (-0.072073685) /. lit 86400) := by
  obtain ⟨r, N, u1, u2, a1, a2, t1, t2, w1, w2, dat, hr, hN, hu1, hu2, ha1, ha2, -, -, -, -, hdat, hdatb, rfl, rfl, -, -, hB1, hB2, -, -⟩ :=
    C60_time_scales_f64 p q hd hyl hh hm s hs hsb c hc δ 0 hδ (by norm_num)
  obtain ⟨w, hw⟩ := wgs84_f64
  obtain ⟨h1, h2⟩ := new_outcome (q := q) (hd.day p) (hd.month p) hw
  by_cases hb : (q.time.toFractionOfDay <. lit 0) = true ∨ (lit 1 <. q.time.toFractionOfDay) = true ∨
      ¬ ((lit 0 : F64) <. wgsRadicand (Libm.cos (Geodetic.from360 q.position).phi)
        (Libm.sin (Geodetic.from360 q.position).phi)) = true
  · rw [h1 hb] at hc; cases hc
  obtain ⟨c', hc', f1, f2, f3, f4, f5, f6, -⟩ := h2 hb
  rw [hc'] at hc
  obtain rfl := Except.ok.inj hc
  clear h1 h2 hc hc'
  push Not at hb
  obtain ⟨f, hf, hf0, hf1, hfe⟩ := fod_near q.time.hour q.time.minute q.time.second s hh hm hs hsb hb.1 hb.2.1
  obtain ⟨r', hr', e1, e2, e3, e4, e5, e6, e7⟩ := compute_time c' δ
  rw [hr] at hr'
  obtain rfl := Except.ok.inj hr'
  have hNe : N = mjdN q.date.year q.date.month q.date.day := (daysFrom_unique _ _ (by decide) hd.civil _ hN).trans
    (daysFrom_unique _ _ (by decide) hd.civil _ (daysFrom_epoch hd.civil)).symm
  have hNb : 1 ≤ N ∧ N ≤ 2250000 := by
    rw [hNe]
    have := mjdN_cases q.date.year q.date.month q.date.day
    obtain ⟨hm1, hm2, hd1, hd2⟩ := hd.civil
    simp only [GregorianDate.civil] at hm1 hm2 hd1 hd2
    have h3 : monthLen q.date.year q.date.month ≤ 31 := by unfold monthLen; split_ifs <;> omega
    have := hd.early
    omega
  have hNq1 : (1 : ℚ) ≤ N := by exact_mod_cast hNb.1
  have hNq2 : (N : ℚ) ≤ 2250000 := by exact_mod_cast hNb.2
  have hN0 : Is (Arith.ofInt N : F64) N := Is.ofInt N (by rw [abs_le]; constructor <;> omega)
  have hq : Is (δ /. lit 86400) 0 := by
    have := hδ.div lit86400_is (by norm_num) (small_le_HUGE (by norm_num))
    rwa [zero_div, RN_zero] at this
  have hg : Is (q.time.toFractionOfDay +. δ /. lit 86400) f := by
    have := hf.add hq (small_le_HUGE (by rw [add_zero, abs_of_nonneg hf0]; exact hf1.trans (by norm_num)))
    rwa [add_zero, RN_exact hf.rep] at this
  have hx : |(N : ℚ) + f| ≤ 2 ^ 200 := by
    rw [abs_of_nonneg (by linarith)]
    have : (2 : ℚ) ^ 200 ≥ 10 ^ 9 := by norm_num
    linarith
  have j1 := hN0.add hg (small_le_HUGE hx)
  have j2 := hN0.add hf (small_le_HUGE hx)
  have hpos : 1 ≤ RN ((N : ℚ) + f) := by
    have := RN_mono (show (1 : ℚ) ≤ N + f by linarith)
    rwa [show RN 1 = 1 by simpa using RN_exact (RepQ.int 1 (by norm_num))] at this
  have hj : r.jd1 = Arith.ofInt N +. q.time.toFractionOfDay := by
    rw [e2, f2, ← hNe, f3]
    exact same_of_value j1 j2 (by linarith)
  have hjd0 : r.jd0 = lit 2400000.5 := by rw [e1, f1]; rfl
  have hutc : r.utc = (lit 2400000.5, Arith.ofInt N +. q.time.toFractionOfDay) := by rw [e3, hjd0, hj]
  rw [hutc] at hu1 hu2
  have hF : (3600 * (q.time.hour : ℚ) + 60 * q.time.minute + s + 0) / 86400 ≤ 2 := by
    have := (abs_le.mp hfe).1
    have : (3 : ℚ) / 2 ^ 53 ≤ 1 := by norm_num
    rw [add_zero]
    linarith
  have hBs : (3 * |(N : ℚ)| + 9 * |(0 : ℚ)| / 86400 + 15) / 2 ^ 53 ≤ 1 := by
    rw [div_le_one (by norm_num), abs_of_nonneg (by linarith), abs_zero]
    norm_num
    linarith
  have hda : dat / 86400 ≤ 1 := by
    rw [div_le_one (by norm_num)]; linarith [(abs_le.mp hdatb).2]
  have htai : r.tai = (lit 2400000.5, r.utc.2 +. r.dat /. lit 86400) := by
    rw [e5, hutc, e4]
    unfold TAI.fromUTC
    simp only
    rw [if_pos]
    refine (Is.lt_iff hu2 hu1).mpr ?_
    have := (abs_le.mp hB1).2
    norm_num at *
    linarith
  rw [htai] at ha1 ha2
  refine ⟨r, N, f, hr, hN, hNb.1, hNb.2, hf, hf0, hf1, f6, hutc, htai, ?_, ?_⟩
  · rw [e6, htai]
    unfold TT.fromTAI
    simp only
    rw [if_pos]
    · rfl
    refine (Is.lt_iff ha2 ha1).mpr ?_
    have := (abs_le.mp hB2).2
    norm_num at *
    linarith
  · rw [e7, hjd0, hj, hutc, f6]

/-- The fraction of the day of the calculator and of the Fortran program are the same number. -/
theorem testSun_time (t : HMS F64) :
    (lit 60 *. (lit 60 *. Arith.ofInt t.hour +. Arith.ofInt t.minute) +. t.second) /. lit 86400 = t.toFractionOfDay := by
  unfold HMS.toFractionOfDay
  rw [fadd_comm (lit 60 *. Arith.ofInt t.hour) _, fadd_comm _ t.second]

/-- **C101** (f64). For every date from 1859 through 8000, every time of day that `new` accepts, every position and every
mathematical library: at offset zero (of either sign) the parts of UTC, TAI and TT are bit for bit the numbers of the Fortran
program, for the same delta AT, with `DJMJD0 = 2400000.5`; UT1, which the Fortran program adds up in another order, is within
`(3*N + 8) * 2^-53` days of its number. -/
theorem C101_times_f64 [Libm F64] (p : Profile) (q : SunAngleParameters F64) (hd : GoodDate q.date) (hy1 : 1859 ≤ q.date.year)
    (hyl : q.date.year ≤ 8000) (hh : 0 ≤ q.time.hour ∧ q.time.hour ≤ 255) (hm : 0 ≤ q.time.minute ∧ q.time.minute ≤ 255) (s : ℚ)
    (hs : Is q.time.second s) (hsb : |s| ≤ 2 ^ 100) (c : SunAngleCalculator F64) (hc : SunAngleCalculator.new p q = .ok c) (δ : F64)
    (hδ : Is δ 0) :
    ∃ (r : SunAngleResult F64) (N : ℤ) (w w' : ℚ), c.compute δ = .ok r ∧ DaysFrom mjdEpoch q.date.civil N ∧
      let T := testSunTimes q.time.hour q.time.minute q.time.second (Arith.ofInt N) r.dat (lit (-0.072073685))
      r.utc = (lit 2400000.5, T.utc) ∧ r.tai = (lit 2400000.5, T.tai) ∧ r.tt = (lit 2400000.5, T.tt) ∧
      r.ut1.1 = lit 2400000.5 ∧ Is r.ut1.2 w ∧ Is T.ut1 w' ∧ |w - w'| ≤ (3 * N + 8) / 2 ^ 53 := by
  obtain ⟨r, N, f, hr, hN, hN1, hN2, hf, hf0, hf1, -, hutc, htai, htt, hut⟩ := sun_times hd hy1 hyl hh hm hs hsb hc hδ
  have hNq1 : (1 : ℚ) ≤ N := by exact_mod_cast hN1
  have hNq2 : (N : ℚ) ≤ 2250000 := by exact_mod_cast hN2
  have hN0 : Is (Arith.ofInt N : F64) N := Is.ofInt N (by rw [abs_le]; constructor <;> omega)
  have big : (2 : ℚ) ^ 200 ≥ 10 ^ 9 := by norm_num
  obtain ⟨e, he, heb⟩ : ∃ e, Is ((lit (-0.072073685) : F64) /. lit 86400) e ∧ |e| ≤ 1 / 1000 := by
    have h1 : Is (lit (-0.072073685) : F64) _ := Is.lit _ (small_le_HUGE (by norm_num [abs_le]))
    have h2 := RN_err_le (x := (-0.072073685 : ℚ)) (M := 1) (by norm_num [abs_le])
    have h3 : |RN (-0.072073685 : ℚ)| ≤ 1 := by
      have := abs_le.mp h2
      rw [abs_le]
      constructor <;> norm_num at * <;> linarith
    have h5 : |RN (-0.072073685 : ℚ) / 86400| ≤ 1 / 86400 := by
      rw [abs_div, abs_of_pos (show (0 : ℚ) < 86400 by norm_num)]; gcongr
    have h4 := h1.div lit86400_is (by norm_num) (small_le_HUGE (h5.trans (by norm_num)))
    refine ⟨_, h4, ?_⟩
    have h6 := RN_err_le h5
    have := abs_le.mp h6
    have := abs_le.mp h5
    rw [abs_le]
    constructor <;> norm_num at * <;> linarith
  obtain ⟨hea, heb⟩ := abs_le.mp heb
  -- the Rust sums
  have a1 : |(N : ℚ) + f| ≤ N + 1 := by rw [abs_of_nonneg (by linarith)]; linarith
  have j := hN0.add hf (small_le_HUGE (a1.trans (by linarith)))
  have ej := RN_err_le a1
  set J := RN ((N : ℚ) + f) with hJ
  have eb : ((N : ℚ) + 1) / 2 ^ 53 + 1 / 2 ^ 100 ≤ 1 / 10 ^ 6 := by
    have : ((N : ℚ) + 1) / 2 ^ 53 ≤ 2250001 / 2 ^ 53 := by gcongr; linarith
    norm_num at *
    linarith
  obtain ⟨ej1, ej2⟩ := abs_le.mp ej
  have a2 : |J + e| ≤ N + 2 := by rw [abs_le]; constructor <;> norm_num at * <;> linarith
  have w := j.add he (small_le_HUGE (a2.trans (by linarith)))
  have ew := RN_err_le a2
  -- the Fortran sums
  have b1 : |f + e| ≤ 2 := by rw [abs_le]; constructor <;> linarith
  have g := hf.add he (small_le_HUGE (b1.trans (by norm_num)))
  have eg := RN_err_le b1
  set G := RN (f + e) with hG
  obtain ⟨eg1, eg2⟩ := abs_le.mp eg
  have b2 : |(N : ℚ) + G| ≤ N + 2 := by
    rw [abs_le]; constructor <;> norm_num at * <;> linarith
  have w' := hN0.add g (small_le_HUGE (b2.trans (by linarith)))
  have ew' := RN_err_le b2
  refine ⟨r, N, RN (J + e), RN ((N : ℚ) + G), hr, hN, ?_⟩
  intro T
  have hT : T = ⟨Arith.ofInt N +. q.time.toFractionOfDay, Arith.ofInt N +. q.time.toFractionOfDay +. r.dat /. lit 86400,
      Arith.ofInt N +. q.time.toFractionOfDay +. r.dat /. lit 86400 +. lit 32.184 /. lit 86400,
      q.time.toFractionOfDay +. lit (-0.072073685) /. lit 86400,
      Arith.ofInt N +. (q.time.toFractionOfDay +. lit (-0.072073685) /. lit 86400)⟩ := by
    simp only [T, testSunTimes, testSun_time]
  rw [hT]
  simp only
  refine ⟨hutc, by rw [htai, hutc], by rw [htt, htai, hutc], by rw [hut], by rw [hut, hutc]; exact w, w', ?_⟩
  have : RN (J + e) - RN ((N : ℚ) + G) =
    (RN (J + e) - (J + e)) + (J - (N + f)) + -(RN ((N : ℚ) + G) - (N + G)) + -(G - (f + e)) := by ring
  rw [this]
  have t1 : (3 * (N : ℚ) + 8) / 2 ^ 53 = ((N : ℚ) + 2) / 2 ^ 53 + ((N : ℚ) + 1) / 2 ^ 53 + ((N : ℚ) + 2) / 2 ^ 53 + 2 / 2 ^ 53 + 1 / 2 ^ 53 := by ring
  have t2 : 4 * ((1 : ℚ) / 2 ^ 100) ≤ 1 / 2 ^ 53 := by norm_num
  refine (abs_add_le _ _).trans ?_
  have := abs_add_le ((RN (J + e) - (J + e)) + (J - (N + f))) (-(RN ((N : ℚ) + G) - (N + G)))
  have := abs_add_le (RN (J + e) - (J + e)) (J - (N + f))
  rw [abs_neg] at *
  linarith

/-- The two sums of UT1 on the day of test_sun.f90. -/
def ut1Sums [Arith F64] (m : ℤ) : F64 × F64 :=
  (Arith.ofInt 54195 +. HMS.toFractionOfDay ⟨12, m, lit 0⟩ +. lit (-0.072073685) /. lit 86400,
    Arith.ofInt 54195 +. (HMS.toFractionOfDay ⟨12, m, lit 0⟩ +. lit (-0.072073685) /. lit 86400))

/-- Whether they are the same. -/
def ut1Same (A : Arith F64) (m : ℤ) : Bool := decide ((@ut1Sums A m).1 = (@ut1Sums A m).2)

theorem ut1_noon : ut1Same inferInstance 0 = true := eval_fast (P := fun A => ut1Same A 0 = true) (by decide +kernel)

theorem ut1_later : ut1Same inferInstance 2 = false := eval_fast (P := fun A => ut1Same A 2 = false) (by decide +kernel)

theorem ut1_sums [Libm F64] {p : Profile} {q : SunAngleParameters F64} {m : ℤ} (hd : q.date = ⟨2007, 4, 5⟩) (hm : 0 ≤ m ∧ m ≤ 255)
    (ht : q.time = ⟨12, m, lit 0⟩) {c : SunAngleCalculator F64} (hc : SunAngleCalculator.new p q = .ok c) :
    ∃ r, c.compute (lit 0) = .ok r ∧ r.ut1 = (lit 2400000.5, (ut1Sums m).1) ∧
      (testSunTimes 12 m (lit 0) (Arith.ofInt 54195) r.dat (lit (-0.072073685))).ut1 = (ut1Sums m).2 := by
  have i0 : Is (lit 0 : F64) 0 := by have := Is.lit_int 0 (by norm_num); push_cast at this; exact this
  have gd : GoodDate q.date := by rw [hd]; exact ⟨by decide, by decide, by decide⟩
  obtain ⟨r, N, f, hr, hN, -, -, -, -, -, -, hutc, -, -, hut⟩ := sun_times gd (by rw [hd]; norm_num) (by rw [hd]; norm_num)
    (by rw [ht]; norm_num) (by rw [ht]; exact hm) (s := 0) (by rw [ht]; exact i0) (by norm_num) hc i0
  have hN' : N = 54195 := by
    rw [daysFrom_unique _ _ (by decide) gd.civil _ hN, hd]
    decide
  subst hN'
  refine ⟨r, hr, ?_, ?_⟩
  · rw [hut, hutc, ht]
    unfold ut1Sums
    with_reducible rfl
  · have := testSun_time ⟨12, m, lit 0⟩
    simp only at this
    simp only [testSunTimes, this, ut1Sums]

/-- **C101.** At the moment that the Fortran program was written for, 2007-04-05 12:00:00, the parts of UT1 are its bits too. -/
theorem C101_ut1_noon [Libm F64] (p : Profile) (q : SunAngleParameters F64) (hd : q.date = ⟨2007, 4, 5⟩)
    (ht : q.time = ⟨12, 0, lit 0⟩) (c : SunAngleCalculator F64) (hc : SunAngleCalculator.new p q = .ok c) :
    ∃ r, c.compute (lit 0) = .ok r ∧
      r.ut1 = (lit 2400000.5, (testSunTimes 12 0 (lit 0) (Arith.ofInt 54195) r.dat (lit (-0.072073685))).ut1) := by
  obtain ⟨r, hr, h1, h2⟩ := ut1_sums hd (by norm_num) ht hc
  exact ⟨r, hr, by rw [h1, h2, of_decide_eq_true ut1_noon]⟩

/-- **C101.** Two minutes later they are not: the order of the additions shows. -/
theorem C101_ut1_later [Libm F64] (p : Profile) (q : SunAngleParameters F64) (hd : q.date = ⟨2007, 4, 5⟩)
    (ht : q.time = ⟨12, 2, lit 0⟩) (c : SunAngleCalculator F64) (hc : SunAngleCalculator.new p q = .ok c) :
    ∃ r, c.compute (lit 0) = .ok r ∧
      r.ut1.2 ≠ (testSunTimes 12 2 (lit 0) (Arith.ofInt 54195) r.dat (lit (-0.072073685))).ut1 := by
  obtain ⟨r, hr, h1, h2⟩ := ut1_sums hd (by norm_num) ht hc
  exact ⟨r, hr, by rw [h1, h2]; exact of_decide_eq_false ut1_later⟩

/-- With a library that exists `new` accepts both moments, at the default position, and so it does in exact arithmetic. -/
example : ∃ (L : Libm F64), @LibmAcc L ∧ ∀ p, (∃ c, @SunAngleCalculator.new F64 _ L p
    ⟨⟨2007, 4, 5⟩, ⟨12, 0, lit 0⟩, ⟨lit 0, lit 0, lit 0⟩⟩ = .ok c) ∧ (∃ c, @SunAngleCalculator.new F64 _ L p
    ⟨⟨2007, 4, 5⟩, ⟨12, 2, lit 0⟩, ⟨lit 0, lit 0, lit 0⟩⟩ = .ok c) ∧
    ∃ (q : SunAngleParameters ℝ) (c : SunAngleCalculator ℝ), GoodDate q.date ∧ SunAngleCalculator.new p q = .ok c := by
  have i0 : Is (lit 0 : F64) 0 := by have := Is.lit_int 0 (by norm_num); push_cast at this; exact this
  let _ := goodLibm
  refine ⟨goodLibm, exists_libmAcc, fun p => ?_⟩
  have H : SunInput ⟨⟨2007, 4, 5⟩, ⟨12, 0, lit 0⟩, ⟨lit 0, lit 0, lit 0⟩⟩ (lit 0) 0 0 0 0 0 54195 :=
    ⟨⟨by decide, by decide, by decide⟩, by norm_num, by norm_num, i0, by norm_num, by norm_num, i0, i0, i0, by norm_num, by norm_num,
      by norm_num, i0, by norm_num, daysFrom_epoch (by decide), by norm_num⟩
  have H' : SunInput ⟨⟨2007, 4, 5⟩, ⟨12, 2, lit 0⟩, ⟨lit 0, lit 0, lit 0⟩⟩ (lit 0) 0 0 0 0 0 54195 :=
    ⟨⟨by decide, by decide, by decide⟩, by norm_num, by norm_num, i0, by norm_num, by norm_num, i0, i0, i0, by norm_num, by norm_num,
      by norm_num, i0, by norm_num, daysFrom_epoch (by decide), by norm_num⟩
  obtain ⟨c, C, hc, hC, -⟩ := H.news exists_libmAcc p
  obtain ⟨c', -, hc', -⟩ := H'.news exists_libmAcc p
  exact ⟨⟨c, hc⟩, ⟨c', hc'⟩, _, C, H.date, hC⟩

theorem ld_next {x y : F64} {r r' : List Char} (h : ldReal x ++ r = ldReal y ++ r') : ldReal x = ldReal y ∧ r = r' :=
  List.append_inj h (by rw [ldReal_length, ldReal_length])

theorem ldReal_inj {x y : F64} (hx : isFin x = true) (hy : isFin y = true) (h : ldReal x = ldReal y) : x = y := by
  obtain ⟨b, t, c, hb, hc, e, -, ht, -⟩ := C95_list_directed hx
  obtain ⟨b', t', c', hb', hc', e', -, ht', -⟩ := C95_list_directed hy
  have key : ∀ {b t c : List Char} {x : F64}, (∀ d ∈ b, d = ' ') → (∀ d ∈ c, d = ' ') → NumLit t x →
      (b ++ t ++ c).filter (· ≠ ' ') = t := by
    intro b t c x hb hc ht
    have h1 : ∀ b : List Char, (∀ d ∈ b, d = ' ') → b.filter (· ≠ ' ') = [] := fun b hb =>
      List.filter_eq_nil_iff.mpr fun d hd => by simp [hb d hd]
    have h2 : t.filter (· ≠ ' ') = t := List.filter_eq_self.mpr fun d hd => by
      have := ht.chars.2 d hd
      have : d ≠ ' ' := by rintro rfl; exact absurd this (by unfold LitChar; decide)
      simpa using this
    rw [List.filter_append, List.filter_append, h1 b hb, h1 c hc, h2]
    simp
  have h1 := key hb hc ht
  have h2 := key hb' hc' ht'
  rw [← e, h, e', h2] at h1
  subst h1
  exact ht.uniq ht'

/-- **C101.** The report of the Fortran program shows all its numbers: two reports of finite numbers are the same text only if all
numbers are the same, bit for bit. -/
theorem C101_text_nothing_lost {t t' : TestSunTimes F64} {m m' : FMat} {a a' : ℕ → F64}
    (ht : isFin t.tt = true ∧ isFin t.tut = true ∧ isFin t.ut1 = true) (ht' : isFin t'.tt = true ∧ isFin t'.tut = true ∧ isFin t'.ut1 = true)
    (hm : ∀ i < 3, ∀ j < 3, isFin (m i j) = true) (hm' : ∀ i < 3, ∀ j < 3, isFin (m' i j) = true)
    (ha : ∀ i < 3, isFin (a i) = true) (ha' : ∀ i < 3, isFin (a' i) = true)
    (e : testSunText t m a = testSunText t' m' a') :
    t.tt = t'.tt ∧ t.tut = t'.tut ∧ t.ut1 = t'.ut1 ∧ (∀ i < 3, ∀ j < 3, m i j = m' i j) ∧ ∀ i < 3, a i = a' i := by
  unfold testSunText ldWrite at e
  simp only [ldItems, List.range_succ, List.range_zero, List.map_cons, List.map_nil, List.nil_append,
    List.flatten_cons, List.flatten_nil, List.append_nil, List.cons_append, List.append_assoc, Bool.false_eq_true, if_false,
    List.cons.injEq, true_and, List.append_cancel_left_eq] at e
  obtain ⟨e1, e⟩ := ld_next e
  simp only [List.cons.injEq, true_and, List.append_cancel_left_eq] at e
  obtain ⟨e2, e⟩ := ld_next e
  simp only [List.cons.injEq, true_and, List.append_cancel_left_eq] at e
  obtain ⟨e3, e⟩ := ld_next e
  simp only [List.cons.injEq, true_and, List.append_cancel_left_eq] at e
  obtain ⟨e4, e⟩ := ld_next e
  simp only [List.cons.injEq, true_and] at e
  obtain ⟨e5, e⟩ := ld_next e
  simp only [List.cons.injEq, true_and] at e
  obtain ⟨e6, e⟩ := ld_next e
  simp only [List.cons.injEq, true_and] at e
  obtain ⟨e7, e⟩ := ld_next e
  simp only [List.cons.injEq, true_and] at e
  obtain ⟨e8, e⟩ := ld_next e
  simp only [List.cons.injEq, true_and] at e
  obtain ⟨e9, e⟩ := ld_next e
  simp only [List.cons.injEq, true_and] at e
  obtain ⟨e10, e⟩ := ld_next e
  simp only [List.cons.injEq, true_and] at e
  obtain ⟨e11, e⟩ := ld_next e
  simp only [List.cons.injEq, true_and] at e
  obtain ⟨e12, e⟩ := ld_next e
  simp only [List.cons.injEq, true_and, List.append_cancel_left_eq] at e
  obtain ⟨e13, e⟩ := ld_next e
  simp only [List.cons.injEq, true_and] at e
  obtain ⟨e14, e⟩ := ld_next e
  simp only [List.cons.injEq, true_and] at e
  obtain ⟨e15, -⟩ := ld_next e
  refine ⟨ldReal_inj ht.1 ht'.1 e1, ldReal_inj ht.2.1 ht'.2.1 e2, ldReal_inj ht.2.2 ht'.2.2 e3, ?_, ?_⟩
  · intro i hi j hj
    refine ldReal_inj (hm i hi j hj) (hm' i hi j hj) ?_
    interval_cases i <;> interval_cases j <;> assumption
  · intro i hi
    refine ldReal_inj (ha i hi) (ha' i hi) ?_
    interval_cases i <;> assumption

/-- Reports of finite numbers: the noon of the program, one minute later, the unit matrix. -/
example : isFin (Arith.ofInt 54195 : F64) = true ∧ isFin (lit 0 : F64) = true ∧ isFin (lit 1 : F64) = true := by decide +kernel

end Verif
