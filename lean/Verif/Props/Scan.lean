import Verif.Props.SunAngleTool
import Verif.Props.ToolText

/-!
# C55, C78: scans with any step
-/

namespace Verif
open Arith F64 Spec

/-- Repeated addition: as long as the values stay at most `d1`, they stay near the exact ones. -/
theorem steps_near {D0 D1 S : F64} {d0 d1 s B : ℚ} (h0 : Is D0 d0) (h1 : Is D1 d1) (h2 : Is S s) (hs : 0 < s) (b1 : 1 ≤ B)
    (b2 : B ≤ 2 ^ 100) (b3 : |d0| ≤ B) (b4 : |d1| ≤ B) (b5 : s ≤ B) (f : ℕ → F64) (f0 : f 0 = D0) (fs : ∀ j, f (j + 1) = f j +. S) :
    ∀ j : ℕ, (∀ i < j, (f i <=. D1) = true) → ∃ q, Is (f j) q ∧ |q - (d0 + j * s)| ≤ j * (B / 2 ^ 52) ∧ d0 ≤ q := by
  intro j
  induction j with
  | zero => intro _; exact ⟨d0, by rw [f0]; exact h0, by simp, le_rfl⟩
  | succ j ih =>
    intro hj
    obtain ⟨q, hq, he, hd⟩ := ih fun i hi => hj i (by omega)
    have hle : q ≤ d1 := by
      have := hj j (by omega)
      rw [hq.le h1, decide_eq_true_iff] at this
      exact this
    have a3 := abs_le.mp b3
    have a4 := abs_le.mp b4
    have hab : |q + s| ≤ 2 * B := by rw [abs_le]; constructor <;> linarith [a3.1, a4.2]
    have herr : |RN (q + s) - (q + s)| ≤ B / 2 ^ 52 := by
      refine (RN_err _).trans (max_le ?_ ?_)
      · have : |q + s| / 2 ^ 53 ≤ 2 * B / 2 ^ 53 := by gcongr
        refine this.trans (le_of_eq (by ring))
      · refine U_inv_small.trans ?_
        have : (1 : ℚ) / 2 ^ 52 ≤ B / 2 ^ 52 := by gcongr
        refine le_trans ?_ this
        norm_num
    have hov : |RN (q + s)| < OVQ := by
      apply small_lt_OVQ
      have e := abs_le.mp herr
      have e' := abs_le.mp hab
      have : B / 2 ^ 52 ≤ B := div_le_self (by linarith) (by norm_num)
      have hb : 3 * B ≤ 3 * 2 ^ 100 := by linarith
      refine le_trans ?_ (hb.trans (by norm_num))
      rw [abs_le]; constructor <;> linarith [e.1, e.2, e'.1, e'.2]
    refine ⟨RN (q + s), by rw [fs]; exact hq.add' h2 hov, ?_, hd.trans (le_RN_of_le hq.rep (by linarith))⟩
    have e : RN (q + s) - (d0 + (j + 1 : ℕ) * s) = (RN (q + s) - (q + s)) + (q - (d0 + j * s)) := by push_cast; ring
    rw [e]
    refine (abs_add_le _ _).trans ?_
    push_cast
    linarith

/-- **C55** (f64). With `--scan` and any finite bounds and step, of magnitude at most `B`, the step being more than `B / 2^52`: the
scan ends.  Its offsets start at `delta0`, do not exceed `delta1`, and the `j`-th is within `j B / 2^52` of `delta0 + j step`;
all those are there that are at most `delta1` by more than this error, and none that exceeds it by more. -/
theorem C55_scan_f64_any [Libm F64] (p : Profile) (a : ToolArgs F64) (c : SunAngleCalculator F64)
    (hc : toolCalc p a = some c) (hs : a.scan = true) (d0 d1 s B : ℚ)
    (h0 : Is (a.delta0.getD (lit (-600))) d0) (h1 : Is (a.delta1.getD (lit 600)) d1)
    (h2 : Is (a.delta_step.getD (lit 60)) s) (b1 : 1 ≤ B) (b2 : B ≤ 2 ^ 100) (b3 : |d0| ≤ B) (b4 : |d1| ≤ B) (b5 : s ≤ B)
    (b6 : B / 2 ^ 52 < s) :
    ∃ (n m : ℕ) (l : List (SunAngleResult F64)), sunAngleTool p a n = some (.ok (.results l)) ∧ l.length = m ∧
      (∀ j : ℕ, d0 + j * s + j * (B / 2 ^ 52) ≤ d1 → j < m) ∧ (∀ j < m, d0 + j * s - j * (B / 2 ^ 52) ≤ d1) ∧
      ∀ (j : ℕ) (hj : j < l.length), c.compute l[j].delta_s = .ok l[j] ∧
        ∃ q, Is l[j].delta_s q ∧ |q - (d0 + j * s)| ≤ j * (B / 2 ^ 52) ∧ d0 ≤ q ∧ q ≤ d1 := by
  simp only [tool_loop p a c hc, hs]
  generalize a.delta_step.getD (lit 60) = S at *
  generalize a.delta1.getD (lit 600) = D1 at *
  generalize a.delta0.getD (lit (-600)) = D0 at *
  have hds : ∀ d, ∃ r, c.compute d = .ok r ∧ r.delta_s = d := by
    intro d
    unfold SunAngleCalculator.compute
    obtain ⟨e, he⟩ := C37_no_panic (TDB.fromTT (TT.fromTAI (TAI.fromUTC (c.jd0, c.jd1_date +.
      (c.fr +. d /. lit 86400)) c.dat)) c.dtr)
    simp only [he, ok_bind]
    exact ⟨_, rfl, rfl⟩
  choose g hg hgd using hds
  let f : ℕ → F64 := fun j => Nat.rec D0 (fun _ d => d +. S) j
  have hs0 : 0 < s := lt_of_le_of_lt (by positivity) b6
  have near := steps_near h0 h1 h2 hs0 b1 b2 b3 b4 b5 f rfl (fun _ => rfl)
  have ends : ∃ j, ¬ (f j <=. D1) = true := by
    by_contra hn
    push Not at hn
    obtain ⟨j, hj⟩ := exists_nat_gt ((d1 - d0) / (s - B / 2 ^ 52))
    rw [div_lt_iff₀ (by linarith)] at hj
    obtain ⟨q, hq, he, -⟩ := near j fun i _ => hn i
    have := hn j
    rw [hq.le h1, decide_eq_true_iff] at this
    linarith [(abs_le.mp he).1]
  set m := Nat.find ends with hm
  have before : ∀ j < m, (f j <=. D1) = true := fun j hj => by
    have := Nat.find_min ends hj
    exact not_not.mp this
  have after : (f m <=. D1) = false := by
    have := Nat.find_spec ends
    rwa [← hm, Bool.not_eq_true] at this
  have hrun := while_run c.compute D1 S f g hg (fun _ => rfl) m 0 (fun j hj => by rw [Nat.zero_add]; exact before j hj)
    (by rw [Nat.zero_add]; exact after)
  have at_ : ∀ j < m, ∃ q, Is (f j) q ∧ |q - (d0 + j * s)| ≤ j * (B / 2 ^ 52) ∧ d0 ≤ q ∧ q ≤ d1 := by
    intro j hj
    obtain ⟨q, hq, he, hd⟩ := near j fun i hi => before i (by omega)
    refine ⟨q, hq, he, hd, ?_⟩
    have := before j hj
    rwa [hq.le h1, decide_eq_true_iff] at this
  refine ⟨m + 1, m, (List.range m).map fun j => g (f (0 + j)), ?_, by simp, ?_, ?_, ?_⟩
  · show Option.map _ (whileLoop c.compute D1 S true (m + 1) (f 0)) = _
    rw [hrun]; rfl
  · intro j hj
    by_contra hmj
    obtain ⟨q, hq, he, -⟩ := near m before
    rw [hq.le h1, decide_eq_false_iff_not, not_le] at after
    have h3 := (abs_le.mp he).2
    have : (m : ℚ) ≤ j := by exact_mod_cast not_lt.mp hmj
    have k1 : (m : ℚ) * (s + B / 2 ^ 52) ≤ j * (s + B / 2 ^ 52) := by
      have : 0 ≤ s + B / 2 ^ 52 := by positivity
      gcongr
    linarith
  · intro j hj
    obtain ⟨q, -, he, -, hd⟩ := at_ j hj
    linarith [(abs_le.mp he).1]
  · intro j hj
    have hj' : j < m := by simpa using hj
    simp only [List.getElem_map, List.getElem_range, Nat.zero_add, hgd]
    exact ⟨hg _, at_ j hj'⟩

/-- **C78.** With `--scan` and any finite bounds and step, of magnitude at most `B` (at least one second), the step being more than
`B / 2^52`, both ends of the scan in the range of C72: `sun_angle_tool` ends, having printed a line that shows the two bounds and the
step, and then, each after an empty line, one correct report for each offset.  The `j`-th offset is within `j B / 2^52`
seconds of `delta0 + j step`, and none is missing or in excess by more than that error. -/
theorem C78_scan_text_any [Libm F64] (hL : LibmAcc) (p : Profile) (a : ToolArgs F64) (date : GregorianDate)
    (hdate : GregorianDate.new (a.year.getD 2007) (a.month.getD 4) (a.day.getD 5) = .ok date) (hs : a.scan = true)
    (s l b h d0 d1 st B : ℚ) (N : ℤ)
    (H0 : SunInput (a.params date) (a.delta0.getD (lit (-600))) s l b h d0 N)
    (H1 : SunInput (a.params date) (a.delta1.getD (lit 600)) s l b h d1 N)
    (h2 : Is (a.delta_step.getD (lit 60)) st) (b1 : 1 ≤ B) (b2 : B ≤ 2 ^ 100) (b3 : |d0| ≤ B) (b4 : |d1| ≤ B) (b5 : st ≤ B)
    (b6 : B / 2 ^ 52 < st) :
    ∃ (n m : ℕ) (a0 a1 a2 : List Char) (reports : List (List Char)),
      (∀ j : ℕ, d0 + j * st + j * (B / 2 ^ 52) ≤ d1 → j < m) ∧ (∀ j < m, d0 + j * st - j * (B / 2 ^ 52) ≤ d1) ∧
      sunAngleToolText p a n = some ⟨"Will scan from ".toList ++ a0 ++ "s to ".toList ++ a1 ++ "s in steps of ".toList ++ a2 ++
        '\n' :: (reports.map fun t => '\n' :: t).flatten, .done⟩ ∧
      Shows a0 d0 0.0000005 ∧ Shows a1 d1 0.0000005 ∧ Shows a2 st 0.0000005 ∧
      reports.length = m ∧ ∀ (j : ℕ) (hj : j < reports.length), ∃ q : ℚ, |q - (d0 + j * st)| ≤ j * (B / 2 ^ 52) ∧
        IsReport p (a.params date) s l b h q N reports[j] := by
  obtain ⟨c, r, hc, hr, -⟩ := C75_printed_report hL p _ _ s l b h _ N H0
  obtain ⟨ht, hl⟩ := text_of_results p a date c hdate hc
  obtain ⟨n, m, res, e, hlen, hm1, hm2, hres⟩ := C55_scan_f64_any p a c ht hs d0 d1 st B H0.offset H1.offset h2 b1 b2 b3 b4 b5 b6
  refine ⟨n, m, fmtSpace true 13 6 (a.delta0.getD (lit (-600))), fmtSpace true 13 6 (a.delta1.getD (lit 600)),
    fmtSpace false 13 6 (a.delta_step.getD (lit 60)), res.map (bundleDisplay (a.params date)), hm1, hm2, (hl n _ e).trans ?_,
    (Near.of_is H0.offset).shows true 13 6 (by norm_num), (Near.of_is H1.offset).shows true 13 6 (by norm_num),
    (Near.of_is h2).shows false 13 6 (by norm_num), by simpa using hlen, ?_⟩
  · have e3 : (if a.scan = true then ['\n'] else []) = ['\n'] := if_pos hs
    rw [if_pos hs, e3]
    exact congrArg (fun t => some (Run.mk t .done)) (scan_shape _ _ _ _ _ _ _ _)
  · intro j hj
    have hj' : j < res.length := by simpa using hj
    obtain ⟨e2, q, e1, e3, e4, e5⟩ := hres j hj'
    have H := H0.between H1 e1 e4 e5
    obtain ⟨c', r', hc', hr', hrep⟩ := C75_printed_report hL p _ _ s l b h _ N H
    rw [hc] at hc'
    obtain rfl := Except.ok.inj hc'
    rw [e2] at hr'
    obtain rfl := Except.ok.inj hr'
    refine ⟨q, e3, ?_⟩
    rw [List.getElem_map]
    exact hrep

/-- The hypotheses hold for the default scan with a step of 0.1 s, which no `f64` is: with `B = 600` the step is far above
`B / 2^52`. -/
example : ∃ L : Libm F64, @LibmAcc L ∧ ∃ st : ℚ,
    let a : ToolArgs F64 := ⟨none, none, none, none, none, none, none, none, none, none, none, some (lit 0.1), true⟩
    GregorianDate.new (a.year.getD 2007) (a.month.getD 4) (a.day.getD 5) = .ok ⟨2007, 4, 5⟩ ∧
    Is (a.delta0.getD (lit (-600))) (-600) ∧ Is (a.delta1.getD (lit 600)) 600 ∧ Is (a.delta_step.getD (lit 60)) st ∧ st ≠ 0.1 ∧
    |(-600 : ℚ)| ≤ 600 ∧ |(600 : ℚ)| ≤ 600 ∧ st ≤ 600 ∧ 600 / 2 ^ 52 < st := by
  refine ⟨goodLibm, exists_libmAcc, 3602879701896397 / 36028797018963968, by decide, ?_, ?_, ?_, by norm_num, by norm_num, by norm_num,
    by norm_num, by norm_num⟩
  · have := Is.lit_int (-600) (by norm_num); push_cast at this; exact this
  · have := Is.lit_int 600 (by norm_num); push_cast at this; exact this
  · show Is (lit 0.1 : F64) _
    exact ⟨by decide +kernel, by decide +kernel⟩

theorem isNan_add {x y : F64} (hx : x ≠ .nan) (hy : isFin y = true) : F64.add x y ≠ .nan := by
  cases x with
  | nan => exact absurd rfl hx
  | inf s =>
    cases y with
    | nan => cases hy
    | inf t => cases hy
    | fin t m h => simp [F64.add]
  | fin s n h =>
    cases y with
    | nan => cases hy
    | inf t => cases hy
    | fin t m h =>
      simp only [F64.add]
      split
      all_goals
        try simp only [F64.zero]
        unfold F64.ofQuot F64.mkFin
        split_ifs <;> simp

/-- **C55** (f64). With `--scan --delta1 inf` and a finite step the loop never ends, whatever `delta0` is: infinities are at most
`inf`, and a sum that overflows is an infinity. -/
theorem C55_scan_to_infinity [Libm F64] (p : Profile) (a : ToolArgs F64) (c : SunAngleCalculator F64) (hc : toolCalc p a = some c)
    (hs : a.scan = true) (h1 : a.delta1 = some (.inf false)) (h0 : a.delta0.getD (lit (-600)) ≠ .nan)
    (h2 : isFin (a.delta_step.getD (lit 60)) = true) (n : ℕ) : sunAngleTool p a n = none := by
  simp only [tool_loop p a c hc, hs, h1]
  rw [while_forever c.compute _ _ (compute_total c) (fun d => d ≠ .nan) (fun d hd => ?_) (fun d hd => isNan_add hd h2) n _ h0]
  · rfl
  · show F64.le d (.inf false) = true
    cases d with
    | nan => exact absurd rfl hd
    | inf s => cases s <;> rfl
    | fin s n h => rfl

/-- **C55** (f64). With a NaN as either bound nothing is evaluated. -/
theorem C55_scan_nan_bound [Libm F64] (p : Profile) (a : ToolArgs F64) (c : SunAngleCalculator F64) (hc : toolCalc p a = some c)
    (h : a.delta0 = some .nan ∨ a.delta1 = some .nan) (n : ℕ) (hn : 0 < n) : sunAngleTool p a n = some (.ok (.results [])) := by
  obtain ⟨m, rfl⟩ : ∃ m, n = m + 1 := ⟨n - 1, by omega⟩
  rw [tool_loop p a c hc, while_stop]
  · rfl
  · show F64.le _ _ = false
    rcases h with h | h
    · rw [h]; rfl
    · rw [h]
      simp only [Option.getD_some]
      generalize a.delta0.getD (lit (-600)) = d
      cases d <;> rfl

/-- **C55** (f64). With a NaN as step a scan has one result. -/
theorem C55_scan_nan_step [Libm F64] (p : Profile) (a : ToolArgs F64) (c : SunAngleCalculator F64) (hc : toolCalc p a = some c)
    (hs : a.scan = true) (h2 : a.delta_step = some .nan) (h : (a.delta0.getD (lit (-600)) <=. a.delta1.getD (lit 600)) = true) (n : ℕ) (hn : 2 ≤ n) :
    ∃ r, c.compute (a.delta0.getD (lit (-600))) = .ok r ∧ sunAngleTool p a n = some (.ok (.results [r])) := by
  obtain ⟨m, rfl⟩ : ∃ m, n = m + 2 := ⟨n - 2, by omega⟩
  obtain ⟨r, hr⟩ := compute_total c (a.delta0.getD (lit (-600)))
  refine ⟨r, hr, ?_⟩
  rw [tool_loop p a c hc, hs, while_next _ _ _ _ _ r h hr, while_stop]
  · rfl
  · show F64.le (F64.add _ _) _ = false
    rw [h2]
    simp only [Option.getD_some]
    generalize a.delta0.getD (lit (-600)) = d
    cases d <;> rfl

example : ((lit (-600) : F64) <=. lit 600) = true := by decide +kernel

/-- Such arguments: the defaults with `--scan --delta1 inf`. -/
example (p : Profile) : ∃ (_ : Libm F64) (a : ToolArgs F64) (c : SunAngleCalculator F64), toolCalc p a = some c ∧ a.scan = true ∧
    a.delta1 = some (.inf false) ∧ a.delta0.getD (lit (-600)) ≠ .nan ∧ isFin (a.delta_step.getD (lit 60)) = true := by
  let L : Libm F64 := { goodLibm with cos := fun _ => lit 1, sin := fun _ => lit 0 }
  refine ⟨L, ⟨none, none, none, none, none, none, none, none, none, none, some (.inf false), none, true⟩, ?_⟩
  obtain ⟨c, hc, -⟩ := (C52_new_f64 p ⟨⟨2007, 4, 5⟩, ⟨0, 0, lit 0⟩, { lat := lit 0, lon := lit (-120), height := lit 0 }⟩
    ⟨by decide, by decide, by decide⟩).2 (by
      rintro (h | h | h)
      · exact absurd h (by decide +kernel)
      · exact absurd h (by decide +kernel)
      · exact h (by
          show ((lit 0 : F64) <. wgsRadicand (lit 1) (lit 0)) = true
          decide +kernel))
  refine ⟨c, ?_, rfl, rfl, by decide +kernel, by decide +kernel⟩
  unfold toolCalc
  have : GregorianDate.new 2007 4 5 = .ok ⟨2007, 4, 5⟩ := by decide
  simp only [Option.getD_none, this]
  rw [hc]

end Verif
