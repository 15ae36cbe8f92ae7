import Verif.Props.DeltaAt
import Verif.Props.Time

/-!
# C110: the order of moments in UTC and TAI

Code: `tofas/src/delta_at.rs`, `tofas/src/time.rs` (`TAI::from_utc_delta_at`).
-/

namespace Verif

open Arith F64 Spec

/-- The Modified Julian Date of the first day of a month given by its number. -/
def monthStart (m : ℤ) : ℤ := mjdN ((m - 1) / 12) ((m - 1) % 12 + 1) 1

/-- The value of a step at a real Modified Julian Date. -/
noncomputable def stepAt (e : Step) (T : ℝ) : ℝ := e.offset + (T - e.origin) * e.rate

theorem stepAt_mono (e : Step) (h : 0 ≤ e.rate) {T T' : ℝ} (ht : T ≤ T') : stepAt e T ≤ stepAt e T' := by
  have : (0 : ℝ) ≤ e.rate := by exact_mod_cast h
  unfold stepAt
  gcongr

theorem stepAt_cast (e : Step) (n : ℤ) : stepAt e n = ((e.value n : ℚ) : ℝ) := by
  unfold stepAt Step.value; push_cast; ring

/-- How much the value has gone back by the beginning of a month, all together. -/
def backSum (m : ℤ) : ℚ := if m ≤ 23540 then 0 else if m ≤ 23545 then 0.05 else if m ≤ 23618 then 0.056 else 0.156

theorem rate_nonneg (m : ℤ) (h : 23521 ≤ m) : 0 ≤ (datRow m).step.rate := by
  by_cases hl : m ≤ 23665
  · obtain ⟨o, r, e, -, r0, -⟩ := datRow_drift m h hl
    unfold DatData.step; rw [e]; exact r0
  · unfold DatData.step; rw [(datRow_integer m (by omega)).1]; rfl

theorem step_back (m : ℤ) (h : 23521 ≤ m) :
    (datRow m).step.value (monthStart (m + 1)) + backSum m ≤ (datRow (m + 1)).step.value (monthStart (m + 1)) + backSum (m + 1) := by
  by_cases hl : 23665 < m
  · have e1 : backSum m = 0.156 := by unfold backSum; rw [if_neg (by omega), if_neg (by omega), if_neg (by omega)]
    have e2 : backSum (m + 1) = 0.156 := by unfold backSum; rw [if_neg (by omega), if_neg (by omega), if_neg (by omega)]
    have := datRow_step_mono m hl
    rw [e1, e2]
    unfold DatData.step Step.value
    rw [(datRow_integer m hl).1, (datRow_integer (m + 1) (by omega)).1]
    simp only [Option.getD_none]
    linarith
  · exact datRow_table (fun m r => r.step.value (monthStart (m + 1)) + backSum m ≤
      (datRow (m + 1)).step.value (monthStart (m + 1)) + backSum (m + 1)) 23521 145 (by decide +kernel) m h (by omega)

theorem monthStart_next (m : ℤ) : monthStart m + monthLen ((m - 1) / 12) ((m - 1) % 12 + 1) = monthStart (m + 1) := by
  have h1 : 1 ≤ (m - 1) % 12 + 1 := by omega
  have h2 : (m - 1) % 12 + 1 ≤ 12 := by omega
  have h3 := monthLen_ge (y := (m - 1) / 12) h1 h2
  have := mjdN_next ((m - 1) / 12, (m - 1) % 12 + 1, monthLen ((m - 1) / 12) ((m - 1) % 12 + 1))
    ⟨h1, h2, by simp only; omega, le_refl _⟩
  unfold next at this
  simp only [lt_self_iff_false, if_false] at this
  have lin : ∀ y k d : ℤ, mjdN y k d = mjdN y k 1 + d - 1 := by
    intro y k d
    rcases mjdN_cases y k d with ⟨a, b⟩ | ⟨a, b⟩ <;> rcases mjdN_cases y k 1 with ⟨a', b'⟩ | ⟨a', b'⟩ <;> omega
  rw [lin _ _ (monthLen _ _)] at this
  unfold monthStart
  split at this
  · rw [show (m + 1 - 1) / 12 = (m - 1) / 12 by omega, show (m + 1 - 1) % 12 + 1 = (m - 1) % 12 + 1 + 1 by omega]
    simp only at this
    omega
  · rw [show (m + 1 - 1) / 12 = (m - 1) / 12 + 1 by omega, show (m + 1 - 1) % 12 + 1 = 1 by omega]
    simp only at this
    omega

/-- A date lies in its month. -/
theorem monthStart_le {c : Civil} (h : IsDate c) : monthStart (monthNo c.1 c.2.1) ≤ mjdN c.1 c.2.1 c.2.2 ∧
    mjdN c.1 c.2.1 c.2.2 + 1 ≤ monthStart (monthNo c.1 c.2.1 + 1) := by
  obtain ⟨h1, h2, h3, h4⟩ := h
  have e1 : (monthNo c.1 c.2.1 - 1) / 12 = c.1 := by unfold monthNo; omega
  have e2 : (monthNo c.1 c.2.1 - 1) % 12 + 1 = c.2.1 := by unfold monthNo; omega
  have n := monthStart_next (monthNo c.1 c.2.1)
  have lin : ∀ y k d : ℤ, mjdN y k d = mjdN y k 1 + d - 1 := by
    intro y k d
    rcases mjdN_cases y k d with ⟨a, b⟩ | ⟨a, b⟩ <;> rcases mjdN_cases y k 1 with ⟨a', b'⟩ | ⟨a', b'⟩ <;> omega
  have := lin c.1 c.2.1 c.2.2
  rw [e1, e2] at n
  have s : monthStart (monthNo c.1 c.2.1) = mjdN c.1 c.2.1 1 := by unfold monthStart; rw [e1, e2]
  omega

theorem monthStart_mono {m m' : ℤ} (h : m < m') : monthStart (m + 1) ≤ monthStart m' := by
  obtain ⟨n, rfl⟩ : ∃ n : ℕ, m' = m + 1 + n := ⟨(m' - (m + 1)).toNat, by omega⟩
  clear h
  induction n with
  | zero => simp
  | succ n ih =>
    refine ih.trans ?_
    have := monthStart_next (m + 1 + n)
    have l := monthLen_ge (y := (m + 1 + n - 1) / 12) (m := (m + 1 + n - 1) % 12 + 1) (by omega) (by omega)
    rw [show m + 1 + ((n + 1 : ℕ) : ℤ) = m + 1 + n + 1 by push_cast; ring]
    omega

/-- The values over the months, up to the steps back. -/
theorem chain (m : ℤ) (h : 23521 ≤ m) (n : ℕ) :
    (datRow m).step.value (monthStart (m + 1)) + backSum m ≤
      (datRow (m + 1 + n)).step.value (monthStart (m + 1 + n)) + backSum (m + 1 + n) := by
  induction n with
  | zero => simpa using step_back m h
  | succ n ih =>
    refine ih.trans ?_
    have s := step_back (m + 1 + n) (by omega)
    rw [show m + 1 + ((n + 1 : ℕ) : ℤ) = m + 1 + n + 1 by push_cast; ring]
    refine le_trans ?_ s
    have r := rate_nonneg (m + 1 + n) (by omega)
    have l := monthLen_ge (y := (m + 1 + n - 1) / 12) (m := (m + 1 + n - 1) % 12 + 1) (by omega) (by omega)
    have l' := monthStart_next (m + 1 + n)
    have q' : monthStart (m + 1 + n) ≤ monthStart (m + 1 + n + 1) := by omega
    have q : ((monthStart (m + 1 + n) : ℤ) : ℚ) ≤ monthStart (m + 1 + n + 1) := Int.cast_le.mpr q'
    unfold Step.value
    have := mul_le_mul_of_nonneg_right (sub_le_sub_right q (datRow (m + 1 + n)).step.origin) r
    linarith

/-- Early values are below 3, late ones above 4. -/
theorem early_late (m m' : ℤ) (h : 23521 ≤ m) (h1 : m ≤ 23545) (h2 : 23619 ≤ m') :
    (datRow m).step.value (monthStart (m + 1)) ≤ 3 ∧ 4 ≤ (datRow m').step.value (monthStart m') := by
  refine ⟨datRow_table (fun m r => r.step.value (monthStart (m + 1)) ≤ 3) 23521 25 (by decide +kernel) m h (by omega), ?_⟩
  by_cases hl : 23665 < m'
  · obtain ⟨e, n, n1, -, en⟩ := datRow_integer m' hl
    unfold DatData.step Step.value
    rw [e, en]
    have : (10 : ℚ) ≤ n := by exact_mod_cast n1
    simp only [Option.getD_none]
    linarith
  · exact datRow_table (fun m r => 4 ≤ r.step.value (monthStart m)) 23619 47 (by decide +kernel) m' h2 (by omega)

/-- The value of a later moment is at most a tenth of a second less, and from March 1968 on it is not less. -/
theorem value_order {m m' : ℤ} (h : 23521 ≤ m) (hm : m ≤ m') {T T' : ℝ} (ht : T ≤ T') (hT : T ≤ monthStart (m + 1))
    (hT' : (monthStart m' : ℝ) ≤ T') :
    stepAt (datRow m).step T - 0.1 ≤ stepAt (datRow m').step T' ∧
      (23619 ≤ m → stepAt (datRow m).step T ≤ stepAt (datRow m').step T') := by
  rcases eq_or_lt_of_le hm with e | hlt
  · rw [← e]
    have := stepAt_mono _ (rate_nonneg m h) ht
    exact ⟨by linarith, fun _ => this⟩
  · have a1 := stepAt_mono _ (rate_nonneg m h) hT
    have a2 := stepAt_mono _ (rate_nonneg m' (by omega)) hT'
    rw [stepAt_cast] at a1 a2
    have c := chain m h (m' - m - 1).toNat
    rw [show m + 1 + ((m' - m - 1).toNat : ℤ) = m' by omega] at c
    constructor
    · by_cases hx : m ≤ 23545 ∧ 23619 ≤ m'
      · obtain ⟨l1, l2⟩ := early_late m m' h hx.1 hx.2
        have l1' : (((datRow m).step.value (monthStart (m + 1)) : ℚ) : ℝ) ≤ 3 := by exact_mod_cast l1
        have l2' : (4 : ℝ) ≤ (((datRow m').step.value (monthStart m') : ℚ) : ℝ) := by exact_mod_cast l2
        linarith
      · have : (datRow m).step.value (monthStart (m + 1)) - 1 / 10 ≤ (datRow m').step.value (monthStart m') := by
          unfold backSum at c
          split_ifs at c <;> norm_num at c ⊢ <;> first | linarith | omega
        have := (Rat.cast_le (K := ℝ)).mpr this
        push_cast at this
        norm_num at a1 a2 this ⊢
        linarith
    · intro h9
      have : (datRow m).step.value (monthStart (m + 1)) ≤ (datRow m').step.value (monthStart m') := by
        unfold backSum at c
        split_ifs at c <;> linarith
      have := (Rat.cast_le (K := ℝ)).mpr this
      linarith

/-- The value in exact arithmetic. -/
theorem deltaAt_stepAt (p : Profile) (d : GregorianDate) (hd : IsDate d.civil) (hy : 1960 ≤ d.year) (hy' : d.year ≤ 178956969)
    (f : ℝ) (h0 : 0 ≤ f) (h1 : f ≤ 1) :
    deltaAt p d f = .ok (.ok (some (stepAt (datRow (monthNo d.year d.month)).step (mjdN d.year d.month d.day + f)))) := by
  have hm1 : 1 ≤ d.month := hd.1
  have hm2 : d.month ≤ 12 := hd.2.1
  rw [deltaAt_some p d f (by simp [h0, h1]) hy hy' ⟨hm1, hm2⟩]
  by_cases hc : monthNo d.year d.month ≤ 23665
  · obtain ⟨o, r, e, -⟩ := datRow_drift _ (by unfold monthNo; omega) hc
    have hyy : d.year ≤ 1972 := by unfold monthNo at hc; omega
    rw [e]
    simp only
    unfold GregorianDate.toJulian
    rw [toJulianDay_ok p d hd (by omega) ((marchYear_le _).trans (by omega))]
    simp only [ok_bind]
    unfold DatData.step stepAt
    rw [e]
    simp
    rfl
  · obtain ⟨e, -⟩ := datRow_integer (monthNo d.year d.month) (by omega)
    rw [e]
    unfold DatData.step stepAt
    rw [e]
    simp

theorem date_year_le {d d' : GregorianDate} (hd : IsDate d.civil) (hd' : IsDate d'.civil)
    (h : mjdN d.year d.month d.day ≤ mjdN d'.year d'.month d'.day) : monthNo d.year d.month ≤ monthNo d'.year d'.month := by
  by_contra hn
  have := mjdN_mono d'.civil d.civil hd' hd (by
    have h1 := hd.1; have h2 := hd.2.1; have h3 := hd'.1; have h4 := hd'.2.1
    simp only [GregorianDate.civil] at h1 h2 h3 h4
    unfold monthNo at hn
    simp only [Before, GregorianDate.civil]
    omega)
  simp only [GregorianDate.civil] at this
  omega

/-- **C110.** In exact arithmetic, for two accepted dates from 1960 on with their fractions of the day, `N` and `N'` being the
numbers of the days and the moment `N + f` not after `N' + f'`: TAI − UTC has gone back by at most a tenth of a second, so of two
UTC moments more than a tenth of a second apart the later one is later in TAI also. From March 1968 on TAI − UTC never goes back,
and the order is the same however close the moments are. -/
theorem C110_tai_order (p p' : Profile) (d d' : GregorianDate) (hd : GregorianDate.new d.year d.month d.day = .ok d)
    (hd' : GregorianDate.new d'.year d'.month d'.day = .ok d') (hy : 1960 ≤ d.year) (hy' : d'.year ≤ 178956969)
    (N N' : ℤ) (hN : DaysFrom mjdEpoch d.civil N) (hN' : DaysFrom mjdEpoch d'.civil N') (f f' : ℝ)
    (f0 : 0 ≤ f) (f1 : f ≤ 1) (f0' : 0 ≤ f') (f1' : f' ≤ 1) (hle : (N + f : ℝ) ≤ N' + f') (hs : N ≤ N')
    (u u' : ℝ × ℝ) (hu : u.1 + u.2 = 2400000.5 + (N + f)) (hu' : u'.1 + u'.2 = 2400000.5 + (N' + f')) :
    ∃ x x' : ℝ, deltaAt p d f = .ok (.ok (some x)) ∧ deltaAt p' d' f' = .ok (.ok (some x')) ∧ x - 0.1 ≤ x' ∧
      (0.1 / 86400 < (N' + f' : ℝ) - (N + f) → total (TAI.fromUTC u x) < total (TAI.fromUTC u' x')) ∧
      (monthNo 1968 2 < monthNo d.year d.month → x ≤ x' ∧
        ((N + f : ℝ) < N' + f' → total (TAI.fromUTC u x) < total (TAI.fromUTC u' x'))) := by
  obtain ⟨-, i⟩ := (accepted_iff d).mp hd
  obtain ⟨-, i'⟩ := (accepted_iff d').mp hd'
  have e := daysFrom_unique _ _ mjdEpoch_isDate i N hN
  have e' := daysFrom_unique _ _ mjdEpoch_isDate i' N' hN'
  rw [mjdN_epoch, sub_zero] at e e'
  simp only [GregorianDate.civil] at e e'
  have hmm := date_year_le i i' (by omega)
  have b := i.1; have b2 := i.2.1; have b3 := i'.1; have b4 := i'.2.1
  simp only [GregorianDate.civil] at b b2 b3 b4
  have hy2 : d.year ≤ 178956969 := by unfold monthNo at hmm; omega
  have hy3 : 1960 ≤ d'.year := by unfold monthNo at hmm; omega
  obtain ⟨-, s1⟩ := monthStart_le i
  obtain ⟨s2, -⟩ := monthStart_le i'
  simp only [GregorianDate.civil] at s1 s2
  rw [← e] at s1
  rw [← e'] at s2
  have s1' : ((N : ℝ) + 1) ≤ monthStart (monthNo d.year d.month + 1) := by exact_mod_cast s1
  have s2' : (monthStart (monthNo d'.year d'.month) : ℝ) ≤ N' := by exact_mod_cast s2
  obtain ⟨v1, v2⟩ := value_order (m := monthNo d.year d.month) (m' := monthNo d'.year d'.month) (T := N + f) (T' := N' + f')
    (by unfold monthNo; omega) hmm hle (by linarith) (by linarith)
  have tot : ∀ (u : ℝ × ℝ) (x : ℝ), total (TAI.fromUTC u x) = u.1 + u.2 + x / 86400 := fun u x => C23_utc_to_tai_exact u x
  refine ⟨_, _, deltaAt_stepAt p d i hy hy2 f f0 f1, deltaAt_stepAt p' d' i' hy3 hy' f' f0' f1', ?_, fun hgt => ?_, fun h9 => ?_⟩
  · rw [← e, ← e']; exact v1
  · rw [← e, ← e', tot, tot, hu, hu']
    norm_num at hgt v1 ⊢
    linarith
  · have h9' : 23619 ≤ monthNo d.year d.month := by
      have : monthNo 1968 2 = 23618 := by decide
      omega
    have v := v2 h9'
    rw [← e, ← e']
    refine ⟨v, fun hlt => ?_⟩
    rw [tot, tot, hu, hu']
    linarith

/-- The hypotheses hold for the evening of 29 February 1968 and the next morning. -/
example : GregorianDate.new 1968 2 29 = .ok ⟨1968, 2, 29⟩ ∧ GregorianDate.new 1968 3 1 = .ok ⟨1968, 3, 1⟩ ∧
    DaysFrom mjdEpoch (1968, 2, 29) 39915 ∧ DaysFrom mjdEpoch (1968, 3, 1) 39916 ∧ (39915 + 0.75 : ℝ) ≤ 39916 + 0.25 :=
  ⟨by decide, by decide, daysFrom_mjdN mjdEpoch _ mjdEpoch_isDate (by decide), daysFrom_mjdN mjdEpoch _ mjdEpoch_isDate (by decide),
    by norm_num⟩

/-- The value of a result that is one. -/
def datOf (r : Rust (Except DeltaAtError (Option F64))) : F64 :=
  match r with
  | .ok (.ok (some x)) => x
  | _ => .nan

/-- **C110, the tenth of a second.** The exception is real: for a moment eight hundredths of a second before the end of
29 February 1968 the binary64 code returns a later TAI than for the beginning of the next day. -/
theorem C110_order_reversed (p : Profile) : ∃ (f : F64) (q : ℚ) (x x' : F64), Is f q ∧ q < 1 ∧ 0.08 < (1 - q) * 86400 ∧
    deltaAt p ⟨1968, 2, 29⟩ f = .ok (.ok (some x)) ∧ deltaAt p ⟨1968, 3, 1⟩ (lit 0 : F64) = .ok (.ok (some x')) ∧
    ((lit 39915 +. f) <. (lit 39916 : F64)) = true ∧
    ((TAI.fromUTC (lit 2400000.5, lit 39916) x').2 <. (TAI.fromUTC (lit 2400000.5, lit 39915 +. f) x).2) = true := by
  refine ⟨lit (1 - 1 / 2 ^ 20), 1 - 1 / 2 ^ 20, datOf (deltaAt p ⟨1968, 2, 29⟩ (lit (1 - 1 / 2 ^ 20))),
    datOf (deltaAt p ⟨1968, 3, 1⟩ (lit 0)), ?_, by norm_num, by norm_num, ?_⟩
  · refine Is.lit_exact _ ?_ (small_le_HUGE (by norm_num))
    have := RepQ.dyadic 1048575 20 (by norm_num) (by norm_num)
    norm_num at this ⊢
    exact this
  · cases p <;> decide +kernel

/-- **C110 in binary64.** For two dates as in `C110_tai_order` and finite binary64 fractions of the day, the computed TAI − UTC has
gone back by at most a tenth of a second and `2^-44` of rounding. -/
theorem C110_tai_order_f64 (p p' : Profile) (d d' : GregorianDate) (hd : GregorianDate.new d.year d.month d.day = .ok d)
    (hd' : GregorianDate.new d'.year d'.month d'.day = .ok d') (hy : 1960 ≤ d.year) (hy' : d'.year ≤ 178956969)
    (N N' : ℤ) (hN : DaysFrom mjdEpoch d.civil N) (hN' : DaysFrom mjdEpoch d'.civil N') (f f' : F64) (q q' : ℚ)
    (hf : Is f q) (hf' : Is f' q') (f0 : 0 ≤ q) (f1 : q ≤ 1) (f0' : 0 ≤ q') (f1' : q' ≤ 1) (hle : N + q ≤ N' + q') (hs : N ≤ N') :
    ∃ (x x' : F64) (r r' : ℚ), deltaAt p d f = .ok (.ok (some x)) ∧ deltaAt p' d' f' = .ok (.ok (some x')) ∧ Is x r ∧ Is x' r' ∧
      r - 0.1 - 1 / 2 ^ 44 ≤ r' ∧ (monthNo 1968 2 < monthNo d.year d.month → r - 1 / 2 ^ 44 ≤ r') := by
  have hle' : ((N : ℝ) + q) ≤ N' + q' := by exact_mod_cast hle
  obtain ⟨y, y', a1, a2, a3, -, a4⟩ := C110_tai_order p p' d d' hd hd' hy hy' N N' hN hN' q q' (by exact_mod_cast f0)
    (by exact_mod_cast f1) (by exact_mod_cast f0') (by exact_mod_cast f1') hle' hs (2400000.5, N + q) (2400000.5, N' + q') rfl rfl
  obtain ⟨-, i⟩ := (accepted_iff d).mp hd
  obtain ⟨-, i'⟩ := (accepted_iff d').mp hd'
  have e := daysFrom_unique _ _ mjdEpoch_isDate i N hN
  have e' := daysFrom_unique _ _ mjdEpoch_isDate i' N' hN'
  rw [mjdN_epoch, sub_zero] at e e'
  simp only [GregorianDate.civil] at e e'
  have hmm := date_year_le i i' (by omega)
  have b := i.1; have b2 := i.2.1; have b3 := i'.1; have b4 := i'.2.1
  simp only [GregorianDate.civil] at b b2 b3 b4
  have hy2 : d.year ≤ 178956969 := by unfold monthNo at hmm; omega
  have hy3 : 1960 ≤ d'.year := by unfold monthNo at hmm; omega
  rw [deltaAt_stepAt p d i hy hy2 _ (by exact_mod_cast f0) (by exact_mod_cast f1)] at a1
  rw [deltaAt_stepAt p' d' i' hy3 hy' _ (by exact_mod_cast f0') (by exact_mod_cast f1')] at a2
  obtain ⟨v, hv, r, hr, er⟩ := deltaAt_row p d f q i hy hy2 hf f0 f1
  obtain ⟨v', hv', r', hr', er'⟩ := deltaAt_row p' d' f' q' i' hy3 hy' hf' f0' f1'
  have c : ∀ (s : Step) (n : ℤ) (q : ℚ), ((s.value (n + q) : ℚ) : ℝ) = stepAt s (n + q) := by
    intro s n q; unfold Step.value stepAt; push_cast; ring
  rw [c, Option.some.inj (Except.ok.inj (Except.ok.inj a1))] at er
  rw [c, Option.some.inj (Except.ok.inj (Except.ok.inj a2))] at er'
  rw [abs_le] at er er'
  push_cast at er er'
  refine ⟨v, v', r, r', hv, hv', hr, hr', ?_, fun h9 => ?_⟩
  · have : (r : ℝ) - 0.1 - 1 / 2 ^ 44 ≤ r' := by norm_num at er er' a3 ⊢; linarith
    refine (Rat.cast_le (K := ℝ)).mp ?_
    push_cast
    norm_num at this ⊢
    exact this
  · have k := (a4 h9).1
    have : (r : ℝ) - 1 / 2 ^ 44 ≤ r' := by norm_num at er er' ⊢; linarith
    refine (Rat.cast_le (K := ℝ)).mp ?_
    push_cast
    exact this

/-- The hypotheses hold for two moments of the evening of 31 December 2016 and the next day. -/
example : GregorianDate.new 2016 12 31 = .ok ⟨2016, 12, 31⟩ ∧ GregorianDate.new 2017 1 1 = .ok ⟨2017, 1, 1⟩ ∧
    DaysFrom mjdEpoch (2016, 12, 31) 57753 ∧ DaysFrom mjdEpoch (2017, 1, 1) 57754 ∧ (∃ f : F64, Is f (1 : ℤ)) ∧ (∃ f : F64, Is f (0 : ℤ)) :=
  ⟨by decide, by decide, daysFrom_mjdN mjdEpoch _ mjdEpoch_isDate (by decide), daysFrom_mjdN mjdEpoch _ mjdEpoch_isDate (by decide),
    ⟨lit 1, by have := Is.lit_int 1 (by norm_num); norm_num at this ⊢; exact this⟩,
    ⟨lit 0, by have := Is.lit_int 0 (by norm_num); norm_num at this ⊢; exact this⟩⟩

/-- **C110 in binary64, the pairs.** Of two UTC pairs with the same first part and a TAI − UTC which has not gone back, the TAI of the
later one is not earlier: rounding never reverses the order. -/
theorem C110_pairs_f64 (x y y' d d' : F64) (a b b' q q' : ℚ) (hx : Is x a) (hy : Is y b) (hy' : Is y' b') (hd : Is d q)
    (hd' : Is d' q') (ha : |a| ≤ 2 ^ 100) (hb : |b| ≤ 2 ^ 100) (hb' : |b'| ≤ 2 ^ 100) (hq : |q| ≤ 2 ^ 100) (hq' : |q'| ≤ 2 ^ 100)
    (hle : b ≤ b') (hlt : b' < a) (hqq : q ≤ q') :
    ∃ (z z' : F64) (r r' : ℚ), TAI.fromUTC (x, y) d = (x, z) ∧ TAI.fromUTC (x, y') d' = (x, z') ∧ Is z r ∧ Is z' r' ∧ r ≤ r' := by
  obtain ⟨z, r, e1, e2, e3, -⟩ := (C23_utc_to_tai_f64 x y d a b q hx hy hd ha hb hq).1 (hle.trans_lt hlt)
  obtain ⟨z', r', g1, g2, g3, -⟩ := (C23_utc_to_tai_f64 x y' d' a b' q' hx hy' hd' ha hb' hq').1 hlt
  refine ⟨z, z', r, r', e1, g1, e2, g2, ?_⟩
  rw [e3, g3]
  exact RN_mono (add_le_add hle (RN_mono (by gcongr)))

example : Is (lit (2451545 : ℤ) : F64) (2451545 : ℤ) ∧ Is (lit (-5 : ℤ) : F64) (-5 : ℤ) ∧ Is (lit (7 : ℤ) : F64) (7 : ℤ) ∧
    Is (lit (36 : ℤ) : F64) (36 : ℤ) ∧ Is (lit (37 : ℤ) : F64) (37 : ℤ) :=
  ⟨Is.lit_int _ (by norm_num), Is.lit_int _ (by norm_num), Is.lit_int _ (by norm_num), Is.lit_int _ (by norm_num), Is.lit_int _ (by norm_num)⟩

end Verif
