import Verif.Lemmas.DeltaAt
import Verif.Props.FromJulian
import Verif.Float.Near

/-!
# `delta_at`: C18 - C21
-/

namespace Verif
open Arith F64 Spec

section
variable {α : Type} [Arith α]

theorem deltaAt_bad (p : Profile) (d : GregorianDate) (fd : α)
    (h : (fd <. lit 0 || lit 1 <. fd) = true) : deltaAt p d fd = .ok (.error .badFract) := by
  unfold deltaAt; rw [if_pos h]

theorem deltaAt_none (p : Profile) (d : GregorianDate) (fd : α)
    (h : ¬ (fd <. lit 0 || lit 1 <. fd) = true) (hy : d.year < 1960) :
    deltaAt p d fd = .ok (.ok none) := by
  unfold deltaAt; rw [if_neg h, if_pos (show d.year < (DAT_DATA[0]'(by decide)).year from hy)]

theorem deltaAt_some (p : Profile) (d : GregorianDate) (fd : α)
    (h : ¬ (fd <. lit 0 || lit 1 <. fd) = true) (hy : 1960 ≤ d.year) (hy' : d.year ≤ 178956969)
    (hm : 1 ≤ d.month ∧ d.month ≤ 12) :
    deltaAt p d fd = (match (datRow (monthNo d.year d.month)).drift with
      | none => .ok (.ok (some (lit (datRow (monthNo d.year d.month)).dat)))
      | some (d0, d1) => do
        let (_, djm) ← GregorianDate.toJulian (α := α) p d
        return .ok (some (lit (datRow (monthNo d.year d.month)).dat +.
          ((djm +. fd) -. lit d0) *. lit d1))) := by
  have hy0 : ¬ d.year < (DAT_DATA[0]'(by decide)).year := by
    have : (DAT_DATA[0]'(by decide)).year = 1960 := by decide
    rw [this]; omega
  unfold deltaAt
  rw [if_neg h, if_neg hy0, I32.mul_ok (by omega) (by omega)]
  simp only [ok_bind]
  rw [I32.add_ok (by omega) (by omega)]
  simp only [ok_bind]
  unfold monthNo
  cases (datRow (12 * d.year + d.month)).drift with
  | none => rfl
  | some q => rfl
end

/-- **C18.** `delta_at` reports `BadFract` exactly when the fraction compares below 0 or above 1, and
otherwise `Ok(None)` exactly for years before 1960; for every date (also one that no constructor would
accept), every `f64` and both build profiles. -/
theorem C18_delta_at_errors (p : Profile) (d : GregorianDate) (fd : F64) :
    (deltaAt p d fd = .ok (.error .badFract) ↔ (fd <. lit 0) = true ∨ (lit 1 <. fd) = true) ∧
    (deltaAt p d fd = .ok (.ok none) ↔
      ¬ ((fd <. lit 0) = true ∨ (lit 1 <. fd) = true) ∧ d.year < 1960) := by
  by_cases h : (fd <. lit 0 || lit 1 <. fd) = true
  · rw [deltaAt_bad p d fd h]
    have h' := h
    rw [Bool.or_eq_true] at h'
    exact ⟨⟨fun _ => h', fun _ => rfl⟩, ⟨nofun, fun e => absurd h' e.1⟩⟩
  · have h' := h
    rw [Bool.or_eq_true] at h'
    by_cases hy : d.year < 1960
    · rw [deltaAt_none p d fd h hy]
      exact ⟨⟨nofun, fun e => absurd e h'⟩, ⟨fun _ => ⟨h', hy⟩, fun _ => rfl⟩⟩
    · have key : ∀ r, deltaAt p d fd = r → r ≠ .ok (.error .badFract) ∧ r ≠ .ok (.ok none) := by
        intro r hr
        unfold deltaAt at hr
        rw [if_neg h, if_neg (show ¬ d.year < (DAT_DATA[0]'(by decide)).year from hy)] at hr
        cases h1 : I32.mul p 12 d.year with
        | error e => rw [h1] at hr; rw [← hr]; exact ⟨nofun, nofun⟩
        | ok a =>
          rw [h1] at hr
          simp only [ok_bind] at hr
          cases h2 : I32.add p a d.month with
          | error e => rw [h2] at hr; rw [← hr]; exact ⟨nofun, nofun⟩
          | ok b =>
            rw [h2] at hr
            simp only [ok_bind] at hr
            cases h3 : (datRow b).drift with
            | none => rw [h3] at hr; rw [← hr]; exact ⟨nofun, nofun⟩
            | some q =>
              rw [h3] at hr
              simp only at hr
              cases h4 : GregorianDate.toJulian (α := F64) p d with
              | error e => rw [h4] at hr; rw [← hr]; exact ⟨nofun, nofun⟩
              | ok c => rw [h4] at hr; rw [← hr]; exact ⟨nofun, nofun⟩
      obtain ⟨k1, k2⟩ := key _ rfl
      exact ⟨⟨fun e => absurd e k1, fun e => absurd e h'⟩, ⟨fun e => absurd e k2,
        fun e => absurd e.2 hy⟩⟩

/-- **C18**, for finite fractions the comparisons are those of the numbers. -/
theorem C18_bad_fract_value (p : Profile) (d : GregorianDate) (fd : F64) (hf : isFin fd = true) :
    deltaAt p d fd = .ok (.error .badFract) ↔ fd.v < 0 ∨ 1 < fd.v := by
  rw [(C18_delta_at_errors p d fd).1]
  have h := Is.self hf
  have h0 : Is (lit 0 : F64) 0 := by
    have := Is.lit_int 0 (by norm_num); push_cast at this; exact this
  have h1 : Is (lit 1 : F64) 1 := by
    have := Is.lit_int 1 (by norm_num); push_cast at this; exact this
  rw [Is.lt h h0, Is.lt h1 h]
  simp

-- both outcomes occur, and NaN is accepted as a fraction
example : deltaAt .checked ⟨2020, 1, 1⟩ (lit 2 : F64) = .ok (.error .badFract) := by decide +kernel
example : deltaAt .checked ⟨1959, 12, 31⟩ (lit 0.5 : F64) = .ok (.ok none) := by decide +kernel
example : deltaAt .checked ⟨1959, 12, 31⟩ (F64.nan) = .ok (.ok none) := by decide +kernel

/-- Fraction accepted by the range check. -/
theorem fract_ok {fd : F64} {f : ℚ} (h : Is fd f) (h0 : 0 ≤ f) (h1 : f ≤ 1) :
    ¬ (fd <. lit 0 || lit 1 <. fd) = true := by
  have z : Is (lit 0 : F64) 0 := by
    have := Is.lit_int 0 (by norm_num); push_cast at this; exact this
  have o : Is (lit 1 : F64) 1 := by
    have := Is.lit_int 1 (by norm_num); push_cast at this; exact this
  rw [Bool.or_eq_true, Is.lt h z, Is.lt o h]
  simp only [decide_eq_true_eq]
  intro h; rcases h with h | h <;> linarith

/-- The `f64` value returned is that of the selected row, to within `2^-45` s. -/
theorem deltaAt_row (p : Profile) (d : GregorianDate) (fd : F64) (f : ℚ) (hd : IsDate d.civil)
    (hy : 1960 ≤ d.year) (hy' : d.year ≤ 178956969) (h : Is fd f) (h0 : 0 ≤ f) (h1 : f ≤ 1) :
    ∃ v : F64, deltaAt p d fd = .ok (.ok (some v)) ∧
      Near v ((datRow (monthNo d.year d.month)).step.value (mjdN d.year d.month d.day + f) : ℚ)
        ((1 / 2 ^ 45 : ℚ) : ℝ) := by
  suffices ∃ v : F64, deltaAt p d fd = .ok (.ok (some v)) ∧
      Near v ((datRow (monthNo d.year d.month)).step.value (mjdN d.year d.month d.day + f) : ℚ)
        (1 / 2 ^ 45) by simpa using this
  obtain ⟨y, m, dd⟩ := d
  have hd' := hd
  obtain ⟨hm1, hm2, hd1, hd2⟩ := hd'
  simp only [GregorianDate.civil] at hm1 hm2 hd1 hd2 hy hy' ⊢
  rw [deltaAt_some p _ fd (fract_ok h h0 h1) hy hy' ⟨hm1, hm2⟩]
  simp only
  by_cases hc : monthNo y m ≤ 23665
  · obtain ⟨o, r, e, ho, hr0, hr1, hq0, hq1⟩ := datRow_drift (monthNo y m)
      (by unfold monthNo; omega) hc
    have hyy : y ≤ 1972 := by unfold monthNo at hc; omega
    obtain ⟨a, b, ej, _, hb⟩ := toJulian_f64 p ⟨y, m, dd⟩ hd (by simp only; omega)
      ((marchYear_le _).trans (by simp only; omega))
    rw [e]
    simp only
    rw [ej]
    refine ⟨_, rfl, ?_⟩
    simp only at hb
    have hN : 36900 ≤ mjdN y m dd ∧ mjdN y m dd ≤ 41800 := by
      have hc := mjdN_cases y m dd
      have := monthLen_le y m
      constructor <;> omega
    have hN1 : (36900 : ℝ) ≤ (mjdN y m dd : ℤ) := by exact_mod_cast hN.1
    have hN2 : ((mjdN y m dd : ℤ) : ℝ) ≤ 41800 := by exact_mod_cast hN.2
    have f0 : (0 : ℝ) ≤ f := by exact_mod_cast h0
    have f1 : (f : ℝ) ≤ 1 := by exact_mod_cast h1
    have r0 : (0 : ℝ) ≤ r := by exact_mod_cast hr0
    have r1 : (r : ℝ) ≤ 26 / 10000 := by
      have := (Rat.cast_le (K := ℝ)).mpr hr1
      push_cast at this; exact this
    have o1 : (37300 : ℝ) ≤ o := by
      rcases ho with rfl | rfl | rfl | rfl <;> norm_num
    have o2 : (o : ℝ) ≤ 39126 := by
      rcases ho with rfl | rfl | rfl | rfl <;> norm_num
    have ois : Is (lit o : F64) o := by
      rcases ho with rfl | rfl | rfl | rfl
      · have := Is.lit_int 37300 (by norm_num); push_cast at this; exact this
      · have := Is.lit_int 37665 (by norm_num); push_cast at this; exact this
      · have := Is.lit_int 38761 (by norm_num); push_cast at this; exact this
      · have := Is.lit_int 39126 (by norm_num); push_cast at this; exact this
    have q0 : (0 : ℝ) ≤ (datRow (monthNo y m)).dat := by exact_mod_cast hq0
    have q1 : ((datRow (monthNo y m)).dat : ℝ) ≤ 5 := by exact_mod_cast hq1
    generalize eq : (datRow (monthNo y m)).dat = q at *
    have s1 := ((Near.of_is hb).add (Near.of_is h) (M := 41801)
      (by push_cast; rw [abs_of_nonneg (by linarith)]; linarith) (by norm_num)).mono
      (show _ ≤ (5 / 10 ^ 12 : ℝ) by norm_num)
    have b2 : |((mjdN y m dd : ℚ) : ℝ) + f - o| ≤ 4502 := by
      push_cast; rw [abs_le]; constructor <;> linarith
    have s2 := (s1.sub (Near.of_is ois) (M := 4503)
      (by linarith) (by norm_num)).mono (show _ ≤ (6 / 10 ^ 12 : ℝ) by norm_num)
    have b3 : |(r : ℝ)| ≤ 26 / 10000 := by rw [abs_of_nonneg r0]; exact r1
    have s3 := (Near.lit r b3 (by norm_num)).mono (show _ ≤ (3 / 10 ^ 19 : ℝ) by norm_num)
    have s4 := (s2.mul s3 b2 b3 (d := 171 / 10 ^ 16) (M := 12) (by norm_num)
      (by norm_num) (by norm_num)).mono (show _ ≤ (186 / 10 ^ 16 : ℝ) by norm_num)
    have b5 : |(q : ℝ)| ≤ 5 := by rw [abs_of_nonneg q0]; exact q1
    have s5 := (Near.lit q b5 (by norm_num)).mono (show _ ≤ (6 / 10 ^ 16 : ℝ) by norm_num)
    have b6 : |(((mjdN y m dd : ℚ) : ℝ) + f - o) * r| ≤ 4502 * (26 / 10000) := by
      rw [abs_mul]; exact mul_le_mul b2 b3 (abs_nonneg _) (by norm_num)
    have s6 := (s5.add s4 (M := 17) ((add_le_add_left (add_le_add_left
      ((abs_add_le _ _).trans (add_le_add b5 b6)) _) _).trans (by norm_num)) (by norm_num)).mono
      (show _ ≤ (1 / 2 ^ 45 : ℝ) by norm_num)
    refine s6.congr ?_
    unfold Step.value DatData.step
    rw [e, eq]
    push_cast
    simp only [Option.getD_some]
  · obtain ⟨e, n, hn1, hn2, en⟩ := datRow_integer (monthNo y m) (by omega)
    rw [e]
    refine ⟨_, rfl, ?_⟩
    have : ((datRow (monthNo y m)).step.value (mjdN y m dd + f)) = (n : ℤ) := by
      unfold Step.value DatData.step
      rw [e, en]; simp
    rw [this, en]
    have hl := Is.lit_int (n : ℤ) (by rw [abs_of_nonneg (by positivity)]; push_cast; norm_num; omega)
    exact (Near.of_is hl).mono (by positivity)

/-- **C19.** Months without a step: the value returned is that of the published step in force
(to within `2^-45` s, and exactly from 1972 on, see C20/C21).  `N` is the day count of the date. -/
theorem C19_delta_at_in_force_partial (p : Profile) (d : GregorianDate) (fd : F64) (f : ℚ)
    (hd : GregorianDate.new d.year d.month d.day = .ok d)
    (hy : 1960 ≤ d.year) (hy' : d.year ≤ 178956969) (h : Is fd f) (h0 : 0 ≤ f) (h1 : f ≤ 1)
    (hs : ¬ HasStep d.year d.month) :
    ∃ (v : F64) (x : ℚ) (e : Step) (N : ℤ), deltaAt p d fd = .ok (.ok (some v)) ∧ Is v x ∧
      InForce e d.year d.month ∧ DaysFrom mjdEpoch d.civil N ∧ |x - e.value (N + f)| ≤ 1 / 2 ^ 45 := by
  obtain ⟨_, hd'⟩ := (accepted_iff d).mp hd
  obtain ⟨v, hv, hvn⟩ := deltaAt_row p d fd f hd' hy hy' h h0 h1
  obtain ⟨x, hx, hn⟩ := hvn.rat
  have hm : 1 ≤ d.month := hd'.1
  have hne : monthNo d.year d.month ≠ 23521 := fun e => hs ⟨⟨1960, 1, 1.417818, 37300.0, 0.001296⟩,
    by decide +kernel, by rw [e]; decide⟩
  have hgt : 23521 < monthNo d.year d.month := by unfold monthNo at hne ⊢; omega
  obtain ⟨p1, p2, p3⟩ := datRow_prev _ hgt
  refine ⟨v, x, _, _, hv, hx, ⟨p1, by omega, fun e' he' hle => p3 e' he' ?_⟩, daysFrom_epoch hd',
    hn⟩
  have : monthNo e'.year e'.month ≠ monthNo d.year d.month := fun e => hs ⟨e', he', e⟩
  omega

/-- **C19**, refuted: a step does *not* take effect on the first day of its month.  In every month
with a step (other than the first, January 1960) the value returned is that of the step in force in
the *previous* month. -/
theorem C19_step_month_uses_previous (p : Profile) (d : GregorianDate) (fd : F64) (f : ℚ)
    (hd : GregorianDate.new d.year d.month d.day = .ok d)
    (hy : 1960 ≤ d.year) (hy' : d.year ≤ 178956969) (h : Is fd f) (h0 : 0 ≤ f) (h1 : f ≤ 1)
    (hs : HasStep d.year d.month) (hne : monthNo d.year d.month ≠ monthNo 1960 1) :
    ∃ (v : F64) (x : ℚ) (e : Step) (N y' m' : ℤ), deltaAt p d fd = .ok (.ok (some v)) ∧ Is v x ∧
      monthNo y' m' + 1 = monthNo d.year d.month ∧ InForce e y' m' ∧ ¬ InForce e d.year d.month ∧
      DaysFrom mjdEpoch d.civil N ∧ |x - e.value (N + f)| ≤ 1 / 2 ^ 45 := by
  obtain ⟨_, hd'⟩ := (accepted_iff d).mp hd
  obtain ⟨v, hv, hvn⟩ := deltaAt_row p d fd f hd' hy hy' h h0 h1
  obtain ⟨x, hx, hn⟩ := hvn.rat
  have hm : 1 ≤ d.month := hd'.1
  have hgt : 23521 < monthNo d.year d.month := by unfold monthNo at hne ⊢; omega
  obtain ⟨p1, p2, p3⟩ := datRow_prev _ hgt
  obtain ⟨y', m', _, _, e'⟩ := monthNo_split (monthNo d.year d.month - 1)
  refine ⟨v, x, _, _, y', m', hv, hx, by omega, ⟨p1, by omega, fun e'' he'' hle =>
    p3 e'' he'' (by omega)⟩, ?_, daysFrom_epoch hd', hn⟩
  rintro ⟨_, _, hall⟩
  obtain ⟨e0, he0, h0'⟩ := hs
  have := hall e0 he0 (by omega)
  omega

theorem late_table (m : ℤ) (h : 23665 < m) (hs : ∃ e ∈ steps, monthNo e.year e.month = m) :
    ∃ e ∈ steps, monthNo e.year e.month = m ∧ e.rate = 0 ∧ e.offset = (datRow m).dat + 1 := by
  have hl : m ≤ 24205 := by
    obtain ⟨e, he, rfl⟩ := hs
    have h3 : ∀ e ∈ steps, monthNo e.year e.month ≤ 24205 := by decide +kernel
    exact h3 e he
  have := datRow_table (fun m r => (∃ e ∈ steps, monthNo e.year e.month = m) →
    ∃ e ∈ steps, monthNo e.year e.month = m ∧ e.rate = 0 ∧ e.offset = r.dat + 1) 23666 540
      (by decide +kernel) m (by omega) (by omega)
  exact this hs

/-- **C19**, refuted for leap seconds: in every month from 1972-02 on in which a leap second takes
effect, on every day and at every fraction of the day, `delta_at` returns exactly one second less than
the published value. -/
theorem C19_leap_second_one_month_late (p : Profile) (d : GregorianDate) (fd : F64)
    (hd : GregorianDate.new d.year d.month d.day = .ok d) (hy' : d.year ≤ 178956969)
    (hl : monthNo 1972 1 < monthNo d.year d.month) (hs : HasStep d.year d.month)
    (h : ¬ ((fd <. lit 0) = true ∨ (lit 1 <. fd) = true)) :
    ∃ (v : F64) (n : ℤ) (e : Step), deltaAt p d fd = .ok (.ok (some v)) ∧ Is v n ∧
      InForce e d.year d.month ∧ ∀ mjd, e.value mjd = n + 1 := by
  obtain ⟨_, hd'⟩ := (accepted_iff d).mp hd
  have hm1 : 1 ≤ d.month := hd'.1
  have hm2 : d.month ≤ 12 := hd'.2.1
  have hy : 1960 ≤ d.year := by unfold monthNo at hl; omega
  obtain ⟨e, n, hn1, hn2, en⟩ := datRow_integer (monthNo d.year d.month) hl
  obtain ⟨e0, he0, hm, hr, ho⟩ := late_table (monthNo d.year d.month) hl hs
  rw [deltaAt_some p _ fd (by rwa [Bool.or_eq_true]) hy hy' ⟨hm1, hm2⟩, e]
  refine ⟨_, n, e0, rfl, ?_, ⟨he0, hm.le, fun e' _ hle => by omega⟩, fun mjd => ?_⟩
  · rw [en]
    have hl := Is.lit_int (n : ℤ) (by rw [abs_of_nonneg (by positivity)]; push_cast; norm_num; omega)
    exact hl
  · unfold Step.value
    rw [hr, ho, en]; push_cast; ring

-- January 2017: 36 s is returned although 37 s has been in force since the first of the month
example : deltaAt .checked ⟨2017, 1, 15⟩ (lit 0.5 : F64) = .ok (.ok (some (lit 36))) := by
  decide +kernel
example : HasStep 2017 1 ∧ InForce ⟨2017, 1, 37, 0, 0⟩ 2017 1 := by decide +kernel
example : ¬ HasStep 2016 6 ∧ ¬ HasStep 1965 5 ∧ HasStep 1965 3 := by decide +kernel

/-- **C20.** From February 1972 on, for every accepted fraction (also NaN), the value returned is an
integer between 10 and 37 that depends only on year and month. -/
theorem C20_delta_at_integer (p : Profile) (d : GregorianDate) (fd : F64)
    (hd : GregorianDate.new d.year d.month d.day = .ok d) (hy' : d.year ≤ 178956969)
    (hl : monthNo 1972 1 < monthNo d.year d.month)
    (h : ¬ ((fd <. lit 0) = true ∨ (lit 1 <. fd) = true)) :
    ∃ (v : F64) (n : ℤ), deltaAt p d fd = .ok (.ok (some v)) ∧ Is v n ∧ 10 ≤ n ∧ n ≤ 37 ∧
      (monthNo 2017 1 < monthNo d.year d.month → n = 37) := by
  obtain ⟨_, hd'⟩ := (accepted_iff d).mp hd
  have hm1 : 1 ≤ d.month := hd'.1
  have hm2 : d.month ≤ 12 := hd'.2.1
  have hy : 1960 ≤ d.year := by unfold monthNo at hl; omega
  obtain ⟨e, n, hn1, hn2, en⟩ := datRow_integer (monthNo d.year d.month) hl
  rw [deltaAt_some p _ fd (by rwa [Bool.or_eq_true]) hy hy' ⟨hm1, hm2⟩, e]
  refine ⟨_, n, rfl, ?_, by omega, by omega, fun hlate => ?_⟩
  · rw [en]
    have hl := Is.lit_int (n : ℤ) (by rw [abs_of_nonneg (by positivity)]; push_cast; norm_num; omega)
    exact hl
  · rw [datRow_late _ hlate] at en
    have : ((n : ℤ) : ℚ) = (37 : ℤ) := by push_cast; rw [← en]; unfold lastRow; norm_num
    exact_mod_cast this

/-- **C20.** From February 1972 on the value never decreases: if `d` is not in a later month than `d'`
the value for `d` is at most that for `d'`, whatever the fractions. -/
theorem C20_delta_at_monotone (p p' : Profile) (d d' : GregorianDate) (fd fd' : F64)
    (hd : GregorianDate.new d.year d.month d.day = .ok d)
    (hd' : GregorianDate.new d'.year d'.month d'.day = .ok d') (hy : d'.year ≤ 178956969)
    (hl : monthNo 1972 1 < monthNo d.year d.month)
    (hle : monthNo d.year d.month ≤ monthNo d'.year d'.month)
    (h : ¬ ((fd <. lit 0) = true ∨ (lit 1 <. fd) = true))
    (h' : ¬ ((fd' <. lit 0) = true ∨ (lit 1 <. fd') = true)) :
    ∃ (v v' : F64) (x x' : ℚ), deltaAt p d fd = .ok (.ok (some v)) ∧
      deltaAt p' d' fd' = .ok (.ok (some v')) ∧ Is v x ∧ Is v' x' ∧ x ≤ x' := by
  obtain ⟨_, i⟩ := (accepted_iff d).mp hd
  obtain ⟨_, i'⟩ := (accepted_iff d').mp hd'
  have hm1 : 1 ≤ d.month := i.1
  have hm2 : d.month ≤ 12 := i.2.1
  have hm1' : 1 ≤ d'.month := i'.1
  have hm2' : d'.month ≤ 12 := i'.2.1
  have hy1 : 1960 ≤ d.year := by unfold monthNo at hl; omega
  have hy2 : d.year ≤ d'.year := by unfold monthNo at hle; omega
  obtain ⟨e, n, hn1, hn2, en⟩ := datRow_integer (monthNo d.year d.month) hl
  obtain ⟨e', n', hn1', hn2', en'⟩ := datRow_integer (monthNo d'.year d'.month) (lt_of_lt_of_le hl hle)
  rw [deltaAt_some p _ fd (by rwa [Bool.or_eq_true]) hy1 (hy2.trans hy) ⟨hm1, hm2⟩, e,
    deltaAt_some p' _ fd' (by rwa [Bool.or_eq_true]) (hy1.trans hy2) hy ⟨hm1', hm2'⟩, e']
  have key := datRow_mono _ _ hl hle
  rw [en, en'] at key ⊢
  refine ⟨_, _, ((n : ℤ) : ℚ), ((n' : ℤ) : ℚ), rfl, rfl, ?_, ?_, by exact_mod_cast key⟩
  · exact Is.lit_int (n : ℤ) (by rw [abs_of_nonneg (by positivity)]; push_cast; norm_num; omega)
  · exact Is.lit_int (n' : ℤ) (by rw [abs_of_nonneg (by positivity)]; push_cast; norm_num; omega)

/-- **C20**, limit of the range: from 1960 on, a checked build panics exactly when `12*year + month`
does not fit an `i32`, i.e. from August 178956970 on. -/
theorem C20_delta_at_overflow (d : GregorianDate) (fd : F64)
    (hd : GregorianDate.new d.year d.month d.day = .ok d)
    (hl : monthNo 1972 1 < monthNo d.year d.month)
    (h : ¬ ((fd <. lit 0) = true ∨ (lit 1 <. fd) = true)) :
    (monthNo 178956970 8 ≤ monthNo d.year d.month →
      deltaAt .checked d fd = .error .overflow) ∧
    (monthNo d.year d.month < monthNo 178956970 8 →
      ∃ r, deltaAt .checked d fd = .ok (.ok (some r))) := by
  obtain ⟨_, hd'⟩ := (accepted_iff d).mp hd
  have hm1 : 1 ≤ d.month := hd'.1
  have hm2 : d.month ≤ 12 := hd'.2.1
  have hy0 : ¬ d.year < (DAT_DATA[0]'(by decide)).year := by
    have : (DAT_DATA[0]'(by decide)).year = 1960 := by decide
    rw [this]; unfold monthNo at hl; omega
  have e8 : monthNo 178956970 8 = 2147483648 := by decide
  rw [e8]
  constructor
  · intro hb
    unfold monthNo at hb
    unfold deltaAt
    rw [if_neg (by rwa [Bool.or_eq_true]), if_neg hy0]
    unfold I32.mul
    by_cases hr : I32.InRange (12 * d.year)
    · rw [I32.norm_ok hr, ok_bind]
      unfold I32.add
      rw [I32.norm_checked (by unfold I32.InRange; omega)]
      rfl
    · rw [I32.norm_checked hr]; rfl
  · intro hb
    obtain ⟨e, -⟩ := datRow_integer (monthNo d.year d.month) hl
    unfold monthNo at hb hl
    unfold deltaAt
    rw [if_neg (by rwa [Bool.or_eq_true]), if_neg hy0, I32.mul_ok (by omega) (by omega), ok_bind,
      I32.add_ok (by omega) (by omega), ok_bind]
    unfold monthNo at e
    simp only [e]
    exact ⟨_, rfl⟩

/-- **C20**, past the limit in a wrapping build: the month number wraps around.  Every date of the years
357915914 to 357915956 gets a value that was replaced long before, at most 36, although every date from
February 2017 to year 178956969 gets 37: the value does decrease. -/
theorem C20_delta_at_wraps (d : GregorianDate) (fd : F64)
    (hd : GregorianDate.new d.year d.month d.day = .ok d)
    (hy : 357915914 ≤ d.year) (hy' : d.year ≤ 357915956)
    (h : ¬ ((fd <. lit 0) = true ∨ (lit 1 <. fd) = true)) :
    ∃ (v : F64) (n : ℤ), deltaAt .wrapping d fd = .ok (.ok (some v)) ∧ Is v n ∧ 10 ≤ n ∧ n ≤ 36 := by
  obtain ⟨_, hd'⟩ := (accepted_iff d).mp hd
  have hm1 : 1 ≤ d.month := hd'.1
  have hm2 : d.month ≤ 12 := hd'.2.1
  have hy0 : ¬ d.year < (DAT_DATA[0]'(by decide)).year := by
    have : (DAT_DATA[0]'(by decide)).year = 1960 := by decide
    rw [this]; omega
  have key := datRow_table (fun _ r => r.drift = none ∧ ∃ n ∈ List.range 37, 10 ≤ n ∧ r.dat = (n : ℚ))
    23666 530 (by decide +kernel) (12 * (d.year - 357913941) + d.month - 4) (by omega) (by omega)
  obtain ⟨e, n, hn, hn1, en⟩ := key
  rw [List.mem_range] at hn
  have hw : I32.wrap (I32.wrap (12 * d.year) + d.month) = 12 * (d.year - 357913941) + d.month - 4 := by
    unfold I32.wrap; omega
  unfold deltaAt
  rw [if_neg (by rwa [Bool.or_eq_true]), if_neg hy0]
  unfold I32.mul I32.add
  rw [I32.norm_wrapping, ok_bind, I32.norm_wrapping, ok_bind, hw]
  simp only [e, en]
  refine ⟨_, n, rfl, ?_, by omega, by omega⟩
  exact Is.lit_int (n : ℤ) (by rw [abs_of_nonneg (by positivity)]; push_cast; norm_num; omega)

example : GregorianDate.new 357915921 2 28 = .ok ⟨357915921, 2, 28⟩ := by decide
example : deltaAt .wrapping ⟨357915921, 2, 28⟩ (lit 0.5 : F64) = .ok (.ok (some (lit 18))) := by
  decide +kernel
example : deltaAt .checked ⟨178956970, 7, 31⟩ (lit 0.5 : F64) = .ok (.ok (some (lit 37))) ∧
    deltaAt .checked ⟨178956970, 8, 1⟩ (lit 0.5 : F64) = .error .overflow := by
  decide +kernel
example : GregorianDate.new 178956971 1 1 = .ok ⟨178956971, 1, 1⟩ := by decide
example : deltaAt .checked ⟨2024, 2, 29⟩ (lit 0.25 : F64) = .ok (.ok (some (lit 37))) := by
  decide +kernel

/-- **C21.** From January 1960 through January 1972 the value in exact arithmetic is
`offset + (MJD + fd - origin) * rate` of one published step, with a positive rate. -/
theorem C21_delta_at_linear (p : Profile) (d : GregorianDate)
    (hd : GregorianDate.new d.year d.month d.day = .ok d) (hy : 1960 ≤ d.year)
    (hl : monthNo d.year d.month ≤ monthNo 1972 1) :
    ∃ (e : Step) (N : ℤ), e ∈ steps ∧ 0 < e.rate ∧ DaysFrom mjdEpoch d.civil N ∧
      (monthNo 1960 1 < monthNo d.year d.month → ∃ y' m',
        monthNo y' m' + 1 = monthNo d.year d.month ∧ InForce e y' m') ∧
      ∀ fd : ℝ, 0 ≤ fd → fd ≤ 1 →
        deltaAt p d fd = .ok (.ok (some (e.offset + (N + fd - e.origin) * e.rate))) := by
  obtain ⟨_, hd'⟩ := (accepted_iff d).mp hd
  have hm1 : 1 ≤ d.month := hd'.1
  have hm2 : d.month ≤ 12 := hd'.2.1
  have hge : 23521 ≤ monthNo d.year d.month := by unfold monthNo; omega
  have hyy : d.year ≤ 1972 := by unfold monthNo at hl; omega
  have hmem : (datRow (monthNo d.year d.month)).step ∈ steps ∧
      0 < (datRow (monthNo d.year d.month)).step.rate :=
    datRow_table (fun _ r => r.step ∈ steps ∧ 0 < r.step.rate) 23521 145 (by decide +kernel) _ hge
      (by have : monthNo 1972 1 = 23665 := by decide
          omega)
  refine ⟨_, _, hmem.1, hmem.2, daysFrom_epoch hd', fun hgt => ?_, fun fd h0 h1 => ?_⟩
  · obtain ⟨p1, p2, p3⟩ := datRow_prev _ hgt
    obtain ⟨y', m', _, _, e'⟩ := monthNo_split (monthNo d.year d.month - 1)
    exact ⟨y', m', by omega, p1, by omega, fun e'' he'' hle => p3 e'' he'' (by omega)⟩
  · obtain ⟨o, r, e, -⟩ := datRow_drift _ hge hl
    rw [deltaAt_some p d fd (by simp [h0, h1]) hy (by omega) ⟨hm1, hm2⟩, e]
    simp only
    unfold GregorianDate.toJulian
    rw [toJulianDay_ok p d hd' (by omega) ((marchYear_le _).trans (by omega))]
    simp only [ok_bind]
    unfold DatData.step
    rw [e]
    simp [GregorianDate.civil]
    rfl

/-- **C21.** In `f64` the value is within `2^-45` s of that of the same step. -/
theorem C21_delta_at_linear_f64 (p : Profile) (d : GregorianDate) (fd : F64) (f : ℚ)
    (hd : GregorianDate.new d.year d.month d.day = .ok d) (hy : 1960 ≤ d.year)
    (hl : monthNo d.year d.month ≤ monthNo 1972 1) (h : Is fd f) (h0 : 0 ≤ f) (h1 : f ≤ 1) :
    ∃ (v : F64) (x w : ℚ), deltaAt p d fd = .ok (.ok (some v)) ∧ Is v x ∧
      deltaAt p d (f : ℝ) = .ok (.ok (some (w : ℝ))) ∧ |x - w| ≤ 1 / 2 ^ 45 := by
  obtain ⟨_, hd'⟩ := (accepted_iff d).mp hd
  have hm1 : 1 ≤ d.month := hd'.1
  have hm2 : d.month ≤ 12 := hd'.2.1
  have hyy : d.year ≤ 1972 := by unfold monthNo at hl; omega
  have hge : 23521 ≤ monthNo d.year d.month := by unfold monthNo; omega
  obtain ⟨v, hv, hvn⟩ := deltaAt_row p d fd f hd' hy (by omega) h h0 h1
  obtain ⟨x, hx, hn⟩ := hvn.rat
  refine ⟨v, x, _, hv, hx, ?_, hn⟩
  have f1 : (f : ℝ) ≤ 1 := by exact_mod_cast h1
  obtain ⟨o, r, e, -⟩ := datRow_drift _ hge hl
  rw [deltaAt_some p d (f : ℝ) (by simp [h0, f1]) hy (by omega) ⟨hm1, hm2⟩, e]
  simp only
  unfold GregorianDate.toJulian
  rw [toJulianDay_ok p d hd' (by omega) ((marchYear_le _).trans (by omega))]
  simp only [ok_bind]
  unfold DatData.step Step.value
  rw [e]
  simp
  rfl

example : GregorianDate.new 1965 5 17 = .ok ⟨1965, 5, 17⟩ ∧
    monthNo 1965 5 ≤ monthNo 1972 1 := by decide

end Verif
