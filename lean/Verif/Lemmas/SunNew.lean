import Verif.Lemmas.SunAcc

/-!
# The Sun angle calculator in binary64: what `new` stores, and the times of `compute`
-/

namespace Verif
open Arith F64 Spec Matrix

/-- The parameters and the offset are finite and have these values: a date in the range of the calendar code, a time of
day of at most one day, a longitude and latitude up to 360 degrees, a height up to ten thousand kilometres, an offset up
to `10^9` seconds; and the instant is within a century, less a day, of J2000.0.  `N` is the number of days from
1858-11-17 to the date. -/
structure SunInput (q : SunAngleParameters F64) (δ : F64) (s l b h d : ℚ) (N : ℤ) : Prop where
  date : GoodDate q.date
  hour : 0 ≤ q.time.hour ∧ q.time.hour ≤ 255
  minute : 0 ≤ q.time.minute ∧ q.time.minute ≤ 255
  second : Is q.time.second s
  start : 0 ≤ 3600 * (q.time.hour : ℚ) + 60 * q.time.minute + s
  stop : 3600 * (q.time.hour : ℚ) + 60 * q.time.minute + s ≤ 86400
  lon : Is q.position.lon l
  lat : Is q.position.lat b
  height : Is q.position.height h
  lon_le : |l| ≤ 360
  lat_le : |b| ≤ 360
  height_le : |h| ≤ 10 ^ 7
  offset : Is δ d
  offset_le : |d| ≤ 10 ^ 9
  days : DaysFrom mjdEpoch q.date.civil N
  century : |2400000.5 + N + (3600 * q.time.hour + 60 * q.time.minute + s + d) / 86400 - 2451545| ≤ 36524

/-- The same parameters as real numbers. -/
def exactParams (q : SunAngleParameters F64) (s l b h : ℚ) : SunAngleParameters ℝ :=
  ⟨q.date, ⟨q.time.hour, q.time.minute, (s : ℝ)⟩, { lon := (l : ℝ), lat := (b : ℝ), height := (h : ℝ) }⟩

namespace SunInput
variable {q : SunAngleParameters F64} {δ : F64} {s l b h d : ℚ} {N : ℤ} (H : SunInput q δ s l b h d N)
include H

theorem s_le : |s| ≤ 10 ^ 6 := by
  have h1 := H.start
  have h2 := H.stop
  have a0 : (0 : ℚ) ≤ q.time.hour := by exact_mod_cast H.hour.1
  have a1 : (q.time.hour : ℚ) ≤ 255 := by exact_mod_cast H.hour.2
  have b0 : (0 : ℚ) ≤ q.time.minute := by exact_mod_cast H.minute.1
  have b1 : (q.time.minute : ℚ) ≤ 255 := by exact_mod_cast H.minute.2
  rw [abs_le]
  norm_num
  constructor <;> linarith

theorem N_eq : N = mjdN q.date.year q.date.month q.date.day := by
  have h1 := daysFrom_unique _ _ (by decide) H.date.civil N H.days
  have h2 := daysFrom_unique _ _ (by decide) H.date.civil _ (daysFrom_epoch H.date.civil)
  have h3 : N = mjdN q.date.civil.1 q.date.civil.2.1 q.date.civil.2.2 := h1.trans h2.symm
  exact h3

theorem N_le : -2500 ≤ N ∧ N ≤ 101000 := by
  have h0 := abs_le.mp H.century
  have h1 := H.start
  have h2 := H.stop
  have h3 := abs_le.mp H.offset_le
  norm_num at h0 h3
  have k1 : (-2500 : ℚ) ≤ N := by linarith
  have k2 : (N : ℚ) ≤ 101000 := by linarith
  exact ⟨by exact_mod_cast k1, by exact_mod_cast k2⟩

theorem year_le : q.date.year ≤ 8000 := by
  have h1 := H.N_le
  rw [H.N_eq] at h1
  have := mjdN_cases q.date.year q.date.month q.date.day
  obtain ⟨hm1, hm2, hd1, hd2⟩ := H.date.civil
  simp only [GregorianDate.civil] at hm1 hm2 hd1 hd2
  omega

/-- The fraction of the day. -/
theorem fod : ∃ f : ℚ, Is q.time.toFractionOfDay f ∧ 0 ≤ f ∧ f ≤ 1 ∧
    |f - (3600 * q.time.hour + 60 * q.time.minute + s) / 86400| ≤ 3 / 2 ^ 53 := by
  have hs := H.s_le
  have hs' : |s| ≤ 2 ^ 100 := hs.trans (by norm_num)
  have h1 : Is q.time.toFractionOfDay _ := fod_is q.time.hour q.time.minute q.time.second s H.hour H.minute H.second hs'
  have e : s + ((60 * (q.time.minute + 60 * q.time.hour) : ℤ) : ℚ) = 3600 * q.time.hour + 60 * q.time.minute + s := by
    push_cast; ring
  rw [e] at h1
  have z0 : RepQ 0 := by have := RepQ.dyadic 0 0 (by norm_num) (by norm_num); norm_num at this; exact this
  have z1 : RepQ 1 := by have := RepQ.dyadic 1 0 (by norm_num) (by norm_num); norm_num at this; exact this
  have z2 : RepQ 86400 := by have := RepQ.dyadic 86400 0 (by norm_num) (by norm_num); norm_num at this; exact this
  have k0 := le_RN_of_le z0 H.start
  have k1 := RN_le_of_le z2 H.stop
  have m0 : 0 ≤ RN (RN (3600 * (q.time.hour : ℚ) + 60 * q.time.minute + s) / 86400) := le_RN_of_le z0 (by positivity)
  have m1 : RN (RN (3600 * (q.time.hour : ℚ) + 60 * q.time.minute + s) / 86400) ≤ 1 :=
    RN_le_of_le z1 (by rw [div_le_one (by norm_num)]; exact k1)
  have i0 : Is (lit 0 : F64) 0 := by have := Is.lit_int 0 (by norm_num); push_cast at this; exact this
  have i1 : Is (lit 1 : F64) 1 := by have := Is.lit_int 1 (by norm_num); push_cast at this; exact this
  obtain ⟨r, hr, r0, r1, r2⟩ := fod_near q.time.hour q.time.minute q.time.second s H.hour H.minute H.second hs' (by
    rw [Is.lt_iff h1 i0]; exact not_lt.mpr m0) (by
    rw [Is.lt_iff i1 h1]; exact not_lt.mpr m1)
  exact ⟨r, hr, r0, r1, r2⟩

omit H in
theorem fod_real : (exactParams q s l b h).time.toFractionOfDay =
    (((3600 * q.time.hour + 60 * q.time.minute + s) / 86400 : ℚ) : ℝ) := by
  unfold exactParams HMS.toFractionOfDay
  simp
  ring

theorem fod_real_mem : 0 ≤ (exactParams q s l b h).time.toFractionOfDay ∧ (exactParams q s l b h).time.toFractionOfDay ≤ 1 := by
  rw [fod_real]
  have h1 : 0 ≤ (3600 * (q.time.hour : ℚ) + 60 * q.time.minute + s) / 86400 := by
    have := H.start
    positivity
  have h2 : (3600 * (q.time.hour : ℚ) + 60 * q.time.minute + s) / 86400 ≤ 1 := by
    rw [div_le_one (by norm_num)]; exact H.stop
  exact ⟨by exact_mod_cast h1, by exact_mod_cast h2⟩

/-- `new` succeeds in both arithmetics. -/
theorem news [Libm F64] (hL : LibmAcc) (p : Profile) : ∃ (c : SunAngleCalculator F64) (C : SunAngleCalculator ℝ),
    SunAngleCalculator.new p q = .ok c ∧ SunAngleCalculator.new p (exactParams q s l b h) = .ok C ∧
    (∃ x : ℚ, Is c.dat x ∧ |(x : ℝ) - C.dat| ≤ 1 / 10 ^ 12) ∧
    c.dtr = lit 0 ∧ c.xp = lit 0.0349282 *. AS2R ∧ c.yp = lit 0.4833163 *. AS2R ∧
    (Near c.p.x C.p.x (3 / 10 ^ 7) ∧ Near c.p.y C.p.y (3 / 10 ^ 7) ∧ Near c.p.z C.p.z (3 / 10 ^ 7)) ∧
    VN c.zen (vertical l b).toVec (9 / 10 ^ 15) := by
  obtain ⟨w, hw⟩ := wgs84_f64
  obtain ⟨f, hf, f0, f1, fe⟩ := H.fod
  obtain ⟨v, hv, v1, v2, v3⟩ := C71_geocentric_f64 hL w hw q.position l b h H.lon H.lat H.height H.lon_le H.lat_le H.height_le
    _ _ _ _ rfl rfl rfl rfl
  have i0 : Is (lit 0 : F64) 0 := by have := Is.lit_int 0 (by norm_num); push_cast at this; exact this
  have i1 : Is (lit 1 : F64) 1 := by have := Is.lit_int 1 (by norm_num); push_cast at this; exact this
  obtain ⟨-, o⟩ := new_outcome (q := q) (H.date.day p) (H.date.month p) hw
  obtain ⟨c, hc, -, -, -, c4, c5, -, c7, c8, c9, c10, c11⟩ := o (by
    rintro (h | h | h)
    · rw [Is.lt_iff hf i0] at h; exact absurd f0 (not_le.mpr h)
    · rw [Is.lt_iff i1 hf] at h; exact absurd f1 (not_le.mpr h)
    · rcases geocentric_ok_iff (new_el hw) (Geodetic.from360 q.position) with ⟨g, -⟩ | ⟨-, g⟩
      · exact h g
      · rw [hv] at g; cases g)
  rw [hv] at c10
  obtain rfl := Except.ok.inj c10
  have gd : GoodDate (exactParams q s l b h).date := H.date
  obtain ⟨C, hC⟩ := (C52_new_exact p (exactParams q s l b h) gd).1.mpr H.fod_real_mem
  obtain ⟨-, -, C3, C4, C5, -, -, -, -, C10, C11⟩ := new_fields gd hC
  have C3' : C.fr = (((3600 * q.time.hour + 60 * q.time.minute + s) / 86400 : ℚ) : ℝ) := by
    rw [C3, ← fod_real (l := l) (b := b) (h := h)]; unfold HMS.toFractionOfDay; simp
  refine ⟨c, C, hc, hC, ?_, c7, c8, c9, ?_, ?_⟩
  · by_cases hy : q.date.year < 1960
    · refine ⟨0, ?_, ?_⟩
      · rw [c5 hy]; exact i0
      · rw [C5 hy]; norm_num
    · rw [if_neg hy] at c4
      have C4' : deltaAt p q.date C.fr = .ok (.ok (some C.dat)) := by
        have : (exactParams q s l b h).date = q.date := rfl
        rw [this, if_neg hy] at C4; exact C4
      have g := H.fod_real_mem
      rw [fod_real, ← C3'] at g
      refine dat_close p q.date H.date (by omega) hf f0 f1 g.1 g.2 ?_ c4 C4'
      rw [C3']
      have := (Rat.cast_le (K := ℝ)).mpr fe
      push_cast at this ⊢
      exact this
  · rw [geocentric_real _ _ (by norm_num)] at C10
    rw [← Except.ok.inj C10]
    have e1 : (Geodetic.from360 (exactParams q s l b h).position).phi = b * (Real.pi / 180) := by
      unfold Geodetic.from360 exactParams DEGREE; simp
    have e2 : (Geodetic.from360 (exactParams q s l b h).position).elong = l * (Real.pi / 180) := by
      unfold Geodetic.from360 exactParams DEGREE; simp
    have e3 : (Geodetic.from360 (exactParams q s l b h).position).height = h := rfl
    rw [e1, e2, e3]
    exact ⟨v1, v2, v3⟩
  · obtain ⟨z1, z2, z3⟩ := C71_zenith_f64 hL q.position l b H.lon H.lat H.lon_le H.lat_le _ _ rfl rfl
    rw [c11]
    exact VN.of_nears z1 z2 z3 (by norm_num)

/-- The dates that `compute` uses. -/
theorem times [Libm F64] (p : Profile) {c : SunAngleCalculator F64} {C : SunAngleCalculator ℝ}
    (hc : SunAngleCalculator.new p q = .ok c) (hC : SunAngleCalculator.new p (exactParams q s l b h) = .ok C)
    (hdat : ∃ x : ℚ, Is c.dat x ∧ |(x : ℝ) - C.dat| ≤ 1 / 10 ^ 12) :
    ∃ (r : SunAngleResult F64) (R : SunAngleResult ℝ) (t w : ℚ), c.compute δ = .ok r ∧ C.compute (d : ℝ) = .ok R ∧
      Is r.tt.1 2400000.5 ∧ Is r.tt.2 t ∧ Is r.ut1.1 2400000.5 ∧ Is r.ut1.2 w ∧
      |R.tt.1 + R.tt.2 - 2451545| ≤ 36524.5 ∧ |R.ut1.1 + R.ut1.2 - 2451545| ≤ 36524.5 ∧
      |2400000.5 + (t : ℝ) - (R.tt.1 + R.tt.2)| ≤ 47 / 10 ^ 12 ∧
      |2400000.5 + (w : ℝ) - (R.ut1.1 + R.ut1.2)| ≤ 46 / 10 ^ 12 := by
  obtain ⟨x, hx, hxe⟩ := hdat
  obtain ⟨r, N', u1, u2, a1, a2, t1, t2, w1, w2, dat, hr, hN', -, -, -, -, i5, i6, i7, i8, i9, i10, -, -, e3, e4, -, -, b3, b4⟩ :=
    C60_time_scales_f64 p q H.date H.year_le H.hour H.minute s H.second (H.s_le.trans (by norm_num)) c hc δ d H.offset H.offset_le
  obtain ⟨R, N'', hR, hN'', -, -, -, -, -, R6, R7, -, -, -⟩ := C60_time_scales_exact p (exactParams q s l b h) H.date C hC d
  obtain rfl : N' = N := (daysFrom_unique _ _ (by decide) H.date.civil _ hN').trans
    (daysFrom_unique _ _ (by decide) H.date.civil _ H.days).symm
  obtain rfl : N'' = N' := (daysFrom_unique _ _ (by decide) H.date.civil _ hN'').trans
    (daysFrom_unique _ _ (by decide) H.date.civil _ H.days).symm
  obtain ⟨r', hr', -, -, -, ed, -⟩ := compute_time c δ
  rw [hr] at hr'
  obtain rfl := Except.ok.inj hr'
  rw [ed] at i9
  have exd := i9.unique hx
  subst exd
  obtain ⟨R', hR', -, -, -, -, -, ed', -⟩ := compute_real C d
  rw [hR] at hR'
  obtain rfl := Except.ok.inj hR'
  subst e3 e4
  have hB : (3 * |(N'' : ℚ)| + 9 * |d| / 86400 + 15) / 2 ^ 53 ≤ 457 / 10 ^ 13 := by
    obtain ⟨n1, n2⟩ := H.N_le
    have n3 : |(N'' : ℚ)| ≤ 101000 := by
      have n1' : (-2500 : ℚ) ≤ N'' := by exact_mod_cast n1
      have n2' : (N'' : ℚ) ≤ 101000 := by exact_mod_cast n2
      rw [abs_le]; constructor <;> linarith
    have n4 := H.offset_le
    rw [div_le_iff₀ (by norm_num)]
    norm_num at n4 ⊢
    linarith
  have c3 := (Rat.cast_le (K := ℝ)).mpr (b3.trans hB)
  have c4 := (Rat.cast_le (K := ℝ)).mpr (b4.trans hB)
  have c0 := (Rat.cast_le (K := ℝ)).mpr H.century
  have c5 := (Rat.cast_le (K := ℝ)).mpr i10
  push_cast at c3 c4 c0 c5
  have eq1 : (exactParams q s l b h).time.hour = q.time.hour := rfl
  have eq2 : (exactParams q s l b h).time.minute = q.time.minute := rfl
  have eq3 : (exactParams q s l b h).time.second = (s : ℝ) := rfl
  rw [eq1, eq2, eq3] at R6 R7
  rw [ed'] at R6
  refine ⟨r, R, t2, w2, hr, hR, i5, i6, i7, i8, ?_⟩
  rw [R6, R7]
  generalize (3600 * (q.time.hour : ℝ) + 60 * q.time.minute + s + d) / 86400 = F at *
  generalize (N'' : ℝ) = M at *
  generalize (dat : ℝ) = D at *
  generalize C.dat = D' at *
  rw [abs_le] at c3 c4 c0 c5 hxe
  norm_num at c3 c4 c0 c5 hxe
  refine ⟨?_, ?_, ?_, ?_⟩ <;>
  · rw [abs_le]
    norm_num
    constructor <;> linarith

end SunInput
end Verif
