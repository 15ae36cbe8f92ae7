import Verif.Props.LongDays
import Verif.Props.SunAccuracy
import Verif.Lemmas.MeanSunDates

/-!
# C103: the distance of the Sun through the year
-/

namespace Verif
open Arith F64 Spec Matrix

/-- Mean anomaly of the Earth from published elements, in radians. -/
noncomputable def Spec.meanAnomaly (n : ℝ) : ℝ := meanLongitude n - perihelion

/-- Length of the mean orbit to first order: `(1 - e cos M)² + (2 e sin M)²` is its square. -/
theorem meanEarth_len (n : ℝ) : len (meanEarth n) ^ 2 =
    (1 - eccentricity * Real.cos (meanAnomaly n)) ^ 2 + 4 * eccentricity ^ 2 * Real.sin (meanAnomaly n) ^ 2 := by
  rw [len_sq]
  have e : 2 * meanLongitude n - perihelion = meanLongitude n + meanAnomaly n := by unfold meanAnomaly; ring
  have e' : perihelion = meanLongitude n - meanAnomaly n := by unfold meanAnomaly; ring
  have h0 : meanEarth n 0 = Real.cos (meanLongitude n) - eccentricity / 2 * (3 * Real.cos perihelion - Real.cos (2 * meanLongitude n - perihelion)) := rfl
  have h1 : meanEarth n 1 = Real.sin (meanLongitude n) - eccentricity / 2 * (3 * Real.sin perihelion - Real.sin (2 * meanLongitude n - perihelion)) := rfl
  have h2 : meanEarth n 2 = 0 := rfl
  rw [h0, h1, h2, e]
  generalize eccentricity = c
  generalize meanAnomaly n = M at *
  rw [e']
  generalize meanLongitude n = L at *
  rw [Real.cos_sub, Real.sin_sub, Real.cos_add, Real.sin_add]
  have a := Real.sin_sq_add_cos_sq L
  have b := Real.sin_sq_add_cos_sq M
  generalize Real.sin L = x at *
  generalize Real.cos L = y at *
  generalize Real.sin M = z at *
  generalize Real.cos M = w at *
  have ha : x ^ 2 = 1 - y ^ 2 := by linarith
  have hb : z ^ 2 = 1 - w ^ 2 := by linarith
  linear_combination (1 - 2 * c * w + c ^ 2 * w ^ 2 + 4 * c ^ 2 * z ^ 2) * a

theorem meanEarth_bounds (n : ℝ) : 1 - 0.01671123 * Real.cos (meanAnomaly n) ≤ len (meanEarth n) ∧
    len (meanEarth n) ≤ 1 - 0.01671123 * Real.cos (meanAnomaly n) + 0.00057 * Real.sin (meanAnomaly n) ^ 2 := by
  have h := meanEarth_len n
  have l0 := len_nonneg (meanEarth n)
  have c1 := Real.cos_le_one (meanAnomaly n)
  have c2 := Real.neg_one_le_cos (meanAnomaly n)
  have s0 := sq_nonneg (Real.sin (meanAnomaly n))
  unfold eccentricity at h
  generalize len (meanEarth n) = l at *
  generalize Real.cos (meanAnomaly n) = c at *
  generalize Real.sin (meanAnomaly n) ^ 2 = s at *
  constructor
  · apply le_of_sq_le_sq _ l0
    rw [h]; norm_num; positivity
  · apply le_of_sq_le_sq _ (by linarith)
    rw [h]
    norm_num at *
    nlinarith

/-- The program against the mean orbit. -/
theorem distance_near {s n : ℝ} (h : |s - 2451545| ≤ 36525) (hn : |s - 2451545 - n| ≤ 0.00154) :
    1 - 0.01671123 * Real.cos (meanAnomaly n) - 0.001146 ≤ (earthAt s).heliocentric.p.norm ∧
      (earthAt s).heliocentric.p.norm ≤ 1 - 0.01671123 * Real.cos (meanAnomaly n) + 0.00057 * Real.sin (meanAnomaly n) ^ 2 + 0.001146 := by
  have hd := earth_near h hn
  have hR : (R1 (-obliquity))ᵀ * R1 (-obliquity) = 1 := by
    have := Real.sin_sq_add_cos_sq obliquity
    ext i j
    fin_cases i <;> fin_cases j <;> simp [R1, Matrix.mul_apply, Fin.sum_univ_three] <;> nlinarith
  have hl : len (R1 (-obliquity) *ᵥ meanEarth n) = len (meanEarth n) := len_mulVec hR _
  have hv : (earthAt s).heliocentric.p.norm = len (earthAt s).heliocentric.p.toVec := norm_real _
  obtain ⟨b1, b2⟩ := meanEarth_bounds n
  rw [hv]
  generalize (earthAt s).heliocentric.p.toVec = v at *
  have t1 := len_add (v - R1 (-obliquity) *ᵥ meanEarth n) (R1 (-obliquity) *ᵥ meanEarth n)
  have t2 := len_sub v (v - R1 (-obliquity) *ᵥ meanEarth n)
  rw [sub_add_cancel] at t1
  rw [sub_sub_cancel] at t2
  rw [hl] at t1 t2
  norm_num at *
  constructor <;> linarith

/-- **C103.** For every date within a century of J2000.0, the heliocentric distance is that of an ellipse with the eccentricity and
the mean anomaly of published elements, to 0.00115 au and the second order term. -/
theorem C103_distance (a b : ℝ) (h : |a + b - 2451545| ≤ 36525) (e : EarthPosVel ℝ) (he : EarthPosVel.fromTDB (a, b) = .ok e) :
    let M := ((100.46457166 + 35999.37244981 * ((a + b - 2451545) / 36525)) - 102.93768193) * (Real.pi / 180)
    1 - 0.01671123 * Real.cos M - 0.001146 ≤ e.heliocentric.p.norm ∧
      e.heliocentric.p.norm ≤ 1 - 0.01671123 * Real.cos M + 0.00057 * Real.sin M ^ 2 + 0.001146 := by
  intro M
  have := distance_near (n := a + b - 2451545) h (by norm_num)
  have e1 : meanAnomaly (a + b - 2451545) = M := by unfold meanAnomaly meanLongitude perihelion; ring
  rw [e1] at this
  rw [fromTDB_real] at he
  obtain rfl := Except.ok.inj he
  exact this

example : |(2454195 : ℝ) + 0.25 - 2451545| ≤ 36525 := by norm_num [abs_le]

/-- The mean anomaly less the turns completed, for a moment `t` days after the beginning of the year `2000 + y` of 365.25 days. -/
theorem anomaly_near {n t y : ℝ} (hy : |y| ≤ 100) (ht : |t| ≤ 500) (h : n = 365.25 * y + t) (hn : |n| ≤ 36526) :
    |meanAnomaly n - y * (2 * Real.pi) - (-0.0431638 + 0.0172021 * t)| ≤ 0.01112 := by
  have hp := phase_near hy ht h hn
  have p1 := Real.pi_gt_d20
  have p2 := Real.pi_lt_d20
  have hP : |perihelion - 1.79660147| ≤ 1e-7 := by
    unfold perihelion
    rw [abs_le]; constructor <;> norm_num <;> linarith
  rw [abs_le] at hp hP hy ht ⊢
  unfold meanAnomaly
  have e : n / 36525 = y / 100 + t / 36525 := by rw [h]; ring
  rw [e] at hp
  generalize meanLongitude n = L at *
  generalize perihelion = P at *
  norm_num at *
  constructor <;> linarith

/-- The dates of the nearest moment of the year: inside 1 to 7 January, and outside 1 December to 6 February. -/
def MidPerihelion (m d : ℤ) : Prop := m = 1 ∧ d ≤ 7
def OffPerihelion (m d : ℤ) : Prop := m = 2 ∧ 7 ≤ d ∨ 3 ≤ m ∧ m ≤ 11
/-- The dates of the farthest moment: inside 1 to 8 July, and outside 1 June to 8 August. -/
def MidAphelion (m d : ℤ) : Prop := m = 7 ∧ d ≤ 8
def OffAphelion (m d : ℤ) : Prop := m ≤ 5 ∨ m = 8 ∧ 9 ≤ d ∨ 9 ≤ m

/-- Mean anomaly at a date, in days `D` from the end of January of the year `a` that begins in March. -/
theorem anomaly_date {y m d : ℤ} (h1 : 1901 ≤ y) (h2 : y ≤ 2098) (hd : IsDate (y, m, d)) {f : ℝ} (f0 : 0 ≤ f) (f1 : f ≤ 1) :
    |(mjdN y m d : ℝ) - 51544.5 + f| ≤ 36524 ∧ ∃ k D : ℤ, (m ≤ 2 ∧ D = 367 * (m + 10) / 12 + d ∨ 3 ≤ m ∧ D = 367 * (m - 2) / 12 + d) ∧
      -0.0431638 + 0.0172021 * (D + 27.75) - 0.01112 ≤ meanAnomaly ((mjdN y m d : ℝ) - 51544.5 + f) - k * (2 * Real.pi) ∧
      meanAnomaly ((mjdN y m d : ℝ) - 51544.5 + f) - k * (2 * Real.pi) ≤ -0.0431638 + 0.0172021 * (D + 29.5) + 0.01112 := by
  obtain ⟨n1, n2⟩ := mjdN_range h1 h2 hd
  have n1' : (15385 : ℝ) ≤ mjdN y m d := by exact_mod_cast n1
  have n2' : (mjdN y m d : ℝ) ≤ 87705 := by exact_mod_cast n2
  have hb : |(mjdN y m d : ℝ) - 51544.5 + f| ≤ 36524 := by
    rw [abs_le]; norm_num; constructor <;> linarith
  refine ⟨hb, ?_⟩
  obtain ⟨m1, m2, d1, d2⟩ := hd
  simp only at m1 m2 d1 d2
  have hml : monthLen y m ≤ 31 := by unfold monthLen; split_ifs <;> omega
  obtain ⟨a, D, ha, hD, hN⟩ : ∃ a D : ℤ, (1900 ≤ a ∧ a ≤ 2098) ∧
      (m ≤ 2 ∧ D = 367 * (m + 10) / 12 + d ∨ 3 ≤ m ∧ D = 367 * (m - 2) / 12 + d) ∧
      mjdN y m d = 365 * a + a / 4 - a / 100 + a / 400 + D - 678912 := by
    rcases mjdN_cases y m d with ⟨h, e⟩ | ⟨h, e⟩
    · exact ⟨y - 1, 367 * (m + 10) / 12 + d, by omega, .inl ⟨h, rfl⟩, by rw [e]; ring⟩
    · exact ⟨y, 367 * (m - 2) / 12 + d, by omega, .inr ⟨h, rfl⟩, by rw [e]; ring⟩
  have D1 : 1 ≤ D ∧ D ≤ 420 := by omega
  have D1' : (1 : ℝ) ≤ D ∧ (D : ℝ) ≤ 420 := by exact_mod_cast D1
  obtain ⟨t, ht, t1, t2⟩ := day_count ha.1 ha.2 hN f0 f1
  have hk : |((a - 2000 : ℤ) : ℝ)| ≤ 100 := by
    rw [abs_le]; constructor <;> push_cast
    · have : (1900 : ℝ) ≤ a := by exact_mod_cast ha.1
      linarith
    · have : (a : ℝ) ≤ 2098 := by exact_mod_cast ha.2
      linarith
  have := anomaly_near hk (t := t) (by rw [abs_le]; norm_num at t1 t2; constructor <;> linarith) ht (hb.trans (by norm_num))
  refine ⟨a - 2000, D, hD, ?_⟩
  rw [abs_le] at this
  generalize meanAnomaly ((mjdN y m d : ℝ) - 51544.5 + f) = M at *
  norm_num at *
  constructor <;> linarith

theorem cos_turns (x : ℝ) (k : ℤ) : Real.cos (x - k * (2 * Real.pi)) = Real.cos x := Real.cos_sub_int_mul_two_pi x k

/-- An angle of more than 0.56 radians, either way. -/
theorem cos_off {u : ℝ} (h1 : 0.56 ≤ u) (h2 : u ≤ 2 * Real.pi - 0.56) : Real.cos u ≤ 0.8484 := by
  have p1 := Real.pi_gt_d20
  have key : Real.cos 0.56 ≤ 0.8484 := by
    have := Real.cos_bound (x := 0.56) (by norm_num [abs_of_pos])
    rw [abs_le] at this
    have := this.2
    rw [abs_of_pos (by norm_num : (0 : ℝ) < 0.56)] at this
    norm_num at this ⊢
    linarith
  refine le_trans ?_ key
  rcases le_total u Real.pi with h | h
  · exact Real.cos_le_cos_of_nonneg_of_le_pi (by norm_num) h h1
  · rw [← Real.cos_two_pi_sub u]
    exact Real.cos_le_cos_of_nonneg_of_le_pi (by norm_num) (by linarith) (by linarith)

theorem cos_mid {u : ℝ} (h : |u| ≤ 0.0935) : 0.9956 ≤ Real.cos u := by
  have := Real.one_sub_sq_div_two_le_cos (x := u)
  have h2 : u ^ 2 ≤ 0.0935 ^ 2 := by rw [← sq_abs]; exact pow_le_pow_left₀ (abs_nonneg _) h 2
  norm_num at h2 ⊢
  linarith

theorem anomaly_season {y m d : ℤ} (h1 : 1901 ≤ y) (h2 : y ≤ 2098) (hd : IsDate (y, m, d)) {f : ℝ} (f0 : 0 ≤ f) (f1 : f ≤ 1) :
    |(mjdN y m d : ℝ) - 51544.5 + f| ≤ 36524 ∧
      (MidPerihelion m d → 0.9956 ≤ Real.cos (meanAnomaly ((mjdN y m d : ℝ) - 51544.5 + f))) ∧
      (OffPerihelion m d → Real.cos (meanAnomaly ((mjdN y m d : ℝ) - 51544.5 + f)) ≤ 0.8484) ∧
      (MidAphelion m d → Real.cos (meanAnomaly ((mjdN y m d : ℝ) - 51544.5 + f)) ≤ -0.9956) ∧
      (OffAphelion m d → -0.8484 ≤ Real.cos (meanAnomaly ((mjdN y m d : ℝ) - 51544.5 + f))) := by
  obtain ⟨hb, k, D, hD, lo, hi⟩ := anomaly_date h1 h2 hd f0 f1
  refine ⟨hb, ?_⟩
  obtain ⟨m1, m2, d1, d2⟩ := hd
  simp only at m1 m2 d1 d2
  have hml := monthLen_cases y m m1 m2
  have p1 := Real.pi_gt_d20
  have p2 := Real.pi_lt_d20
  rw [← cos_turns _ k]
  generalize meanAnomaly ((mjdN y m d : ℝ) - 51544.5 + f) - k * (2 * Real.pi) = u at *
  refine ⟨fun h => ?_, fun h => ?_, fun h => ?_, fun h => ?_⟩
  · have : 337 ≤ D ∧ D ≤ 343 := by unfold MidPerihelion at h; omega
    have : (337 : ℝ) ≤ D ∧ (D : ℝ) ≤ 343 := by exact_mod_cast this
    rw [← Real.cos_sub_two_pi]
    apply cos_mid
    rw [abs_le]
    norm_num at *
    constructor <;> linarith
  · have : 374 ≤ D ∧ D ≤ 396 ∨ 31 ≤ D ∧ D ≤ 305 := by unfold OffPerihelion at h; omega
    rcases this with h | h
    · have : (374 : ℝ) ≤ D ∧ (D : ℝ) ≤ 396 := by exact_mod_cast h
      rw [← Real.cos_sub_two_pi]
      apply cos_off <;> norm_num at * <;> linarith
    · have : (31 : ℝ) ≤ D ∧ (D : ℝ) ≤ 305 := by exact_mod_cast h
      apply cos_off <;> norm_num at * <;> linarith
  · have : 153 ≤ D ∧ D ≤ 160 := by unfold MidAphelion at h; omega
    have : (153 : ℝ) ≤ D ∧ (D : ℝ) ≤ 160 := by exact_mod_cast this
    have k := cos_mid (u := u - Real.pi) (by rw [abs_le]; norm_num at *; constructor <;> linarith)
    rw [Real.cos_sub_pi] at k
    linarith
  · have : 192 ≤ D ∧ D ≤ 396 ∨ 31 ≤ D ∧ D ≤ 122 := by unfold OffAphelion at h; omega
    rcases this with h | h
    · have : (192 : ℝ) ≤ D ∧ (D : ℝ) ≤ 396 := by exact_mod_cast h
      have k := cos_off (u := u - Real.pi) (by norm_num at *; linarith) (by norm_num at *; linarith)
      rw [Real.cos_sub_pi] at k
      linarith
    · have : (31 : ℝ) ≤ D ∧ (D : ℝ) ≤ 122 := by exact_mod_cast h
      have k := cos_off (u := u + Real.pi) (by norm_num at *; linarith) (by norm_num at *; linarith)
      rw [Real.cos_add_pi] at k
      linarith

/-- **C103.** Nearest in January, farthest in July: in exact arithmetic, for every date from 1901 to 2098, every place and every
offset within the day, the distance of the Sun is at most 0.98454 au from 1 to 7 January and at least 0.98467 au from 7 February
to 30 November; it is at least 1.01549 au from 1 to 8 July and at most 1.015485 au from 9 August to 31 May. So the nearest moment of a year is
from 1 December to 6 February, and the farthest from 1 June to 8 August. -/
theorem C103_nearest_and_farthest (p : Profile) (q : SunAngleParameters ℝ) (hd : GoodDate q.date) (c : SunAngleCalculator ℝ)
    (hc : SunAngleCalculator.new p q = .ok c) (y1 : 1901 ≤ q.date.year) (y2 : q.date.year ≤ 2098) (δ : ℝ)
    (f0 : 0 ≤ 3600 * q.time.hour + 60 * q.time.minute + q.time.second + δ)
    (f1 : 3600 * q.time.hour + 60 * q.time.minute + q.time.second + δ ≤ 86400) :
    ∃ r, c.compute δ = .ok r ∧
      (MidPerihelion q.date.month q.date.day → r.sun_e.norm / 149597870700 ≤ 0.98454) ∧
      (OffPerihelion q.date.month q.date.day → 0.98467 ≤ r.sun_e.norm / 149597870700) ∧
      (MidAphelion q.date.month q.date.day → 1.01549 ≤ r.sun_e.norm / 149597870700) ∧
      (OffAphelion q.date.month q.date.day → r.sun_e.norm / 149597870700 ≤ 1.015485) := by
  have hN : DaysFrom mjdEpoch q.date.civil (mjdN q.date.year q.date.month q.date.day) := daysFrom_epoch hd.civil
  obtain ⟨hb, s1, s2, s3, s4⟩ := anomaly_season y1 y2 hd.civil
    (f := (3600 * q.time.hour + 60 * q.time.minute + q.time.second + δ) / 86400) (by positivity) (by linarith)
  obtain ⟨r, hr, htt, -, -, -, hdat, b0, -⟩ := sun_at p q hd c hc _ hN δ hb
  obtain ⟨r', hr', -, he, hn, -⟩ := C53_sun_zenith_angle p q hd c hc δ
  obtain rfl := Except.ok.inj (hr.symm.trans hr')
  refine ⟨r, hr, ?_⟩
  have he := he _ (fromTDB_real _)
  rw [hn, mul_div_cancel_left₀ _ (by norm_num), he]
  obtain ⟨d1, d2⟩ := distance_near b0 (n := (mjdN q.date.year q.date.month q.date.day : ℝ) - 51544.5 +
      (3600 * q.time.hour + 60 * q.time.minute + q.time.second + δ) / 86400) (by
    rw [htt]
    rw [abs_le] at hdat ⊢
    constructor <;> norm_num <;> linarith [hdat.1, hdat.2])
  rw [Real.sin_sq] at d2
  have c1 := Real.neg_one_le_cos (meanAnomaly ((mjdN q.date.year q.date.month q.date.day : ℝ) - 51544.5 +
      (3600 * q.time.hour + 60 * q.time.minute + q.time.second + δ) / 86400))
  have c2 := Real.cos_le_one (meanAnomaly ((mjdN q.date.year q.date.month q.date.day : ℝ) - 51544.5 +
      (3600 * q.time.hour + 60 * q.time.minute + q.time.second + δ) / 86400))
  clear hb htt hdat b0 he
  generalize Real.cos (meanAnomaly ((mjdN q.date.year q.date.month q.date.day : ℝ) - 51544.5 +
      (3600 * q.time.hour + 60 * q.time.minute + q.time.second + δ) / 86400)) = x at *
  generalize (earthAt (r.tt.1 + r.tt.2)).heliocentric.p.norm = R at *
  refine ⟨fun h => ?_, fun h => ?_, fun h => ?_, fun h => ?_⟩
  · have := s1 h
    norm_num at *
    nlinarith
  · have := s2 h
    norm_num at *
    linarith
  · have := s3 h
    norm_num at *
    linarith
  · have := s4 h
    norm_num at *
    nlinarith

/-- Noon of 3 January, 15 November, 4 July and 1 March 2024. -/
example : ∃ q : ℤ → ℤ → SunAngleParameters ℝ, (∀ m d, (q m d).date = ⟨2024, m, d⟩) ∧
    (∀ a ∈ [((1 : ℤ), (3 : ℤ)), (11, 15), (7, 4), (3, 1)], GoodDate (q a.1 a.2).date ∧ ∃ c, SunAngleCalculator.new .checked (q a.1 a.2) = .ok c) ∧
    MidPerihelion 1 3 ∧ OffPerihelion 11 15 ∧ MidAphelion 7 4 ∧ OffAphelion 3 1 := by
  refine ⟨fun m d => { SunAngleParameters.default with date := ⟨2024, m, d⟩ }, fun _ _ => rfl, ?_, by unfold MidPerihelion; decide,
    by unfold OffPerihelion; decide, by unfold MidAphelion; decide, by unfold OffAphelion; decide⟩
  intro a ha
  have hd : GoodDate ⟨2024, a.1, a.2⟩ := by
    simp only [List.mem_cons, List.not_mem_nil, or_false] at ha
    rcases ha with rfl | rfl | rfl | rfl <;> exact ⟨by decide, by decide, by decide⟩
  refine ⟨hd, (C52_new_exact _ _ hd).1.mpr ?_⟩
  unfold SunAngleParameters.default HMS.toFractionOfDay
  norm_num

/-- **C103.** The same in binary64, for any mathematical library accurate to `2^-50`: the computed length of the Sun vector, in
metres, against the astronomical unit. -/
theorem C103_nearest_and_farthest_f64 [Libm F64] (hL : LibmAcc) (p : Profile) (q : SunAngleParameters F64) (δ : F64)
    (s l b h d : ℚ) (N : ℤ) (H : SunInput q δ s l b h d N) (y1 : 1901 ≤ q.date.year) (y2 : q.date.year ≤ 2098)
    (f0 : 0 ≤ 3600 * (q.time.hour : ℚ) + 60 * q.time.minute + s + d) (f1 : 3600 * (q.time.hour : ℚ) + 60 * q.time.minute + s + d ≤ 86400) :
    ∃ (c : SunAngleCalculator F64) (r : SunAngleResult F64) (x : ℚ), SunAngleCalculator.new p q = .ok c ∧ c.compute δ = .ok r ∧
      Is r.sun_e.norm x ∧
      (MidPerihelion q.date.month q.date.day → (x : ℝ) / 149597870700 ≤ 0.984541) ∧
      (OffPerihelion q.date.month q.date.day → 0.984669 ≤ (x : ℝ) / 149597870700) ∧
      (MidAphelion q.date.month q.date.day → 1.015489 ≤ (x : ℝ) / 149597870700) ∧
      (OffAphelion q.date.month q.date.day → (x : ℝ) / 149597870700 ≤ 1.015486) := by
  obtain ⟨c, C, r, R, hc, hC, hr, hR, -, -, hs, -⟩ := C72_sun_angle_f64 hL p q δ s l b h d N H
  have gd : GoodDate (exactParams q s l b h).date := H.date
  obtain ⟨R', hR', k1, k2, k3, k4⟩ := C103_nearest_and_farthest p (exactParams q s l b h) gd C hC y1 y2 d
    (by show (0 : ℝ) ≤ 3600 * q.time.hour + 60 * q.time.minute + s + d; exact_mod_cast f0)
    (by show (3600 * q.time.hour + 60 * q.time.minute + s + d : ℝ) ≤ 86400; exact_mod_cast f1)
  obtain rfl := Except.ok.inj (hR.symm.trans hR')
  have sz : 0.982 * 149597870700 ≤ R.sun_e.norm ∧ R.sun_e.norm ≤ 1.019 * 149597870700 := by
    obtain ⟨R', hR', -, -, -, -, -, b0, -⟩ := sun_at p (exactParams q s l b h) gd C hC N H.days d (by
      have t := (Rat.cast_le (K := ℝ)).mpr H.century
      push_cast at t
      refine le_trans (le_of_eq (congrArg (fun x : ℝ => |x|) ?_)) t
      show (N : ℝ) - 51544.5 + (3600 * q.time.hour + 60 * q.time.minute + s + d) / 86400 = _
      norm_num
      ring)
    obtain rfl := Except.ok.inj (hR.symm.trans hR')
    exact (C53_sun_distance p _ gd C hC d R hR b0).2
  obtain ⟨⟨a1, i1, e1⟩, ⟨a2, i2, e2⟩, ⟨a3, i3, e3⟩⟩ := hs
  have hv : VIs r.sun_e ⟨a1, a2, a3⟩ := ⟨⟨a1, i1, rfl⟩, ⟨a2, i2, rfl⟩, ⟨a3, i3, rfl⟩⟩
  have close : |(⟨a1, a2, a3⟩ : Vec3 ℝ).norm - R.sun_e.norm| ≤ 255 := by
    rw [norm_toVec, norm_toVec]
    have t1 := len_add ((⟨a1, a2, a3⟩ : Vec3 ℝ).toVec - R.sun_e.toVec) R.sun_e.toVec
    have t2 := len_sub (⟨a1, a2, a3⟩ : Vec3 ℝ).toVec ((⟨a1, a2, a3⟩ : Vec3 ℝ).toVec - R.sun_e.toVec)
    rw [sub_add_cancel] at t1
    rw [sub_sub_cancel] at t2
    have t3 : len ((⟨a1, a2, a3⟩ : Vec3 ℝ).toVec - R.sun_e.toVec) ≤ 255 := by
      unfold len
      rw [Real.sqrt_le_left (by norm_num)]
      have s1 : (a1 - R.sun_e.x) ^ 2 ≤ 85 ^ 2 := by rw [← sq_abs]; exact pow_le_pow_left₀ (abs_nonneg _) e1 2
      have s2 : (a2 - R.sun_e.y) ^ 2 ≤ 85 ^ 2 := by rw [← sq_abs]; exact pow_le_pow_left₀ (abs_nonneg _) e2 2
      have s3 : (a3 - R.sun_e.z) ^ 2 ≤ 85 ^ 2 := by rw [← sq_abs]; exact pow_le_pow_left₀ (abs_nonneg _) e3 2
      show (a1 - R.sun_e.x) ^ 2 + (a2 - R.sun_e.y) ^ 2 + (a3 - R.sun_e.z) ^ 2 ≤ 255 ^ 2
      norm_num at *
      linarith
    rw [abs_le]
    constructor <;> linarith
  have cl := abs_le.mp close
  obtain ⟨x, ix, ex⟩ := (norm_acc hv rfl (by norm_num at *; linarith) (by norm_num at *; linarith)).near
  refine ⟨c, r, x, hc, hr, ix, ?_⟩
  have ex' : |(x : ℝ) - R.sun_e.norm| ≤ 256 := by
    rw [abs_le] at ex ⊢
    norm_num at *
    constructor <;> linarith
  rw [abs_le] at ex'
  refine ⟨fun h => ?_, fun h => ?_, fun h => ?_, fun h => ?_⟩
  · have := k1 h
    have : (x : ℝ) / 149597870700 ≤ 0.984541 := by rw [div_le_iff₀ (by norm_num)] at *; norm_num at *; linarith
    exact this
  · have := k2 h
    have : 0.984669 ≤ (x : ℝ) / 149597870700 := by rw [le_div_iff₀ (by norm_num)] at *; norm_num at *; linarith
    exact this
  · have := k3 h
    have : 1.015489 ≤ (x : ℝ) / 149597870700 := by rw [le_div_iff₀ (by norm_num)] at *; norm_num at *; linarith
    exact this
  · have := k4 h
    have : (x : ℝ) / 149597870700 ≤ 1.015486 := by rw [div_le_iff₀ (by norm_num)] at *; norm_num at *; linarith
    exact this

/-- The default parameters of the program at noon of 4 July 2024; a library that exists. -/
example : ∃ L : Libm F64, @LibmAcc L ∧
    SunInput ({ SunAngleParameters.default with date := ⟨2024, 7, 4⟩, position := ⟨lit (-120), lit 45, lit 0⟩ } : SunAngleParameters F64)
      (lit 7200) 0 (-120) 45 0 7200 60495 ∧ MidAphelion 7 4 := by
  have i0 : Is (lit 0 : F64) 0 := by have := Is.lit_int 0 (by norm_num); push_cast at this; exact this
  have i1 : Is (lit (-120) : F64) (-120) := by have := Is.lit_int (-120) (by norm_num); push_cast at this; exact this
  have i2 : Is (lit 7200 : F64) 7200 := by have := Is.lit_int 7200 (by norm_num); push_cast at this; exact this
  have i3 : Is (lit 45 : F64) 45 := by have := Is.lit_int 45 (by norm_num); push_cast at this; exact this
  refine ⟨goodLibm, exists_libmAcc, ⟨⟨by decide, by decide, by decide⟩, by decide, by decide, i0, by
    norm_num [SunAngleParameters.default], by norm_num [SunAngleParameters.default], i1, i3, i0, by norm_num, by norm_num, by norm_num, i2, by norm_num,
    daysFrom_epoch (by decide), by norm_num [SunAngleParameters.default]⟩, by unfold MidAphelion; decide⟩

end Verif
